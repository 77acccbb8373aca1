import Mathlib.Data.Rat.Floor
import Mathlib.Logic.Function.Basic

/-!
Model of the operators that grow values over a radius:
* src/operators/ObjectGrowing.hpp l.9-91 (`GrowthPolicy`, `growObjects`),
* src/operators/TraversabilityGrowClasses.cpp l.17-89 (`growTerrains`),
* src/operators/SimpleTraversability.cpp l.378-425 (`growObstacles`).

Simplifications: lengths are rationals (no rounding, no overflow of the conversion to `int`); an array is a function on cells
that is read and written only at cells of the grid (the target check of the code is modelled); an access outside of a table
(`policy`, `classes`) is `none` (undefined behaviour); input and output maps are different objects.
-/

namespace Envire.Grow

/-- a cell (x, y) -/
abbrev Cell := Nat × Nat

/-- conversion of a double to int: rounds towards zero -/
def trunc (q : ℚ) : ℤ := if 0 ≤ q then ⌊q⌋ else ⌈q⌉

/-- `for (i = a; i <= b; ++i)` -/
def irange (a b : ℤ) : List ℤ := (List.range (b + 1 - a).toNat).map fun i : Nat => a + (i : ℤ)

/-- loops over oy and ox; ObjectGrowing.hpp l.68-70, TraversabilityGrowClasses.cpp l.67-69, SimpleTraversability.cpp l.405-407 -/
def offsets (wx wy : ℤ) : List (ℤ × ℤ) := (irange (-wy) wy).flatMap fun oy => (irange (-wx) wx).map fun ox => (ox, oy)

/-- loops over y and x; ObjectGrowing.hpp l.62-64, TraversabilityGrowClasses.cpp l.54-56, SimpleTraversability.cpp l.396-398 -/
def cells (w h : Nat) : List Cell := (List.range h).flatMap fun y => (List.range w).map fun x => (x, y)

/-- extents, scale and radius -/
structure Geo where
  w : Nat
  h : Nat
  sx : ℚ
  sy : ℚ
  r : ℚ

/-- target cell and its check; ObjectGrowing.hpp l.72-76, TraversabilityGrowClasses.cpp l.71-75,
SimpleTraversability.cpp l.409-413 -/
def Geo.target (g : Geo) (c : Cell) (o : ℤ × ℤ) : Option Cell :=
  let tx := (c.1 : ℤ) + o.1
  let ty := (c.2 : ℤ) + o.2
  if (o.1 * g.sx) ^ 2 + (o.2 * g.sy) ^ 2 < g.r ^ 2 ∧ (0 ≤ tx ∧ tx < g.w) ∧ 0 ≤ ty ∧ ty < g.h then some (tx.toNat, ty.toNat) else none

/-- window with the extra cell; ObjectGrowing.hpp l.38-40, TraversabilityGrowClasses.cpp l.20-22 -/
def Geo.window (g : Geo) : List (ℤ × ℤ) := offsets (trunc (g.r / g.sx + 1)) (trunc (g.r / g.sy + 1))

/-- window without the extra cell; SimpleTraversability.cpp l.381-383 -/
def Geo.windowExact (g : Geo) : List (ℤ × ℤ) := offsets (trunc (g.r / g.sx)) (trunc (g.r / g.sy))

/-! ### ObjectGrowing -/

/-- `GrowthPolicy`: the table has `maxValue` rows and columns; l.12-15 -/
structure Policy where
  maxValue : Nat
  table : Nat → Nat → Bool

/-- l.22-25; outside of the table: undefined -/
def Policy.isBigger (p : Policy) (a b : Nat) : Option Bool := if a < p.maxValue ∧ b < p.maxValue then some (p.table a b) else none

/-- body of the inner loop; l.72-82 -/
def growStep (p : Policy) (g : Geo) (orig : Cell → Nat) (c : Cell) (data : Cell → Nat) (o : ℤ × ℤ) : Option (Cell → Nat) :=
  match g.target c o with
  | none => some data
  | some t => (p.isBigger (orig c) (data t)).map fun b => if b then Function.update data t (orig c) else data

/-- outcomes: `throw` is an exception, `ub` is undefined behaviour (or a failing assertion) -/
inductive Res (α : Type) where
  | ok (a : α)
  | throw
  | ub

/-- l.62-86, `none` is undefined behaviour -/
def growLoop (p : Policy) (g : Geo) (orig : Cell → Nat) : Option (Cell → Nat) :=
  (cells g.w g.h).foldlM (fun data c => g.window.foldlM (growStep p g orig c) data) orig

/-- `growObjects` with an output map of `wo` times `ho` cells; l.35-87. The output is overwritten by the input first (l.55). -/
def growObjects (p : Policy) (g : Geo) (orig : Cell → Nat) (wo ho : Nat) : Res (Cell → Nat) :=
  if g.w * g.h ≠ wo * ho then .throw
  else if ¬(g.h = ho ∧ g.w = wo) then .ub
  else match growLoop p g orig with
    | some d => .ok d
    | none => .ub

/-! ### TraversabilityGrowClasses -/

/-- class number and stored probability (`getProbability` is this byte divided by 255, TraversabilityGrid.cpp l.98-109) -/
structure Entry where
  klass : Nat
  prob : Nat
deriving DecidableEq

/-- the check `probability <= 0.0001`; l.60, l.78 -/
def Entry.unknown (e : Entry) : Bool := decide ((e.prob : ℚ) / 255 ≤ 1 / 10000)

/-- body of the inner loop; l.71-84. `classes` are the drivabilities. `setProbability` stores the byte (C42). -/
def terrainStep (classes : List ℚ) (g : Geo) (c : Cell) (cur : Entry) (curDriv : ℚ) (data : Cell → Entry) (o : ℤ × ℤ) :
    Option (Cell → Entry) :=
  match g.target c o with
  | none => some data
  | some t => (classes[(data t).klass]?).map fun other =>
      if (data t).unknown = true ∨ curDriv < other then Function.update data t cur else data

/-- one source cell; l.58-86 -/
def terrainCell (classes : List ℚ) (g : Geo) (orig : Cell → Entry) (data : Cell → Entry) (c : Cell) : Option (Cell → Entry) :=
  if (orig c).unknown then some data
  else match classes[(orig c).klass]? with
    | none => none
    | some d => g.window.foldlM (terrainStep classes g c (orig c) d) data

/-- l.54-88 -/
def growTerrains (classes : List ℚ) (g : Geo) (orig : Cell → Entry) : Option (Cell → Entry) :=
  (cells g.w g.h).foldlM (terrainCell classes g orig) orig

/-! ### SimpleTraversability::growObstacles -/

/-- body of the inner loop, on the copy of the classes and the probabilities; l.409-417. The probability is written at the
source cell. -/
def obstacleStep (obstacle : Nat) (g : Geo) (c : Cell) (s : (Cell → Nat) × (Cell → Nat)) (o : ℤ × ℤ) : (Cell → Nat) × (Cell → Nat) :=
  match g.target c o with
  | none => s
  | some t => (Function.update s.1 t obstacle, Function.update s.2 c 255)

/-- l.393-424 -/
def growObstacles (obstacle : Nat) (g : Geo) (orig prob : Cell → Nat) : (Cell → Nat) × (Cell → Nat) :=
  (cells g.w g.h).foldl (fun s c => if orig c = obstacle then g.windowExact.foldl (obstacleStep obstacle g c) s else s) (orig, prob)

end Envire.Grow
