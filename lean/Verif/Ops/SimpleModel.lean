import Verif.Ops.GrowModel
import Verif.Maps.TravModel

/-!
Model of src/operators/SimpleTraversability.cpp: classification of a cell (l.162-222), registration of the classes and the class
of unknown areas (l.235-273), closing of narrow passages (l.287-376, l.427-479), parameters in files (l.38-77).

Simplifications: rational numbers (no rounding, no infinities; an input without a no-data value is `none` where the code compares
with minus infinity); `class_count` is a natural number, 0 (division by zero) is not modelled; an access outside of an array is
`none` (undefined behaviour).
-/

namespace Envire.Simple

open Envire.Grow (Cell Geo cells offsets trunc)
open Envire.Trav (Table Class setClass getClass)

/-- `rint`: to the nearest integer, ties to the even one -/
def rint (q : ℚ) : ℤ :=
  if q - ⌊q⌋ < 1 / 2 then ⌊q⌋ else if 1 / 2 < q - ⌊q⌋ then ⌊q⌋ + 1 else if 2 ∣ ⌊q⌋ then ⌊q⌋ else ⌊q⌋ + 1

/-- SimpleTraversability.hpp l.15-43 -/
structure Config where
  maxSlope : ℚ
  classCount : Nat
  minWidth : ℚ
  groundClearance : ℚ
  obstacleClearance : ℚ
deriving DecidableEq

/-- classes of SimpleTraversability.hpp l.78-82 -/
def UNKNOWN : Nat := 0
def OBSTACLE : Nat := 1
def CUSTOM : Nat := 2

/-- class and probability of one cell; l.167-220. `slope` and `step`: no layer, no data or a value. `old` is the class that the
output has before, the probabilities are set to 0 before (l.133-134). A byte is stored. -/
def classify (c : Config) (slope step : Option (Option ℚ)) (old : Nat) : Nat × Nat :=
  let high := match step with
    | some (some v) => decide (c.groundClearance ≠ 0 ∧ v > c.groundClearance)
    | _ => false
  if high then (OBSTACLE, 255)
  else match slope with
    | none => (old, 0)
    | some none => (UNKNOWN, 0)
    | some (some v) =>
      if c.maxSlope ≠ 0 then
        if |v| > c.maxSlope then (OBSTACLE, 255)
        else (((CUSTOM : ℤ) + (c.classCount - rint (|v| / c.maxSlope * c.classCount))).emod 256 |>.toNat, 255)
      else (old, 0)

/-- l.240-241 -/
def driveability (n i : Nat) : ℚ := 1 / n + (1 - 1 / n) / n * i

/-- `setTraversabilityClass( num, TraversabilityClass( d ) )`: the number is a byte, the constructor may throw -/
def putClass (t : Trav.Res Table) (num : Nat) (d : ℚ) : Trav.Res Table :=
  match t with
  | .ok t => match Class.make d with
    | .ok c => .ok (setClass t (num % 256) c)
    | .throws => .throws
    | .undefined => .undefined
  | r => r

/-- l.236-243 -/
def registerAll (n : Nat) (t : Table) : Trav.Res Table :=
  (List.range (n + 1)).foldl (fun r i => putClass r (CUSTOM + i) (driveability n i)) (putClass (.ok t) OBSTACLE 0)

/-- l.246-260, l.264: the rounded mean of the known classes -/
def meanClass (data : List Nat) : Nat :=
  let known := data.filter (fun k => decide (k ≠ UNKNOWN))
  if known.length = 0 then 0 else ⌊(known.sum : ℚ) / known.length + 1 / 2⌋.toNat % 256

/-- l.235-283 for the cells `data` (row by row), the class table afterwards. The last loop only prints the classes but fails if
one of them is missing. -/
def finish (n : Nat) (t : Table) (data : List Nat) : Trav.Res Table :=
  match registerAll n t with
  | .ok t => match getClass t 7 with
    | .ok c7 =>
      let k := meanClass data
      let t' : Trav.Res Table := if k ≤ 1 then putClass (.ok t) UNKNOWN c7.getDrivability
        else match getClass t k with
          | .ok c => .ok (setClass t UNKNOWN c)
          | .throws => .throws
          | .undefined => .undefined
      match t' with
      | .ok t' => if (List.range (CUSTOM + n + 1)).all (fun i => decide (i % 256 < t'.length)) then .ok t' else .throws
      | r => r
    | .throws => .throws
    | .undefined => .undefined
  | r => r

/-! ### narrow passages -/

/-- `parents` of the lookup table, for offsets from its centre; l.309-332 -/
def parent (d : ℤ × ℤ) : Option (ℤ × ℤ) :=
  let dx := -d.1
  let dy := -d.2
  if dx = 0 ∧ dy = 0 then none
  else if |dx| > |dy| then some (d.1 + dx.sign, d.2 + rint ((dy : ℚ) / |dx|))
  else some (d.1 + rint ((dx : ℚ) / |dy|), d.2 + dy.sign)

/-- the table: `width / 2` and `height / 2`, l.298-306 -/
def reach (g : Geo) : ℤ × ℤ := (⌈g.r / g.sx⌉, ⌈g.r / g.sy⌉)

/-- `in_distance`; l.315-318 -/
def inDistance (g : Geo) (d : ℤ × ℤ) : Bool :=
  decide (d ≠ (0, 0)) && decide ((d.1 : ℚ) * d.1 * g.sx * g.sx + (d.2 : ℚ) * d.2 * g.sy * g.sy < g.r * g.r)

/-- the cell at an offset, if it is in the map -/
def cellAt (g : Geo) (c : Cell) (d : ℤ × ℤ) : Option Cell :=
  let x := (c.1 : ℤ) + d.1
  let y := (c.2 : ℤ) + d.2
  if (0 ≤ x ∧ x < g.w) ∧ 0 ≤ y ∧ y < g.h then some (x.toNat, y.toNat) else none

/-- classes and probabilities -/
abbrev Data := (Cell → Nat) × (Cell → Nat)

/-- l.366-372 -/
def markCell (s : Data) (t : Cell) : Data :=
  if s.1 t ≠ OBSTACLE then (Function.update s.1 t 255, Function.update s.2 t 255) else s

/-- markSingleRadius, the loop after the first parent was taken; l.361-374. Reading outside of the table or of the map is
undefined; out of fuel: `none` too. -/
def markRay (g : Geo) (c : Cell) : Nat → Data → Option (ℤ × ℤ) → Option Data
  | _, s, none => some s
  | 0, _, some _ => none
  | n + 1, s, some d =>
    match cellAt g c d with
    | none => none
    | some t =>
      if |d.1| ≤ (reach g).1 ∧ |d.2| ≤ (reach g).2 then markRay g c n (markCell s t) (parent d) else none

/-- markAllRadius; l.335-357 -/
def markAll (g : Geo) (fuel : Nat) (s : Data) (c : Cell) : Option Data :=
  (offsets (reach g).1 (reach g).2).foldlM (fun s d =>
    match cellAt g c d with
    | none => some s
    | some t => if inDistance g d = true ∧ s.1 t = OBSTACLE then markRay g c fuel s (parent d) else some s) s

/-- closeNarrowPassages; l.455-478 -/
def closeNarrow (g : Geo) (fuel : Nat) (s : Data) : Option Data :=
  ((cells g.w g.h).foldlM (fun s c => if s.1 c = OBSTACLE then markAll g fuel s c else some s) s).map fun s =>
    (cells g.w g.h).foldl (fun s t => if s.1 t = 255 then (Function.update s.1 t OBSTACLE, Function.update s.2 t 255) else s) s

/-! ### parameters in a file -/

/-- what is written; l.51-55 -/
structure Saved where
  maximum_slope : ℚ
  class_count : Nat
  ground_clearance : ℚ
  min_width : ℚ

/-- serialize; l.51-54 -/
def save (c : Config) : Saved := ⟨c.maxSlope, c.classCount, c.groundClearance, c.minWidth⟩

/-- unserialize into an operator made by the default constructor; l.72-75, SimpleTraversability.hpp l.37-43 -/
def load (s : Saved) : Config :=
  { maxSlope := s.maximum_slope, classCount := s.class_count, groundClearance := s.ground_clearance, minWidth := s.min_width, obstacleClearance := 0 }

end Envire.Simple
