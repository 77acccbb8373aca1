import Mathlib.Data.Rat.Defs
import Mathlib.Algebra.Order.Ring.Rat

/-!
Model of the step computation of the operator MLSSlope (src/operators/MLSSlope.cpp).

Simplifications: rational numbers for `float` and `double`; `none` for UNKNOWN (minus infinity). The band `mean_slope` (plane fit of an external
library) is in Verif/Ops/InclineModel. The arrays of the output are functions of the cell (x, y); the loops that fill them cell by cell
(l.209-258) are written as functions. `window_size` is only used for `mean_slope`.
-/

namespace Envire.Slope

/-- `SurfacePatch`; MLSPatch.hpp: mean, standard deviation and number of measurements -/
structure Patch where
  mean : ℚ
  stdev : ℚ
  n : Nat
deriving DecidableEq

structure Config where
  threshold : ℚ
  useStdev : Bool
  required : Nat

/-- the input: the list of patches of each cell (x, y) -/
abbrev Cells := Nat → Nat → List Patch

/-- `std::max_element` with the `operator<` of MLSPatch.hpp l.124: the first of the patches with the greatest mean -/
def maxElement : List Patch → Option Patch
  | [] => none
  | p :: ps => some (ps.foldl (fun m q => if m.mean < q.mean then q else m) p)

/-- the arrays `diffs` and `counts`, indexed by y, x (and slot) -/
structure State where
  diffs : Nat → Nat → Nat → Option ℚ
  count : Nat → Nat → Nat

def setDiff (d : Nat → Nat → Nat → Option ℚ) (y x i : Nat) (v : Option ℚ) : Nat → Nat → Nat → Option ℚ :=
  fun y' x' i' => if y' = y ∧ x' = x ∧ i' = i then v else d y' x' i'

def incCount (c : Nat → Nat → Nat) (y x : Nat) : Nat → Nat → Nat := fun y' x' => if y' = y ∧ x' = x then c y' x' + 1 else c y' x'

/-- the height difference of two patches, including the standard deviations; l.32-51 -/
def step (useStdev : Bool) (this other : Patch) : ℚ :=
  let z0 := this.mean
  let z1 := other.mean
  let s0 := if useStdev then this.stdev else 0
  let s1 := if useStdev then other.stdev else 0
  if z0 > z1 then (z0 + s0) - (z1 - s1) else (z1 + s1) - (z0 - s0)

/-- `updateGradient`; l.14-64 -/
def updateGradient (cfg : Config) (mls : Cells) (ti tx ty oi ox oy : Nat) (this : Patch) (s : State) : State :=
  match (maxElement (mls ox oy)).filter fun q => q.n ≥ cfg.required with
  | some q =>
    let d := step cfg.useStdev this q
    { diffs := setDiff (setDiff s.diffs ty tx ti (some d)) oy ox oi (some d)
      count := incCount (incCount s.count ty tx) oy ox }
  | none => { s with diffs := setDiff (setDiff s.diffs oy ox ti none) oy ox oi none }

/-- the body of the loop over the cells; l.134-160. The slots: 0 BOTTOM_CENTER, 1 TOP_CENTER, 2 TOP_RIGHT, 3 BOTTOM_LEFT, 4 CENTER_RIGHT,
5 CENTER_LEFT, 6 BOTTOM_RIGHT, 7 TOP_LEFT (l.120-128) -/
def visit (cfg : Config) (mls : Cells) (x y : Nat) (s : State) : State :=
  match maxElement (mls x y) with
  | none => s
  | some p =>
    if cfg.required > 0 ∧ p.n < cfg.required then s
    else
      let s := updateGradient cfg mls 0 x y 1 x (y + 1) p s
      let s := updateGradient cfg mls 2 x y 3 (x - 1) (y - 1) p s
      let s := updateGradient cfg mls 4 x y 5 (x - 1) y p s
      updateGradient cfg mls 6 x y 7 (x - 1) (y + 1) p s

/-- the loop over the cells; l.130-133 -/
def sweep (cfg : Config) (mls : Cells) (width height : Nat) : State :=
  (List.range' 1 (width - 1)).foldl (fun s x => (List.range' 1 (height - 2)).foldl (fun s y => visit cfg mls x y s) s)
    { diffs := fun _ _ _ => some 0, count := fun _ _ => 0 }

/-- `std::max` with UNKNOWN as minus infinity -/
def omax : Option ℚ → Option ℚ → Option ℚ
  | none, b => b
  | some a, none => some a
  | some a, some b => some (if a < b then b else a)

/-- `s0 - (s0 + s1) * f`; UNKNOWN is only in the slots of cells that are not evaluated -/
def corr (f : ℚ) : Option ℚ → Option ℚ → Option ℚ
  | some s0, some s1 => some (s0 - (s0 + s1) * f)
  | _, _ => none

/-- greatest step and corrected greatest step; l.222-232 -/
def maxima (d : Nat → Option ℚ) : Option ℚ × Option ℚ :=
  [0, 2, 4, 6].foldl (fun (m : Option ℚ × Option ℚ) i =>
    (omax (omax m.1 (d i)) (d (i + 1)), omax (omax m.2 (corr (1 / 4) (d i) (d (i + 1)))) (corr (3 / 4) (d i) (d (i + 1))))) (none, none)

/-- the values of the bands `max_step` and `corrected_max_step` for the cell (x, y) of the map; l.209-258 -/
def cell (cfg : Config) (s : State) (width height x y : Nat) : Option ℚ × Option ℚ :=
  if x = 0 ∨ y = 0 ∨ x = width - 1 ∨ y = height - 1 then (none, none)
  else if s.count y x < 5 then (none, none)
  else
    let m := maxima (s.diffs y x)
    match m.1 with
    | none => m
    | some v => if v < cfg.threshold then m else (m.1, m.1)

inductive Outcome where
  | ok (maxStep corrected : Nat → Nat → Option ℚ)
  | exception
  /-- access outside of the arrays of the output -/
  | undefined

/-- `updateAll`; l.67-261. The sizes and scales of map and output; `old` is the band `corrected_max_step` before. -/
def updateAll (cfg : Config) (mls : Cells) (width height : Nat) (scale : ℚ × ℚ) (outWidth outHeight : Nat) (outScale : ℚ × ℚ)
    (old : Nat → Nat → Option ℚ) : Outcome :=
  if width ≠ outWidth ∧ height ≠ outHeight then .exception
  else if scale.1 ≠ outScale.1 ∧ scale.2 ≠ outScale.2 then .exception
  else if width = 0 ∨ height = 0 then .exception
  else if outWidth < width ∨ outHeight < height then .undefined
  else
    let s := sweep cfg mls width height
    .ok (fun x y => if x < width ∧ y < height then (cell cfg s width height x y).1 else none)
      (fun x y => if x < width ∧ y < height then (cell cfg s width height x y).2 else old x y)

end Envire.Slope
