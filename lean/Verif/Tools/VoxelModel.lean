import Verif.Grid.RectModel
import Mathlib.Analysis.SpecialFunctions.Sqrt
import Mathlib.Data.Real.Archimedean

/-!
Model of src/tools/VoxelTraversal.hpp.

Simplifications: real numbers for `double`, with NaN as a separate value (`none`); the cell numbers are integers, those of the grid fit into an `int`.
If the origin is outside of the grid then the object is not valid and `step` returns false always; the positions are not modelled then.
-/

namespace Envire.Voxel

open Envire.Rect

/-- cx, cy, stepx, stepy, deltax, deltay, maxx, maxy; l.22-25 -/
structure Walk where
  cx : Int
  cy : Int
  stepx : Int
  stepy : Int
  deltax : Option ℝ
  deltay : Option ℝ
  maxx : Option ℝ
  maxy : Option ℝ

/-- `a < b`: false if one is NaN -/
def Less : Option ℝ → Option ℝ → Prop
  | some a, some b => a < b
  | _, _ => False

/-- `a + b`, `a * r` with NaN -/
noncomputable def plus (a b : Option ℝ) : Option ℝ := a.bind fun a => b.map fun b => a + b
noncomputable def times (a : Option ℝ) (r : ℝ) : Option ℝ := a.map fun a => a * r

/-- `(dir / v * scale).norm()`, v a component of dir; l.53-54. If v is zero then one component of the quotient is 0 / 0, hence the norm is NaN. -/
noncomputable def delta (dir : ℝ × ℝ) (v scale : ℝ) : Option ℝ :=
  if v = 0 then none else some (Real.sqrt ((dir.1 / v * scale) ^ 2 + (dir.2 / v * scale) ^ 2))

/-- init for a valid origin; l.34-59 -/
noncomputable def init (g : Geo) (orig dir : ℝ × ℝ) : Walk :=
  let xi := ⌊(orig.1 - g.ox) / g.sx⌋
  let yi := ⌊(orig.2 - g.oy) / g.sy⌋
  let xmod := orig.1 - (xi * g.sx + g.ox)
  let ymod := orig.2 - (yi * g.sy + g.oy)
  let deltax := delta dir dir.1 g.sx
  let deltay := delta dir dir.2 g.sy
  { cx := xi, cy := yi, stepx := if dir.1 > 0 then 1 else -1, stepy := if dir.2 > 0 then 1 else -1
    deltax := deltax, deltay := deltay, maxx := times deltax xmod, maxy := times deltay ymod }

/-- the result of toGrid; GridBase.cpp l.392-409 -/
def valid (g : Geo) (orig : ℝ × ℝ) : Prop :=
  0 ≤ ⌊(orig.1 - g.ox) / g.sx⌋ ∧ ⌊(orig.1 - g.ox) / g.sx⌋ < g.w ∧ 0 ≤ ⌊(orig.2 - g.oy) / g.sy⌋ ∧ ⌊(orig.2 - g.oy) / g.sy⌋ < g.h

open Classical in
/-- advance to the next cell; l.69-78 -/
noncomputable def Walk.advance (s : Walk) : Walk :=
  if Less s.maxx s.maxy then { s with maxx := plus s.maxx s.deltax, cx := s.cx + s.stepx }
  else { s with maxy := plus s.maxy s.deltay, cy := s.cy + s.stepy }

/-- within bounds; l.81 -/
def Walk.within (g : Geo) (s : Walk) : Bool := decide (0 ≤ s.cx ∧ s.cx < g.w ∧ 0 ≤ s.cy ∧ s.cy < g.h)

/-- the positions of a loop `while(step(pos))`; l.66-86. `none` if the number of iterations does not suffice. -/
noncomputable def steps (g : Geo) : Nat → Walk → Option (List (Int × Int))
  | 0, _ => none
  | n + 1, s => if s.advance.within g then (steps g n s.advance).map fun l => (s.advance.cx, s.advance.cy) :: l else some []

open Classical in
/-- `init` and the loop over the steps -/
noncomputable def traverse (g : Geo) (fuel : Nat) (orig dir : ℝ × ℝ) : Option (List (Int × Int)) :=
  if valid g orig then steps g fuel (init g orig dir) else some []

end Envire.Voxel
