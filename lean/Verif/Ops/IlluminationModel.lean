import Verif.Tools.VoxelModel

/-!
Model of src/operators/GridIllumination.cpp.

Simplifications: real numbers for `double`, with NaN as a separate value (`none`); the heights are real numbers; the band for the output is not the band of the heights; `size_t` cell
numbers that become negative are outside of the grid as integers.
-/

namespace Envire.Illumination

open Envire.Rect Envire.Voxel

/-- the light source and its diameter -/
structure Light where
  x : ℝ
  y : ℝ
  z : ℝ
  diameter : ℝ

/-- fromGrid; GridBase.cpp l.452-456 -/
noncomputable def fromGrid (g : Geo) (c : Int × Int) : ℝ × ℝ := ((c.1 + 1 / 2) * g.sx + g.ox, (c.2 + 1 / 2) * g.sy + g.oy)

noncomputable def norm (v : ℝ × ℝ) : ℝ := Real.sqrt (v.1 ^ 2 + v.2 ^ 2)

/-- dir; l.37-39 -/
noncomputable def dir (g : Geo) (l : Light) (c : Int × Int) : ℝ × ℝ := (l.x - (fromGrid g c).1, l.y - (fromGrid g c).2)

/-- zRel for the cell b seen from the cell c; l.42-44, l.94-100. `none`: NaN or minus infinity, which std::max ignores. If the light is above the middle of the cell then lightMin and
lightMax are infinite or NaN, and zRel is NaN. If lightMin is lightMax, plus infinity counts as 1, as all values above 1. -/
noncomputable def zRel (g : Geo) (h : Int × Int → ℝ) (l : Light) (c b : Int × Int) : Option ℝ :=
  let d := norm (dir g l c)
  if d = 0 then none
  else
    let lightMin := (l.z - h c - 1 / 2 * l.diameter) / d
    let lightMax := (l.z - h c + 1 / 2 * l.diameter) / d
    let dist := norm ((fromGrid g b).1 - (fromGrid g c).1, (fromGrid g b).2 - (fromGrid g c).2)
    let zDiff := h b - h c
    if lightMax - lightMin = 0 then (if zDiff / dist - lightMin > 0 then some 1 else none)
    else some ((zDiff / dist - lightMin) / (lightMax - lightMin))

/-- `std::max(maxLight, zRel)`; l.101 -/
noncomputable def keep (m : ℝ) : Option ℝ → ℝ
  | none => m
  | some z => max m z

/-- start of the traversal; l.55-70 -/
noncomputable def start (g : Geo) (d : ℝ × ℝ) (c : Int × Int) : Walk :=
  { cx := c.1, cy := c.2, stepx := if d.1 > 0 then 1 else -1, stepy := if d.2 > 0 then 1 else -1
    deltax := delta d d.1 g.sx, deltay := delta d d.2 g.sy
    maxx := times (delta d d.1 g.sx) (1 / 2), maxy := times (delta d d.2 g.sy) (1 / 2) }

open Classical in
/-- the loop; l.73-102. `none` if the number of iterations does not suffice. -/
noncomputable def loop (g : Geo) (lightPos : Option (Int × Int)) (rel : Int × Int → Option ℝ) : Nat → Walk → ℝ → Option ℝ
  | 0, _, _ => none
  | n + 1, s, m =>
    if s.advance.within g then
      if lightPos = some (s.advance.cx, s.advance.cy) then some m
      else loop g lightPos rel n s.advance (keep m (rel (s.advance.cx, s.advance.cy)))
    else some m

open Classical in
/-- lightInGrid and lightPos; l.24-25 -/
noncomputable def lightPos (g : Geo) (l : Light) : Option (Int × Int) :=
  if valid g (l.x, l.y) then some (⌊(l.x - g.ox) / g.sx⌋, ⌊(l.y - g.oy) / g.sy⌋) else none

/-- the value of the cell c after updateAll; l.27-107 -/
noncomputable def illumination (g : Geo) (h : Int × Int → ℝ) (l : Light) (fuel : Nat) (c : Int × Int) : Option ℝ :=
  (loop g (lightPos g l) (zRel g h l c) fuel (start g (dir g l c) c) 0).map fun m => 1 - min m 1

end Envire.Illumination
