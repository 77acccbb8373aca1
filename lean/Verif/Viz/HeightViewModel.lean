import Verif.Grid.GridModel
import Mathlib.Data.Rat.Floor

/-!
Model of the drawing of elevation grids.

Source modelled: /repo/viz/ElevationGridVisualization.cpp l.33-114 (updateNode), l.116-172 (loadElevationGridAsHeightMap).

Simplifications: exact arithmetic; a cell is a number or infinite (`none`), NaN is not modelled. Of the colours only the hue
is modelled (the conversion to red, green and blue is in another library).
-/
namespace Envire.HeightView

/-- the band ELEVATION: column, row; `none` is an infinite value -/
abbrev Heights := Nat → Nat → Option ℚ

/-- the cells in the order of the loops l.44-54 -/
def cells (w h : Nat) : List (Nat × Nat) := (List.range h).flatMap fun y => (List.range w).map fun x => (x, y)

/-- l.48-52 -/
def step (r : ℚ × ℚ) : Option ℚ → ℚ × ℚ
  | none => r
  | some z => (min r.1 z, max r.2 z)

/-- min_z and max_z l.43-54; `big` is numeric_limits<double>::max(), `tiny` numeric_limits<double>::min() -/
def range (big tiny : ℚ) (w h : Nat) (z : Heights) : ℚ × ℚ := (cells w h).foldl (fun r c => step r (z c.1 c.2)) (big, tiny)

/-- scaling l.76-78 -/
def scaling (r : ℚ × ℚ) : ℚ := if |r.2 - r.1| = 0 then 1 else |r.2 - r.1|

/-- hue l.83; `none`: no number -/
def hue (s : ℚ) (z : Option ℚ) : Option ℚ := z.map fun z => (z - ⌊z / s⌋ * s) / s

/-- z_offset l.113 -/
def offset (r : ℚ × ℚ) : ℚ := if r.1 > 0 then 0 else r.1

/-- a vertex of the height field l.123-137: column c and row r of an osg::HeightField are at the origin plus c and r times the intervals -/
def vertex (g : Grid.GridBase ℚ) (zoff : ℚ) (z : Heights) (c r : Nat) : ℚ × ℚ × ℚ :=
  (g.ox + c * g.sx, g.oy + r * g.sy, (z c r).getD zoff)

/-- what is drawn for a cell by updateNode l.33-114: the vertex, and the hue if the colours follow the height -/
def draw (big tiny : ℚ) (g : Grid.GridBase ℚ) (z : Heights) (c r : Nat) : (ℚ × ℚ × ℚ) × Option ℚ :=
  let m := range big tiny g.nx g.ny z
  (vertex g (offset m) z c r, hue (scaling m) (z c r))

end Envire.HeightView
