import Verif.Ops.ScanModel

/-!
Model of LaserScanVisualization: /repo/viz/LaserScanVisualization.cpp l.20-92, l.121-124.

Simplifications: real numbers for `float` and `double`; the scene is the list of the lines, each with its drawn points in
the coordinates of the map (the transforms above them are applied), `PositionAttitudeTransform` turns first and moves then.
-/

namespace Envire.ScanView
open Mesh (Scan Line rotX)

/-- what is drawn for a line: points, and the grey value of each if there are remissions -/
structure Drawn where
  points : List (ℝ × ℝ × ℝ)
  colours : Option (List ℝ)

/-- getNodeForLine l.57-63: the point of reading `i` in the plane of the line -/
noncomputable def linePoint (stepSize startingAngle : ℝ) (i : Nat) (r : Nat) : ℝ × ℝ × ℝ :=
  let range : ℝ := r / 1000
  (-Real.sin (stepSize * i + startingAngle) * range, Real.cos (stepSize * i + startingAngle) * range, 0)

/-- the loop l.55-70, from reading `i` on -/
noncomputable def linePoints (stepSize startingAngle : ℝ) : Nat → List Nat → List (ℝ × ℝ × ℝ)
  | _, [] => []
  | i, r :: l => linePoint stepSize startingAngle i r :: linePoints stepSize startingAngle (i + 1) l

/-- l.67 -/
noncomputable def grey (remission : Nat) : ℝ := min 1 (max 0 ((remission : ℝ) / 5000))

/-- l.52, l.65-69, l.79-83 -/
noncomputable def lineColours (l : Line) : Option (List ℝ) := if l.ranges.length = l.remissions.length then some (l.remissions.map grey) else none

/-- offsetTransform and lineTransform, l.31-35 -/
noncomputable def transformed (s : Scan) (l : Line) (p : ℝ × ℝ × ℝ) : ℝ × ℝ × ℝ := rotX (s.originPhi + l.deltaPhi) (p + s.offset)

/-- getNodeForItem l.20-41 -/
noncomputable def draw (s : Scan) : List Drawn :=
  s.lines.map fun l => { points := (linePoints s.deltaPsi s.originPsi 0 l.ranges).map (transformed s l), colours := lineColours l }

/-- updateNode l.121-124: what was drawn stays -/
def updateNode (_ : Scan) (d : List Drawn) : List Drawn := d

end Envire.ScanView
