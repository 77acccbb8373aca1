import Verif.Ops.MeshModel
import Mathlib.Analysis.SpecialFunctions.Trigonometric.Inverse

/-!
Model of ScanMeshing::updateAll, src/operators/ScanMeshing.cpp l.110-320: the filters and positions of the vertices. The mesh is built as in Verif/Ops/MeshModel.

Simplifications: real numbers for `float` and `double`; NaN of the edge angle is a separate value (`none`). The integer conversion of the ranges does not overflow.
-/

namespace Envire.Mesh

/-- LaserScan::scanline_t, src/maps/LaserScan.hpp l.19-24; the ranges are in millimetres -/
structure Line where
  deltaPhi : ℝ
  ranges : List Nat
  remissions : List Nat

/-- LaserScan, src/maps/LaserScan.hpp l.26-51 -/
structure Scan where
  deltaPsi : ℝ
  originPsi : ℝ
  originPhi : ℝ
  offset : ℝ × ℝ × ℝ
  pointsPerLine : Nat
  lines : List Line
  xForward : Bool

/-- the parameters of ScanMeshing, src/operators/ScanMeshing.hpp l.15-23 -/
structure Config where
  maxEdgeAngle : ℝ
  maxEdgeLength : ℝ
  remissionScaleFactor : ℝ
  minRange : ℝ
  maxRange : ℝ
  useRemission : Bool

/-- a vertex: position and variance -/
structure Vertex where
  pos : ℝ × ℝ × ℝ
  variance : ℝ

/-- edgeAngle l.157-162 -/
noncomputable def edgeAngle (deltaPsi range next : ℝ) : Option ℝ :=
  let c := Real.sqrt (range ^ 2 + next ^ 2 - 2 * range * next * Real.cos (2 * deltaPsi))
  if 2 * range * c = 0 then none else some (Real.arccos ((range ^ 2 - next ^ 2 + c ^ 2) / (2 * range * c)))

/-- one side of l.163-164; a comparison with NaN is false -/
def passes (maxEdgeAngle : ℝ) : Option ℝ → Prop
  | none => False
  | some a => |a - Real.pi * 0.5| < maxEdgeAngle

/-- point l.169-187 -/
noncomputable def position (xForward : Bool) (phi psi range : ℝ) : ℝ × ℝ × ℝ :=
  let xx := Real.cos psi * range
  if xForward then (Real.cos phi * xx, Real.sin psi * range, Real.sin phi * xx) else (-Real.sin psi * range, Real.cos phi * xx, Real.sin phi * xx)

/-- `Eigen::AngleAxisd(phi, UnitX()) * v` -/
noncomputable def rotX (phi : ℝ) (v : ℝ × ℝ × ℝ) : ℝ × ℝ × ℝ := (v.1, Real.cos phi * v.2.1 - Real.sin phi * v.2.2, Real.sin phi * v.2.1 + Real.cos phi * v.2.2)

/-- l.189-198 -/
noncomputable def makeVertex (s : Scan) (phi psi range : ℝ) : Vertex :=
  { pos := position s.xForward phi psi range + rotX phi s.offset, variance := (min (0.01 * range) 0.02) ^ 2 }

/-- the colour l.200-207 -/
noncomputable def makeColour (cfg : Config) (l : Line) (n : Nat) : Option ℝ :=
  if cfg.useRemission = true ∧ l.ranges.length = l.remissions.length then some (min 1 (max 0 ((l.remissions.getD n 0 : ℝ) / cfg.remissionScaleFactor))) else none

/-- edgeAngle of a reading, given the ranges after it; l.155-162 -/
noncomputable def angleOf (deltaPsi : ℝ) (r : Nat) : List Nat → Option ℝ
  | [] => some (Real.pi * 0.5)
  | r' :: _ => edgeAngle deltaPsi ((r : ℝ) / 1000) ((r' : ℝ) / 1000)

open Classical in
/-- the loop over the ranges l.151-301, from the reading n on -/
noncomputable def lineItems (cfg : Config) (s : Scan) (l : Line) : Nat → ℝ → Option ℝ → List Nat → List (Item Vertex ℝ)
  | _, _, _, [] => []
  | n, psi, prev, r :: rest =>
    let range := (r : ℝ) / 1000
    let angle := angleOf s.deltaPsi r rest
    let phi := s.originPhi + l.deltaPhi
    let it : Item Vertex ℝ :=
      { point := if range > cfg.minRange ∧ range < cfg.maxRange ∧ passes cfg.maxEdgeAngle angle ∧ passes cfg.maxEdgeAngle prev then some (makeVertex s phi psi range) else none
        colour := makeColour cfg l n
        flip := decide (|psi| > Real.pi / 2) }
    it :: lineItems cfg s l (n + 1) (psi + s.deltaPsi) angle rest

noncomputable def items (cfg : Config) (s : Scan) : List (List (Item Vertex ℝ)) := s.lines.map fun l => lineItems cfg s l 0 s.originPsi (some (Real.pi * 0.5)) l.ranges

noncomputable def dist (a b : ℝ × ℝ × ℝ) : ℝ := Real.sqrt ((a.1 - b.1) ^ 2 + (a.2.1 - b.2.1) ^ 2 + (a.2.2 - b.2.2) ^ 2)

open Classical in
/-- l.270-274 -/
noncomputable def close (cfg : Config) (a b : Vertex) : Bool := decide (dist a.pos b.pos < cfg.maxEdgeLength)

/-- updateAll l.110-326 -/
noncomputable def updateAll (cfg : Config) (s : Scan) : Res (Mesh Vertex ℝ) := mesh (close cfg) s.pointsPerLine (items cfg s)

end Envire.Mesh
