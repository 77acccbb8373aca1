import Mathlib.Data.Real.Sqrt
import Mathlib.Data.Real.Archimedean
import Mathlib.Algebra.Order.Round
import Mathlib.Algebra.BigOperators.Fin

/-!
Model of src/maps/MapSegment.cpp: the hypotheses of a map segment.

Simplifications: real arithmetic without rounding (in particular weights and distances are never NaN). `base::Pose` is an arbitrary type with its six
coordinates `vec` (`toVector6d`). The mean and the variance of `numeric::Stats` are not in this repository: `stats` is an arbitrary
function of the list of (vector, weight), only `sumWeights` is known to be the sum of the weights. Maps are identified by M. `getExtents` is not
modelled.
-/

namespace Envire.Segment

/-- six coordinates: rotation vector and position -/
abbrev Vec6 := Fin 6 → ℝ

/-- `MapSegment::Part`; MapSegment.hpp l.55-69 -/
structure Part (M P : Type*) where
  map : M
  pose : P
  weight : ℝ

/-- a Gaussian of six coordinates -/
structure Gauss where
  mean : Vec6
  cov : Fin 6 → Fin 6 → ℝ

/-- `MapSegment`; MapSegment.hpp l.70-90. Of the trajectories only the sizes matter. -/
structure Segment (M P : Type*) where
  zVar : ℝ := 0
  gmm : List (ℝ × Gauss) := []
  parts : List (Part M P) := []
  trajectories : List Nat := []

variable {M P : Type*}

/-- `addPart`; l.50-55 -/
def Segment.addPart (s : Segment M P) (pose : P) (map : M) (weight zVar : ℝ) : Segment M P :=
  { s with parts := s.parts ++ [⟨map, pose, weight⟩], zVar := s.zVar + weight * zVar }

/-- `stats.sumWeights()` after the loop of `update`; l.63-69 -/
def sumWeights (parts : List (Part M P)) : ℝ := parts.foldl (fun a p => a + p.weight) 0

/-- the added variances; l.72-78. With `rot` for the square of one degree in radians. -/
noncomputable def diag (rot z : ℝ) : Vec6 := ![rot, rot, 0, 0, 0, z]

/-- `update`; l.57-87. A sum of weights of zero gives a division by zero, outcome `none`. -/
noncomputable def Segment.update (vec : P → Vec6) (stats : List (Vec6 × ℝ) → Gauss) (rot : ℝ) (s : Segment M P) : Option (Segment M P) :=
  let g := stats (s.parts.map fun p => (vec p.pose, p.weight))
  if sumWeights s.parts = 0 then none
  else
    let zVar := s.zVar / sumWeights s.parts
    some { s with gmm := [(1.0, ⟨g.mean, fun a b => g.cov a b + if a = b then diag rot zVar a else 0⟩)] }

/-- conversion of a `double` to `int`: towards zero -/
noncomputable def trunc (r : ℝ) : ℤ := if r < 0 then ⌈r⌉ else ⌊r⌋

open Classical in
/-- loop of `getTransform`; l.96-105. State: `max_idx` (as the Gaussian found) and the integer `max_weight`. -/
noncomputable def largest : List (ℝ × Gauss) → Option Gauss → ℤ → Option Gauss
  | [], best, _ => best
  | (w, g) :: l, best, mw => if w > mw then largest l (some g) (trunc w) else largest l best mw

/-- `getTransform`; l.89-114. `none` is the exception. -/
noncomputable def Segment.getTransform (s : Segment M P) : Option Gauss := largest s.gmm none 0

/-- norm of the difference of the coordinates; l.133 -/
noncomputable def dist (u v : Vec6) : ℝ := Real.sqrt (∑ c, (u c - v c) ^ 2)

/-- variables of the loop of `getMapForPose`: `best_map`, `best_dist` (`none` is infinity), `map_pose`, `traj_size` -/
structure Search (M P : Type*) where
  map : Option M
  best : Option ℝ
  pose : P
  size : Nat

/-- `dist < best_dist`; l.134 -/
def closer (d : ℝ) : Option ℝ → Prop
  | none => True
  | some b => d < b

open Classical in
/-- loop of `getMapForPose`; l.127-142 -/
noncomputable def search (vec : P → Vec6) (trajectories : List Nat) (pose : P) : List (Part M P) → Nat → Search M P → Search M P
  | [], _, v => v
  | p :: l, i, v =>
    let d := dist (vec p.pose) (vec pose)
    let v' := if closer d v.best then
        { map := some p.map, best := some d, pose := p.pose
          size := if h : i < trajectories.length then trajectories[i] else v.size }
      else v
    search vec trajectories pose l (i + 1) v'

/-- `getMapForPose`; l.116-145. The two references have values before the call. -/
noncomputable def Segment.getMapForPose (vec : P → Vec6) (s : Segment M P) (pose mapPose : P) (trajSize : Nat) : Option M × P × Nat :=
  let v := search vec s.trajectories pose s.parts 0 ⟨none, none, mapPose, trajSize⟩
  (v.map, v.pose, v.size)

open Classical in
/-- `getBestMap`; l.147-162 -/
noncomputable def bestMap : List (Part M P) → Option M → ℝ → Option M
  | [], best, _ => best
  | p :: l, best, w => if p.weight > w then bestMap l (some p.map) p.weight else bestMap l best w

noncomputable def Segment.getBestMap (s : Segment M P) : Option M := bestMap s.parts none 0

/-- calls that change a segment -/
inductive Op (M P : Type*)
  | add (pose : P) (map : M) (weight zVar : ℝ)
  | update

/-- a history of calls, in order; `none` after a division by zero -/
noncomputable def run (vec : P → Vec6) (stats : List (Vec6 × ℝ) → Gauss) (rot : ℝ) : List (Op M P) → Segment M P → Option (Segment M P)
  | [], s => some s
  | .add pose map w z :: l, s => run vec stats rot l (s.addPart pose map w z)
  | .update :: l, s => (s.update vec stats rot).bind (run vec stats rot l)

end Envire.Segment
