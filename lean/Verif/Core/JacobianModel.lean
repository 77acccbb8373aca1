import Verif.Core.TransformModel
import Mathlib.Analysis.SpecialFunctions.Trigonometric.Sinc
import Mathlib.LinearAlgebra.CrossProduct
/-!
Model of the Jacobian blocks of /repo/src/core/Transform.cpp l.44-137 and of the functions that use them: product with a
point l.256-270 and inverse l.272-287.

Simplifications: exact real arithmetic instead of double. A rotation is given by its rotation vector r (axis times angle);
`q_to_r(q)` (l.44-48, Eigen::AngleAxisd) is the rotation vector r that belongs to the quaternion q, so the functions get
both q and r.
-/
namespace Envire.Err
noncomputable section
open Matrix

abbrev V3 := Fin 3 → ℝ

/-- Eigen::Quaterniond, real part and vec() -/
structure Quat where
  w : ℝ
  v : V3

/-- (w, x, y, z), the order of the rows and columns in the code -/
def Quat.vec (q : Quat) : Fin 4 → ℝ := vecCons q.w q.v

/-- Eigen norm() -/
def norm (r : V3) : ℝ := √(r 0 ^ 2 + r 1 ^ 2 + r 2 ^ 2)

/-- sign, l.50-53 -/
def sign (v : ℝ) : ℝ := if v > 0 then 1 else -1

/-- skew_symmetric, l.55-62 -/
def skew (r : V3) : M3 := !![0, -r 2, r 1; r 2, 0, -r 0; -r 1, r 0, 0]

/-- dq_by_dr, l.64-76 -/
def dqByDr (q : Quat) (r : V3) : Matrix (Fin 4) (Fin 3) ℝ :=
  let theta := norm r
  let kappa := 1 / 2 - theta * theta / 48
  let lambda := 1 / 24 * (1 - theta * theta / 40)
  Matrix.of (vecCons (-((1 / 2 : ℝ) • q.v)) (kappa • (1 : M3) - lambda • vecMulVec r r))

/-- dr_by_dq, l.78-89 -/
def drByDq (q : Quat) : Matrix (Fin 3) (Fin 4) ℝ :=
  let mu := norm q.v
  let tau := 2 * sign q.w * (1 + mu * mu / 6)
  let nu := -2 * sign q.w * (2 / 3 + mu * mu / 5)
  Matrix.of fun i => vecCons (-2 * q.v i) ((tau • (1 : M3) + nu • vecMulVec q.v q.v) i)

/-- dq2q1_by_dq1, l.91-97 -/
def dq2q1ByDq1 (q2 : Quat) : Matrix (Fin 4) (Fin 4) ℝ :=
  q2.w • (1 : Matrix (Fin 4) (Fin 4) ℝ) + Matrix.of (vecCons (vecCons 0 (-q2.v)) fun i => vecCons (q2.v i) (skew q2.v i))

/-- dq2q1_by_dq2, l.99-105 -/
def dq2q1ByDq2 (q1 : Quat) : Matrix (Fin 4) (Fin 4) ℝ :=
  q1.w • (1 : Matrix (Fin 4) (Fin 4) ℝ) + Matrix.of (vecCons (vecCons 0 (-q1.v)) fun i => vecCons (q1.v i) ((-skew q1.v) i))

/-- dr2r1_by_r1, l.107-113 -/
def dr2r1ByR1 (q q1 q2 : Quat) (r1 : V3) : M3 := drByDq q * dq2q1ByDq1 q2 * dqByDr q1 r1

/-- dr2r1_by_r2, l.115-121 -/
def dr2r1ByR2 (q q1 q2 : Quat) (r2 : V3) : M3 := drByDq q * dq2q1ByDq2 q1 * dqByDr q2 r2

/-- drx_by_dr, l.123-137 -/
def drxByDr (r x : V3) : M3 :=
  let theta := norm r
  let alpha := 1 - theta * theta / 6
  let beta := 1 / 2 - theta * theta / 24
  let gamma := 1 / 3 - theta * theta / 30
  let delta := -1 / 12 + theta * theta / 180
  (-skew x) * (gamma • vecMulVec r r - beta • skew r + alpha • (1 : M3)) - skew r * skew x * (delta • vecMulVec r r + (2 * beta) • (1 : M3))

/-- the covariance of operator*(PointWithUncertainty), l.256-270: `R` the rotation matrix, `r` its rotation vector, `cov` the covariance of
the transform, `x` the point and `pcov` its covariance, if it has one -/
def pointCov (R : M3) (r : V3) (cov : M6) (x : V3) (pcov : Option M3) : M3 :=
  let J : Matrix (Fin 3) I6 ℝ := Matrix.of fun i => Sum.elim (drxByDr r x i) ((1 : M3) i)
  let c := J * cov * J.transpose
  match pcov with
  | none => c
  | some p => c + R * p * R.transpose

/-- the covariance of inverse, l.278-286: rotation matrix R with rotation vector r (so q.inverse() has -r), translation t -/
def invCov (R : M3) (r t : V3) (cov : M6) : M6 :=
  let J : M6 := fromBlocks 1 0 (drxByDr (-r) t) R.transpose
  J * cov * J.transpose

end
end Envire.Err
