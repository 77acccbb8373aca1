import Verif.Core.TransformModel
import Mathlib.Data.Matrix.Block

/-!
Model of the conversions between TransformWithUncertainty and base::samples::RigidBodyState: operator=, /repo/src/core/Transform.cpp l.289-301 (also the constructor l.17-20),
and copyToRigidBodyState l.315-322.

Simplifications: numbers are real. The conversions of the base library between a pose (position and quaternion) and an affine transform are parameters; several poses may be one
transform (a quaternion and its negative). The other members of the state (time, velocities, frames) are one value.
-/
namespace Envire.Body

open Envire

/-- the members of base::samples::RigidBodyState -/
structure Rbs (P A : Type) where
  pose : P
  covOrientation : M3
  covPosition : M3
  rest : A

/-- base::Pose and `operator Eigen::Affine3d` -/
structure Conv (P G : Type) where
  toTrans : P → G
  toPose : G → P

variable {P A G : Type}

/-- operator=( const RigidBodyState& ), l.289-301 -/
def assign (c : Conv P G) (r : Rbs P A) : TU G := ⟨c.toTrans r.pose, Matrix.fromBlocks r.covOrientation 0 0 r.covPosition, true⟩

/-- copyToRigidBodyState, l.315-322 -/
def copyTo (c : Conv P G) (t : TU G) (r : Rbs P A) : Rbs P A :=
  { r with pose := c.toPose t.trans, covOrientation := t.cov.toBlocks₁₁, covPosition := t.cov.toBlocks₂₂ }

end Envire.Body
