import Verif.Core.Detach
import Mathlib.Algebra.Group.Basic
import Mathlib.LinearAlgebra.Matrix.PosDef
import Mathlib.Data.Matrix.Block
/-!
Model of the frame transforms: /repo/src/core/Environment.cpp l.744-797 (relativeTransform),
/repo/src/core/Transform.cpp l.139-287 (composition, inverse composition and inverse with uncertainty).

Simplifications: exact real arithmetic instead of double; a transform (Eigen::Affine3d) is an element of an arbitrary
group, so `inverse()` and `inverse(Eigen::Isometry)` are the group inverse (true for rigid transforms, which is what
the class documents). The blocks of the Jacobians (Transform.cpp l.29-137) are arbitrary functions of the transforms.
-/
namespace Envire

/-- the operations relativeTransform<T> needs of its template argument -/
structure TOps (T : Type) where
  one : T
  mul : T → T → T
  inv : T → T

/-- outcome of relativeTransform -/
inductive RelRes (T : Type) | ok (t : T) | throw | diverge

namespace Env
variable {T : Type}

/-- relativeFrameNodeRoot, Environment.cpp l.750-762. The loop of the code is unbounded, `none` = out of fuel -/
def toRoot (s : Env) (m : TOps T) (tf : Obj → T) : Nat → T → Obj → Option (T × Obj)
  | 0, _, _ => none
  | fuel + 1, acc, t =>
    match s.getParent t with
    | none => some (acc, t)
    | some p => toRoot s m tf fuel (m.mul (tf t) acc) p

/-- relativeTransform<T>(FrameNode, FrameNode), Environment.cpp l.764-777 -/
def relativeTransform (s : Env) (m : TOps T) (tf : Obj → T) (a b : Obj) : RelRes T :=
  if a = b then .ok m.one
  else
    match s.toRoot m tf (s.ftree.length + 1) m.one a, s.toRoot m tf (s.ftree.length + 1) m.one b with
    | some (ta, ra), some (tb, rb) => if ra ≠ rb then .throw else .ok (m.mul (m.inv tb) ta)
    | _, _ => .diverge

/-- relativeTransform(CartesianMap, CartesianMap), l.784-787; NULL frame nodes are dereferenced (`none`) -/
def relativeTransformMaps (s : Env) (m : TOps T) (tf : Obj → T) (a b : Obj) : Option (RelRes T) :=
  match s.getFrameNode a, s.getFrameNode b with
  | some fa, some fb => some (s.relativeTransform m tf fa fb)
  | _, _ => none

end Env

/-- the group operations of a group -/
def groupOps (G : Type) [Group G] : TOps G := ⟨1, (· * ·), (·⁻¹)⟩

/-! ### transforms with uncertainty -/

/-- rotation error and translation error -/
abbrev I6 := Fin 3 ⊕ Fin 3
/-- 3 × 3 block -/
abbrev M3 := Matrix (Fin 3) (Fin 3) ℝ
/-- 6 × 6 covariance -/
abbrev M6 := Matrix I6 I6 ℝ

/-- the Jacobian blocks of Transform.cpp l.29-137 as functions of the transforms they are computed from:
`a t2 t1` = dr2r1_by_r1(q, q1, q2), `b t2 t1` = dr2r1_by_r2(q, q1, q2), `d t2 t1` = drx_by_dr(q2, t1.translation()),
`lin t` = t.linear(), `dinv t` = drx_by_dr(q.inverse(), t.translation()), `rinv t` = q.toRotationMatrix().transpose() -/
structure Jac (G : Type) where
  a : G → G → M3
  b : G → G → M3
  d : G → G → M3
  lin : G → M3
  dinv : G → M3
  rinv : G → M3

/-- l.233-235 -/
def Jac.j1 {G : Type} (j : Jac G) (t2 t1 : G) : M6 := Matrix.fromBlocks (j.a t2 t1) 0 0 (j.lin t2)
/-- l.242-244 -/
def Jac.j2 {G : Type} (j : Jac G) (t2 t1 : G) : M6 := Matrix.fromBlocks (j.b t2 t1) 0 (j.d t2 t1) 1
/-- l.280-282 -/
def Jac.ji {G : Type} (j : Jac G) (t : G) : M6 := Matrix.fromBlocks 1 0 (j.dinv t) (j.rinv t)

/-- TransformWithUncertainty, Transform.hpp l.63-117 -/
@[ext] structure TU (G : Type) where
  trans : G
  cov : M6
  unc : Bool

namespace TU
variable {G : Type} [Group G]

/-- TransformWithUncertainty( const Transform& ), l.15-16 -/
def certain (t : G) : TU G := ⟨t, 0, false⟩

/-- operator*, l.215-254; `this` is t2 -/
noncomputable def mul (j : Jac G) (t2 t1 : TU G) : TU G :=
  if t1.unc = false ∧ t2.unc = false then certain (t2.trans * t1.trans)
  else
    let J1 := j.j1 t2.trans t1.trans
    let J2 := j.j2 t2.trans t1.trans
    ⟨t2.trans * t1.trans,
      (if t1.unc then J1 * t1.cov * J1.transpose else 0) + (if t2.unc then J2 * t2.cov * J2.transpose else 0), true⟩

/-- inverse, l.272-287 -/
noncomputable def inv (j : Jac G) (t : TU G) : TU G :=
  if t.unc = false then certain t.trans⁻¹
  else ⟨t.trans⁻¹, j.ji t.trans * t.cov * (j.ji t.trans).transpose, true⟩

/-- compositionInv, l.144-177; `this` is tf -/
noncomputable def compositionInv (j : Jac G) (tf t1 : TU G) : TU G :=
  let t2 := tf.trans * t1.trans⁻¹
  if t1.unc = false ∧ tf.unc = false then certain t2
  else
    let J1 := j.j1 t2 t1.trans
    let J2 := j.j2 t2 t1.trans
    ⟨t2, J2⁻¹ * (tf.cov - J1 * t1.cov * J1.transpose) * (J2.transpose)⁻¹, true⟩

/-- preCompositionInv, l.179-212; `this` is tf -/
noncomputable def preCompositionInv (j : Jac G) (tf t2 : TU G) : TU G :=
  let t1 := t2.trans⁻¹ * tf.trans
  if t2.unc = false ∧ tf.unc = false then certain t1
  else
    let J1 := j.j1 t2.trans t1
    let J2 := j.j2 t2.trans t1
    ⟨t1, J1⁻¹ * (tf.cov - J2 * t2.cov * J2.transpose) * (J1.transpose)⁻¹, true⟩

/-- the operations of relativeTransform<TransformWithUncertainty> -/
noncomputable def ops (j : Jac G) : TOps (TU G) := ⟨certain 1, mul j, inv j⟩

/-- class invariant: what the constructors and setters produce (Transform.cpp l.15-22, Transform.hpp l.105) -/
def Ok (t : TU G) : Prop := t.unc = false → t.cov = 0

end TU
end Envire
