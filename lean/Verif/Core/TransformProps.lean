import Verif.Core.TransformModel
import Verif.Core.FrameProps
import Mathlib.LinearAlgebra.Matrix.NonsingularInverse
/-! Properties C09, C48, C49: relative transforms, with and without uncertainty. -/
namespace Envire
open Env

/-! ## specification -/

/-- `InRoot s m tf a t r`: walking up from `a` by getParent ends in `r`, and `t` maps coordinates of `a` to coordinates
of `r` -/
inductive InRoot {T : Type} (s : Env) (m : TOps T) (tf : Obj → T) : Obj → T → Obj → Prop
  | root {a : Obj} : s.getParent a = none → InRoot s m tf a m.one a
  | up {a p r : Obj} {t : T} : s.getParent a = some p → InRoot s m tf p t r → InRoot s m tf a (m.mul t (tf a)) r

/-- the root of the tree of `a` -/
inductive RootOf (s : Env) : Obj → Obj → Prop
  | root {a : Obj} : s.getParent a = none → RootOf s a a
  | up {a p r : Obj} : s.getParent a = some p → RootOf s p r → RootOf s a r

theorem RootOf.unique {s : Env} {a r r' : Obj} (h : RootOf s a r) (h' : RootOf s a r') : r = r' := by
  induction h with
  | root h1 => cases h' with
    | root => rfl
    | up h2 _ => rw [h1] at h2; cases h2
  | up h1 _ ih => cases h' with
    | root h2 => rw [h1] at h2; cases h2
    | up h2 h3 => rw [h1] at h2; cases h2; exact ih h3

theorem height_le (s : Env) (o : Obj) : s.height o ≤ s.ftree.length := by
  unfold Env.height
  exact Nat.le_trans (List.length_filter_le _ _) (by rw [List.length_map])

/-- in an acyclic tree walking up ends within the fuel -/
theorem toRoot_some {T : Type} {s : Env} (ha : Acyclic s) (m : TOps T) (tf : Obj → T) :
    ∀ fuel acc a, s.ftree.length < fuel + s.height a → ∃ t r, s.toRoot m tf fuel acc a = some (t, r) ∧ RootOf s a r := by
  intro fuel
  induction fuel with
  | zero => intro acc a h; exact absurd (height_le s a) (by omega)
  | succ n ih =>
    intro acc a h
    unfold Env.toRoot
    cases hp : s.getParent a with
    | none => exact ⟨acc, a, rfl, .root hp⟩
    | some p =>
      have := height_lt ha (look_some_mem hp)
      obtain ⟨t, r, h1, h2⟩ := ih (m.mul (tf a) acc) p (by omega)
      exact ⟨t, r, h1, .up hp h2⟩

/-- what the loop returns, in a group -/
theorem toRoot_group {G : Type} [Group G] {s : Env} (tf : Obj → G) :
    ∀ fuel acc a t r, s.toRoot (groupOps G) tf fuel acc a = some (t, r) →
      ∃ u, InRoot s (groupOps G) tf a u r ∧ t = u * acc := by
  intro fuel
  induction fuel with
  | zero => intro acc a t r h; cases h
  | succ n ih =>
    intro acc a t r h
    unfold Env.toRoot at h
    cases hp : s.getParent a with
    | none => rw [hp] at h; cases h; exact ⟨1, .root hp, (one_mul _).symm⟩
    | some p =>
      rw [hp] at h
      obtain ⟨u, hu, rfl⟩ := ih _ _ _ _ h
      exact ⟨u * tf a, .up hp hu, (mul_assoc u (tf a) acc).symm⟩

theorem InRoot.rootOf {T : Type} {s : Env} {m : TOps T} {tf : Obj → T} {a r : Obj} {t : T} (h : InRoot s m tf a t r) :
    RootOf s a r := by
  induction h with
  | root h => exact .root h
  | up h _ ih => exact .up h ih

theorem InRoot.unique {T : Type} {s : Env} {m : TOps T} {tf : Obj → T} {a r r' : Obj} {t t' : T}
    (h : InRoot s m tf a t r) (h' : InRoot s m tf a t' r') : t = t' ∧ r = r' := by
  induction h generalizing t' r' with
  | root h1 => cases h' with
    | root => exact ⟨rfl, rfl⟩
    | up h2 _ => rw [h1] at h2; cases h2
  | up h1 _ ih => cases h' with
    | root h2 => rw [h1] at h2; cases h2
    | up h2 h3 => rw [h1] at h2; cases h2; obtain ⟨rfl, rfl⟩ := ih h3; exact ⟨rfl, rfl⟩

theorem InRoot.exists {G : Type} [Group G] {s : Env} (ha : Acyclic s) (tf : Obj → G) (a : Obj) :
    ∃ t r, InRoot s (groupOps G) tf a t r := by
  obtain ⟨t, r, h1, _⟩ := toRoot_some ha (groupOps G) tf (s.ftree.length + 1) 1 a (by omega)
  obtain ⟨u, hu, _⟩ := toRoot_group tf _ _ _ _ _ h1
  exact ⟨u, r, hu⟩

/-- **C09 (meaning)** In an acyclic frame forest relativeTransform(a, b) always terminates; it throws iff a and b have
different roots, otherwise it is (b→root)⁻¹ (a→root). -/
theorem C09_relativeTransform_exact {G : Type} [Group G] {s : Env} (ha : Acyclic s) (tf : Obj → G) {a b ra rb : Obj}
    {ta tb : G} (h1 : InRoot s (groupOps G) tf a ta ra) (h2 : InRoot s (groupOps G) tf b tb rb) :
    s.relativeTransform (groupOps G) tf a b = if ra = rb then .ok (tb⁻¹ * ta) else .throw := by
  unfold Env.relativeTransform
  by_cases hab : a = b
  · subst hab
    obtain ⟨rfl, rfl⟩ := h1.unique h2
    rw [if_pos rfl, if_pos rfl, inv_mul_cancel]; rfl
  · rw [if_neg hab]
    obtain ⟨t, r, e1, _⟩ := toRoot_some ha (groupOps G) tf (s.ftree.length + 1) (groupOps G).one a (by omega)
    obtain ⟨t', r', e2, _⟩ := toRoot_some ha (groupOps G) tf (s.ftree.length + 1) (groupOps G).one b (by omega)
    obtain ⟨u, hu, hu'⟩ := toRoot_group tf _ _ _ _ _ e1
    obtain ⟨v, hv, hv'⟩ := toRoot_group tf _ _ _ _ _ e2
    obtain ⟨rfl, rfl⟩ := h1.unique hu
    obtain ⟨rfl, rfl⟩ := h2.unique hv
    rw [show (groupOps G).one = (1 : G) from rfl, mul_one] at hu' hv'
    subst hu'; subst hv'
    rw [e1, e2]
    dsimp only
    by_cases hr : ra = rb
    · rw [if_neg (fun h => h hr), if_pos hr]; rfl
    · rw [if_pos hr, if_neg hr]

/-- **C09 (laws)** identity, inverse, composition, single link; throws exactly for frames of different trees. -/
theorem C09_relativeTransform_laws {G : Type} [Group G] {s : Env} (ha : Acyclic s) (tf : Obj → G) (a b c : Obj) :
    s.relativeTransform (groupOps G) tf a a = .ok 1 ∧
    (∀ t, s.relativeTransform (groupOps G) tf a b = .ok t → s.relativeTransform (groupOps G) tf b a = .ok t⁻¹) ∧
    (∀ t u, s.relativeTransform (groupOps G) tf a b = .ok t → s.relativeTransform (groupOps G) tf b c = .ok u →
      s.relativeTransform (groupOps G) tf a c = .ok (u * t)) ∧
    (s.getParent a = some b → s.relativeTransform (groupOps G) tf a b = .ok (tf a)) ∧
    s.relativeTransform (groupOps G) tf a b ≠ .diverge ∧
    (s.relativeTransform (groupOps G) tf a b = .throw ↔ ¬ ∃ r, RootOf s a r ∧ RootOf s b r) := by
  obtain ⟨ta, ra, h1⟩ := InRoot.exists ha tf a
  obtain ⟨tb, rb, h2⟩ := InRoot.exists ha tf b
  obtain ⟨tc, rc, h3⟩ := InRoot.exists ha tf c
  have e11 := C09_relativeTransform_exact ha tf h1 h1
  have e12 := C09_relativeTransform_exact ha tf h1 h2
  have e21 := C09_relativeTransform_exact ha tf h2 h1
  have e23 := C09_relativeTransform_exact ha tf h2 h3
  have e13 := C09_relativeTransform_exact ha tf h1 h3
  refine ⟨by rw [e11, if_pos rfl, inv_mul_cancel], fun t ht => ?_, fun t u ht hu => ?_, fun hp => ?_, ?_, ?_⟩
  · rw [e12] at ht
    split at ht
    · rename_i hr; cases ht
      rw [e21, if_pos hr.symm, mul_inv_rev, inv_inv]
    · cases ht
  · rw [e12] at ht
    rw [e23] at hu
    split at ht
    · rename_i hr; cases ht
      split at hu
      · rename_i hr'; cases hu
        rw [e13, if_pos (hr.trans hr'), mul_assoc, mul_inv_cancel_left]
      · cases hu
    · cases ht
  · cases h1 with
    | root h => rw [h] at hp; cases hp
    | up h hi =>
      rw [hp] at h; cases h
      obtain ⟨rfl, rfl⟩ := hi.unique h2
      rw [e12, if_pos rfl]
      exact congrArg _ (inv_mul_cancel_left _ _)
  · rw [e12]; split <;> (intro h; cases h)
  · rw [e12]
    constructor
    · intro h
      split at h
      · cases h
      · rename_i hr
        rintro ⟨r, q1, q2⟩
        exact hr ((h1.rootOf.unique q1).trans (h2.rootOf.unique q2).symm)
    · intro h
      rw [if_neg]
      intro hr
      exact h ⟨ra, h1.rootOf, hr ▸ h2.rootOf⟩

/-- frames numbered from the root downwards form an acyclic forest -/
theorem acyclic_of_decreasing {s : Env} (h : ∀ e ∈ s.ftree, e.2 < e.1) : Acyclic s := by
  have : ∀ a b, Above s a b → b < a := by
    intro a b hab
    induction hab with
    | one h1 => exact h _ h1
    | more h1 _ ih => exact Nat.lt_trans ih (h _ h1)
  exact fun x hx => Nat.lt_irrefl _ (this x x hx)

/-- concrete: three frames below the root (`frameHistory`), 3 hangs below 2, 2 and 1 below 0: the transform from 3 to 1
goes up over 2 and 0 and down to 1 -/
example {G : Type} [Group G] (tf : Obj → G) : ∃ s, run (init 0) frameHistory = some s ∧ Acyclic s ∧
    s.relativeTransform (groupOps G) tf 3 1 = .ok ((tf 1)⁻¹ * (tf 2 * tf 3)) := by
  obtain ⟨s, hs, h1, h2, h3, h4, h5⟩ := ex_of_any (o := run (init 0) frameHistory)
    (P := fun s => s.getParent 3 = some 2 ∧ s.getParent 2 = some 0 ∧ s.getParent 1 = some 0 ∧ s.getParent 0 = none ∧
      ∀ e ∈ s.ftree, e.2 < e.1) (by decide +kernel)
  have ha := acyclic_of_decreasing h5
  refine ⟨s, hs, ha, ?_⟩
  rw [C09_relativeTransform_exact ha tf (.up h1 (.up h2 (.root h4))) (.up h3 (.root h4)), if_pos rfl]
  simp [groupOps]

/-! ## C48 -/

section
variable {G : Type} [Group G]

theorem TU.mul_trans (j : Jac G) (x y : TU G) : (TU.mul j x y).trans = x.trans * y.trans := by
  unfold TU.mul; split <;> rfl
theorem TU.inv_trans (j : Jac G) (x : TU G) : (TU.inv j x).trans = x.trans⁻¹ := by
  unfold TU.inv; split <;> rfl
theorem TU.mul_unc (j : Jac G) (x y : TU G) : (TU.mul j x y).unc = (x.unc || y.unc) := by
  unfold TU.mul
  split
  · rename_i h; rw [h.1, h.2]; rfl
  · rename_i h
    cases hx : x.unc <;> cases hy : y.unc <;> simp_all
theorem TU.inv_unc (j : Jac G) (x : TU G) : (TU.inv j x).unc = x.unc := by
  unfold TU.inv
  split
  · rename_i h; rw [h]; rfl
  · rename_i h; simp at h; rw [h]

theorem toRoot_trans (s : Env) (j : Jac G) (tf : Obj → TU G) : ∀ fuel acc a,
    (s.toRoot (TU.ops j) tf fuel acc a).map (fun p => (p.1.trans, p.2)) =
      s.toRoot (groupOps G) (fun o => (tf o).trans) fuel acc.trans a := by
  intro fuel
  induction fuel with
  | zero => intro acc a; rfl
  | succ n ih =>
    intro acc a
    unfold Env.toRoot
    cases s.getParent a with
    | none => rfl
    | some p =>
      rw [ih]
      congr 1
      exact TU.mul_trans j _ _

def RelRes.map {A B : Type} (f : A → B) : RelRes A → RelRes B
  | .ok t => .ok (f t)
  | .throw => .throw
  | .diverge => .diverge

/-- **C48 (1)** relativeTransformWithUncertainty and relativeTransform agree: same transform, same exceptions, for
every frame forest (also a cyclic one) and all covariances. -/
theorem C48_uncertain_agrees_with_plain (s : Env) (j : Jac G) (tf : Obj → TU G) (a b : Obj) :
    (s.relativeTransform (TU.ops j) tf a b).map TU.trans =
      s.relativeTransform (groupOps G) (fun o => (tf o).trans) a b := by
  unfold Env.relativeTransform
  split
  · rfl
  · have h1 := toRoot_trans s j tf (s.ftree.length + 1) (TU.ops j).one a
    have h2 := toRoot_trans s j tf (s.ftree.length + 1) (TU.ops j).one b
    rw [show (TU.ops j).one.trans = (groupOps G).one from rfl] at h1 h2
    rw [← h1, ← h2]
    cases s.toRoot (TU.ops j) tf (s.ftree.length + 1) (TU.ops j).one a with
    | none => rfl
    | some p =>
      cases s.toRoot (TU.ops j) tf (s.ftree.length + 1) (TU.ops j).one b with
      | none => rfl
      | some q =>
        obtain ⟨t, r⟩ := p
        obtain ⟨t', r'⟩ := q
        dsimp only [Option.map]
        by_cases h : r = r'
        · rw [if_neg (fun x => x h), if_neg (fun x => x h)]
          show RelRes.ok _ = RelRes.ok _
          rw [show ((TU.ops j).mul ((TU.ops j).inv t') t).trans = _ from TU.mul_trans j _ _]
          rw [show ((TU.ops j).inv t').trans = _ from TU.inv_trans j _]
          rfl
        · rw [if_pos h, if_pos h]; rfl

/-- symmetric positive semidefinite covariance -/
def CovOk (t : TU G) : Prop := t.cov.PosSemidef

theorem conj_psd {C J : M6} (h : C.PosSemidef) : (J * C * J.transpose).PosSemidef := by
  have := h.mul_mul_conjTranspose_same J
  rwa [Matrix.conjTranspose_eq_transpose_of_trivial] at this

theorem TU.mul_psd (j : Jac G) {x y : TU G} (hx : CovOk x) (hy : CovOk y) : CovOk (TU.mul j x y) := by
  unfold TU.mul CovOk
  split
  · exact Matrix.PosSemidef.zero
  · dsimp only
    refine Matrix.PosSemidef.add ?_ ?_
    · split
      · exact conj_psd hy
      · exact Matrix.PosSemidef.zero
    · split
      · exact conj_psd hx
      · exact Matrix.PosSemidef.zero

theorem TU.inv_psd (j : Jac G) {x : TU G} (hx : CovOk x) : CovOk (TU.inv j x) := by
  unfold TU.inv CovOk
  split
  · exact Matrix.PosSemidef.zero
  · exact conj_psd hx

theorem toRoot_inv {s : Env} {T : Type} {m : TOps T} {tf : Obj → T} {P : T → Prop}
    (hm : ∀ x y, P x → P y → P (m.mul x y)) (ht : ∀ o, P (tf o)) : ∀ fuel acc a t r, P acc →
    s.toRoot m tf fuel acc a = some (t, r) → P t := by
  intro fuel
  induction fuel with
  | zero => intro acc a t r _ h; cases h
  | succ n ih =>
    intro acc a t r hacc h
    unfold Env.toRoot at h
    cases hp : s.getParent a with
    | none => rw [hp] at h; cases h; exact hacc
    | some p => rw [hp] at h; exact ih _ _ _ _ (hm _ _ (ht a) hacc) h

/-- **C48 (2)** If every frame has a symmetric positive semidefinite covariance, so has every relative transform, for
any frame forest and any Jacobians; and the class invariant "no uncertainty means zero covariance" is kept. -/
theorem C48_covariance_stays_psd (s : Env) (j : Jac G) (tf : Obj → TU G) (h : ∀ o, CovOk (tf o)) (a b : Obj) (t : TU G)
    (ht : s.relativeTransform (TU.ops j) tf a b = .ok t) : CovOk t ∧ t.Ok := by
  constructor
  · unfold Env.relativeTransform at ht
    have one : CovOk (TU.ops j).one := Matrix.PosSemidef.zero
    split at ht
    · cases ht; exact one
    · split at ht
      · rename_i ta ra tb rb e1 e2
        split at ht
        · cases ht
        · cases ht
          refine TU.mul_psd j (TU.inv_psd j ?_) ?_
          · exact toRoot_inv (P := CovOk) (fun x y => TU.mul_psd j) h _ _ _ _ _ one e2
          · exact toRoot_inv (P := CovOk) (fun x y => TU.mul_psd j) h _ _ _ _ _ one e1
      · cases ht
  · unfold Env.relativeTransform at ht
    split at ht
    · cases ht; exact fun _ => rfl
    · split at ht
      · split at ht
        · cases ht
        · cases ht
          show TU.Ok (TU.mul j _ _)
          unfold TU.mul
          split
          · exact fun _ => rfl
          · intro h; cases h
      · cases ht

/-- `a` or a frame above it, below the root, carries uncertainty -/
inductive UncertainBelowRoot (s : Env) (tf : Obj → TU G) : Obj → Prop
  | here {a p : Obj} : s.getParent a = some p → (tf a).unc = true → UncertainBelowRoot s tf a
  | up {a p : Obj} : s.getParent a = some p → UncertainBelowRoot s tf p → UncertainBelowRoot s tf a

theorem toRoot_unc {s : Env} (j : Jac G) (tf : Obj → TU G) : ∀ fuel acc a t r,
    s.toRoot (TU.ops j) tf fuel acc a = some (t, r) →
      (t.unc = true ↔ acc.unc = true ∨ UncertainBelowRoot s tf a) := by
  intro fuel
  induction fuel with
  | zero => intro acc a t r h; cases h
  | succ n ih =>
    intro acc a t r h
    unfold Env.toRoot at h
    cases hp : s.getParent a with
    | none =>
      rw [hp] at h; cases h
      refine ⟨Or.inl, ?_⟩
      rintro (h | h)
      · exact h
      · cases h with
        | here h1 _ => rw [hp] at h1; cases h1
        | up h1 _ => rw [hp] at h1; cases h1
    | some p =>
      rw [hp] at h
      rw [ih _ _ _ _ h, show ((TU.ops j).mul (tf a) acc).unc = _ from TU.mul_unc j _ _, Bool.or_eq_true]
      constructor
      · rintro ((h | h) | h)
        · exact Or.inr (.here hp h)
        · exact Or.inl h
        · exact Or.inr (.up hp h)
      · rintro (h | h)
        · exact Or.inl (Or.inr h)
        · cases h with
          | here _ h2 => exact Or.inl (Or.inl h2)
          | up h1 h2 => rw [hp] at h1; cases h1; exact Or.inr h2

/-- **C48 (3)** for different frames the result has uncertainty iff some frame on the way to the common root has -/
theorem C48_uncertain_iff (s : Env) (j : Jac G) (tf : Obj → TU G) (a b : Obj) (hab : a ≠ b) (t : TU G)
    (ht : s.relativeTransform (TU.ops j) tf a b = .ok t) :
    t.unc = true ↔ UncertainBelowRoot s tf a ∨ UncertainBelowRoot s tf b := by
  unfold Env.relativeTransform at ht
  rw [if_neg hab] at ht
  split at ht
  · rename_i ta ra tb rb e1 e2
    split at ht
    · cases ht
    · cases ht
      rw [show ((TU.ops j).mul ((TU.ops j).inv tb) ta).unc = _ from TU.mul_unc j _ _,
        show ((TU.ops j).inv tb).unc = _ from TU.inv_unc j _, Bool.or_eq_true, toRoot_unc j tf _ _ _ _ _ e1,
        toRoot_unc j tf _ _ _ _ _ e2]
      show (false = true ∨ _) ∨ (false = true ∨ _) ↔ _
      simp [or_comm]
  · cases ht

/-! ## C49 -/

theorem inv_conj {C J : M6} (h : IsUnit J.det) : J⁻¹ * (J * C * J.transpose) * J.transpose⁻¹ = C := by
  have ht : IsUnit J.transpose.det := by rwa [Matrix.det_transpose]
  rw [Matrix.mul_assoc J C, Matrix.nonsing_inv_mul_cancel_left J _ h, Matrix.mul_nonsing_inv_cancel_right _ C ht]

theorem conj_inv {C J : M6} (h : IsUnit J.det) : J * (J⁻¹ * C * J.transpose⁻¹) * J.transpose = C := by
  have ht : IsUnit J.transpose.det := by rwa [Matrix.det_transpose]
  rw [Matrix.mul_assoc J⁻¹ C, Matrix.mul_nonsing_inv_cancel_left J _ h, Matrix.nonsing_inv_mul_cancel_right _ C ht]

theorem TU.mul_cov (j : Jac G) {x y : TU G} (hx : x.Ok) (hy : y.Ok) :
    (TU.mul j x y).cov = j.j1 x.trans y.trans * y.cov * (j.j1 x.trans y.trans).transpose +
      j.j2 x.trans y.trans * x.cov * (j.j2 x.trans y.trans).transpose := by
  unfold TU.mul
  split
  · rename_i h; rw [hx h.2, hy h.1]; simp [TU.certain]
  · dsimp only
    congr 1
    · split
      · rfl
      · rename_i h; rw [hy (by simpa using h)]; simp
    · split
      · rfl
      · rename_i h; rw [hx (by simpa using h)]; simp

/-- **C49** compositionInv undoes composition and vice versa (as documented: "result * trans = this"), for transforms
and covariances, whenever the Jacobian is invertible; the same for preCompositionInv. -/
theorem C49_inverse_compositions (j : Jac G) (x y : TU G) (hx : x.Ok) (hy : y.Ok) :
    (IsUnit (j.j2 x.trans y.trans).det →
      ((TU.mul j x y).compositionInv j y).trans = x.trans ∧ ((TU.mul j x y).compositionInv j y).cov = x.cov) ∧
    (IsUnit (j.j1 x.trans y.trans).det →
      ((TU.mul j x y).preCompositionInv j x).trans = y.trans ∧ ((TU.mul j x y).preCompositionInv j x).cov = y.cov) ∧
    (IsUnit (j.j2 (x.trans * y.trans⁻¹) y.trans).det →
      (TU.mul j (x.compositionInv j y) y).trans = x.trans ∧ (TU.mul j (x.compositionInv j y) y).cov = x.cov) ∧
    (IsUnit (j.j1 y.trans (y.trans⁻¹ * x.trans)).det →
      (TU.mul j y (x.preCompositionInv j y)).trans = x.trans ∧ (TU.mul j y (x.preCompositionInv j y)).cov = x.cov) := by
  have hmt := TU.mul_trans j x y
  have hmc := TU.mul_cov j hx hy
  have hmu := TU.mul_unc j x y
  refine ⟨fun hd => ?_, fun hd => ?_, fun hd => ?_, fun hd => ?_⟩
  · have e : x.trans * y.trans * y.trans⁻¹ = x.trans := mul_inv_cancel_right _ _
    unfold TU.compositionInv
    dsimp only
    split
    · rename_i h
      rw [hmu, Bool.or_eq_false_iff] at h
      rw [hmt, e]; exact ⟨rfl, (hx h.2.1).symm⟩
    · rw [hmt, e]
      refine ⟨rfl, ?_⟩
      dsimp only
      rw [hmc, add_sub_cancel_left, inv_conj hd]
  · have e : x.trans⁻¹ * (x.trans * y.trans) = y.trans := inv_mul_cancel_left _ _
    unfold TU.preCompositionInv
    dsimp only
    split
    · rename_i h
      rw [hmu, Bool.or_eq_false_iff] at h
      rw [hmt, e]; exact ⟨rfl, (hy h.2.2).symm⟩
    · rw [hmt, e]
      refine ⟨rfl, ?_⟩
      dsimp only
      rw [hmc, add_sub_cancel_right, inv_conj hd]
  · have e : x.trans * y.trans⁻¹ * y.trans = x.trans := inv_mul_cancel_right _ _
    have ht : (x.compositionInv j y).trans = x.trans * y.trans⁻¹ := by
      unfold TU.compositionInv; dsimp only; split <;> rfl
    have hok : (x.compositionInv j y).Ok := by
      unfold TU.compositionInv; dsimp only; split
      · exact fun _ => rfl
      · intro h; cases h
    refine ⟨by rw [TU.mul_trans, ht, e], ?_⟩
    rw [TU.mul_cov j hok hy, ht]
    unfold TU.compositionInv
    dsimp only
    split
    · rename_i h; rw [hx h.2, hy h.1]; simp [TU.certain]
    · dsimp only
      rw [conj_inv hd, add_sub_cancel]
  · have e : y.trans * (y.trans⁻¹ * x.trans) = x.trans := mul_inv_cancel_left _ _
    have ht : (x.preCompositionInv j y).trans = y.trans⁻¹ * x.trans := by
      unfold TU.preCompositionInv; dsimp only; split <;> rfl
    have hok : (x.preCompositionInv j y).Ok := by
      unfold TU.preCompositionInv; dsimp only; split
      · exact fun _ => rfl
      · intro h; cases h
    refine ⟨by rw [TU.mul_trans, ht, e], ?_⟩
    rw [TU.mul_cov j hy hok, ht]
    unfold TU.preCompositionInv
    dsimp only
    split
    · rename_i h; rw [hx h.2, hy h.1]; simp [TU.certain]
    · dsimp only
      rw [conj_inv hd, sub_add_cancel]

/-- the hypothesis of C49 holds e.g. for identity blocks -/
example (j : Jac G) (x y : G) (h1 : j.b x y = 1) : IsUnit (j.j2 x y).det := by
  unfold Jac.j2; rw [h1, Matrix.det_fromBlocks_zero₁₂]; simp

end
/-! ## C48, propagation of errors -/

section
variable {G : Type} [Group G]

open Matrix in
theorem quad_congr (J P : M6) (v : I6 → ℝ) : v ⬝ᵥ ((J * P * J.transpose) *ᵥ v) = (J.transpose *ᵥ v) ⬝ᵥ (P *ᵥ (J.transpose *ᵥ v)) := by
  rw [← Matrix.mulVec_mulVec, ← Matrix.mulVec_mulVec, Matrix.dotProduct_mulVec, ← Matrix.mulVec_transpose]

open Matrix in
/-- **C48 (4)** how errors travel, as a quadratic form (for a symmetric covariance it determines the matrix): the
variance of the error of the inverse in direction (u, w) is the variance of the original error in direction
(u + Dᵗ w, Rᵗ w), and for a composition the variances of both parts add up. -/
theorem C48_error_propagation (j : Jac G) (x y : TU G) (u w : Fin 3 → ℝ) (hx : x.Ok) (hy : y.Ok) :
    Sum.elim u w ⬝ᵥ ((TU.inv j x).cov *ᵥ Sum.elim u w) =
      Sum.elim (u + (j.dinv x.trans).transpose *ᵥ w) ((j.rinv x.trans).transpose *ᵥ w) ⬝ᵥ
        (x.cov *ᵥ Sum.elim (u + (j.dinv x.trans).transpose *ᵥ w) ((j.rinv x.trans).transpose *ᵥ w)) ∧
    Sum.elim u w ⬝ᵥ ((TU.mul j x y).cov *ᵥ Sum.elim u w) =
      Sum.elim ((j.a x.trans y.trans).transpose *ᵥ u) ((j.lin x.trans).transpose *ᵥ w) ⬝ᵥ
        (y.cov *ᵥ Sum.elim ((j.a x.trans y.trans).transpose *ᵥ u) ((j.lin x.trans).transpose *ᵥ w)) +
      Sum.elim ((j.b x.trans y.trans).transpose *ᵥ u + (j.d x.trans y.trans).transpose *ᵥ w) w ⬝ᵥ
        (x.cov *ᵥ Sum.elim ((j.b x.trans y.trans).transpose *ᵥ u + (j.d x.trans y.trans).transpose *ᵥ w) w) := by
  have e1 : (j.ji x.trans).transpose *ᵥ Sum.elim u w =
      Sum.elim (u + (j.dinv x.trans).transpose *ᵥ w) ((j.rinv x.trans).transpose *ᵥ w) := by
    unfold Jac.ji
    rw [Matrix.fromBlocks_transpose, Matrix.fromBlocks_mulVec]
    simp
  have e2 : (j.j1 x.trans y.trans).transpose *ᵥ Sum.elim u w =
      Sum.elim ((j.a x.trans y.trans).transpose *ᵥ u) ((j.lin x.trans).transpose *ᵥ w) := by
    unfold Jac.j1
    rw [Matrix.fromBlocks_transpose, Matrix.fromBlocks_mulVec]
    simp
  have e3 : (j.j2 x.trans y.trans).transpose *ᵥ Sum.elim u w =
      Sum.elim ((j.b x.trans y.trans).transpose *ᵥ u + (j.d x.trans y.trans).transpose *ᵥ w) w := by
    unfold Jac.j2
    rw [Matrix.fromBlocks_transpose, Matrix.fromBlocks_mulVec]
    simp
  have hi : (TU.inv j x).cov = j.ji x.trans * x.cov * (j.ji x.trans).transpose := by
    unfold TU.inv
    split
    · rename_i h; rw [hx h]; simp [TU.certain]
    · rfl
  constructor
  · rw [hi, quad_congr, e1]
  · rw [TU.mul_cov j hx hy, Matrix.add_mulVec, dotProduct_add, quad_congr, quad_congr, e2, e3]
/-- a transform with uncertainty meets the hypotheses of C48 (4) -/
example : (⟨1, 1, true⟩ : TU G).Ok ∧ (⟨1, 1, true⟩ : TU G).cov ≠ 0 := ⟨fun h => (by cases h), one_ne_zero⟩

end

end Envire

#print axioms Envire.C09_relativeTransform_exact
#print axioms Envire.C09_relativeTransform_laws
#print axioms Envire.C48_uncertain_agrees_with_plain
#print axioms Envire.C48_covariance_stays_psd
#print axioms Envire.C48_uncertain_iff
#print axioms Envire.C49_inverse_compositions
#print axioms Envire.C48_error_propagation
