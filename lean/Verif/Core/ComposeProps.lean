import Verif.Core.JacobianProps
/-! Property C79, the whole chain: the rotation blocks of the Jacobian of composed transforms. -/
namespace Envire.Err
noncomputable section
open Matrix Real

/-! ### derivative of the quaternion along a curve of rotation vectors -/

private lemma norm_curve {ρ : ℝ → V3} {ρ' : V3} (h : HasDerivAt ρ ρ' 0) (h0 : ρ 0 ≠ 0) :
    HasDerivAt (fun s => norm (ρ s)) ((ρ 0 ⬝ᵥ ρ') / norm (ρ 0)) 0 := by
  have hpos := norm_pos h0
  rw [hasDerivAt_pi] at h
  have h1 := (((h 0).pow 2).add ((h 1).pow 2)).add ((h 2).pow 2)
  have h2 := h1.sqrt (by
    show ρ 0 0 ^ 2 + ρ 0 1 ^ 2 + ρ 0 2 ^ 2 ≠ 0
    rw [← norm_sq]
    positivity)
  refine h2.congr_deriv ?_
  show _ / (2 * norm (ρ 0)) = _
  rw [dot3]
  push_cast
  field_simp

private lemma sinc_deriv' {t : ℝ} (ht : t ≠ 0) : HasDerivAt sinc ((t * cos t - sin t) / t ^ 2) t := by
  have h := (hasDerivAt_sin t).div (hasDerivAt_id' t) ht
  refine HasDerivAt.congr_of_eventuallyEq (h.congr_deriv (by ring)) ?_
  filter_upwards [isOpen_ne.mem_nhds ht] with y hy
  exact sinc_of_ne_zero hy

lemma norm_continuous : Continuous norm := by
  unfold norm
  fun_prop

/-- a product of a continuous function and a differentiable one that is zero at the point -/
private lemma mul_zero_deriv {g f : ℝ → ℝ} {f' : ℝ} (hg : ContinuousAt g 0) (hf : HasDerivAt f f' 0) (h0 : f 0 = 0) :
    HasDerivAt (fun s => g s * f s) (g 0 * f') 0 := by
  rw [hasDerivAt_iff_tendsto_slope] at hf ⊢
  have h1 : Filter.Tendsto g (nhdsWithin 0 {0}ᶜ) (nhds (g 0)) := hg.tendsto.mono_left nhdsWithin_le_nhds
  refine (h1.mul hf).congr' ?_
  filter_upwards [self_mem_nhdsWithin] with s hs
  have hs' : s ≠ 0 := hs
  rw [slope_def_field, slope_def_field, h0, mul_zero, sub_zero, sub_zero, sub_zero]
  field_simp

lemma unit_quat (r : V3) : (quat r).w ^ 2 + ((quat r).v 0 ^ 2 + (quat r).v 1 ^ 2 + (quat r).v 2 ^ 2) = 1 := by
  have h1 : norm (quat r).v ^ 2 = sin (norm r / 2) ^ 2 := by
    show norm ((sinc (norm r / 2) / 2) • r) ^ 2 = _
    rw [norm_smul, mul_pow, sq_abs, ← sinc_mul]
    ring
  rw [← norm_sq, h1]
  exact cos_sq_add_sin_sq _

lemma quat_zero : quat 0 = ⟨1, 0⟩ := by unfold quat; simp

lemma dQuat_zero (d : V3) : dQuat 0 d = vecCons 0 ((1 / 2 : ℝ) • d) := by
  unfold dQuat kC
  rw [quat_zero]
  simp

theorem quat_curve {ρ : ℝ → V3} {ρ' : V3} (h : HasDerivAt ρ ρ' 0) : HasDerivAt (fun s => (quat (ρ s)).vec) (dQuat (ρ 0) ρ') 0 := by
  have hi := hasDerivAt_pi.1 h
  by_cases h0 : ρ 0 = 0
  · have hz : ∀ i, ρ 0 i = 0 := fun i => by rw [h0]; rfl
    have hcont : ContinuousAt (fun s => sinc (norm (ρ s) / 2) / 2) 0 := by
      have : ContinuousAt (fun s => norm (ρ s)) 0 := norm_continuous.continuousAt.comp h.continuousAt
      exact ((continuous_sinc.continuousAt).comp (this.div_const 2)).div_const 2
    have hv : ∀ i, HasDerivAt (fun s => (quat (ρ s)).v i) (((1 / 2 : ℝ) • ρ') i) 0 := by
      intro i
      refine (mul_zero_deriv hcont (hi i) (hz i)).congr_deriv ?_
      rw [h0, norm_zero, zero_div, sinc_zero]
      rfl
    have hv0 : ∀ i, (quat (ρ 0)).v i = 0 := by
      intro i
      rw [h0, quat_zero]
      rfl
    have hw : HasDerivAt (fun s => (quat (ρ s)).w) 0 0 := by
      have hs := ((((hv 0).pow 2).add ((hv 1).pow 2)).add ((hv 2).pow 2)).const_sub 1
      have hs2 := hs.sqrt (by
        show 1 - ((quat (ρ 0)).v 0 ^ 2 + (quat (ρ 0)).v 1 ^ 2 + (quat (ρ 0)).v 2 ^ 2) ≠ 0
        rw [hv0, hv0, hv0]; norm_num)
      have hs3 : HasDerivAt (fun s => √(1 - ((quat (ρ s)).v 0 ^ 2 + (quat (ρ s)).v 1 ^ 2 + (quat (ρ s)).v 2 ^ 2))) 0 0 := by
        refine hs2.congr_deriv ?_
        rw [hv0, hv0, hv0]
        simp
      refine hs3.congr_of_eventuallyEq ?_
      have hc : ContinuousAt (fun s => (quat (ρ s)).w) 0 := by
        have : ContinuousAt (fun s => norm (ρ s)) 0 := norm_continuous.continuousAt.comp h.continuousAt
        exact continuous_cos.continuousAt.comp (this.div_const 2)
      have hpos : 0 < (quat (ρ 0)).w := by rw [h0, quat_zero]; norm_num
      filter_upwards [hc.eventually (lt_mem_nhds hpos)] with s hs
      have := unit_quat (ρ s)
      rw [show 1 - ((quat (ρ s)).v 0 ^ 2 + (quat (ρ s)).v 1 ^ 2 + (quat (ρ s)).v 2 ^ 2) = (quat (ρ s)).w ^ 2 by linarith, sqrt_sq hs.le]
    rw [h0, dQuat_zero, hasDerivAt_pi]
    intro i
    fin_cases i
    · exact hw
    · exact hv 0
    · exact hv 1
    · exact hv 2
  · have hpos := norm_pos h0
    have hn := (norm_curve h h0).div_const 2
    have hc : HasDerivAt (fun s => cos (norm (ρ s) / 2)) (-(((quat (ρ 0)).v ⬝ᵥ ρ') / 2)) 0 := by
      refine hn.cos.congr_deriv ?_
      unfold quat; dsimp only
      rw [smul_dotProduct, smul_eq_mul, sinc_of_ne_zero (by positivity)]
      field_simp
    have hk : HasDerivAt (fun s => sinc (norm (ρ s) / 2) / 2) (-(lC (ρ 0) * (ρ 0 ⬝ᵥ ρ'))) 0 := by
      have h := (HasDerivAt.comp (0 : ℝ) (h₂ := sinc) (sinc_deriv' (by positivity)) hn).div_const 2
      refine h.congr_deriv ?_
      unfold lC
      rw [sinc_of_ne_zero (by positivity)]
      field_simp
      ring
    have hv : ∀ i, HasDerivAt (fun s => (quat (ρ s)).v i) ((kC (ρ 0) • ρ' - (lC (ρ 0) * (ρ 0 ⬝ᵥ ρ')) • ρ 0) i) 0 := by
      intro i
      refine (hk.mul (hi i)).congr_deriv ?_
      simp only [Pi.sub_apply, Pi.smul_apply, smul_eq_mul]
      unfold kC
      ring
    rw [hasDerivAt_pi]
    intro i
    unfold dQuat
    fin_cases i
    · exact hc
    · exact hv 0
    · exact hv 1
    · exact hv 2

/-! ### norms -/

lemma dot_le (a b : V3) : |a ⬝ᵥ b| ≤ norm a * norm b := by
  rw [← sqrt_sq_eq_abs]
  refine sqrt_le_iff.2 ⟨mul_nonneg (norm_nonneg _) (norm_nonneg _), ?_⟩
  rw [mul_pow, norm_sq, norm_sq, dot3]
  nlinarith [sq_nonneg (a 0 * b 1 - a 1 * b 0), sq_nonneg (a 0 * b 2 - a 2 * b 0), sq_nonneg (a 1 * b 2 - a 2 * b 1)]

lemma norm_add_le' (a b : V3) : norm (a + b) ≤ norm a + norm b := by
  refine abs_le_of_sq_le_sq' ?_ (add_nonneg (norm_nonneg _) (norm_nonneg _)) |>.2
  have h := (abs_le.1 (dot_le a b)).2
  rw [dot3] at h
  rw [add_sq, norm_sq, norm_sq, norm_sq]
  simp only [Pi.add_apply]
  nlinarith

lemma norm_sub_le' (a b : V3) : norm (a - b) ≤ norm a + norm b := by
  have := norm_add_le' a (-b)
  rw [norm_neg] at this
  rwa [sub_eq_add_neg]

/-- length of a quaternion -/
def len (y : Fin 4 → ℝ) : ℝ := √(y 0 ^ 2 + y 1 ^ 2 + y 2 ^ 2 + y 3 ^ 2)

lemma len_cons (u : V3) : len (vecCons 0 u) = norm u := by
  unfold len norm
  rw [vec0, vec1, vec2, vec3]
  congr 1
  ring

/-- the entries of dr_by_dq are bounded -/
lemma drByDq_bound (q : Quat) (hq : q.w ^ 2 + (q.v 0 ^ 2 + q.v 1 ^ 2 + q.v 2 ^ 2) = 1) (y : Fin 4 → ℝ) : norm (drByDq q *ᵥ y) ≤ 7 * len y := by
  have hv1 : norm q.v ≤ 1 := by
    have : norm q.v ^ 2 ≤ 1 := by rw [norm_sq]; nlinarith [sq_nonneg q.w]
    nlinarith [norm_nonneg q.v]
  have hv0 := norm_nonneg q.v
  have hsg : |sign q.w| = 1 := by unfold sign; split_ifs <;> simp
  have hy0 : |y 0| ≤ len y := by
    unfold len
    rw [← sqrt_sq_eq_abs]
    exact sqrt_le_sqrt (by nlinarith [sq_nonneg (y 1), sq_nonneg (y 2), sq_nonneg (y 3)])
  have hyu : norm ![y 1, y 2, y 3] ≤ len y := by
    unfold len norm
    refine sqrt_le_sqrt ?_
    simp only [cons_val_zero, cons_val_one, cons_val_two]
    show y 1 ^ 2 + y 2 ^ 2 + y 3 ^ 2 ≤ _
    nlinarith [sq_nonneg (y 0)]
  have hform : drByDq q *ᵥ y = (-2 * y 0) • q.v + (2 * sign q.w * (1 + norm q.v * norm q.v / 6)) • ![y 1, y 2, y 3] +
      (-2 * sign q.w * (2 / 3 + norm q.v * norm q.v / 5) * (q.v ⬝ᵥ ![y 1, y 2, y 3])) • q.v := by
    unfold drByDq
    dsimp only
    generalize 2 * sign q.w * (1 + norm q.v * norm q.v / 6) = T
    generalize -2 * sign q.w * (2 / 3 + norm q.v * norm q.v / 5) = N
    apply ext3 <;> simp only [mulVec, dot4, dot3, vec0, vec1, vec2, vec3, Pi.add_apply, Pi.smul_apply, smul_eq_mul]
    · show (-2 * q.v 0) * y 0 + (T * 1 + N * (q.v 0 * q.v 0)) * y 1 + (T * 0 + N * (q.v 0 * q.v 1)) * y 2 + (T * 0 + N * (q.v 0 * q.v 2)) * y 3 =
        -2 * y 0 * q.v 0 + T * y 1 + N * (q.v 0 * y 1 + q.v 1 * y 2 + q.v 2 * y 3) * q.v 0
      ring
    · show (-2 * q.v 1) * y 0 + (T * 0 + N * (q.v 1 * q.v 0)) * y 1 + (T * 1 + N * (q.v 1 * q.v 1)) * y 2 + (T * 0 + N * (q.v 1 * q.v 2)) * y 3 =
        -2 * y 0 * q.v 1 + T * y 2 + N * (q.v 0 * y 1 + q.v 1 * y 2 + q.v 2 * y 3) * q.v 1
      ring
    · show (-2 * q.v 2) * y 0 + (T * 0 + N * (q.v 2 * q.v 0)) * y 1 + (T * 0 + N * (q.v 2 * q.v 1)) * y 2 + (T * 1 + N * (q.v 2 * q.v 2)) * y 3 =
        -2 * y 0 * q.v 2 + T * y 3 + N * (q.v 0 * y 1 + q.v 1 * y 2 + q.v 2 * y 3) * q.v 2
      ring
  rw [hform]
  have hvv : norm q.v * norm q.v ≤ 1 := by nlinarith
  have hvv0 : 0 ≤ norm q.v * norm q.v := by positivity
  have hl : 0 ≤ len y := sqrt_nonneg _
  have t1 : norm ((-2 * y 0) • q.v) ≤ 2 * len y := by
    rw [norm_smul, abs_mul]
    have : |(-2 : ℝ)| = 2 := by norm_num
    rw [this]
    nlinarith [abs_nonneg (y 0), mul_le_mul hy0 hv1 hv0 hl]
  have t2 : norm ((2 * sign q.w * (1 + norm q.v * norm q.v / 6)) • ![y 1, y 2, y 3]) ≤ 7 / 3 * len y := by
    rw [norm_smul, abs_mul, abs_mul, hsg, abs_of_nonneg (by positivity : (0 : ℝ) ≤ 1 + norm q.v * norm q.v / 6)]
    have : |(2 : ℝ)| = 2 := by norm_num
    rw [this]
    have h2 : 2 * 1 * (1 + norm q.v * norm q.v / 6) ≤ 7 / 3 := by linarith
    exact mul_le_mul h2 hyu (norm_nonneg _) (by norm_num)
  have t3 : norm ((-2 * sign q.w * (2 / 3 + norm q.v * norm q.v / 5) * (q.v ⬝ᵥ ![y 1, y 2, y 3])) • q.v) ≤ 26 / 15 * len y := by
    rw [norm_smul, abs_mul, abs_mul, abs_mul, hsg, abs_of_nonneg (by positivity : (0 : ℝ) ≤ 2 / 3 + norm q.v * norm q.v / 5)]
    have : |(-2 : ℝ)| = 2 := by norm_num
    rw [this]
    have h2 : 2 * 1 * (2 / 3 + norm q.v * norm q.v / 5) ≤ 26 / 15 := by linarith
    have h3 : |q.v ⬝ᵥ ![y 1, y 2, y 3]| ≤ len y := by
      refine (dot_le _ _).trans ?_
      calc norm q.v * norm ![y 1, y 2, y 3] ≤ 1 * len y := mul_le_mul hv1 hyu (norm_nonneg _) (by norm_num)
        _ = len y := one_mul _
    have h4 : 2 * 1 * (2 / 3 + norm q.v * norm q.v / 5) * |q.v ⬝ᵥ ![y 1, y 2, y 3]| ≤ 26 / 15 * len y := mul_le_mul h2 h3 (abs_nonneg _) (by norm_num)
    calc _ ≤ 26 / 15 * len y * 1 := mul_le_mul h4 hv1 hv0 (by positivity)
      _ = _ := mul_one _
  have := norm_add_le' ((-2 * y 0) • q.v + (2 * sign q.w * (1 + norm q.v * norm q.v / 6)) • ![y 1, y 2, y 3])
    ((-2 * sign q.w * (2 / 3 + norm q.v * norm q.v / 5) * (q.v ⬝ᵥ ![y 1, y 2, y 3])) • q.v)
  have := norm_add_le' ((-2 * y 0) • q.v) ((2 * sign q.w * (1 + norm q.v * norm q.v / 6)) • ![y 1, y 2, y 3])
  linarith

/-- multiplication with a unit quaternion keeps the length -/
lemma len_left (q : Quat) (hq : q.w ^ 2 + (q.v 0 ^ 2 + q.v 1 ^ 2 + q.v 2 ^ 2) = 1) (y : Fin 4 → ℝ) : len (dq2q1ByDq1 q *ᵥ y) = len y := by
  have h : dq2q1ByDq1 q *ᵥ y = comps (q.toH * (⟨y 0, ![y 1, y 2, y 3]⟩ : Quat).toH) := by
    rw [← (C79_product ⟨y 0, ![y 1, y 2, y 3]⟩ q).1]
    congr 1
    exact ext4 rfl rfl rfl rfl
  rw [h]
  unfold len comps
  rw [Quaternion.re_mul, Quaternion.imI_mul, Quaternion.imJ_mul, Quaternion.imK_mul]
  unfold Quat.toH
  congr 1
  simp only [cons_val]
  linear_combination (y 0 ^ 2 + y 1 ^ 2 + y 2 ^ 2 + y 3 ^ 2) * hq

lemma len_right (q : Quat) (hq : q.w ^ 2 + (q.v 0 ^ 2 + q.v 1 ^ 2 + q.v 2 ^ 2) = 1) (y : Fin 4 → ℝ) : len (dq2q1ByDq2 q *ᵥ y) = len y := by
  have h : dq2q1ByDq2 q *ᵥ y = comps ((⟨y 0, ![y 1, y 2, y 3]⟩ : Quat).toH * q.toH) := by
    rw [← (C79_product q ⟨y 0, ![y 1, y 2, y 3]⟩).2]
    congr 1
    exact ext4 rfl rfl rfl rfl
  rw [h]
  unfold len comps
  rw [Quaternion.re_mul, Quaternion.imI_mul, Quaternion.imJ_mul, Quaternion.imK_mul]
  unfold Quat.toH
  congr 1
  simp only [cons_val]
  linear_combination (y 0 ^ 2 + y 1 ^ 2 + y 2 ^ 2 + y 3 ^ 2) * hq

/-! ### the chain -/

/-- dq_by_dr, also without rotation -/
lemma dqByDr_near (r d : V3) : ∃ ε : V3, norm ε ≤ (norm r ^ 4 / 3840 + norm r ^ 6 / 92160) * norm d ∧ dQuat r d = dqByDr (quat r) r *ᵥ d + vecCons 0 ε := by
  by_cases hr : r = 0
  · refine ⟨0, by rw [norm_zero]; have := norm_nonneg d; have := norm_nonneg r; positivity, ?_⟩
    rw [hr, dQuat_zero, quat_zero]
    unfold dqByDr
    apply ext4 <;> simp only [Pi.add_apply, vec0, vec1, vec2, vec3, mulVec, dot3] <;> simp [vecMulVec, Matrix.one_apply]
  · obtain ⟨e1, e2, h1, h2, h3⟩ := C79_quaternion_of_vector hr d
    refine ⟨e1 • d + (e2 * (r ⬝ᵥ d)) • r, ?_, (quat_deriv hr d).unique h3⟩
    refine (norm_add_le' _ _).trans ?_
    rw [norm_smul, norm_smul, abs_mul, add_mul]
    have hd := norm_nonneg d
    have hn := norm_nonneg r
    refine add_le_add (mul_le_mul_of_nonneg_right h1 hd) ?_
    calc |e2| * |r ⬝ᵥ d| * norm r ≤ norm r ^ 4 / 92160 * (norm r * norm d) * norm r :=
          mul_le_mul_of_nonneg_right (mul_le_mul h2 (dot_le r d) (abs_nonneg _) (by positivity)) hn
      _ = _ := by ring

/-- dr_by_dq, also without rotation -/
lemma drByDq_near (r d : V3) (hpi : norm r < π) : norm (drByDq (quat r) *ᵥ dQuat r d - d) ≤ norm r ^ 4 / 100 * norm d := by
  by_cases hr : r = 0
  · have : drByDq (quat r) *ᵥ dQuat r d = d := by
      rw [hr, dQuat_zero, quat_zero]
      unfold drByDq sign
      apply ext3 <;> simp only [mulVec, dot4, vec0, vec1, vec2, vec3] <;> simp [vecMulVec, Matrix.one_apply]
    rw [this, sub_self, norm_zero]
    have := norm_nonneg d
    have := norm_nonneg r
    positivity
  · obtain ⟨e1, e2, h1, h2, -, h4⟩ := C79_vector_of_quaternion_partial hr hpi d
    have hp := norm_pos hr
    have hd := norm_nonneg d
    rw [h4]
    rw [show d + e1 • (d - ((r ⬝ᵥ d) / norm r ^ 2) • r) + (e2 * ((r ⬝ᵥ d) / norm r ^ 2)) • r - d =
      e1 • (d - ((r ⬝ᵥ d) / norm r ^ 2) • r) + e2 • (((r ⬝ᵥ d) / norm r ^ 2) • r) by rw [smul_smul]; abel]
    have hproj : norm (((r ⬝ᵥ d) / norm r ^ 2) • r) ≤ norm d := by
      rw [norm_smul, abs_div, abs_of_pos (by positivity : 0 < norm r ^ 2)]
      have := dot_le r d
      rw [div_mul_eq_mul_div, div_le_iff₀ (by positivity)]
      nlinarith
    have hperp : norm (d - ((r ⬝ᵥ d) / norm r ^ 2) • r) ≤ norm d := by
      refine abs_le_of_sq_le_sq' ?_ hd |>.2
      have hs : norm (d - ((r ⬝ᵥ d) / norm r ^ 2) • r) ^ 2 = norm d ^ 2 - (r ⬝ᵥ d) ^ 2 / norm r ^ 2 := by
        have hr2 := norm_sq r
        have hx : norm (d - ((r ⬝ᵥ d) / norm r ^ 2) • r) ^ 2 = norm d ^ 2 - 2 * ((r ⬝ᵥ d) / norm r ^ 2) * (r ⬝ᵥ d) + ((r ⬝ᵥ d) / norm r ^ 2) ^ 2 * norm r ^ 2 := by
          generalize (r ⬝ᵥ d) / norm r ^ 2 = k
          rw [norm_sq, norm_sq, hr2, dot3]
          simp only [Pi.sub_apply, Pi.smul_apply, smul_eq_mul]
          ring
        rw [hx]
        field_simp
        ring
      rw [hs]
      have : 0 ≤ (r ⬝ᵥ d) ^ 2 / norm r ^ 2 := by positivity
      linarith
    refine (norm_add_le' _ _).trans ?_
    rw [norm_smul, norm_smul]
    have t1 : |e1| * norm (d - ((r ⬝ᵥ d) / norm r ^ 2) • r) ≤ norm r ^ 4 / 200 * norm d := mul_le_mul h1 hperp (norm_nonneg _) (by positivity)
    have t2 : |e2| * norm (((r ⬝ᵥ d) / norm r ^ 2) • r) ≤ norm r ^ 4 * 3 / 640 * norm d := mul_le_mul h2 hproj (norm_nonneg _) (by positivity)
    have : 0 ≤ norm r ^ 4 * norm d := by positivity
    nlinarith

/-- q and -q stand for the same rotation -/
def Quat.neg (q : Quat) : Quat := ⟨-q.w, -q.v⟩

/-- **C79** Both quaternions of a rotation lead to the same change of the rotation vector (also beyond a half turn, where the real part
is negative), unless the real part is 0. -/
theorem C79_both_quaternions (q : Quat) (hw : q.w ≠ 0) (y : Fin 4 → ℝ) : drByDq q.neg *ᵥ (-y) = drByDq q *ᵥ y := by
  have hs : sign (-q.w) = -sign q.w := by
    unfold sign
    rcases lt_or_gt_of_ne hw with h | h
    · rw [if_pos (by linarith), if_neg (by linarith)]; norm_num
    · rw [if_neg (by linarith), if_pos h]
  have : drByDq q.neg = -drByDq q := by
    unfold drByDq Quat.neg
    dsimp only
    rw [norm_neg, hs]
    ext i j
    refine Fin.cases ?_ (fun j => ?_) j
    · show -2 * (-q.v i) = -(-2 * q.v i)
      ring
    · show 2 * -sign q.w * (1 + norm q.v * norm q.v / 6) * (1 : M3) i j + -2 * -sign q.w * (2 / 3 + norm q.v * norm q.v / 5) * (-q.v i * -q.v j) =
        -(2 * sign q.w * (1 + norm q.v * norm q.v / 6) * (1 : M3) i j + -2 * sign q.w * (2 / 3 + norm q.v * norm q.v / 5) * (q.v i * q.v j))
      ring
  rw [this, Matrix.neg_mulVec_neg]

/-- the quaternion of r or the other one -/
def signed (neg : Bool) (q : Quat) : Quat := if neg then q.neg else q

lemma chain (M : Matrix (Fin 4) (Fin 4) ℝ) (hM : ∀ y, len (M *ᵥ y) = len y) (neg : Bool) (a d : V3) (ρ : ℝ → V3) (ρ' : V3) (hρ : HasDerivAt ρ ρ' 0)
    (hpi : norm (ρ 0) < π) (h : ∀ s, (signed neg (quat (ρ s))).vec = M *ᵥ (quat (a + s • d)).vec) :
    norm ((drByDq (signed neg (quat (ρ 0))) * M * dqByDr (quat a) a) *ᵥ d - ρ') ≤
      norm (ρ 0) ^ 4 / 100 * norm ρ' + (norm a ^ 4 / 500 + norm a ^ 6 / 13000) * norm d := by
  have hlin : HasDerivAt (fun s : ℝ => a + s • d) d 0 := by
    have := ((hasDerivAt_id' (0 : ℝ)).smul_const d).const_add a
    rwa [one_smul] at this
  have hq := quat_curve hlin
  rw [zero_smul, add_zero] at hq
  have hMq : HasDerivAt (fun s : ℝ => M *ᵥ (quat (a + s • d)).vec) (M *ᵥ dQuat a d) 0 := by
    rw [hasDerivAt_pi] at hq ⊢
    intro i
    simp only [mulVec, dot4]
    exact ((((hq 0).const_mul (M i 0)).add ((hq 1).const_mul (M i 1))).add ((hq 2).const_mul (M i 2))).add ((hq 3).const_mul (M i 3))
  have hcos : (quat (ρ 0)).w ≠ 0 := by
    have hn := norm_nonneg (ρ 0)
    exact (cos_pos_of_mem_Ioo ⟨by linarith [pi_pos], by linarith⟩).ne'
  have hN : drByDq (signed neg (quat (ρ 0))) *ᵥ (M *ᵥ dQuat a d) = drByDq (quat (ρ 0)) *ᵥ dQuat (ρ 0) ρ' := by
    have hfun : (fun s : ℝ => M *ᵥ (quat (a + s • d)).vec) = fun s => (signed neg (quat (ρ s))).vec := by
      funext s
      exact (h s).symm
    rw [hfun] at hMq
    cases neg with
    | false =>
      have := hMq.unique (quat_curve hρ)
      rw [this]
      rfl
    | true =>
      have hneg : (fun s => (signed true (quat (ρ s))).vec) = fun s => -(quat (ρ s)).vec := by
        funext s
        exact ext4 rfl rfl rfl rfl
      rw [hneg] at hMq
      have := hMq.unique (quat_curve hρ).neg
      rw [this]
      exact C79_both_quaternions _ hcos _
  obtain ⟨ε, hε, he⟩ := dqByDr_near a d
  have hs : (drByDq (signed neg (quat (ρ 0))) * M * dqByDr (quat a) a) *ᵥ d - ρ' =
      (drByDq (quat (ρ 0)) *ᵥ dQuat (ρ 0) ρ' - ρ') - drByDq (signed neg (quat (ρ 0))) *ᵥ (M *ᵥ vecCons 0 ε) := by
    rw [← hN, he, Matrix.mulVec_add, Matrix.mulVec_add, ← Matrix.mulVec_mulVec, ← Matrix.mulVec_mulVec]
    abel
  have hunit : (signed neg (quat (ρ 0))).w ^ 2 + ((signed neg (quat (ρ 0))).v 0 ^ 2 + (signed neg (quat (ρ 0))).v 1 ^ 2 + (signed neg (quat (ρ 0))).v 2 ^ 2) = 1 := by
    cases neg with
    | false => exact unit_quat (ρ 0)
    | true =>
      show (-(quat (ρ 0)).w) ^ 2 + ((-(quat (ρ 0)).v 0) ^ 2 + (-(quat (ρ 0)).v 1) ^ 2 + (-(quat (ρ 0)).v 2) ^ 2) = 1
      have := unit_quat (ρ 0)
      linarith
  rw [hs]
  refine (norm_sub_le' _ _).trans ?_
  have t1 := drByDq_near (ρ 0) ρ' hpi
  have t2 := drByDq_bound _ hunit (M *ᵥ vecCons 0 ε)
  rw [hM, len_cons] at t2
  have hd := norm_nonneg d
  have ha := norm_nonneg a
  have : 0 ≤ norm a ^ 4 * norm d := by positivity
  have : 0 ≤ norm a ^ 6 * norm d := by positivity
  nlinarith

/-- **C79 (partial), composition** Let r1 and r2 be the rotation vectors of two transforms and let r1 be disturbed in the direction d. If ρ describes the rotation vector of
the composed rotation (ρ belongs to the quaternion q2 q1 or its negative, whatever the conversion returns), then dr2r1_by_r1 applied to d gives the change of ρ up to fourth order terms in the
angles; the same for disturbances of r2. Missing for the full claim: a composed rotation by exactly a half turn (`C79_half_turn_wrong`). -/
theorem C79_composition_partial (r1 r2 d : V3) (neg : Bool) (ρ : ℝ → V3) (ρ' : V3) (hρ : HasDerivAt ρ ρ' 0) (hpi : norm (ρ 0) < π) :
    ((∀ s : ℝ, (signed neg (quat (ρ s))).vec = comps ((quat r2).toH * (quat (r1 + s • d)).toH)) →
      norm (dr2r1ByR1 (signed neg (quat (ρ 0))) (quat r1) (quat r2) r1 *ᵥ d - ρ') ≤
        norm (ρ 0) ^ 4 / 100 * norm ρ' + (norm r1 ^ 4 / 500 + norm r1 ^ 6 / 13000) * norm d) ∧
    ((∀ s : ℝ, (signed neg (quat (ρ s))).vec = comps ((quat (r2 + s • d)).toH * (quat r1).toH)) →
      norm (dr2r1ByR2 (signed neg (quat (ρ 0))) (quat r1) (quat r2) r2 *ᵥ d - ρ') ≤
        norm (ρ 0) ^ 4 / 100 * norm ρ' + (norm r2 ^ 4 / 500 + norm r2 ^ 6 / 13000) * norm d) := by
  constructor
  · intro h
    exact chain _ (len_left _ (unit_quat r2)) neg r1 d ρ ρ' hρ hpi fun s => by rw [h, (C79_product _ _).1]
  · intro h
    exact chain _ (len_right _ (unit_quat r1)) neg r2 d ρ ρ' hρ hpi fun s => by rw [h, (C79_product _ _).2]

/-- two rotations about z -/
example : ∃ (ρ : ℝ → V3) (ρ' : V3), HasDerivAt ρ ρ' 0 ∧ norm (ρ 0) < π ∧ ρ 0 ≠ 0 ∧
    ∀ s : ℝ, (signed false (quat (ρ s))).vec = comps ((quat ![0, 0, 1]).toH * (quat (![0, 0, 1 / 2] + s • ![0, 0, 1])).toH) := by
  have hax : ∀ t : ℝ, quat ![0, 0, t] = ⟨cos (t / 2), ![0, 0, sin (t / 2)]⟩ := by
    intro t
    have hn : norm ![0, 0, t] = |t| := by
      unfold norm
      simp only [cons_val_zero, cons_val_one, cons_val_two]
      rw [← sqrt_sq_eq_abs]
      congr 1
      simp
    unfold quat
    rw [hn]
    have h1 : cos (|t| / 2) = cos (t / 2) := by
      rcases abs_choice t with h | h <;> rw [h]
      rw [neg_div, cos_neg]
    have h2 : sinc (|t| / 2) / 2 * t = sin (t / 2) := by
      have h3 : sinc (|t| / 2) = sinc (t / 2) := by
        rcases abs_choice t with h | h <;> rw [h]
        rw [neg_div, sinc_neg]
      rw [h3, ← sinc_mul (t / 2)]
      ring
    rw [h1]
    congr 1
    apply ext3
    · simp
    · simp
    · show sinc (|t| / 2) / 2 * t = sin (t / 2)
      exact h2
  have hsum : ∀ s : ℝ, (![0, 0, 1 / 2] + s • ![0, 0, 1] : V3) = ![0, 0, 1 / 2 + s] := by
    intro s
    apply ext3 <;> simp
  refine ⟨fun s => ![0, 0, 3 / 2 + s], ![0, 0, 1], ?_, ?_, ?_, ?_⟩
  · rw [hasDerivAt_pi]
    intro i
    fin_cases i
    · exact hasDerivAt_const _ _
    · exact hasDerivAt_const _ _
    · exact (hasDerivAt_id' (0 : ℝ)).const_add _
  · have : norm (![0, 0, 3 / 2 + 0] : V3) = 3 / 2 := by
      have h2 : (![0, 0, 3 / 2 + 0] : V3) = (3 / 2 : ℝ) • ![0, 0, 1] := by apply ext3 <;> simp
      rw [h2, norm_axis (by simp [norm]) (by norm_num)]
    rw [this]
    linarith [pi_gt_three]
  · intro h
    have := congrFun h 2
    simp at this
  · intro s
    rw [hsum, hax, hax, hax]
    unfold comps
    rw [Quaternion.re_mul, Quaternion.imI_mul, Quaternion.imJ_mul, Quaternion.imK_mul]
    have e1 := cos_add (1 / 2 : ℝ) ((1 / 2 + s) / 2)
    have e2 := sin_add (1 / 2 : ℝ) ((1 / 2 + s) / 2)
    have e3 : (1 / 2 : ℝ) + (1 / 2 + s) / 2 = (3 / 2 + s) / 2 := by ring
    rw [e3] at e1 e2
    unfold signed Quat.toH Quat.vec
    apply ext4
    · simp [vec0, e1]
    · simp [vec1]
    · simp [vec2]
    · show sin ((3 / 2 + s) / 2) = _
      simp [e2]
      ring

end
end Envire.Err

#print axioms Envire.Err.C79_both_quaternions
#print axioms Envire.Err.C79_composition_partial
