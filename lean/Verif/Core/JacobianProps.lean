import Verif.Core.JacobianLemmas
import Mathlib.Analysis.Calculus.Deriv.Prod
import Mathlib.Analysis.Calculus.Deriv.Slope
import Mathlib.Algebra.Quaternion
import Mathlib.Analysis.Real.Pi.Bounds
/-! Properties C77, C78, C79: the Jacobians that propagate the uncertainty of transforms. -/
namespace Envire.Err
noncomputable section
open Matrix Real

/-! ### derivatives -/

private lemma lin (r d : V3) (i : Fin 3) : HasDerivAt (fun s : ℝ => (r + s • d) i) (d i) 0 := by
  have h := ((hasDerivAt_id' (0 : ℝ)).mul_const (d i)).const_add (r i)
  rw [one_mul] at h
  exact h

private lemma norm_deriv {r : V3} (hr : r ≠ 0) (d : V3) : HasDerivAt (fun s : ℝ => norm (r + s • d)) ((r ⬝ᵥ d) / norm r) 0 := by
  have hpos := norm_pos hr
  have h := (((lin r d 0).pow 2).add ((lin r d 1).pow 2)).add ((lin r d 2).pow 2)
  have h2 := h.sqrt (by
    show (r + (0 : ℝ) • d) 0 ^ 2 + (r + (0 : ℝ) • d) 1 ^ 2 + (r + (0 : ℝ) • d) 2 ^ 2 ≠ 0
    rw [zero_smul, add_zero, ← norm_sq]
    positivity)
  refine h2.congr_deriv ?_
  show _ / (2 * norm (r + (0 : ℝ) • d)) = _
  rw [zero_smul, add_zero, dot3]
  push_cast
  field_simp

private lemma sinc_deriv {t : ℝ} (ht : t ≠ 0) : HasDerivAt sinc ((t * cos t - sin t) / t ^ 2) t := by
  have h := (hasDerivAt_sin t).div (hasDerivAt_id' t) ht
  refine HasDerivAt.congr_of_eventuallyEq (h.congr_deriv (by ring)) ?_
  filter_upwards [isOpen_ne.mem_nhds ht] with y hy
  exact sinc_of_ne_zero hy

private lemma half_deriv {t : ℝ} (ht : t ≠ 0) : HasDerivAt (fun t => sinc (t / 2) ^ 2 / 2) ((t * sin t - 2 + 2 * cos t) / t ^ 3) t := by
  have h := ((hasDerivAt_cos t).const_sub 1).div ((hasDerivAt_id' t).pow 2) (pow_ne_zero 2 ht)
  refine HasDerivAt.congr_of_eventuallyEq (h.congr_deriv ?_) ?_
  · show (- -sin t * t ^ 2 - (1 - cos t) * (((2 : ℕ) : ℝ) * t ^ (2 - 1) * 1)) / (t ^ 2) ^ 2 = _
    push_cast; field_simp; ring
  · filter_upwards [isOpen_ne.mem_nhds ht] with y hy
    have hy' : y ≠ 0 := hy
    show _ = (1 - cos y) / y ^ 2
    rw [← sinc_half y]
    field_simp

/-- the exact coefficients of the derivative of the rotation -/
def aC (r : V3) : ℝ := sinc (norm r)
def bC (r : V3) : ℝ := sinc (norm r / 2) ^ 2 / 2
def cC (r : V3) : ℝ := (norm r * cos (norm r) - sin (norm r)) / norm r ^ 3
def dC (r : V3) : ℝ := (norm r * sin (norm r) - 2 + 2 * cos (norm r)) / norm r ^ 4

/-- the shape of the derivative of the rotation r ↦ R(r) x in direction d -/
def combine (a b c e : ℝ) (r x d : V3) : V3 :=
  a • crossProduct d x + b • (crossProduct d (crossProduct r x) + crossProduct r (crossProduct d x)) +
    (r ⬝ᵥ d) • (c • crossProduct r x + e • crossProduct r (crossProduct r x))

/-- the derivative of the rotation -/
theorem rotate_deriv {r : V3} (hr : r ≠ 0) (x d : V3) :
    HasDerivAt (fun s : ℝ => rotate (r + s • d) x) (combine (aC r) (bC r) (cC r) (dC r) r x d) 0 := by
  have hpos := norm_pos hr
  have h0 : norm (r + (0 : ℝ) • d) = norm r := by rw [zero_smul, add_zero]
  have hn := norm_deriv hr d
  have hc : HasDerivAt (fun s : ℝ => cos (norm (r + s • d))) (-(aC r * (r ⬝ᵥ d))) 0 := by
    have h := hn.cos
    refine h.congr_deriv ?_
    rw [h0]; unfold aC; rw [sinc_of_ne_zero hpos.ne']; ring
  have ha : HasDerivAt (fun s : ℝ => sinc (norm (r + s • d))) (cC r * (r ⬝ᵥ d)) 0 := by
    have h := HasDerivAt.comp (0 : ℝ) (h₂ := sinc) (by rw [h0]; exact sinc_deriv hpos.ne') hn
    refine h.congr_deriv ?_
    unfold cC; field_simp
  have hb : HasDerivAt (fun s : ℝ => sinc (norm (r + s • d) / 2) ^ 2 / 2) (dC r * (r ⬝ᵥ d)) 0 := by
    have h := HasDerivAt.comp (0 : ℝ) (h₂ := fun t => sinc (t / 2) ^ 2 / 2) (by rw [h0]; exact half_deriv hpos.ne') hn
    refine h.congr_deriv ?_
    unfold dC; field_simp
  -- 2 b + e θ² = a
  have hrel : aC r = 2 * bC r + dC r * (r 0 ^ 2 + r 1 ^ 2 + r 2 ^ 2) := by
    rw [← norm_sq]
    have h1 : bC r = (1 - cos (norm r)) / norm r ^ 2 := by
      unfold bC; rw [← sinc_half (norm r)]; field_simp
    rw [h1]; unfold aC dC; rw [sinc_of_ne_zero hpos.ne']; field_simp; ring
  have hdot : HasDerivAt (fun s : ℝ => (r + s • d) ⬝ᵥ x) (d ⬝ᵥ x) 0 := by
    have h := ((((lin r d 0).mul_const (x 0)).add ((lin r d 1).mul_const (x 1)))).add ((lin r d 2).mul_const (x 2))
    rw [dot3 d x]
    simp only [dot3]
    exact h
  rw [hasDerivAt_pi]
  have key : ∀ (i : Fin 3) (X X' : ℝ), HasDerivAt (fun s : ℝ => crossProduct (r + s • d) x i) X' 0 → crossProduct r x i = X →
      HasDerivAt (fun s : ℝ => rotate (r + s • d) x i)
        (-(aC r * (r ⬝ᵥ d)) * x i + (cC r * (r ⬝ᵥ d) * X + aC r * X') + ((dC r * (r ⬝ᵥ d) * (r ⬝ᵥ x) + bC r * (d ⬝ᵥ x)) * r i + bC r * (r ⬝ᵥ x) * d i)) 0 := by
    intro i X X' hX hX0
    have h := ((hc.mul_const (x i)).add (ha.mul hX)).add ((hb.mul hdot).mul (lin r d i))
    refine h.congr_deriv ?_
    simp only [zero_smul, add_zero, Pi.mul_apply]
    rw [hX0]
    unfold aC bC
    ring
  intro i
  fin_cases i
  · refine (key 0 _ (d 1 * x 2 - d 2 * x 1) ?_ (cross0 r x)).congr_deriv ?_
    · simp only [cross0]
      exact ((lin r d 1).mul_const (x 2)).sub ((lin r d 2).mul_const (x 1))
    · show _ = combine (aC r) (bC r) (cC r) (dC r) r x d 0
      unfold combine
      simp only [Pi.add_apply, Pi.smul_apply, smul_eq_mul, cross0, cross1, cross2, dot3]
      linear_combination (-(r 0 * d 0 + r 1 * d 1 + r 2 * d 2) * x 0) * hrel
  · refine (key 1 _ (d 2 * x 0 - d 0 * x 2) ?_ (cross1 r x)).congr_deriv ?_
    · simp only [cross1]
      exact ((lin r d 2).mul_const (x 0)).sub ((lin r d 0).mul_const (x 2))
    · show _ = combine (aC r) (bC r) (cC r) (dC r) r x d 1
      unfold combine
      simp only [Pi.add_apply, Pi.smul_apply, smul_eq_mul, cross0, cross1, cross2, dot3]
      linear_combination (-(r 0 * d 0 + r 1 * d 1 + r 2 * d 2) * x 1) * hrel
  · refine (key 2 _ (d 0 * x 1 - d 1 * x 0) ?_ (cross2 r x)).congr_deriv ?_
    · simp only [cross2]
      exact ((lin r d 0).mul_const (x 1)).sub ((lin r d 1).mul_const (x 0))
    · show _ = combine (aC r) (bC r) (cC r) (dC r) r x d 2
      unfold combine
      simp only [Pi.add_apply, Pi.smul_apply, smul_eq_mul, cross0, cross1, cross2, dot3]
      linear_combination (-(r 0 * d 0 + r 1 * d 1 + r 2 * d 2) * x 2) * hrel

/-- the derivative of the rotation at r = 0 -/
theorem rotate_deriv_zero (x d : V3) : HasDerivAt (fun s : ℝ => rotate (s • d) x) (crossProduct d x) 0 := by
  have hmul : ∀ g : ℝ → ℝ, Continuous g → HasDerivAt (fun s => g s * s) (g 0) 0 := by
    intro g hg
    rw [hasDerivAt_iff_tendsto_slope]
    have h1 : Filter.Tendsto g (nhdsWithin 0 {0}ᶜ) (nhds (g 0)) := hg.continuousAt.tendsto.mono_left nhdsWithin_le_nhds
    refine h1.congr' ?_
    filter_upwards [self_mem_nhdsWithin] with s hs
    have hs' : s ≠ 0 := hs
    rw [slope_def_field]
    field_simp
    ring
  have hnorm : Continuous fun s : ℝ => norm (s • d) := by
    have : (fun s : ℝ => norm (s • d)) = fun s => |s| * norm d := by funext s; exact norm_smul s d
    rw [this]
    exact continuous_abs.mul continuous_const
  have hs := hmul (fun s => sinc (norm (s • d))) (continuous_sinc.comp hnorm)
  have hq := hmul (fun s => sinc (norm (s • d) / 2) ^ 2 / 2 * s) ((((continuous_sinc.comp (hnorm.div_const 2)).pow 2).div_const 2).mul continuous_id)
  have e0 : sinc (norm ((0 : ℝ) • d)) = 1 := by simp
  rw [e0] at hs
  rw [mul_zero] at hq
  have heq : (fun s : ℝ => rotate (s • d) x) = fun s => x + (sinc (norm (s • d)) * s) • crossProduct d x +
      (sinc (norm (s • d) / 2) ^ 2 / 2 * s * s) • crossProduct d (crossProduct d x) := by
    funext s
    have hc : cos (norm (s • d)) = 1 - norm (s • d) ^ 2 * (sinc (norm (s • d) / 2) ^ 2 / 2) := by linarith [sinc_half (norm (s • d))]
    unfold rotate
    rw [hc, norm_sq]
    generalize sinc (norm (s • d)) = a
    generalize sinc (norm (s • d) / 2) ^ 2 / 2 = b
    apply ext3 <;> simp only [Pi.add_apply, Pi.smul_apply, smul_eq_mul, cross0, cross1, cross2, dot3] <;> ring
  rw [heq]
  have h := (((hs.smul_const (crossProduct d x)).const_add x)).add (hq.smul_const (crossProduct d (crossProduct d x)))
  refine h.congr_deriv ?_
  simp

private lemma cos_lt_one_sub {t : ℝ} (h0 : 0 < t) (h2 : t ≤ 2) : cos t < 1 := by
  have h := cos_le4 h0.le
  have h3 : 0 < t ^ 2 := by positivity
  have h4 : 0 ≤ 4 - t ^ 2 := by nlinarith
  have h5 : t ^ 4 ≤ 4 * t ^ 2 := by nlinarith [mul_nonneg h3.le h4]
  linarith

/-! ### C77: rotating a point with an uncertain rotation -/

/-- the matrix of the code in terms of cross products -/
lemma drx_mulVec (r x d : V3) : drxByDr r x *ᵥ d =
    combine (1 - norm r ^ 2 / 6) (1 / 2 - norm r ^ 2 / 24) (1 / 3 - norm r ^ 2 / 30) (-1 / 12 + norm r ^ 2 / 180) r x d := by
  unfold drxByDr combine
  dsimp only
  rw [← pow_two]
  generalize norm r ^ 2 = n
  have hs : ∀ a b : V3, skew a *ᵥ b = crossProduct a b := by
    intro a b
    apply ext3 <;> simp only [mulVec, dot3, cross0, cross1, cross2] <;> simp [skew] <;> ring
  have hv : ∀ b : V3, vecMulVec r r *ᵥ b = (r ⬝ᵥ b) • r := by
    intro b
    apply ext3 <;> simp [vecMulVec, mulVec, dot3] <;> ring
  simp only [Matrix.sub_mulVec, ← Matrix.mulVec_mulVec, Matrix.add_mulVec, Matrix.smul_mulVec, Matrix.one_mulVec, Matrix.neg_mulVec, hs, hv]
  apply ext3 <;> simp only [Pi.add_apply, Pi.sub_apply, Pi.neg_apply, Pi.smul_apply, smul_eq_mul, cross0, cross1, cross2, dot3] <;> ring

/-- the Taylor polynomials of the code and the exact coefficients -/
lemma coeff_bounds {r : V3} (hr : r ≠ 0) :
    |1 - norm r ^ 2 / 6 - aC r| ≤ norm r ^ 4 / 120 ∧ |1 / 2 - norm r ^ 2 / 24 - bC r| ≤ norm r ^ 4 / 720 ∧
    |1 / 3 - norm r ^ 2 / 30 - cC r - (2 / 3 - norm r ^ 2 / 15)| ≤ norm r ^ 4 / 720 ∧ |-1 / 12 + norm r ^ 2 / 180 - dC r| ≤ norm r ^ 4 / 5040 := by
  have hp := norm_pos hr
  unfold aC bC cC dC
  rw [sinc_of_ne_zero hp.ne', show sinc (norm r / 2) ^ 2 / 2 = (1 - cos (norm r)) / norm r ^ 2 by rw [← sinc_half (norm r)]; field_simp]
  generalize norm r = t at hp
  have s1 := sin_ge_sub_cube hp.le
  have s2 := sin_le5 hp.le
  have s3 := le_sin7 hp.le
  have c1 := cos_le4 hp.le
  have c2 := le_cos6 hp.le
  have c3 := cos_le8 hp.le
  refine ⟨?_, ?_, ?_, ?_⟩ <;> rw [abs_le] <;> constructor
  · have : sin t / t ≤ 1 - t ^ 2 / 6 + t ^ 4 / 120 := by rw [div_le_iff₀ hp]; nlinarith
    linarith
  · have : 1 - t ^ 2 / 6 ≤ sin t / t := by rw [le_div_iff₀ hp]; nlinarith
    have : 0 ≤ t ^ 4 / 120 := by positivity
    linarith
  · have : (1 - cos t) / t ^ 2 ≤ 1 / 2 - t ^ 2 / 24 + t ^ 4 / 720 := by rw [div_le_iff₀ (by positivity)]; nlinarith
    linarith
  · have : 1 / 2 - t ^ 2 / 24 ≤ (1 - cos t) / t ^ 2 := by rw [le_div_iff₀ (by positivity)]; nlinarith
    have : 0 ≤ t ^ 4 / 720 := by positivity
    linarith
  · have : (t * cos t - sin t) / t ^ 3 ≤ -1 / 3 + t ^ 2 / 30 + t ^ 4 / 5040 := by
      rw [div_le_iff₀ (by positivity)]
      nlinarith [mul_le_mul_of_nonneg_left c1 hp.le]
    have : 0 ≤ t ^ 4 := by positivity
    linarith
  · have : -1 / 3 + t ^ 2 / 30 - t ^ 4 / 720 ≤ (t * cos t - sin t) / t ^ 3 := by
      rw [le_div_iff₀ (by positivity)]
      nlinarith [mul_le_mul_of_nonneg_left c2 hp.le]
    linarith
  · have : (t * sin t - 2 + 2 * cos t) / t ^ 4 ≤ -1 / 12 + t ^ 2 / 180 + t ^ 4 / 20160 := by
      rw [div_le_iff₀ (by positivity)]
      nlinarith [mul_le_mul_of_nonneg_left s2 hp.le]
    have : 0 ≤ t ^ 4 := by positivity
    linarith
  · have : -1 / 12 + t ^ 2 / 180 - t ^ 4 / 5040 ≤ (t * sin t - 2 + 2 * cos t) / t ^ 4 := by
      rw [le_div_iff₀ (by positivity)]
      nlinarith [mul_le_mul_of_nonneg_left s3 hp.le]
    linarith

/-- **C77 (partial)** How far drx_by_dr is from the derivative of the rotated point, for every rotation vector r, point x and direction d of the
rotation error. Two terms are the errors of the Taylor polynomials (fourth order in the angle) and concern all directions. The
third one has the coefficient 2/3 - θ²/15 (+ fourth order) instead of being small: the code is right for errors perpendicular to the axis (r ⬝ d = 0)
but not for errors of the angle. Full property: all coefficients are of fourth order. -/
theorem C77_rotated_point_partial (r x d : V3) : ∃ D : V3, ∃ e1 e2 e3 e4 : ℝ, HasDerivAt (fun s : ℝ => rotate (r + s • d) x) D 0 ∧
    |e1| ≤ norm r ^ 4 / 120 ∧ |e2| ≤ norm r ^ 4 / 720 ∧ |e3 - (2 / 3 - norm r ^ 2 / 15)| ≤ norm r ^ 4 / 720 ∧ |e4| ≤ norm r ^ 4 / 5040 ∧
    drxByDr r x *ᵥ d = D + e1 • crossProduct d x + e2 • (crossProduct d (crossProduct r x) + crossProduct r (crossProduct d x)) +
      (r ⬝ᵥ d) • (e3 • crossProduct r x + e4 • crossProduct r (crossProduct r x)) := by
  by_cases hr : r = 0
  · subst hr
    refine ⟨crossProduct d x, 0, 0, 2 / 3, 0, ?_, by simp, by simp, by simp, by simp, ?_⟩
    · simp only [zero_add]
      exact rotate_deriv_zero x d
    · rw [drx_mulVec]
      unfold combine
      simp
  · obtain ⟨h1, h2, h3, h4⟩ := coeff_bounds hr
    refine ⟨_, 1 - norm r ^ 2 / 6 - aC r, 1 / 2 - norm r ^ 2 / 24 - bC r, 1 / 3 - norm r ^ 2 / 30 - cC r, -1 / 12 + norm r ^ 2 / 180 - dC r,
      rotate_deriv hr x d, h1, h2, h3, h4, ?_⟩
    rw [drx_mulVec]
    unfold combine
    apply ext3 <;> simp only [Pi.add_apply, Pi.smul_apply, smul_eq_mul] <;> ring

/-- for errors perpendicular to the axis the derivative and the result of the code agree up to fourth order -/
example : ∃ D : V3, HasDerivAt (fun s : ℝ => rotate (![0, 0, 1 / 2] + s • ![1, 0, 0]) ![1, 2, 3]) D 0 ∧
    ∃ e1 e2 : ℝ, |e1| ≤ 1 / 1920 ∧ |e2| ≤ 1 / 11520 ∧ drxByDr ![0, 0, 1 / 2] ![1, 2, 3] *ᵥ ![1, 0, 0] = D + e1 • crossProduct ![1, 0, 0] ![1, 2, 3] +
      e2 • (crossProduct ![1, 0, 0] (crossProduct ![0, 0, 1 / 2] ![1, 2, 3]) + crossProduct ![0, 0, 1 / 2] (crossProduct ![1, 0, 0] ![1, 2, 3])) := by
  obtain ⟨D, e1, e2, e3, e4, h, b1, b2, _, _, he⟩ := C77_rotated_point_partial ![0, 0, 1 / 2] ![1, 2, 3] ![1, 0, 0]
  have hn : norm (![0, 0, 1 / 2] : V3) ^ 4 = 1 / 16 := by
    rw [show (4 : ℕ) = 2 * 2 from rfl, pow_mul, norm_sq]
    norm_num [cons_val_two]
  rw [hn] at b1 b2
  refine ⟨D, h, e1, e2, by linarith, by linarith, ?_⟩
  rw [he]
  simp [dot3]

/-- **C77, the code violates the property** A rotation by θ about z turns the point (1, 0, 0) to (cos θ, sin θ, 0), so its y coordinate
changes by cos θ ≤ 1 per unit of the angle. The code says 1 + θ²/6 - θ⁴/30, which is greater than 1 up to 2 rad. -/
theorem C77_angle_error_wrong {θ : ℝ} (h0 : 0 < θ) (h2 : θ ≤ 2) :
    (∀ s, |s| < θ → rotate (![0, 0, θ] + s • ![0, 0, 1]) ![1, 0, 0] = ![cos (θ + s), sin (θ + s), 0]) ∧
    HasDerivAt (fun s : ℝ => rotate (![0, 0, θ] + s • ![0, 0, 1]) ![1, 0, 0] 1) (cos θ) 0 ∧
    (drxByDr ![0, 0, θ] ![1, 0, 0] *ᵥ ![0, 0, 1]) 1 = 1 + θ ^ 2 / 6 - θ ^ 4 / 30 ∧ cos θ < 1 ∧ 1 < 1 + θ ^ 2 / 6 - θ ^ 4 / 30 := by
  have hz : norm (![0, 0, 1] : V3) = 1 := by simp [norm]
  have hrot : ∀ s, |s| < θ → rotate (![0, 0, θ] + s • ![0, 0, 1]) ![1, 0, 0] = ![cos (θ + s), sin (θ + s), 0] := by
    intro s hs
    have he : (![0, 0, θ] + s • ![0, 0, 1] : V3) = (θ + s) • ![0, 0, 1] := by apply ext3 <;> simp
    rw [he, rotate_axis hz _ (by rw [abs_lt] at hs; linarith [hs.1])]
    apply ext3 <;> simp only [Pi.add_apply, Pi.smul_apply, smul_eq_mul, cross0, cross1, cross2, dot3] <;> simp
  refine ⟨hrot, ?_, ?_, ?_, ?_⟩
  · have h := (hasDerivAt_sin (θ + 0)).comp (0 : ℝ) ((hasDerivAt_id' (0 : ℝ)).const_add θ)
    rw [add_zero, mul_one] at h
    refine h.congr_of_eventuallyEq ?_
    filter_upwards [Metric.ball_mem_nhds (0 : ℝ) h0] with s hs
    rw [Metric.mem_ball, dist_zero_right, Real.norm_eq_abs] at hs
    rw [hrot s hs]
    rfl
  · have hn : norm (![0, 0, θ] : V3) ^ 2 = θ ^ 2 := by rw [norm_sq]; simp
    rw [drx_mulVec, hn]
    unfold combine
    simp [cross0, cross1, cross2, dot3]
    ring
  · have := cos_lt_one_sub h0 h2
    exact this
  · have : 0 < θ ^ 2 * (5 - θ ^ 2) := by
      have : 0 < θ ^ 2 := by positivity
      have : θ ^ 2 ≤ 4 := by nlinarith
      nlinarith
    nlinarith

/-- **C77, propagation** The variance of the transformed point in direction u is the variance of the error of the transform in direction
(Dᵀ u, u), D = drx_by_dr, plus, if the point is uncertain, the variance of its error in direction Rᵀ u. -/
theorem C77_point_variance_partial (R : M3) (r : V3) (cov : M6) (x : V3) (pcov : Option M3) (u : V3) :
    u ⬝ᵥ (pointCov R r cov x pcov *ᵥ u) =
      Sum.elim ((drxByDr r x).transpose *ᵥ u) u ⬝ᵥ (cov *ᵥ Sum.elim ((drxByDr r x).transpose *ᵥ u) u) +
      match pcov with
      | none => 0
      | some p => (R.transpose *ᵥ u) ⬝ᵥ (p *ᵥ (R.transpose *ᵥ u)) := by
  have hJ : (Matrix.of fun i => Sum.elim (drxByDr r x i) ((1 : M3) i)).transpose *ᵥ u = Sum.elim ((drxByDr r x).transpose *ᵥ u) u := by
    funext k
    cases k with
    | inl k => rfl
    | inr k =>
      show (1 : M3).transpose k ⬝ᵥ u = u k
      have := congrFun (Matrix.one_mulVec u) k
      rw [Matrix.transpose_one]
      exact this
  have hq : ∀ {n : Type} [Fintype n] (J : Matrix (Fin 3) n ℝ) (P : Matrix n n ℝ), u ⬝ᵥ ((J * P * J.transpose) *ᵥ u) =
      (J.transpose *ᵥ u) ⬝ᵥ (P *ᵥ (J.transpose *ᵥ u)) := by
    intro n _ J P
    rw [← Matrix.mulVec_mulVec, ← Matrix.mulVec_mulVec, Matrix.dotProduct_mulVec, ← Matrix.mulVec_transpose]
  unfold pointCov
  dsimp only
  cases pcov with
  | none => dsimp only; rw [hq, hJ, add_zero]
  | some p => dsimp only; rw [Matrix.add_mulVec, dotProduct_add, hq, hq, hJ]

/-- **C77, consequence** A quarter turn about z maps (1, 0, 0) to (0, 1, 0). An error of the angle moves the result along x only, but if only
the angle is uncertain, the covariance of the result has a y variance greater than that of the angle. -/
theorem C77_quarter_turn_wrong (v : ℝ) (hv : 0 < v) (R : M3) :
    HasDerivAt (fun s : ℝ => rotate (![0, 0, π / 2] + s • ![0, 0, 1]) ![1, 0, 0] 1) 0 0 ∧
    v < pointCov R ![0, 0, π / 2] (Matrix.single (Sum.inl 2) (Sum.inl 2) v) ![1, 0, 0] none 1 1 := by
  have hlt : (π : ℝ) / 2 ≤ 2 := by linarith [pi_le_four]
  obtain ⟨-, h1, h2, -, h4⟩ := C77_angle_error_wrong (θ := π / 2) (by linarith [pi_pos]) hlt
  rw [cos_pi_div_two] at h1
  refine ⟨h1, ?_⟩
  have hg : drxByDr ![0, 0, π / 2] ![1, 0, 0] 1 2 = 1 + (π / 2) ^ 2 / 6 - (π / 2) ^ 4 / 30 := by
    rw [← h2]
    simp only [mulVec, dot3]
    simp
  have he : pointCov R ![0, 0, π / 2] (Matrix.single (Sum.inl 2) (Sum.inl 2) v) ![1, 0, 0] none 1 1 =
      drxByDr ![0, 0, π / 2] ![1, 0, 0] 1 2 ^ 2 * v := by
    unfold pointCov
    dsimp only
    rw [Matrix.mul_apply]
    simp only [Fintype.sum_sum_type, Fin.sum_univ_three, Matrix.mul_apply, Matrix.single_apply, Matrix.transpose_apply, Matrix.of_apply]
    simp
    ring
  rw [he, hg]
  generalize 1 + (π / 2) ^ 2 / 6 - (π / 2) ^ 4 / 30 = k at h4
  have : 1 < k ^ 2 := by nlinarith
  nlinarith

/-! ### C78: the inverse -/

/-- a rigid transform: rotation vector and translation -/
abbrev Rigid := V3 × V3

/-- x ↦ R x + t -/
def act (T : Rigid) (x : V3) : V3 := rotate T.1 x + T.2

/-- the inverse transform -/
def inverse (T : Rigid) : Rigid := (-T.1, -rotate (-T.1) T.2)

lemma rotate_add (r x y : V3) : rotate r (x + y) = rotate r x + rotate r y := by
  unfold rotate
  apply ext3 <;> simp only [Pi.add_apply, Pi.smul_apply, smul_eq_mul, cross0, cross1, cross2, dot3] <;> ring

lemma rotate_smul (r : V3) (c : ℝ) (x : V3) : rotate r (c • x) = c • rotate r x := by
  unfold rotate
  apply ext3 <;> simp only [Pi.add_apply, Pi.smul_apply, smul_eq_mul, cross0, cross1, cross2, dot3] <;> ring

lemma rotate_neg (r x : V3) : rotate r (-x) = -rotate r x := by
  have := rotate_smul r (-1) x
  simpa using this

/-- the rotation by -r undoes the rotation by r -/
lemma rotate_inv (r x : V3) : rotate (-r) (rotate r x) = x := by
  have h1 := norm_sq r
  have h2 := sinc_mul (norm r)
  have h3 := sinc_half (norm r)
  have h4 := sin_sq_add_cos_sq (norm r)
  unfold rotate
  rw [norm_neg]
  rw [← h2] at h4
  generalize hS : sinc (norm r) = S at *
  generalize hB : sinc (norm r / 2) ^ 2 / 2 = B at *
  have hc : cos (norm r) = 1 - norm r ^ 2 * B := by linarith
  rw [hc] at h4 ⊢
  have h5 : norm r ^ 2 * S ^ 2 = 2 * norm r ^ 2 * B - norm r ^ 4 * B ^ 2 := by linarith
  have h6 : S ^ 2 = 2 * B - norm r ^ 2 * B ^ 2 := by
    by_cases hz : norm r = 0
    · rw [hz, zero_div, sinc_zero] at hB
      rw [hz, sinc_zero] at hS
      rw [← hS, ← hB, hz]; norm_num
    · have : norm r ^ 2 ≠ 0 := pow_ne_zero 2 hz
      refine mul_left_cancel₀ this ?_
      linarith
  rw [h1] at h6 ⊢
  apply ext3 <;> simp only [Pi.add_apply, Pi.neg_apply, Pi.smul_apply, smul_eq_mul, cross0, cross1, cross2, dot3]
  · linear_combination ((r 1 ^ 2 + r 2 ^ 2) * x 0 - r 0 * r 1 * x 1 - r 0 * r 2 * x 2) * h6
  · linear_combination ((r 0 ^ 2 + r 2 ^ 2) * x 1 - r 0 * r 1 * x 0 - r 1 * r 2 * x 2) * h6
  · linear_combination ((r 0 ^ 2 + r 1 ^ 2) * x 2 - r 0 * r 2 * x 0 - r 1 * r 2 * x 1) * h6

/-- `inverse` is the inverse -/
theorem act_inverse (T : Rigid) (x : V3) : act (inverse T) (act T x) = x := by
  unfold act inverse
  dsimp only
  rw [rotate_add, rotate_inv]
  apply ext3 <;> simp

/-- the true Jacobian of the inverse: an error (dr, dt) of the transform is the error (-dr, D dr - R⁻¹ dt) of its inverse, where D is the
derivative of the rotation by -r of the point t -/
theorem inverse_deriv (r t dr dt : V3) : ∃ D : V3, HasDerivAt (fun s : ℝ => rotate (-r + s • dr) t) D 0 ∧
    HasDerivAt (fun s : ℝ => (inverse (r + s • dr, t + s • dt)).1) (-dr) 0 ∧
    HasDerivAt (fun s : ℝ => (inverse (r + s • dr, t + s • dt)).2) (D - rotate (-r) dt) 0 := by
  have hex : ∀ (y d : V3), ∃ D, HasDerivAt (fun s : ℝ => rotate (-r + s • d) y) D 0 := fun y d => by
    obtain ⟨D, _, _, _, _, h, _⟩ := C77_rotated_point_partial (-r) y d
    exact ⟨D, h⟩
  obtain ⟨D, hD⟩ := hex t dr
  have hneg : ∀ (y D' : V3), HasDerivAt (fun s : ℝ => rotate (-r + s • dr) y) D' 0 → HasDerivAt (fun s : ℝ => rotate (-(r + s • dr)) y) (-D') 0 := by
    intro y D' h
    have hm : HasDerivAt (fun s : ℝ => -s) (-1) 0 := hasDerivAt_neg' 0
    have h' : HasDerivAt (fun s : ℝ => rotate (-r + s • dr) y) D' (-0) := by rw [neg_zero]; exact h
    have hc := h'.scomp (0 : ℝ) hm
    rw [neg_one_smul] at hc
    refine hc.congr_of_eventuallyEq (Filter.Eventually.of_forall fun s => ?_)
    show rotate (-(r + s • dr)) y = rotate (-r + (-s) • dr) y
    congr 1
    rw [neg_add, neg_smul]
  refine ⟨D, hD, ?_, ?_⟩
  · have h := (((hasDerivAt_id' (0 : ℝ)).smul_const dr).const_add r).neg
    rw [one_smul] at h
    exact h
  · obtain ⟨E, hE⟩ := hex dt dr
    have h1 := hneg t D hD
    have h2 := (hasDerivAt_id' (0 : ℝ)).smul (hneg dt E hE)
    have h3 := (h1.add h2).neg
    refine (h3.congr_of_eventuallyEq (Filter.Eventually.of_forall fun s => ?_)).congr_deriv ?_
    · show -rotate (-(r + s • dr)) (t + s • dt) = -(rotate (-(r + s • dr)) t + s • rotate (-(r + s • dr)) dt)
      rw [rotate_add, rotate_smul]
    · simp
      abel

/-- the Jacobian of the inverse with the block D for the rotated translation -/
def trueInvJ (R D : M3) : M6 := fromBlocks (-1) 0 D (-R.transpose)

/-- **C78 (partial)** Compared with the propagation through the true Jacobian the code gets the following right: for a transform without
translation everything, and for a transform whose rotation and translation errors are independent the covariances of the
rotation and of the translation. Missing, and wrong in the code: the other blocks. -/
theorem C78_inverse_partial (R : M3) (r t : V3) (cov : M6) :
    (invCov R r t cov).toBlocks₁₁ = (trueInvJ R (drxByDr (-r) t) * cov * (trueInvJ R (drxByDr (-r) t)).transpose).toBlocks₁₁ ∧
    (cov.toBlocks₁₂ = 0 → cov.toBlocks₂₁ = 0 →
      (invCov R r t cov).toBlocks₂₂ = (trueInvJ R (drxByDr (-r) t) * cov * (trueInvJ R (drxByDr (-r) t)).transpose).toBlocks₂₂) ∧
    (t = 0 → invCov R r t cov = trueInvJ R (drxByDr (-r) t) * cov * (trueInvJ R (drxByDr (-r) t)).transpose) := by
  unfold invCov trueInvJ
  dsimp only
  rw [← Matrix.fromBlocks_toBlocks cov]
  generalize cov.toBlocks₁₁ = A
  generalize cov.toBlocks₁₂ = B
  generalize cov.toBlocks₂₁ = C
  generalize cov.toBlocks₂₂ = E
  simp only [Matrix.fromBlocks_transpose, Matrix.fromBlocks_multiply, Matrix.toBlocks_fromBlocks₁₁, Matrix.toBlocks_fromBlocks₁₂,
    Matrix.toBlocks_fromBlocks₂₁, Matrix.toBlocks_fromBlocks₂₂]
  refine ⟨by simp, ?_, ?_⟩
  · intro hB hC
    subst hB hC
    simp [Matrix.mul_neg, Matrix.neg_mul]
  · intro ht
    have hD : drxByDr (-r) t = 0 := by
      subst ht
      unfold drxByDr
      have hs : skew 0 = 0 := by
        ext i j
        fin_cases i <;> fin_cases j <;> simp [skew]
      rw [hs]
      simp
    rw [hD]
    simp [Matrix.mul_neg, Matrix.neg_mul]

/-- a covariance with independent rotation and translation errors -/
example : (1 : M6).toBlocks₁₂ = 0 ∧ (1 : M6).toBlocks₂₁ = 0 ∧ (1 : M6) ≠ 0 := by
  refine ⟨?_, ?_, one_ne_zero⟩ <;> ext i j <;> simp [Matrix.toBlocks₁₂, Matrix.toBlocks₂₁]

/-- **C78, the code violates the property** A frame is at (1, 0, 0) and not rotated; only its rotation about z is uncertain (variance v). Its
inverse maps the point (1, 0, 0) to the origin, whatever the rotation is. But the covariance that follows from inverse() and the product with the
point has a y variance of 4 v. -/
theorem C78_inverse_wrong (v : ℝ) :
    (∀ s : ℝ, act (inverse (s • ![0, 0, 1], ![1, 0, 0])) ![1, 0, 0] = 0) ∧
    pointCov 1 0 (invCov 1 0 ![1, 0, 0] (Matrix.single (Sum.inl 2) (Sum.inl 2) v)) ![1, 0, 0] none 1 1 = 4 * v := by
  constructor
  · intro s
    unfold act inverse
    dsimp only
    exact add_neg_cancel _
  · have hd : ∀ x : V3, drxByDr 0 x = -skew x := by
      intro x
      unfold drxByDr
      simp
      have hs : skew 0 = 0 := by
        ext i j
        fin_cases i <;> fin_cases j <;> simp [skew]
      simp [hs]
    unfold pointCov invCov
    dsimp only
    rw [neg_zero, hd]
    rw [Matrix.mul_apply]
    simp only [Fintype.sum_sum_type, Fin.sum_univ_three, Matrix.mul_apply, Matrix.single_apply, Matrix.transpose_apply, Matrix.of_apply]
    simp [skew]
    ring

/-! ### C79: quaternions -/

/-- as a quaternion of Mathlib -/
def Quat.toH (q : Quat) : Quaternion ℝ := ⟨q.w, q.v 0, q.v 1, q.v 2⟩

/-- the components (w, x, y, z) -/
def comps (h : Quaternion ℝ) : Fin 4 → ℝ := ![h.re, h.imI, h.imJ, h.imK]

lemma ext4 {a b : Fin 4 → ℝ} (h0 : a 0 = b 0) (h1 : a 1 = b 1) (h2 : a 2 = b 2) (h3 : a 3 = b 3) : a = b := by
  funext i
  fin_cases i <;> assumption

lemma dot4 (a b : Fin 4 → ℝ) : a ⬝ᵥ b = a 0 * b 0 + a 1 * b 1 + a 2 * b 2 + a 3 * b 3 := by
  simp only [dotProduct, Fin.sum_univ_four]

lemma vec0 (w : ℝ) (v : V3) : (vecCons w v : Fin 4 → ℝ) 0 = w := rfl
lemma vec1 (w : ℝ) (v : V3) : (vecCons w v : Fin 4 → ℝ) 1 = v 0 := rfl
lemma vec2 (w : ℝ) (v : V3) : (vecCons w v : Fin 4 → ℝ) 2 = v 1 := rfl
lemma vec3 (w : ℝ) (v : V3) : (vecCons w v : Fin 4 → ℝ) 3 = v 2 := rfl

/-- **C79, product** dq2q1_by_dq1 and dq2q1_by_dq2 are exactly the product q2 q1 as a linear function of q1 and of q2. -/
theorem C79_product (q1 q2 : Quat) : dq2q1ByDq1 q2 *ᵥ q1.vec = comps (q2.toH * q1.toH) ∧ dq2q1ByDq2 q1 *ᵥ q2.vec = comps (q2.toH * q1.toH) := by
  constructor
  · unfold dq2q1ByDq1
    rw [Matrix.add_mulVec, Matrix.smul_mulVec, Matrix.one_mulVec]
    unfold Quat.vec comps
    rw [Quaternion.re_mul, Quaternion.imI_mul, Quaternion.imJ_mul, Quaternion.imK_mul]
    unfold Quat.toH
    apply ext4 <;> simp only [Pi.add_apply, Pi.smul_apply, smul_eq_mul, mulVec, dot4] <;> simp [skew, vec0, vec1, vec2, vec3] <;> ring
  · unfold dq2q1ByDq2
    rw [Matrix.add_mulVec, Matrix.smul_mulVec, Matrix.one_mulVec]
    unfold Quat.vec comps
    rw [Quaternion.re_mul, Quaternion.imI_mul, Quaternion.imJ_mul, Quaternion.imK_mul]
    unfold Quat.toH
    apply ext4 <;> simp only [Pi.add_apply, Pi.smul_apply, smul_eq_mul, mulVec, dot4] <;> simp [skew, vec0, vec1, vec2, vec3] <;> ring

/-- the exact coefficients of the derivative of the quaternion -/
def kC (r : V3) : ℝ := sinc (norm r / 2) / 2
def lC (r : V3) : ℝ := (sinc (norm r / 2) / 2 - cos (norm r / 2) / 2) / norm r ^ 2

/-- the derivative of the quaternion of r in direction d -/
def dQuat (r d : V3) : Fin 4 → ℝ := vecCons (-(((quat r).v ⬝ᵥ d) / 2)) (kC r • d - (lC r * (r ⬝ᵥ d)) • r)

theorem quat_deriv {r : V3} (hr : r ≠ 0) (d : V3) : HasDerivAt (fun s : ℝ => (quat (r + s • d)).vec) (dQuat r d) 0 := by
  have hpos := norm_pos hr
  have h0 : norm (r + (0 : ℝ) • d) = norm r := by rw [zero_smul, add_zero]
  have hn := (norm_deriv hr d).div_const 2
  have hc : HasDerivAt (fun s : ℝ => cos (norm (r + s • d) / 2)) (-(((quat r).v ⬝ᵥ d) / 2)) 0 := by
    refine hn.cos.congr_deriv ?_
    rw [h0]; unfold quat; dsimp only
    rw [smul_dotProduct, smul_eq_mul, sinc_of_ne_zero (by positivity)]
    field_simp
  have hk : HasDerivAt (fun s : ℝ => sinc (norm (r + s • d) / 2) / 2) (-(lC r * (r ⬝ᵥ d))) 0 := by
    have h := (HasDerivAt.comp (0 : ℝ) (h₂ := sinc) (by rw [h0]; exact sinc_deriv (by positivity)) hn).div_const 2
    refine h.congr_deriv ?_
    unfold lC
    rw [sinc_of_ne_zero (by positivity)]
    field_simp
    ring
  have hv : ∀ i, HasDerivAt (fun s : ℝ => (quat (r + s • d)).v i) ((kC r • d - (lC r * (r ⬝ᵥ d)) • r) i) 0 := by
    intro i
    have h := hk.mul (lin r d i)
    refine h.congr_deriv ?_
    simp only [zero_smul, add_zero, Pi.sub_apply, Pi.smul_apply, smul_eq_mul]
    unfold kC
    ring
  rw [hasDerivAt_pi]
  intro i
  unfold dQuat
  fin_cases i
  · exact hc
  · exact hv 0
  · exact hv 1
  · exact hv 2

/-- **C79, quaternion** dq_by_dr is the derivative of the quaternion of a rotation vector: exact in the real part, up to the errors of two Taylor polynomials in
the other components. -/
theorem C79_quaternion_of_vector {r : V3} (hr : r ≠ 0) (d : V3) : ∃ e1 e2 : ℝ, |e1| ≤ norm r ^ 4 / 3840 ∧ |e2| ≤ norm r ^ 4 / 92160 ∧
    HasDerivAt (fun s : ℝ => (quat (r + s • d)).vec) (dqByDr (quat r) r *ᵥ d + vecCons 0 (e1 • d + (e2 * (r ⬝ᵥ d)) • r)) 0 := by
  have hp := norm_pos hr
  have hmat : dqByDr (quat r) r *ᵥ d = vecCons (-(((quat r).v ⬝ᵥ d) / 2))
      ((1 / 2 - norm r ^ 2 / 48) • d - ((1 / 24 * (1 - norm r ^ 2 / 40)) * (r ⬝ᵥ d)) • r) := by
    unfold dqByDr
    dsimp only
    rw [← pow_two]
    apply ext4 <;> simp only [mulVec, dot3, vec0, vec1, vec2, vec3, Pi.sub_apply, Pi.smul_apply, smul_eq_mul]
    · show -(1 / 2 * (quat r).v 0) * d 0 + -(1 / 2 * (quat r).v 1) * d 1 + -(1 / 2 * (quat r).v 2) * d 2 = _
      ring
    · show ((1 / 2 - norm r ^ 2 / 48) * 1 - 1 / 24 * (1 - norm r ^ 2 / 40) * (r 0 * r 0)) * d 0 +
        ((1 / 2 - norm r ^ 2 / 48) * 0 - 1 / 24 * (1 - norm r ^ 2 / 40) * (r 0 * r 1)) * d 1 +
        ((1 / 2 - norm r ^ 2 / 48) * 0 - 1 / 24 * (1 - norm r ^ 2 / 40) * (r 0 * r 2)) * d 2 = _
      ring
    · show ((1 / 2 - norm r ^ 2 / 48) * 0 - 1 / 24 * (1 - norm r ^ 2 / 40) * (r 1 * r 0)) * d 0 +
        ((1 / 2 - norm r ^ 2 / 48) * 1 - 1 / 24 * (1 - norm r ^ 2 / 40) * (r 1 * r 1)) * d 1 +
        ((1 / 2 - norm r ^ 2 / 48) * 0 - 1 / 24 * (1 - norm r ^ 2 / 40) * (r 1 * r 2)) * d 2 = _
      ring
    · show ((1 / 2 - norm r ^ 2 / 48) * 0 - 1 / 24 * (1 - norm r ^ 2 / 40) * (r 2 * r 0)) * d 0 +
        ((1 / 2 - norm r ^ 2 / 48) * 0 - 1 / 24 * (1 - norm r ^ 2 / 40) * (r 2 * r 1)) * d 1 +
        ((1 / 2 - norm r ^ 2 / 48) * 1 - 1 / 24 * (1 - norm r ^ 2 / 40) * (r 2 * r 2)) * d 2 = _
      ring
  refine ⟨kC r - (1 / 2 - norm r ^ 2 / 48), 1 / 24 * (1 - norm r ^ 2 / 40) - lC r, ?_, ?_, ?_⟩
  · unfold kC
    rw [sinc_of_ne_zero (by positivity)]
    obtain ⟨h, hh⟩ : ∃ h, norm r = 2 * h := ⟨norm r / 2, by ring⟩
    rw [hh] at hp ⊢
    have hp' : 0 < h := by linarith
    rw [show 2 * h / 2 = h by ring]
    have s1 := sin_ge_sub_cube hp'.le
    have s2 := sin_le5 hp'.le
    have u1 : sin h / h ≤ 1 - h ^ 2 / 6 + h ^ 4 / 120 := by rw [div_le_iff₀ hp']; nlinarith
    have u2 : 1 - h ^ 2 / 6 ≤ sin h / h := by rw [le_div_iff₀ hp']; nlinarith
    have u3 : 0 ≤ h ^ 4 := by positivity
    rw [abs_le]
    constructor <;> nlinarith
  · unfold lC
    rw [sinc_of_ne_zero (by positivity)]
    obtain ⟨h, hh⟩ : ∃ h, norm r = 2 * h := ⟨norm r / 2, by ring⟩
    rw [hh] at hp ⊢
    have hp' : 0 < h := by linarith
    rw [show 2 * h / 2 = h by ring]
    have s2 := sin_le5 hp'.le
    have s3 := le_sin7 hp'.le
    have c1 := cos_le4 hp'.le
    have c2 := le_cos6 hp'.le
    have he : (sin h / h / 2 - cos h / 2) / (2 * h) ^ 2 = (sin h - h * cos h) / (8 * h ^ 3) := by field_simp; ring
    have u1 : (sin h - h * cos h) / (8 * h ^ 3) ≤ 1 / 24 - h ^ 2 / 240 + h ^ 4 / 5760 := by
      rw [div_le_iff₀ (by positivity)]
      nlinarith [mul_le_mul_of_nonneg_left c2 hp'.le]
    have u2 : 1 / 24 - h ^ 2 / 240 - h ^ 4 / 40320 ≤ (sin h - h * cos h) / (8 * h ^ 3) := by
      rw [le_div_iff₀ (by positivity)]
      nlinarith [mul_le_mul_of_nonneg_left c1 hp'.le]
    have u3 : 0 ≤ h ^ 4 := by positivity
    rw [he, abs_le]
    constructor <;> nlinarith
  · refine (quat_deriv hr d).congr_deriv ?_
    rw [hmat]
    unfold dQuat
    apply ext4 <;> simp only [Pi.add_apply, vec0, vec1, vec2, vec3, Pi.sub_apply, Pi.smul_apply, smul_eq_mul] <;> ring

/-- dr_by_dq applied to the derivative of the quaternion -/
lemma drByDq_dQuat (r d : V3) : drByDq (quat r) *ᵥ dQuat r d =
    (2 * sign (cos (norm r / 2)) * (1 + norm (quat r).v ^ 2 / 6)) • (kC r • d - (lC r * (r ⬝ᵥ d)) • r) +
    (((quat r).v ⬝ᵥ d) + -2 * sign (cos (norm r / 2)) * (2 / 3 + norm (quat r).v ^ 2 / 5) * ((quat r).v ⬝ᵥ (kC r • d - (lC r * (r ⬝ᵥ d)) • r))) • (quat r).v := by
  have hw : (quat r).w = cos (norm r / 2) := rfl
  unfold drByDq dQuat
  dsimp only
  rw [hw, ← pow_two]
  generalize (2 * sign (cos (norm r / 2)) * (1 + norm (quat r).v ^ 2 / 6)) = T
  generalize (-2 * sign (cos (norm r / 2)) * (2 / 3 + norm (quat r).v ^ 2 / 5)) = N
  generalize (kC r • d - (lC r * (r ⬝ᵥ d)) • r) = y
  generalize (quat r).v = v
  apply ext3 <;> simp only [mulVec, dot4, dot3, vec0, vec1, vec2, vec3, Pi.add_apply, Pi.smul_apply, smul_eq_mul]
  · show (-2 * v 0) * -((v 0 * d 0 + v 1 * d 1 + v 2 * d 2) / 2) + (T * 1 + N * (v 0 * v 0)) * y 0 + (T * 0 + N * (v 0 * v 1)) * y 1 + (T * 0 + N * (v 0 * v 2)) * y 2 = _
    ring
  · show (-2 * v 1) * -((v 0 * d 0 + v 1 * d 1 + v 2 * d 2) / 2) + (T * 0 + N * (v 1 * v 0)) * y 0 + (T * 1 + N * (v 1 * v 1)) * y 1 + (T * 0 + N * (v 1 * v 2)) * y 2 = _
    ring
  · show (-2 * v 2) * -((v 0 * d 0 + v 1 * d 1 + v 2 * d 2) / 2) + (T * 0 + N * (v 2 * v 0)) * y 0 + (T * 0 + N * (v 2 * v 1)) * y 1 + (T * 1 + N * (v 2 * v 2)) * y 2 = _
    ring

/-- **C79 (partial), vector** dr_by_dq recovers the change d of the rotation vector from the change of the quaternion, for rotations by less than a
half turn: up to 1/200 θ⁴ in the directions perpendicular to the axis and 3/640 θ⁴ along the axis. -/
theorem C79_vector_of_quaternion_partial {r : V3} (hr : r ≠ 0) (hpi : norm r < π) (d : V3) : ∃ e1 e2 : ℝ,
    |e1| ≤ norm r ^ 4 / 200 ∧ |e2| ≤ norm r ^ 4 * 3 / 640 ∧ HasDerivAt (fun s : ℝ => (quat (r + s • d)).vec) (dQuat r d) 0 ∧
    drByDq (quat r) *ᵥ dQuat r d = d + e1 • (d - ((r ⬝ᵥ d) / norm r ^ 2) • r) + (e2 * ((r ⬝ᵥ d) / norm r ^ 2)) • r := by
  have hp := norm_pos hr
  obtain ⟨h, hh⟩ : ∃ h, norm r = 2 * h := ⟨norm r / 2, by ring⟩
  have hp' : 0 < h := by linarith
  have hpi' : h < π / 2 := by linarith
  have hcpos : 0 < cos h := cos_pos_of_mem_Ioo ⟨by linarith, hpi'⟩
  have hhalf : norm r / 2 = h := by linarith
  have hsgn : sign (cos h) = 1 := if_pos hcpos
  have hk : kC r = sin h / norm r := by
    unfold kC; rw [hhalf, sinc_of_ne_zero hp'.ne', hh]; field_simp
  have hv : (quat r).v = (sin h / norm r) • r := by rw [← hk]; rfl
  have hl : lC r = (sin h / norm r - cos h / 2) / norm r ^ 2 := by
    rw [← hk]; unfold lC kC; rw [hhalf]
  have hvn : norm (quat r).v ^ 2 = sin h ^ 2 := by
    rw [hv, norm_smul, mul_pow, sq_abs]; field_simp
  have hrr : r ⬝ᵥ r = norm r ^ 2 := by rw [dot3, norm_sq]; ring
  refine ⟨(1 + sin h ^ 2 / 6) * sin h / h - 1, cos h * (1 - cos h) ^ 2 * (3 / 10 - 2 / 5 * cos h - 1 / 5 * cos h ^ 2), ?_, ?_, quat_deriv hr d, ?_⟩
  · -- sin³ in terms of sin and sin of the triple angle
    have h3 : sin h ^ 3 = (3 * sin h - sin (3 * h)) / 4 := by rw [sin_three_mul]; ring
    have s2 := sin_le5 hp'.le
    have s3 := le_sin7 hp'.le
    have t2 := sin_le5 (x := 3 * h) (by linarith)
    have t3 := le_sin7 (x := 3 * h) (by linarith)
    have hb : h ^ 2 ≤ 64 / 25 := by
      have : h ≤ 8 / 5 := by linarith [pi_lt_d2]
      nlinarith
    have hq : (1 + sin h ^ 2 / 6) * sin h / h - 1 = (9 / 8 * sin h - sin (3 * h) / 24 - h) / h := by
      have : (1 + sin h ^ 2 / 6) * sin h = sin h + sin h ^ 3 / 6 := by ring
      rw [this, h3]; field_simp; ring
    have h5 : 0 ≤ h ^ 5 := by positivity
    have h7 : h ^ 7 ≤ 64 / 25 * h ^ 5 := by
      have : h ^ 7 = h ^ 5 * h ^ 2 := by ring
      rw [this]; nlinarith
    have h70 : 0 ≤ h ^ 7 := by positivity
    rw [hq, hh, abs_le]
    constructor
    · rw [le_div_iff₀ hp']
      have : -((2 * h) ^ 4 / 200) * h = -(2 / 25) * h ^ 5 := by ring
      rw [this]
      nlinarith
    · rw [div_le_iff₀ hp']
      have : (2 * h) ^ 4 / 200 * h = 2 / 25 * h ^ 5 := by ring
      rw [this]
      nlinarith
  · have c0 := cos_le_one h
    have c1 : 1 - cos h ≤ h ^ 2 / 2 := by linarith [one_sub_sq_div_two_le_cos (x := h)]
    have hsq : (1 - cos h) ^ 2 ≤ h ^ 4 / 4 := by
      have : (1 - cos h) ^ 2 ≤ (h ^ 2 / 2) ^ 2 := pow_le_pow_left₀ (by linarith) c1 2
      calc _ ≤ _ := this
        _ = _ := by ring
    have hf : |3 / 10 - 2 / 5 * cos h - 1 / 5 * cos h ^ 2| ≤ 3 / 10 := by
      rw [abs_le]; constructor <;> nlinarith
    rw [abs_mul, abs_mul, abs_of_pos hcpos, abs_of_nonneg (sq_nonneg (1 - cos h)), hh]
    calc cos h * (1 - cos h) ^ 2 * |3 / 10 - 2 / 5 * cos h - 1 / 5 * cos h ^ 2| ≤ 1 * (h ^ 4 / 4) * (3 / 10) := by
          refine mul_le_mul (mul_le_mul c0 hsq (sq_nonneg _) (by norm_num)) hf (abs_nonneg _) (by positivity)
      _ = (2 * h) ^ 4 * 3 / 640 := by ring
  · have hs2 : sin h ^ 2 = 1 - cos h ^ 2 := by linarith [sin_sq_add_cos_sq h]
    rw [drByDq_dQuat, hhalf, hsgn, hvn, hv, hk, hl]
    simp only [dotProduct_sub, dotProduct_smul, smul_dotProduct, hrr, smul_eq_mul]
    generalize r ⬝ᵥ d = g
    rw [hh]
    have hne : h ≠ 0 := hp'.ne'
    have hpoly : (1 + sin h ^ 2 / 6) * cos h + sin h ^ 2 - (2 / 3 + sin h ^ 2 / 5) * sin h ^ 2 * cos h =
        1 + cos h * (1 - cos h) ^ 2 * (3 / 10 - 2 / 5 * cos h - 1 / 5 * cos h ^ 2) := by
      rw [hs2]; ring
    generalize hE : cos h * (1 - cos h) ^ 2 * (3 / 10 - 2 / 5 * cos h - 1 / 5 * cos h ^ 2) = e2 at hpoly ⊢
    generalize sin h = S at hpoly ⊢
    generalize cos h = c at hpoly ⊢
    have kd : 2 * 1 * (1 + S ^ 2 / 6) * (S / (2 * h)) = 1 + ((1 + S ^ 2 / 6) * S / h - 1) := by field_simp; ring
    have kr : -(2 * 1 * (1 + S ^ 2 / 6) * ((S / (2 * h) - c / 2) / (2 * h) ^ 2)) +
        (S / (2 * h) + -2 * 1 * (2 / 3 + S ^ 2 / 5) * (S / (2 * h) * (S / (2 * h) - (S / (2 * h) - c / 2) / (2 * h) ^ 2 * (2 * h) ^ 2))) * (S / (2 * h)) =
        -((1 + S ^ 2 / 6) * S / h - 1) / (2 * h) ^ 2 + e2 / (2 * h) ^ 2 := by
      have he : e2 = (1 + S ^ 2 / 6) * c + S ^ 2 - (2 / 3 + S ^ 2 / 5) * S ^ 2 * c - 1 := by linarith
      rw [he]; field_simp; ring
    apply ext3 <;> simp only [Pi.add_apply, Pi.sub_apply, Pi.smul_apply, smul_eq_mul]
    · linear_combination d 0 * kd + g * r 0 * kr
    · linear_combination d 1 * kd + g * r 1 * kr
    · linear_combination d 2 * kd + g * r 2 * kr

/-- a rotation by 1 rad about z meets the hypotheses -/
example : (![0, 0, 1] : V3) ≠ 0 ∧ norm (![0, 0, 1] : V3) < π := by
  refine ⟨fun h => ?_, ?_⟩
  · have := congrFun h 2
    simp at this
  · have : norm (![0, 0, 1] : V3) = 1 := by simp [norm]
    rw [this]
    linarith [pi_gt_three]

/-- **C79, without rotation** Without rotation the blocks are exact: errors of rotations add up. -/
theorem C79_no_rotation : dr2r1ByR1 (quat 0) (quat 0) (quat 0) 0 = 1 ∧ dr2r1ByR2 (quat 0) (quat 0) (quat 0) 0 = 1 := by
  have hw : quat 0 = ⟨1, 0⟩ := by unfold quat; simp
  rw [hw]
  unfold dr2r1ByR1 dr2r1ByR2 drByDq dqByDr dq2q1ByDq1 dq2q1ByDq2 sign
  constructor <;> ext i j <;> fin_cases i <;> fin_cases j <;>
    simp [Matrix.mul_apply, Fin.sum_univ_succ, vecMulVec, skew, Matrix.one_apply, norm]

/-- **C79, the code violates the property** Composition with the identity does not change a transform, so its rotation error should stay as it is
(Jacobian 1). For a half turn about z the real part of the quaternion is 0 and `sign` takes it for negative: the errors about x and y change
their sign, the error about z does not, and so the covariances between them change sign. -/
theorem C79_half_turn_wrong : let J := dr2r1ByR1 (quat ![0, 0, π]) (quat ![0, 0, π]) (quat 0) ![0, 0, π]
    (∀ r : V3, comps ((quat 0).toH * (quat r).toH) = (quat r).vec) ∧ J 0 0 < 0 ∧ J 1 1 < 0 ∧ 0 < J 2 2 ∧ J 0 2 = 0 ∧ J 1 2 = 0 ∧ J 2 0 = 0 ∧ J 2 1 = 0 := by
  have hn : norm (![0, 0, π] : V3) = π := by
    unfold norm
    simp only [cons_val_zero, cons_val_one, cons_val_two]
    simp [pi_pos.le]
  have h0 : quat 0 = ⟨1, 0⟩ := by unfold quat; simp
  have hs : sinc (π / 2) / 2 * π = 1 := by
    rw [sinc_of_ne_zero (by positivity), sin_pi_div_two]
    field_simp
  have hq : quat ![0, 0, π] = ⟨0, ![0, 0, 1]⟩ := by
    unfold quat
    rw [hn, cos_pi_div_two]
    congr 1
    apply ext3 <;> simp [hs]
  have hn1 : norm (![0, 0, 1] : V3) = 1 := by simp [norm]
  have hp2 : π ^ 2 ≤ 16 := by nlinarith [pi_le_four, pi_pos]
  have hp9 : 9 ≤ π ^ 2 := by nlinarith [pi_gt_three]
  dsimp only
  rw [hq, h0]
  refine ⟨?_, ?_, ?_, ?_, ?_, ?_, ?_, ?_⟩
  · intro r
    have h1 : (⟨1, 0⟩ : Quat).toH = 1 := by unfold Quat.toH; rfl
    rw [h1, one_mul]
    unfold comps Quat.toH Quat.vec
    apply ext4 <;> rfl
  all_goals
    unfold dr2r1ByR1 drByDq dqByDr dq2q1ByDq1 sign
    dsimp only
    rw [hn, hn1]
    simp [Matrix.mul_apply, Fin.sum_univ_succ, vecMulVec, skew, Matrix.one_apply]
  all_goals nlinarith

end
end Envire.Err

#print axioms Envire.Err.C77_rotated_point_partial
#print axioms Envire.Err.C77_angle_error_wrong
#print axioms Envire.Err.C77_point_variance_partial
#print axioms Envire.Err.C77_quarter_turn_wrong
#print axioms Envire.Err.C78_inverse_partial
#print axioms Envire.Err.C78_inverse_wrong
#print axioms Envire.Err.C79_product
#print axioms Envire.Err.C79_quaternion_of_vector
#print axioms Envire.Err.C79_vector_of_quaternion_partial
#print axioms Envire.Err.C79_no_rotation
#print axioms Envire.Err.C79_half_turn_wrong
