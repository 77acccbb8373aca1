import Verif.Core.JacobianModel
import Mathlib.Analysis.SpecialFunctions.Trigonometric.Bounds
import Mathlib.Analysis.SpecialFunctions.Sqrt
import Mathlib.Analysis.Calculus.Deriv.MeanValue
import Mathlib.Tactic.FieldSimp
import Mathlib.Tactic.LinearCombination
/-! Taylor bounds for sine and cosine, and the specification of rotations that the Jacobians of Transform.cpp are compared with. -/
namespace Envire.Err
noncomputable section
open Matrix Real

/-! ### Taylor bounds -/

/-- a function that starts at 0 and grows is not negative -/
private lemma nonneg_of_deriv {f f' : ℝ → ℝ} (h0 : f 0 = 0) (hd : ∀ x, HasDerivAt f (f' x) x) (hn : ∀ x, 0 ≤ x → 0 ≤ f' x) {x : ℝ} (hx : 0 ≤ x) :
    0 ≤ f x := by
  have hm : MonotoneOn f (Set.Ici 0) := by
    refine monotoneOn_of_deriv_nonneg (convex_Ici 0) (fun y _ => (hd y).continuousAt.continuousWithinAt)
      (fun y _ => (hd y).differentiableAt.differentiableWithinAt) (fun y hy => ?_)
    rw [(hd y).deriv]
    rw [interior_Ici] at hy
    exact hn y (le_of_lt hy)
  have := hm (Set.mem_Ici.2 le_rfl) (Set.mem_Ici.2 hx) hx
  rwa [h0] at this

lemma cos_le4 {x : ℝ} (hx : 0 ≤ x) : cos x ≤ 1 - x ^ 2 / 2 + x ^ 4 / 24 := by
  have h := nonneg_of_deriv (f := fun x => 1 - x ^ 2 / 2 + x ^ 4 / 24 - cos x) (f' := fun x => sin x - (x - x ^ 3 / 6)) (by simp)
    (fun x => ?_) (fun x hx => by linarith [sin_ge_sub_cube hx]) hx
  · linarith
  · have h1 := ((((hasDerivAt_id' x).pow 2).div_const 2).const_sub 1).add (((hasDerivAt_id' x).pow 4).div_const 24)
    refine (h1.sub (hasDerivAt_cos x)).congr_deriv ?_
    push_cast; ring

lemma sin_le5 {x : ℝ} (hx : 0 ≤ x) : sin x ≤ x - x ^ 3 / 6 + x ^ 5 / 120 := by
  have h := nonneg_of_deriv (f := fun x => x - x ^ 3 / 6 + x ^ 5 / 120 - sin x) (f' := fun x => 1 - x ^ 2 / 2 + x ^ 4 / 24 - cos x) (by simp)
    (fun x => ?_) (fun x hx => by linarith [cos_le4 hx]) hx
  · linarith
  · have h1 := ((hasDerivAt_id' x).sub (((hasDerivAt_id' x).pow 3).div_const 6)).add (((hasDerivAt_id' x).pow 5).div_const 120)
    refine (h1.sub (hasDerivAt_sin x)).congr_deriv ?_
    push_cast; ring

lemma le_cos6 {x : ℝ} (hx : 0 ≤ x) : 1 - x ^ 2 / 2 + x ^ 4 / 24 - x ^ 6 / 720 ≤ cos x := by
  have h := nonneg_of_deriv (f := fun x => cos x - (1 - x ^ 2 / 2 + x ^ 4 / 24 - x ^ 6 / 720)) (f' := fun x => x - x ^ 3 / 6 + x ^ 5 / 120 - sin x)
    (by simp) (fun x => ?_) (fun x hx => by linarith [sin_le5 hx]) hx
  · linarith
  · have h1 := (((((hasDerivAt_id' x).pow 2).div_const 2).const_sub 1).add (((hasDerivAt_id' x).pow 4).div_const 24)).sub
      (((hasDerivAt_id' x).pow 6).div_const 720)
    refine ((hasDerivAt_cos x).sub h1).congr_deriv ?_
    push_cast; ring

lemma le_sin7 {x : ℝ} (hx : 0 ≤ x) : x - x ^ 3 / 6 + x ^ 5 / 120 - x ^ 7 / 5040 ≤ sin x := by
  have h := nonneg_of_deriv (f := fun x => sin x - (x - x ^ 3 / 6 + x ^ 5 / 120 - x ^ 7 / 5040))
    (f' := fun x => cos x - (1 - x ^ 2 / 2 + x ^ 4 / 24 - x ^ 6 / 720)) (by simp)
    (fun x => ?_) (fun x hx => by linarith [le_cos6 hx]) hx
  · linarith
  · have h1 := (((hasDerivAt_id' x).sub (((hasDerivAt_id' x).pow 3).div_const 6)).add (((hasDerivAt_id' x).pow 5).div_const 120)).sub
      (((hasDerivAt_id' x).pow 7).div_const 5040)
    refine ((hasDerivAt_sin x).sub h1).congr_deriv ?_
    push_cast; ring

lemma cos_le8 {x : ℝ} (hx : 0 ≤ x) : cos x ≤ 1 - x ^ 2 / 2 + x ^ 4 / 24 - x ^ 6 / 720 + x ^ 8 / 40320 := by
  have h := nonneg_of_deriv (f := fun x => 1 - x ^ 2 / 2 + x ^ 4 / 24 - x ^ 6 / 720 + x ^ 8 / 40320 - cos x)
    (f' := fun x => sin x - (x - x ^ 3 / 6 + x ^ 5 / 120 - x ^ 7 / 5040)) (by simp)
    (fun x => ?_) (fun x hx => by linarith [le_sin7 hx]) hx
  · linarith
  · have h1 := ((((((hasDerivAt_id' x).pow 2).div_const 2).const_sub 1).add (((hasDerivAt_id' x).pow 4).div_const 24)).sub
      (((hasDerivAt_id' x).pow 6).div_const 720)).add (((hasDerivAt_id' x).pow 8).div_const 40320)
    refine (h1.sub (hasDerivAt_cos x)).congr_deriv ?_
    push_cast; ring

/-! ### specification: rotations -/

lemma cross0 (a b : V3) : crossProduct a b 0 = a 1 * b 2 - a 2 * b 1 := by rw [cross_apply]; rfl
lemma cross1 (a b : V3) : crossProduct a b 1 = a 2 * b 0 - a 0 * b 2 := by rw [cross_apply]; rfl
lemma cross2 (a b : V3) : crossProduct a b 2 = a 0 * b 1 - a 1 * b 0 := by rw [cross_apply]; rfl
lemma dot3 (a b : V3) : a ⬝ᵥ b = a 0 * b 0 + a 1 * b 1 + a 2 * b 2 := by
  simp only [dotProduct, Fin.sum_univ_three]

/-- vectors are equal if their components are -/
lemma ext3 {a b : V3} (h0 : a 0 = b 0) (h1 : a 1 = b 1) (h2 : a 2 = b 2) : a = b := by
  funext i
  fin_cases i <;> assumption

/-- the point x rotated by the rotation vector r (formula of Rodrigues; `sinc t` = sin t / t) -/
def rotate (r x : V3) : V3 := cos (norm r) • x + sinc (norm r) • crossProduct r x + (sinc (norm r / 2) ^ 2 / 2 * (r ⬝ᵥ x)) • r

/-- the quaternion of the rotation vector r -/
def quat (r : V3) : Quat := ⟨cos (norm r / 2), (sinc (norm r / 2) / 2) • r⟩

lemma norm_nonneg (r : V3) : 0 ≤ norm r := sqrt_nonneg _

lemma norm_sq (r : V3) : norm r ^ 2 = r 0 ^ 2 + r 1 ^ 2 + r 2 ^ 2 := sq_sqrt (by positivity)

lemma norm_pos {r : V3} (h : r ≠ 0) : 0 < norm r := by
  unfold norm
  rw [sqrt_pos]
  by_contra hn
  apply h
  have h0 : r 0 ^ 2 + r 1 ^ 2 + r 2 ^ 2 = 0 := le_antisymm (not_lt.1 hn) (by positivity)
  have a0 : r 0 = 0 := by nlinarith [sq_nonneg (r 0), sq_nonneg (r 1), sq_nonneg (r 2)]
  have a1 : r 1 = 0 := by nlinarith [sq_nonneg (r 0), sq_nonneg (r 1), sq_nonneg (r 2)]
  have a2 : r 2 = 0 := by nlinarith [sq_nonneg (r 0), sq_nonneg (r 1), sq_nonneg (r 2)]
  funext i
  fin_cases i <;> assumption

@[simp] lemma norm_zero : norm 0 = 0 := by simp [norm]

@[simp] lemma norm_neg (r : V3) : norm (-r) = norm r := by simp [norm]

lemma norm_smul (t : ℝ) (r : V3) : norm (t • r) = |t| * norm r := by
  unfold norm
  rw [← sqrt_sq_eq_abs, ← sqrt_mul (sq_nonneg t)]
  congr 1
  simp only [Pi.smul_apply, smul_eq_mul]
  ring

lemma norm_axis {u : V3} (hu : norm u = 1) {t : ℝ} (ht : 0 ≤ t) : norm (t • u) = t := by
  rw [norm_smul, hu, abs_of_nonneg ht, mul_one]

lemma sinc_mul (t : ℝ) : t * sinc t = sin t := by
  by_cases h : t = 0
  · rw [h]; simp
  · rw [sinc_of_ne_zero h]; field_simp

lemma sinc_half (t : ℝ) : t ^ 2 * (sinc (t / 2) ^ 2 / 2) = 1 - cos t := by
  have h := sinc_mul (t / 2)
  have h1 : t * sinc (t / 2) = 2 * sin (t / 2) := by linarith
  have h2 : cos t = 1 - 2 * sin (t / 2) ^ 2 := by
    have h3 := cos_two_mul (t / 2)
    rw [show 2 * (t / 2) = t by ring] at h3
    have := sin_sq_add_cos_sq (t / 2)
    linarith
  rw [h2]
  calc t ^ 2 * (sinc (t / 2) ^ 2 / 2) = (t * sinc (t / 2)) ^ 2 / 2 := by ring
    _ = _ := by rw [h1]; ring

/-- a rotation about a unit vector u: the textbook formula -/
theorem rotate_axis {u : V3} (hu : norm u = 1) (t : ℝ) (ht : 0 ≤ t) (x : V3) :
    rotate (t • u) x = cos t • x + sin t • crossProduct u x + ((1 - cos t) * (u ⬝ᵥ x)) • u := by
  unfold rotate
  rw [norm_axis hu ht, ← sinc_mul t, ← sinc_half t]
  ext i
  simp only [Pi.add_apply, Pi.smul_apply, smul_eq_mul, LinearMap.map_smul, LinearMap.smul_apply, smul_dotProduct]
  ring

/-- conjugation with the quaternion of r is the rotation by r (v + 2 w (q × x) + 2 q × (q × x) is q x q⁻¹ for unit q) -/
theorem rotate_quat (r x : V3) :
    rotate r x = x + (2 * (quat r).w) • crossProduct (quat r).v x + (2 : ℝ) • crossProduct (quat r).v (crossProduct (quat r).v x) := by
  have hs := sinc_half (norm r)
  have hs2 := sinc_mul (norm r)
  have h2 : sinc (norm r) = sinc (norm r / 2) * cos (norm r / 2) := by
    by_cases h : norm r = 0
    · rw [h]; simp
    · rw [sinc_of_ne_zero h, sinc_of_ne_zero (by positivity)]
      have := sin_two_mul (norm r / 2)
      rw [show 2 * (norm r / 2) = norm r by ring] at this
      rw [this]; field_simp
  have hc : cos (norm r) = 1 - norm r ^ 2 * (sinc (norm r / 2) ^ 2 / 2) := by linarith
  unfold rotate quat
  rw [hc, h2, norm_sq]
  generalize sinc (norm r / 2) = a
  generalize cos (norm r / 2) = c
  apply ext3 <;> simp only [Pi.add_apply, Pi.smul_apply, smul_eq_mul, cross0, cross1, cross2, dot3] <;> ring

/-- the quaternions of rotation vectors have norm 1 -/
lemma quat_unit (r : V3) : (quat r).w ^ 2 + norm (quat r).v ^ 2 = 1 := by
  have h := sinc_half (norm r)
  have h1 : norm (quat r).v ^ 2 = norm r ^ 2 * (sinc (norm r / 2) ^ 2 / 2) / 2 := by
    unfold quat; dsimp only
    rw [norm_smul, mul_pow, sq_abs]; ring
  have h3 := cos_two_mul (norm r / 2)
  rw [show 2 * (norm r / 2) = norm r by ring] at h3
  rw [h1, h]
  show cos (norm r / 2) ^ 2 + _ = 1
  linarith

end
end Envire.Err
