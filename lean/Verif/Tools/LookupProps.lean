import Verif.Tools.LookupModel
import Mathlib.Tactic.Linarith
import Mathlib.Tactic.Ring
import Mathlib.Tactic.FieldSimp
import Mathlib.Tactic.Positivity
import Mathlib.Tactic.NormNum

/-!
C85, C86: the lookup tables for distances. See LookupModel.lean.
-/

namespace Envire.Lookup

/-! ### C85: RadialLookUpTable -/

theorem trunc_nonneg {r : ℝ} (h : 0 ≤ r) : trunc r = ⌊r⌋ := by
  unfold trunc
  rw [if_neg (not_lt.2 h)]

/-- the table belongs to the stored parameters -/
def Radial.Fits (t : Radial) : Prop :=
  (t.scale = 0 ∧ t.maxRadius = 0) ∨
    t = { n := trunc (t.maxRadius / t.scale * 2), half := trunc (t.maxRadius / t.scale), scale := t.scale, maxRadius := t.maxRadius
          table := some (radialEntry (trunc (t.maxRadius / t.scale * 2)) (trunc (t.maxRadius / t.scale)) t.scale) }

theorem Radial.fits_run (l : List (ℝ × ℝ)) : (Radial.run l).Fits := by
  induction l with
  | nil => exact .inl ⟨rfl, rfl⟩
  | cons a l ih =>
    unfold Radial.run Radial.recompute
    split
    · exact ih
    · exact .inr rfl

theorem Radial.run_cons (l : List (ℝ × ℝ)) (s R : ℝ) (hs : 0 < s) : Radial.run ((s, R) :: l) =
    { n := trunc (R / s * 2), half := trunc (R / s), scale := s, maxRadius := R
      table := some (radialEntry (trunc (R / s * 2)) (trunc (R / s)) s) } := by
  have h := Radial.fits_run l
  unfold Radial.run Radial.recompute
  split
  · rename_i he
    dsimp only at he
    rcases h with h | h
    · rw [he.1] at h
      exact absurd h.1 hs.ne'
    · rw [h]
      simp only [he.1, he.2]
  · rfl

theorem Radial.get_eq {n half : ℤ} {s R : ℝ} {x y : ℤ} (hx : 0 ≤ x + half) (hx' : x + half < n) (hy : 0 ≤ y + half)
    (hy' : y + half < n) (hn : n ≤ 46340) :
    Radial.get { n := n, half := half, scale := s, maxRadius := R, table := some (radialEntry n half s) } x y =
      some (Real.sqrt ((x * s) ^ 2 + (y * s) ^ 2), Complex.arg ⟨x * s, y * s⟩) := by
  have hn0 : 0 < n := by omega
  have h1 : n * (y + half) + (x + half) < n * n := by nlinarith
  have h2 : 0 ≤ n * (y + half) + (x + half) := by positivity
  have h3 : n * n < 2 ^ 32 := by nlinarith
  have h4 : (n * (y + half) + (x + half)) % 2 ^ 32 = n * (y + half) + (x + half) := Int.emod_eq_of_lt h2 (by omega)
  have h5 : (n * (y + half) + (x + half)) % n = x + half := by
    rw [Int.mul_add_emod_self_left]
    exact Int.emod_eq_of_lt hx hx'
  have h6 : (n * (y + half) + (x + half)) / n = y + half := by
    rw [Int.mul_add_ediv_left _ _ hn0.ne', Int.ediv_eq_zero_of_lt hx hx', add_zero]
  unfold Radial.get
  dsimp only
  rw [h4, if_pos h1]
  unfold radialEntry
  simp only [h5, h6, add_sub_cancel_right, sq]

/-- C85. Full claim: after `recompute(scale, maxRadius)` at the end of any history of calls, `getDistance(x, y)` and `getAngle(x, y)` return
the distance and the direction of the cell (x, y) from the origin, for all cells whose coordinates are at most `maxRadius`.
Proved for all cells that lie in `[-maxRadius, maxRadius - scale]` in both axes, all histories and table sizes that an `int` can index.
Missing: the upper border (`C85_border`). -/
theorem C85_radial_partial (hist : List (ℝ × ℝ)) (s R : ℝ) (hs : 0 < s) (hsize : R / s * 2 ≤ 46340) (x y : ℤ)
    (hx : -R ≤ x * s) (hx' : x * s ≤ R - s) (hy : -R ≤ y * s) (hy' : y * s ≤ R - s) :
    (Radial.run ((s, R) :: hist)).get x y = some (Real.sqrt ((x * s) ^ 2 + (y * s) ^ 2), Complex.arg ⟨x * s, y * s⟩) := by
  have hR : 0 ≤ R / s := div_nonneg (by linarith) hs.le
  rw [Radial.run_cons _ _ _ hs, trunc_nonneg hR, trunc_nonneg (by linarith)]
  have low : ∀ z : ℤ, -R ≤ z * s → 0 ≤ z + ⌊R / s⌋ := by
    intro z hz
    have : -z ≤ ⌊R / s⌋ := by
      rw [Int.le_floor, le_div_iff₀ hs]
      push_cast
      linarith
    linarith
  have high : ∀ z : ℤ, z * s ≤ R - s → z + ⌊R / s⌋ < ⌊R / s * 2⌋ := by
    intro z hz
    have h1 : z + 1 ≤ ⌊R / s⌋ := by
      rw [Int.le_floor, le_div_iff₀ hs]
      push_cast
      linarith
    have h2 : 2 * ⌊R / s⌋ ≤ ⌊R / s * 2⌋ := by
      rw [Int.le_floor]
      push_cast
      linarith [Int.floor_le (R / s)]
    linarith
  have hn : ⌊R / s * 2⌋ ≤ 46340 := by
    have : (⌊R / s * 2⌋ : ℝ) ≤ (46340 : ℤ) := (Int.floor_le _).trans (by push_cast; exact hsize)
    exact_mod_cast this
  exact Radial.get_eq (low x hx) (high x hx') (low y hy) (high y hy') hn

/-- C85 is violated: if `maxRadius` is a multiple k of the scale, the query of the cell (k, k-1) reads behind the array, and that of (k, -k)
returns the distance of (-k, 1-k) -/
theorem C85_border (hist : List (ℝ × ℝ)) (s : ℝ) (hs : 0 < s) (k : ℤ) (hk : 0 < k) (hk' : 2 * k ≤ 46340) :
    (Radial.run ((s, k * s) :: hist)).get k (k - 1) = none ∧
    ∃ a, (Radial.run ((s, k * s) :: hist)).get k (-k) = some (Real.sqrt ((k * s) ^ 2 + ((1 - k) * s) ^ 2), a) ∧
      Real.sqrt ((k * s) ^ 2 + ((1 - k) * s) ^ 2) < Real.sqrt ((k * s) ^ 2 + (k * s) ^ 2) := by
  have e : (k : ℝ) * s / s = k := by field_simp
  have h1 : trunc ((k : ℝ) * s / s) = k := by
    rw [e, trunc_nonneg (by exact_mod_cast hk.le), Int.floor_intCast]
  have h2 : trunc ((k : ℝ) * s / s * 2) = 2 * k := by
    rw [e, trunc_nonneg (by have : (0 : ℝ) < k := by exact_mod_cast hk
                            linarith)]
    rw [show (k : ℝ) * 2 = ((2 * k : ℤ) : ℝ) by push_cast; ring, Int.floor_intCast]
  rw [Radial.run_cons _ _ _ hs, h1, h2]
  constructor
  · unfold Radial.get
    dsimp only
    rw [if_neg]
    have e1 : 2 * k * (k - 1 + k) + (k + k) = 4 * (k * k) := by ring
    rw [e1, Int.emod_eq_of_lt (by positivity) (by nlinarith)]
    intro h
    nlinarith
  · have := Radial.get_eq (n := 2 * k) (half := k) (s := s) (R := k * s) (x := -k) (y := 1 - k) (by omega) (by omega) (by omega)
      (by omega) hk'
    refine ⟨Complex.arg ⟨(-k : ℤ) * s, (1 - k : ℤ) * s⟩, ?_, ?_⟩
    · have e1 : Radial.get { n := 2 * k, half := k, scale := s, maxRadius := k * s, table := some (radialEntry (2 * k) k s) } k (-k) =
          Radial.get { n := 2 * k, half := k, scale := s, maxRadius := k * s, table := some (radialEntry (2 * k) k s) } (-k) (1 - k) := by
        unfold Radial.get
        dsimp only
        rw [show 2 * k * (-k + k) + (k + k) = 2 * k * (1 - k + k) + (-k + k) by ring]
      rw [e1, this]
      push_cast
      rw [neg_mul, neg_sq]
    · apply Real.sqrt_lt_sqrt (by positivity)
      have hk1 : (1 : ℝ) ≤ k := by exact_mod_cast hk
      have : ((1 - k) * s) ^ 2 < (k * s) ^ 2 := by
        rw [mul_pow, mul_pow]
        apply mul_lt_mul_of_pos_right _ (by positivity)
        nlinarith
      linarith

/-- the hypotheses of `C85_radial_partial` are met: scale 1/2, radius 2, the cell (-4, 3) -/
example : (Radial.run [(1 / 2, 2), (1, 7)]).get (-4) 3 =
    some (Real.sqrt ((((-4 : ℤ) : ℝ) * (1 / 2)) ^ 2 + (((3 : ℤ) : ℝ) * (1 / 2)) ^ 2), Complex.arg ⟨((-4 : ℤ) : ℝ) * (1 / 2), ((3 : ℤ) : ℝ) * (1 / 2)⟩) :=
  C85_radial_partial [(1, 7)] (1 / 2) 2 (by norm_num) (by norm_num) (-4) 3 (by norm_num) (by norm_num) (by norm_num) (by norm_num)

end Envire.Lookup
