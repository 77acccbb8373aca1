import Verif.Icp.GoldenProps
import Mathlib.Data.Fin.VecNotation
import Mathlib.Tactic.FinCases
import Mathlib.Analysis.SpecificLimits.Basic

/-! C125: the search for the overlap ends if the lower end of the interval is positive.

In each round one of the outer points is dropped and a point between two of the others is added, but the points need not stay in order. The largest distance of two of the points
gets smaller by a fixed factor over a fixed number of rounds unless the two cases of the loop alternate; but then the outer points meet. -/

namespace Envire.Icp.Golden

noncomputable section

/-- the points of a state -/
def pts (s : St) : Fin 4 → ℝ := ![s.x0, s.x1, s.x2, s.x3]

/-- a round of the loop, on the points -/
def mv (l : Bool) (x : Fin 4 → ℝ) : Fin 4 → ℝ :=
  if l then ![x 0, R * x 2 + C * x 0, x 1, x 2] else ![x 1, x 2, R * x 1 + C * x 3, x 3]

theorem c_le_r : C ≤ R := by unfold C R; norm_num

theorem c_le_one : C ≤ 1 := by unfold C R; norm_num

/-- which points are near to the maximum after a round, if those of `A` were before -/
def pass (l : Bool) (A : Fin 4 → Bool) : Fin 4 → Bool :=
  if l then ![A 0, A 0 && A 2, A 1, A 2] else ![A 1, A 2, A 1 && A 3, A 3]

/-- near to the maximum, with a tolerance that shrinks with the rounds to go -/
def Near (M e : ℝ) (k : Nat) (x : Fin 4 → ℝ) (i : Fin 4) : Prop := (M - x i) * C ^ k ≤ e

theorem near_pass {M e : ℝ} {k : Nat} {l : Bool} {x : Fin 4 → ℝ} {A : Fin 4 → Bool} (hM : ∀ i, x i ≤ M) (hA : ∀ i, Near M e (k + 1) x i → A i = true) (i : Fin 4)
    (h : Near M e k (mv l x) i) : pass l A i = true := by
  have hc := c_pos
  have hck : 0 < C ^ k := pow_pos hc k
  have direct : ∀ j, (M - x j) * C ^ k ≤ e → A j = true := by
    intro j hj
    refine hA j (le_trans ?_ hj)
    rw [pow_succ, ← mul_assoc]
    exact mul_le_of_le_one_right (mul_nonneg (sub_nonneg.2 (hM j)) hck.le) c_le_one
  have both : ∀ a b, (M - (R * x a + C * x b)) * C ^ k ≤ e → A a = true ∧ A b = true := by
    intro a b hab
    have ha := sub_nonneg.2 (hM a)
    have hb := sub_nonneg.2 (hM b)
    have e1 : M - (R * x a + C * x b) = R * (M - x a) + C * (M - x b) := by unfold C; ring
    rw [e1] at hab
    constructor
    · refine hA a (le_trans ?_ hab)
      have : C * (M - x a) ≤ R * (M - x a) + C * (M - x b) := by nlinarith [c_le_r]
      calc (M - x a) * C ^ (k + 1) = C * (M - x a) * C ^ k := by ring
        _ ≤ _ := mul_le_mul_of_nonneg_right this hck.le
    · refine hA b (le_trans ?_ hab)
      have : C * (M - x b) ≤ R * (M - x a) + C * (M - x b) := by nlinarith [r_pos]
      calc (M - x b) * C ^ (k + 1) = C * (M - x b) * C ^ k := by ring
        _ ≤ _ := mul_le_mul_of_nonneg_right this hck.le
  unfold Near at h
  cases l <;> fin_cases i <;> simp [mv, pass] at h ⊢
  · exact direct 1 h
  · exact direct 2 h
  · exact both 1 3 h
  · exact direct 3 h
  · exact direct 0 h
  · exact (both 2 0 h).symm
  · exact direct 1 h
  · exact direct 2 h

/-- of five rounds that keep a largest and a smallest point the first two are different -/
theorem five (A : Fin 4 → Bool) (a b c d e : Bool) (i j : Fin 4) (h1 : pass e (pass d (pass c (pass b (pass a A)))) i = true)
    (h2 : pass e (pass d (pass c (pass b (pass a fun i => !A i)))) j = true) : a ≠ b := by
  revert A a b c d e i j
  decide +kernel

/-- the points after some rounds -/
def go (w : Nat → Bool) (x : Fin 4 → ℝ) : Nat → Fin 4 → ℝ
  | 0 => x
  | n + 1 => mv (w n) (go w x n)

theorem mv_le {l : Bool} {x : Fin 4 → ℝ} {M : ℝ} (h : ∀ i, x i ≤ M) (i : Fin 4) : mv l x i ≤ M := by
  have e : ∀ a b, R * x a + C * x b ≤ M := by
    intro a b
    have h1 := mul_le_mul_of_nonneg_left (h a) r_pos.le
    have h2 := mul_le_mul_of_nonneg_left (h b) c_pos.le
    have h3 : R * M + C * M = M := by rw [← add_mul, r_c, one_mul]
    linarith
  cases l <;> fin_cases i <;> simp [mv, h, e]

theorem go_le {w : Nat → Bool} {x : Fin 4 → ℝ} {M : ℝ} (h : ∀ i, x i ≤ M) (n : Nat) (i : Fin 4) : go w x n i ≤ M := by
  induction n generalizing i with
  | zero => exact h i
  | succ n ih => exact mv_le ih i

theorem mv_neg (l : Bool) (x : Fin 4 → ℝ) : mv l (fun i => -x i) = fun i => -mv l x i := by
  funext i
  cases l <;> fin_cases i <;> simp [mv] <;> ring

theorem go_neg (w : Nat → Bool) (x : Fin 4 → ℝ) (n : Nat) : go w (fun i => -x i) n = fun i => -go w x n i := by
  induction n with
  | zero => rfl
  | succ n ih => show mv _ (go w (fun i => -x i) n) = _; rw [ih, mv_neg]; rfl

theorem go_le' {w : Nat → Bool} {x : Fin 4 → ℝ} {m : ℝ} (h : ∀ i, m ≤ x i) (n : Nat) (i : Fin 4) : m ≤ go w x n i := by
  have := go_le (w := w) (x := fun i => -x i) (M := -m) (fun i => neg_le_neg (h i)) n i
  rw [go_neg] at this
  exact neg_le_neg_iff.1 this

/-- if the first two of five rounds are equal, a largest or a smallest point is lost -/
theorem near_five {w : Nat → Bool} {x : Fin 4 → ℝ} {M m e : ℝ} {k t : Nat} (hM : ∀ i, x i ≤ M) (hm : ∀ i, m ≤ x i) (he : 2 * e < (M - m) * C ^ (t + 5))
    (hi : ∃ i, Near M e t (go w x (k + 5)) i) (hj : ∃ j, Near (-m) e t (fun i => -go w x (k + 5) i) j) : w k ≠ w (k + 1) := by
  classical
  obtain ⟨i, hi⟩ := hi
  obtain ⟨j, hj⟩ := hj
  have up : ∀ (y : Fin 4 → ℝ) (N : ℝ) (B : Fin 4 → Bool), (∀ i, y i ≤ N) → (∀ i, Near N e (t + 5) (go w y k) i → B i = true) → ∀ i, Near N e t (go w y (k + 5)) i →
      pass (w (k + 4)) (pass (w (k + 3)) (pass (w (k + 2)) (pass (w (k + 1)) (pass (w k) B)))) i = true := by
    intro y N B hN hB i hi
    exact near_pass (k := t) (go_le hN (k + 4)) (near_pass (k := t + 1) (go_le hN (k + 3)) (near_pass (k := t + 2) (go_le hN (k + 2))
      (near_pass (k := t + 3) (go_le hN (k + 1)) (near_pass (k := t + 4) (go_le hN k) hB)))) i hi
  let A : Fin 4 → Bool := fun i => decide (Near M e (t + 5) (go w x k) i)
  have h1 := up x M A hM (fun i hi => by simpa [A] using hi) i hi
  have h2 := up (fun i => -x i) (-m) (fun i => !A i) (fun i => neg_le_neg (hm i)) (fun i hi => by
    rw [go_neg] at hi
    simp only [A, Bool.not_eq_true', decide_eq_false_iff_not]
    intro hn
    unfold Near at hi hn
    have hck : 0 < C ^ (t + 5) := pow_pos c_pos _
    nlinarith) j (by rw [go_neg]; exact hj)
  exact five A _ _ _ _ _ i j h1 h2

/-- a point that is near after more rounds comes from one that was near before -/
theorem near_back {w : Nat → Bool} {x : Fin 4 → ℝ} {M e : ℝ} (hM : ∀ i, x i ≤ M) (n d t : Nat) (h : ∃ i, Near M e t (go w x (n + d)) i) :
    ∃ i, Near M e (t + d) (go w x n) i := by
  classical
  induction d generalizing t with
  | zero => exact h
  | succ d ih =>
    obtain ⟨i, hi⟩ := h
    have hp := near_pass (k := t) (l := w (n + d)) (x := go w x (n + d)) (A := fun i => decide (Near M e (t + 1) (go w x (n + d)) i)) (go_le hM _)
      (fun i hi => by simpa using hi) i hi
    have : ∃ j, Near M e (t + 1) (go w x (n + d)) j := by
      by_contra hne
      push Not at hne
      have : (fun i => decide (Near M e (t + 1) (go w x (n + d)) i)) = fun _ => false := by funext i; simp [hne i]
      rw [this] at hp
      revert hp
      cases w (n + d) <;> fin_cases i <;> simp [pass]
    have := ih (t + 1) this
    rwa [show t + (d + 1) = t + 1 + d by omega]

/-- rounds that alternate bring the outer points together -/
theorem alternate {w : Nat → Bool} {x : Fin 4 → ℝ} (n k : Nat) (h : ∀ j, j < k → w (n + 2 * j) = true ∧ w (n + 2 * j + 1) = false) :
    |go w x (n + 2 * k) 2 - go w x (n + 2 * k) 0| = (C ^ 2) ^ k * |go w x n 2 - go w x n 0| ∧
      (0 < k → |go w x (n + 2 * k) 3 - go w x (n + 2 * k) 0| ≤ (C ^ 2) ^ (k - 1) * |go w x n 2 - go w x n 0|) := by
  induction k with
  | zero => simp
  | succ k ih =>
    obtain ⟨i1, -⟩ := ih fun j hj => h j (by omega)
    obtain ⟨h1, h2⟩ := h k (by omega)
    have e : go w x (n + 2 * (k + 1)) = mv false (mv true (go w x (n + 2 * k))) := by
      show mv (w (n + 2 * k + 1)) (mv (w (n + 2 * k)) (go w x (n + 2 * k))) = _
      rw [h1, h2]
    set y := go w x (n + 2 * k)
    have y0 : go w x (n + 2 * (k + 1)) 0 = R * y 2 + C * y 0 := by rw [e]; simp [mv]
    have y2 : go w x (n + 2 * (k + 1)) 2 = R * (R * y 2 + C * y 0) + C * y 2 := by rw [e]; simp [mv]
    have y3 : go w x (n + 2 * (k + 1)) 3 = y 2 := by rw [e]; simp [mv]
    constructor
    · rw [y0, y2, pow_succ, mul_assoc, mul_comm (C ^ 2), ← mul_assoc, ← i1]
      have : R * (R * y 2 + C * y 0) + C * y 2 - (R * y 2 + C * y 0) = (y 2 - y 0) * C ^ 2 := by unfold C; ring
      rw [this, abs_mul, abs_of_nonneg (sq_nonneg C)]
    · intro _
      rw [y0, y3, Nat.add_sub_cancel, ← i1]
      have : y 2 - (R * y 2 + C * y 0) = C * (y 2 - y 0) := by unfold C; ring
      rw [this, abs_mul, abs_of_pos c_pos]
      exact mul_le_of_le_one_left (abs_nonneg _) c_le_one

/-- over `2 * k + 8` rounds the distance of the points falls, or the outer points come near -/
theorem shrink (w : Nat → Bool) (x : Fin 4 → ℝ) (M m : ℝ) (hM : ∀ i, x i ≤ M) (hm : ∀ i, m ≤ x i) (hlt : m < M) (k : Nat) (hk : 0 < k)
    (hw : ∀ n, (C ^ 2) ^ (k - 1) * (M - m) < |go w x n 3 - go w x n 0|) :
    (∀ i, go w x (2 * k + 8) i ≤ M - (M - m) * C ^ (2 * k + 8) / 3) ∨ (∀ i, m + (M - m) * C ^ (2 * k + 8) / 3 ≤ go w x (2 * k + 8) i) := by
  by_contra hne
  push Not at hne
  obtain ⟨⟨i, hi⟩, j, hj⟩ := hne
  have hd : 0 < M - m := sub_pos.2 hlt
  set e := (M - m) * C ^ (2 * k + 8) / 3 with he
  have hpos : 0 < (M - m) * C ^ (2 * k + 8) := mul_pos hd (pow_pos c_pos _)
  have n1 : Near M e 0 (go w x (2 * k + 8)) i := by unfold Near; rw [pow_zero, mul_one]; linarith
  have n2 : Near (-m) e 0 (go w (fun i => -x i) (2 * k + 8)) j := by rw [go_neg]; unfold Near; rw [pow_zero, mul_one]; linarith
  have alt : ∀ n, n + 5 ≤ 2 * k + 8 → w n ≠ w (n + 1) := by
    intro n hn
    have f1 := near_back (w := w) hM (n + 5) (2 * k + 8 - (n + 5)) 0 ⟨i, by rw [show n + 5 + (2 * k + 8 - (n + 5)) = 2 * k + 8 by omega]; exact n1⟩
    have f2 := near_back (w := w) (x := fun i => -x i) (M := -m) (fun i => neg_le_neg (hm i)) (n + 5) (2 * k + 8 - (n + 5)) 0
      ⟨j, by rw [show n + 5 + (2 * k + 8 - (n + 5)) = 2 * k + 8 by omega]; exact n2⟩
    rw [go_neg] at f2
    refine near_five hM hm ?_ f1 f2
    have : C ^ (2 * k + 8) ≤ C ^ (0 + (2 * k + 8 - (n + 5)) + 5) := pow_le_pow_of_le_one c_pos.le c_le_one (by omega)
    have := mul_le_mul_of_nonneg_left this hd.le
    rw [he]
    linarith
  -- start with a `true`
  obtain ⟨s, hs, hst⟩ : ∃ s, s ≤ 1 ∧ w s = true := by
    cases h0 : w 0 with
    | true => exact ⟨0, by omega, h0⟩
    | false =>
      have := alt 0 (by omega)
      rw [h0] at this
      refine ⟨1, le_refl 1, ?_⟩
      cases h1 : w 1 with
      | true => rfl
      | false => exact absurd h1.symm this
  have flip : ∀ n, n + 5 ≤ 2 * k + 8 → w (n + 1) = !w n := by
    intro n hn
    have := alt n hn
    cases h0 : w n <;> cases h1 : w (n + 1) <;> simp_all
  have pat : ∀ q, q < k → w (s + 2 * q) = true ∧ w (s + 2 * q + 1) = false := by
    intro q
    induction q with
    | zero =>
      intro _
      refine ⟨hst, ?_⟩
      have := flip s (by omega)
      rw [hst] at this
      exact this
    | succ q ih =>
      intro hq
      obtain ⟨-, a2⟩ := ih (by omega)
      have b1 := flip (s + 2 * q + 1) (by omega)
      rw [a2] at b1
      have b2 := flip (s + 2 * q + 1 + 1) (by omega)
      rw [b1] at b2
      exact ⟨b1, b2⟩
  have := (alternate (x := x) s k pat).2 hk
  have hb : |go w x s 2 - go w x s 0| ≤ M - m := by
    rw [abs_le]
    have a1 := go_le (w := w) hM s 2
    have a2 := go_le (w := w) hM s 0
    have a3 := go_le' (w := w) hm s 2
    have a4 := go_le' (w := w) hm s 0
    constructor <;> linarith
  have hc2 : (0 : ℝ) ≤ (C ^ 2) ^ (k - 1) := pow_nonneg (sq_nonneg C) _
  exact absurd (lt_of_lt_of_le (hw (s + 2 * k)) (le_trans this (mul_le_mul_of_nonneg_left hb hc2))) (lt_irrefl _)

theorem go_add (w : Nat → Bool) (x : Fin 4 → ℝ) (a b : Nat) : go w x (a + b) = go (fun n => w (a + n)) (go w x a) b := by
  induction b with
  | zero => rfl
  | succ b ih => show mv _ (go w x (a + b)) = _; rw [ih]; rfl

/-- the outer points come as near as wanted -/
theorem meet (w : Nat → Bool) (x : Fin 4 → ℝ) (δ : ℝ) (hδ : 0 < δ) : ∃ n, |go w x n 3 - go w x n 0| ≤ δ := by
  by_contra hne
  push Not at hne
  obtain ⟨M, hM⟩ : ∃ M, ∀ i, x i ≤ M := ⟨max (max (x 0) (x 1)) (max (x 2) (x 3)), fun i => by fin_cases i <;> simp⟩
  obtain ⟨m, hm⟩ : ∃ m, ∀ i, m ≤ x i := ⟨min (min (x 0) (x 1)) (min (x 2) (x 3)), fun i => by fin_cases i <;> simp⟩
  have hc0 := c_pos
  have hc1 : C ^ 2 < 1 := by unfold C R; norm_num
  have far : ∀ (n : Nat) (a b : ℝ), (∀ i, go w x n i ≤ b) → (∀ i, a ≤ go w x n i) → δ < b - a := by
    intro n a b hb ha
    refine lt_of_lt_of_le (hne n) ?_
    rw [abs_le]
    constructor <;> linarith [hb 0, hb 3, ha 0, ha 3]
  have hd : δ < M - m := far 0 m M hM hm
  obtain ⟨k, hk⟩ : ∃ k : Nat, (C ^ 2) ^ k * (M - m) < δ := by
    obtain ⟨k, hk⟩ := exists_pow_lt_of_lt_one (div_pos hδ (by linarith : 0 < M - m)) hc1
    exact ⟨k, by rwa [lt_div_iff₀ (by linarith)] at hk⟩
  set N := 2 * (k + 1) + 8 with hN
  set c := C ^ N / 3 with hc
  have hcp : 0 < c := by rw [hc]; have := pow_pos hc0 N; linarith
  have hcl : c < 1 := by
    have : C ^ N ≤ 1 := pow_le_one₀ hc0.le c_le_one
    rw [hc]; linarith
  have main : ∀ r : Nat, ∃ a b : ℝ, (∀ i, go w x (r * N) i ≤ b) ∧ (∀ i, a ≤ go w x (r * N) i) ∧ b - a ≤ (1 - c) ^ r * (M - m) := by
    intro r
    induction r with
    | zero => exact ⟨m, M, by simpa [go] using hM, by simpa [go] using hm, by simp⟩
    | succ r ih =>
      obtain ⟨a, b, hb, ha, hab⟩ := ih
      have hlt : δ < b - a := far _ a b hb ha
      have hle : b - a ≤ M - m := le_trans hab (mul_le_of_le_one_left (by linarith) (pow_le_one₀ (by linarith) (by linarith)))
      have e : go w x ((r + 1) * N) = go (fun n => w (r * N + n)) (go w x (r * N)) N := by
        rw [← go_add, Nat.succ_mul]
      have hs := shrink (fun n => w (r * N + n)) (go w x (r * N)) b a hb ha (by linarith) (k + 1) (by omega) (fun n => by
        rw [← go_add]
        refine lt_trans (lt_of_le_of_lt ?_ hk) (hne _)
        rw [Nat.add_sub_cancel]
        exact mul_le_mul_of_nonneg_left hle (pow_nonneg (sq_nonneg C) _))
      have hstep : b - a - (b - a) * C ^ N / 3 ≤ (1 - c) ^ (r + 1) * (M - m) := by
        have : b - a - (b - a) * C ^ N / 3 = (1 - c) * (b - a) := by rw [hc]; ring
        rw [this, pow_succ, mul_comm ((1 - c) ^ r), mul_assoc]
        exact mul_le_mul_of_nonneg_left hab (by linarith)
      rw [e]
      rcases hs with hs | hs
      · exact ⟨a, b - (b - a) * C ^ N / 3, hs, fun i => go_le' ha N i, by linarith⟩
      · exact ⟨a + (b - a) * C ^ N / 3, b, fun i => go_le hb N i, hs, by linarith⟩
  obtain ⟨r, hr⟩ := exists_pow_lt_of_lt_one (div_pos hδ (by linarith : 0 < M - m)) (by linarith : 1 - c < 1)
  rw [lt_div_iff₀ (by linarith)] at hr
  obtain ⟨a, b, hb, ha, hab⟩ := main r
  have := far _ a b hb ha
  linarith

open Classical in
theorem step_pts (f : ℝ → ℝ) (s : St) : pts (step f s) = mv (decide (¬ s.f2 < s.f1)) (pts s) := by
  unfold step
  by_cases h : s.f2 < s.f1
  · rw [if_pos h]; simp [h, mv, pts]
  · rw [if_neg h]; simp [h, mv, pts]

theorem run_none {f : ℝ → ℝ} {eps : ℝ} {n : Nat} {s : St} (h : run f eps n s = none) : ∀ k, k ≤ n → goesOn eps ((step f)^[k] s) := by
  induction n generalizing s with
  | zero =>
    intro k hk
    obtain rfl : k = 0 := by omega
    by_contra hn
    rw [run_stop (by simpa using hn)] at h
    cases h
  | succ n ih =>
    have h0 : goesOn eps s := by
      by_contra hn
      rw [run_stop hn] at h
      cases h
    rw [run_go h0] at h
    intro k hk
    cases k with
    | zero => exact h0
    | succ k => exact ih h k (by omega)

theorem iter_box {f : ℝ → ℝ} {a b : ℝ} {s : St} (h : Box a b s) (k : Nat) : Box a b ((step f)^[k] s) := by
  induction k generalizing s with
  | zero => exact h
  | succ k ih => exact ih (step_box h)

open Classical in
theorem iter_pts (f : ℝ → ℝ) (s : St) (k : Nat) : pts ((step f)^[k] s) = go (fun n => decide (¬ ((step f)^[n] s).f2 < ((step f)^[n] s).f1)) (pts s) k := by
  induction k with
  | zero => rfl
  | succ k ih =>
    rw [Function.iterate_succ_apply', step_pts, ih]
    rfl

/-- C125: the search ends, for every function, if the lower end of the interval and the accuracy are positive -/
theorem C125_ends (f : ℝ → ℝ) (alpha beta eps : ℝ) (ha : 0 < alpha) (hab : alpha ≤ beta) (he : 0 < eps) : ∃ n x y, search f alpha beta eps n = some (x, y) := by
  set s := start f alpha ((alpha + beta) / 2) beta with hs
  have hbox : Box alpha beta s := by
    have := start_inv f (a := alpha) (b := (alpha + beta) / 2) (c := beta) (by linarith) (by linarith)
    exact ⟨this.b0, this.b1, this.b2, this.b3⟩
  obtain ⟨n, hn⟩ := meet (fun n => by classical exact decide (¬ ((step f)^[n] s).f2 < ((step f)^[n] s).f1)) (pts s) (eps * (2 * alpha)) (by positivity)
  have hstop : ¬ goesOn eps ((step f)^[n] s) := by
    have hp := iter_pts f s n
    have h0 : ((step f)^[n] s).x0 = pts ((step f)^[n] s) 0 := rfl
    have h3 : ((step f)^[n] s).x3 = pts ((step f)^[n] s) 3 := rfl
    obtain ⟨-, b1, b2, -⟩ := iter_box (f := f) hbox n
    unfold goesOn
    rw [not_lt, h0, h3, hp]
    refine le_trans hn (mul_le_mul_of_nonneg_left ?_ he.le)
    have a1 := le_abs_self ((step f)^[n] s).x1
    have a2 := le_abs_self ((step f)^[n] s).x2
    linarith [b1.1, b2.1]
  unfold search findMin
  rw [← hs]
  cases hr : run f eps n s with
  | none => exact absurd (run_none hr n (le_refl n)) hstop
  | some t => exact ⟨n, (result t).1, (result t).2, by rw [hr]; rfl⟩

/-! ### without a positive lower end -/

/-- the states of the search for an increasing function -/
structure Falling (f : ℝ → ℝ) (s : St) : Prop where
  x0 : s.x0 = 0
  pos : 0 < s.x1
  r : R * s.x2 ≤ s.x1
  le : s.x1 ≤ s.x2
  le3 : s.x2 ≤ s.x3
  lt : s.x1 < s.x3
  f1 : s.f1 = f s.x1
  f2 : s.f2 = f s.x2

theorem falling_step {f : ℝ → ℝ} (hf : Monotone f) {s : St} (h : Falling f s) : Falling f (step f s) := by
  rw [step_left (by rw [h.f1, h.f2, not_lt]; exact hf h.le)]
  have hr := r_pos
  have hx2 : 0 < s.x2 := lt_of_lt_of_le h.pos h.le
  have e : R * s.x2 + C * s.x0 = R * s.x2 := by rw [h.x0]; ring
  have hr1 : R < 1 := by unfold R; norm_num
  refine ⟨h.x0, ?_, ?_, ?_, h.le, ?_, rfl, h.f1⟩
  · show 0 < R * s.x2 + C * s.x0
    rw [e]; exact mul_pos hr hx2
  · show R * s.x1 ≤ R * s.x2 + C * s.x0
    rw [e]; exact mul_le_mul_of_nonneg_left h.le hr.le
  · show R * s.x2 + C * s.x0 ≤ s.x1
    rw [e]; exact h.r
  · show R * s.x2 + C * s.x0 < s.x2
    rw [e]; nlinarith

/-- C125, the code violates the property: if the lower end of the interval is zero and the function increases, the search never ends (with exact numbers) -/
theorem C125_endless_deviation (f : ℝ → ℝ) (hf : Monotone f) (beta eps : ℝ) (hb : 0 < beta) (he : 0 ≤ eps) (he' : eps ≤ 1 / 2) (n : Nat) : search f 0 beta eps n = none := by
  have h0 : Falling f (start f 0 ((0 + beta) / 2) beta) := by
    unfold start
    have e : beta - (0 + beta) / 2 = (0 + beta) / 2 - 0 := by ring
    rw [if_neg (by rw [e]; exact lt_irrefl _)]
    have hr := r_pos
    have hr1 : R < 1 := by unfold R; norm_num
    have e1 : (0 + beta) / 2 - C * ((0 + beta) / 2 - 0) = R * (beta / 2) := by unfold C; ring
    refine ⟨rfl, ?_, ?_, ?_, ?_, ?_, rfl, rfl⟩
    · show 0 < (0 + beta) / 2 - C * ((0 + beta) / 2 - 0)
      rw [e1]; positivity
    · show R * ((0 + beta) / 2) ≤ (0 + beta) / 2 - C * ((0 + beta) / 2 - 0)
      rw [e1, zero_add]
    · show (0 + beta) / 2 - C * ((0 + beta) / 2 - 0) ≤ (0 + beta) / 2
      rw [e1]; nlinarith
    · show (0 + beta) / 2 ≤ beta
      linarith
    · show (0 + beta) / 2 - C * ((0 + beta) / 2 - 0) < beta
      rw [e1]; nlinarith
  have key : ∀ (n : Nat) (s : St), Falling f s → run f eps n s = none := by
    intro n
    induction n with
    | zero =>
      intro s hs
      unfold run
      rw [if_pos]
      unfold goesOn
      rw [hs.x0, sub_zero, abs_of_pos hs.pos, abs_of_pos (lt_of_lt_of_le hs.pos hs.le), abs_of_pos (lt_trans hs.pos hs.lt)]
      nlinarith [hs.lt, hs.le3, hs.pos, hs.le]
    | succ n ih =>
      intro s hs
      rw [run_go, ih _ (falling_step hf hs)]
      unfold goesOn
      rw [hs.x0, sub_zero, abs_of_pos hs.pos, abs_of_pos (lt_of_lt_of_le hs.pos hs.le), abs_of_pos (lt_trans hs.pos hs.lt)]
      nlinarith [hs.lt, hs.le3, hs.pos, hs.le]
  unfold search findMin
  rw [key n _ h0]
  rfl

/-- an interval as in `C125_ends` -/
example : ∃ n x y, search vee (1 / 5) 1 (1 / 1000) n = some (x, y) := C125_ends vee (1 / 5) 1 (1 / 1000) (by norm_num) (by norm_num) (by norm_num)

end

#print axioms C125_ends
#print axioms C125_endless_deviation

end Envire.Icp.Golden
