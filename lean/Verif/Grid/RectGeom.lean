import Verif.Grid.RectLemmas
import Mathlib.Tactic.FieldSimp

/-!
The geometry of the rectangle in the coordinates of the fine grid, and the rows found by the loop.
-/

namespace Envire.Rect

/-- the point with the coordinates s, t in the axes a, b -/
def pt (p a b : ℝ × ℝ) (s t : ℝ) : ℝ × ℝ := (p.1 + s * a.1 + t * b.1, p.2 + s * a.2 + t * b.2)

/-- the parallelogram with the half axes a, b -/
def InPar (p a b q : ℝ × ℝ) : Prop := ∃ s t, |s| ≤ 1 ∧ |t| ≤ 1 ∧ q = pt p a b s t

/-- the square of one and a half fine cells around r is in the parallelogram -/
def Deep (p a b r : ℝ × ℝ) : Prop := ∀ dx dy : ℝ, |dx| ≤ 3 / 2 → |dy| ≤ 3 / 2 → InPar p a b (r.1 + dx, r.2 + dy)

def Chain1 (p a b e : ℝ × ℝ) : Prop := (∃ t, |t| ≤ 1 ∧ e = pt p a b 1 t) ∨ ∃ s, |s| ≤ 1 ∧ e = pt p a b s (-1)
def Chain2 (p a b e : ℝ × ℝ) : Prop := (∃ t, |t| ≤ 1 ∧ e = pt p a b (-1) t) ∨ ∃ s, |s| ≤ 1 ∧ e = pt p a b s 1

theorem inPar_neg {p a b q : ℝ × ℝ} : InPar p (-a) b q ↔ InPar p a b q := by
  constructor
  · rintro ⟨s, t, hs, ht, rfl⟩
    exact ⟨-s, t, by rwa [abs_neg], ht, by simp [pt]⟩
  · rintro ⟨s, t, hs, ht, rfl⟩
    exact ⟨-s, t, by rwa [abs_neg], ht, by simp [pt]⟩

theorem inPar_neg' {p a b q : ℝ × ℝ} : InPar p a (-b) q ↔ InPar p a b q := by
  constructor
  · rintro ⟨s, t, hs, ht, rfl⟩
    exact ⟨s, -t, hs, by rwa [abs_neg], by simp [pt]⟩
  · rintro ⟨s, t, hs, ht, rfl⟩
    exact ⟨s, -t, hs, by rwa [abs_neg], by simp [pt]⟩

theorem deep_neg {p a b r : ℝ × ℝ} (h : Deep p a b r) : Deep p (-a) b r := fun dx dy hx hy => inPar_neg.2 (h dx dy hx hy)

theorem height_le {p a b q : ℝ × ℝ} (h : InPar p a b q) (ha : 0 ≤ a.2) (hb : 0 ≤ b.2) : q.2 ≤ p.2 + a.2 + b.2 ∧ p.2 - a.2 - b.2 ≤ q.2 := by
  obtain ⟨s, t, hs, ht, rfl⟩ := h
  rw [abs_le] at hs ht
  dsimp only [pt]
  constructor
  · nlinarith
  · nlinarith

/-- both chains are on opposite sides of a point deep in the parallelogram -/
theorem sides_of_deep {p a b r : ℝ × ℝ} (hd : Deep p a b r) (ha : 0 ≤ a.2) (hb : 0 ≤ b.2) :
    (∀ e : ℝ × ℝ, -(3 / 2) < e.2 - r.2 → e.2 - r.2 < 3 / 2 → (Chain1 p a b e → r.1 + 3 / 2 ≤ e.1) ∧ (Chain2 p a b e → e.1 ≤ r.1 - 3 / 2)) ∨
    ∀ e : ℝ × ℝ, -(3 / 2) < e.2 - r.2 → e.2 - r.2 < 3 / 2 → (Chain1 p a b e → e.1 ≤ r.1 - 3 / 2) ∧ (Chain2 p a b e → r.1 + 3 / 2 ≤ e.1) := by
  have h32 : |(3 / 2 : ℝ)| ≤ 3 / 2 := by norm_num
  have hm32 : |(-(3 / 2) : ℝ)| ≤ 3 / 2 := by norm_num
  have h0 : |(0 : ℝ)| ≤ 3 / 2 := by norm_num
  have hup := (height_le (hd 0 (3 / 2) h0 h32) ha hb)
  have hdown := (height_le (hd 0 (-(3 / 2)) h0 hm32) ha hb)
  dsimp only at hup hdown
  -- the axes at the height of an edge
  have bpos : ∀ e : ℝ × ℝ, -(3 / 2) < e.2 - r.2 → e.2 - r.2 < 3 / 2 → ∀ t, |t| ≤ 1 → e = pt p a b 1 t ∨ e = pt p a b (-1) t → 0 < b.2 := by
    intro e e1 e2 t ht he
    rcases lt_or_eq_of_le hb with h | h
    · exact h
    · exfalso
      rcases he with rfl | rfl
      · dsimp only [pt] at e1 e2
        rw [← h] at e2 hup
        linarith
      · dsimp only [pt] at e1 e2
        rw [← h] at e1 hdown
        linarith
  have apos : ∀ e : ℝ × ℝ, -(3 / 2) < e.2 - r.2 → e.2 - r.2 < 3 / 2 → ∀ s, |s| ≤ 1 → e = pt p a b s 1 ∨ e = pt p a b s (-1) → 0 < a.2 := by
    intro e e1 e2 t ht he
    rcases lt_or_eq_of_le ha with h | h
    · exact h
    · exfalso
      rcases he with rfl | rfl
      · dsimp only [pt] at e1 e2
        rw [← h] at e2 hup
        linarith
      · dsimp only [pt] at e1 e2
        rw [← h] at e1 hdown
        linarith
  -- the point at the height of e, to the right or to the left
  have key1 : ∀ (e : ℝ × ℝ) (dx : ℝ), |dx| ≤ 3 / 2 → -(3 / 2) < e.2 - r.2 → e.2 - r.2 < 3 / 2 → Chain1 p a b e →
      ∃ k u, 0 < k ∧ 0 ≤ u ∧ k * (e.1 - (r.1 + dx)) = u * (a.1 * b.2 - a.2 * b.1) := by
    intro e dx hdx e1 e2 hc
    obtain ⟨s', t', hs', ht', hq⟩ := hd dx (e.2 - r.2) hdx (abs_le.2 ⟨e1.le, e2.le⟩)
    rw [abs_le] at hs' ht'
    have q1 := congrArg Prod.fst hq
    have q2 := congrArg Prod.snd hq
    dsimp only [pt] at q1 q2
    rcases hc with ⟨t, ht, he⟩ | ⟨s, hs, he⟩
    · have hbp := bpos e e1 e2 t ht (.inl he)
      refine ⟨b.2, 1 - s', hbp, by linarith, ?_⟩
      rw [he] at q2 ⊢
      dsimp only [pt] at q2 ⊢
      have h2 : (t' - t) * b.2 = (1 - s') * a.2 := by linarith
      rw [q1]
      linear_combination -b.1 * h2
    · have hap := apos e e1 e2 s hs (.inr he)
      refine ⟨a.2, 1 + t', hap, by linarith, ?_⟩
      rw [he] at q2 ⊢
      dsimp only [pt] at q2 ⊢
      have h2 : (s - s') * a.2 = (1 + t') * b.2 := by linarith
      rw [q1]
      linear_combination a.1 * h2
  have key2 : ∀ (e : ℝ × ℝ) (dx : ℝ), |dx| ≤ 3 / 2 → -(3 / 2) < e.2 - r.2 → e.2 - r.2 < 3 / 2 → Chain2 p a b e →
      ∃ k u, 0 < k ∧ 0 ≤ u ∧ k * (e.1 - (r.1 + dx)) = -(u * (a.1 * b.2 - a.2 * b.1)) := by
    intro e dx hdx e1 e2 hc
    obtain ⟨s', t', hs', ht', hq⟩ := hd dx (e.2 - r.2) hdx (abs_le.2 ⟨e1.le, e2.le⟩)
    rw [abs_le] at hs' ht'
    have q1 := congrArg Prod.fst hq
    have q2 := congrArg Prod.snd hq
    dsimp only [pt] at q1 q2
    rcases hc with ⟨t, ht, he⟩ | ⟨s, hs, he⟩
    · have hbp := bpos e e1 e2 t ht (.inr he)
      refine ⟨b.2, 1 + s', hbp, by linarith, ?_⟩
      rw [he] at q2 ⊢
      dsimp only [pt] at q2 ⊢
      have h2 : (t - t') * b.2 = (1 + s') * a.2 := by linarith
      rw [q1]
      linear_combination b.1 * h2
    · have hap := apos e e1 e2 s hs (.inl he)
      refine ⟨a.2, 1 - t', hap, by linarith, ?_⟩
      rw [he] at q2 ⊢
      dsimp only [pt] at q2 ⊢
      have h2 : (s - s') * a.2 = (t' - 1) * b.2 := by linarith
      rw [q1]
      linear_combination a.1 * h2
  rcases le_total 0 (a.1 * b.2 - a.2 * b.1) with hx | hx
  · left
    intro e e1 e2
    constructor
    · intro hc
      obtain ⟨k, u, hk, hu, h⟩ := key1 e (3 / 2) h32 e1 e2 hc
      have : 0 ≤ k * (e.1 - (r.1 + 3 / 2)) := by rw [h]; exact mul_nonneg hu hx
      have := nonneg_of_mul_nonneg_right this hk
      linarith
    · intro hc
      obtain ⟨k, u, hk, hu, h⟩ := key2 e (-(3 / 2)) hm32 e1 e2 hc
      have : k * (e.1 - (r.1 + -(3 / 2))) ≤ 0 := by rw [h]; exact neg_nonpos.2 (mul_nonneg hu hx)
      have := nonpos_of_mul_nonpos_right this hk
      linarith
  · right
    intro e e1 e2
    constructor
    · intro hc
      obtain ⟨k, u, hk, hu, h⟩ := key1 e (-(3 / 2)) hm32 e1 e2 hc
      have : k * (e.1 - (r.1 + -(3 / 2))) ≤ 0 := by rw [h]; exact mul_nonpos_of_nonneg_of_nonpos hu hx
      have := nonpos_of_mul_nonpos_right this hk
      linarith
    · intro hc
      obtain ⟨k, u, hk, hu, h⟩ := key2 e (3 / 2) h32 e1 e2 hc
      have : 0 ≤ k * (e.1 - (r.1 + 3 / 2)) := by rw [h]; exact neg_nonneg.2 (mul_nonpos_of_nonneg_of_nonpos hu hx)
      have := nonneg_of_mul_nonneg_right this hk
      linarith

/-- a point of each side in the fine row of r: the column of r is between them -/
theorem column_between {p a b r : ℝ × ℝ} (hd : Deep p a b r) (ha : 0 ≤ a.2) (hb : 0 ≤ b.2) {A B : Pt} {eA eB : ℝ × ℝ}
    (hA : A.2 = ⌊r.2⌋) (hB : B.2 = ⌊r.2⌋) (nA : Near A eA) (nB : Near B eB) (cA : Chain1 p a b eA) (cB : Chain2 p a b eB) :
    (A.1 / 10 ≤ ⌊r.1⌋ / 10 ∧ ⌊r.1⌋ / 10 ≤ B.1 / 10) ∨ (B.1 / 10 ≤ ⌊r.1⌋ / 10 ∧ ⌊r.1⌋ / 10 ≤ A.1 / 10) := by
  obtain ⟨A1, A2, A3, A4⟩ := nA
  obtain ⟨B1, B2, B3, B4⟩ := nB
  have f1 := Int.floor_le r.2
  have f2 := Int.lt_floor_add_one r.2
  rw [hA] at A3 A4
  rw [hB] at B3 B4
  have up : ∀ n : Int, r.1 < n → ⌊r.1⌋ / 10 ≤ n / 10 := by
    intro n hn
    have : ⌊r.1⌋ < n := Int.floor_lt.2 hn
    omega
  have down : ∀ n : Int, (n : ℝ) ≤ r.1 → n / 10 ≤ ⌊r.1⌋ / 10 := by
    intro n hn
    have : n ≤ ⌊r.1⌋ := Int.le_floor.2 hn
    omega
  rcases sides_of_deep hd ha hb with h | h
  · have hA' := (h eA (by linarith) (by linarith)).1 cA
    have hB' := (h eB (by linarith) (by linarith)).2 cB
    exact .inr ⟨down _ (by linarith), up _ (by linarith)⟩
  · have hA' := (h eA (by linarith) (by linarith)).1 cA
    have hB' := (h eB (by linarith) (by linarith)).2 cB
    exact .inl ⟨down _ (by linarith), up _ (by linarith)⟩

end Envire.Rect
