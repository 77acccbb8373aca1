import Verif.Viz.PatchModel
import Mathlib.Tactic.Linarith
import Mathlib.Tactic.FieldSimp
import Mathlib.Tactic.Ring
import Mathlib.Tactic.NormNum

/-!
Properties of the drawing of the patches of a multi level surface grid.

* C157: the polygon of a slanted patch is the rectangle of its cell on the plane of the patch, cut
  at the lowest and at the highest point of the patch.
-/

namespace Envire.PatchView

/-! ### specification -/

/-- `v` lies on the straight line from `a` to `b` -/
def On (a b v : P) : Prop :=
  ∃ t : ℚ, 0 ≤ t ∧ t ≤ 1 ∧
    v.x = (1 - t) * a.x + t * b.x ∧ v.y = (1 - t) * a.y + t * b.y ∧ v.z = (1 - t) * a.z + t * b.z

/-- the height of `v` is one of the patch -/
def Within (lo hi : ℚ) (v : P) : Prop := lo ≤ v.z ∧ v.z ≤ hi

/-- the part of the edge from `a` to `b` at the heights of the patch is bounded by vertices of the
polygon that lie on this edge -/
def Covered (lo hi : ℚ) (poly : List P) (a b : P) : Prop :=
  ∀ v, On a b v → Within lo hi v →
    ∃ u ∈ poly, ∃ w ∈ poly, On a b u ∧ On a b w ∧ On u w v

/-- the corners of the patch on its plane: the heights of the patch at the corners of the cell -/
def corner (xp yp xs ys h0 h1 h2 h3 : ℚ) : ℕ → P
  | 0 => ⟨xp - xs / 2, yp - ys / 2, h0⟩
  | 1 => ⟨xp + xs / 2, yp - ys / 2, h1⟩
  | 2 => ⟨xp + xs / 2, yp + ys / 2, h2⟩
  | _ => ⟨xp - xs / 2, yp + ys / 2, h3⟩

/-! ### lemmas -/

theorem P.ext' {a b : P} (hx : a.x = b.x) (hy : a.y = b.y) (hz : a.z = b.z) : a = b := by
  cases a; cases b; simp_all

theorem on_iff {a b v : P} : On a b v ↔ ∃ t : ℚ, 0 ≤ t ∧ t ≤ 1 ∧ v = lerp a b t := by
  constructor
  · rintro ⟨t, h0, h1, hx, hy, hz⟩
    refine ⟨t, h0, h1, P.ext' ?_ ?_ ?_⟩ <;> simp only [lerp] <;> linarith
  · rintro ⟨t, h0, h1, rfl⟩
    refine ⟨t, h0, h1, ?_, ?_, ?_⟩ <;> simp only [lerp] <;> ring

theorem on_left (a b : P) : On a b a := ⟨0, by norm_num, by norm_num, by ring, by ring, by ring⟩
theorem on_right (a b : P) : On a b b := ⟨1, by norm_num, by norm_num, by ring, by ring, by ring⟩

theorem side_low {lo hi : ℚ} {p : P} : side lo hi p = .low ↔ p.z < lo := by
  unfold side; split_ifs <;> simp_all

theorem side_high {lo hi : ℚ} {p : P} : side lo hi p = .high ↔ ¬ p.z < lo ∧ hi < p.z := by
  unfold side; split_ifs <;> simp_all

theorem side_box {lo hi : ℚ} {p : P} : side lo hi p = .box ↔ Within lo hi p := by
  unfold side Within; split_ifs <;> simp_all

/-- the point of a line between two of its points -/
theorem between {a b : P} {t0 t t1 : ℚ} (h0 : t0 ≤ t) (h1 : t ≤ t1) :
    On (lerp a b t0) (lerp a b t1) (lerp a b t) := by
  by_cases h : t0 = t1
  · have : t = t0 := by linarith
    subst this; exact on_left _ _
  · have hp : 0 < t1 - t0 := by
      have := lt_of_le_of_ne (le_trans h0 h1) h
      linarith
    refine ⟨(t - t0) / (t1 - t0), div_nonneg (by linarith) hp.le, ?_, ?_, ?_, ?_⟩
    · rw [div_le_one hp]; linarith
    all_goals
      simp only [lerp]
      field_simp
      ring

/-- a crossing: its height and its place -/
theorem crossing {h : ℚ} {a b : P} (hne : a.z ≠ b.z) (hb : (a.z ≤ h ∧ h ≤ b.z) ∨ (b.z ≤ h ∧ h ≤ a.z)) :
    (lerp a b (factor h a b)).z = h ∧ 0 ≤ factor h a b ∧ factor h a b ≤ 1 := by
  have hz : b.z - a.z ≠ 0 := fun e => hne (by linarith)
  refine ⟨?_, ?_, ?_⟩
  · simp only [lerp, factor]; field_simp; ring
  · unfold factor
    rcases hb with ⟨p, q⟩ | ⟨p, q⟩
    · exact div_nonneg (by linarith) (by linarith)
    · exact div_nonneg_of_nonpos (by linarith) (by linarith)
  · unfold factor
    rcases hb with ⟨p, q⟩ | ⟨p, q⟩
    · have : 0 < b.z - a.z := lt_of_le_of_ne (by linarith) (Ne.symm hz)
      rw [div_le_one this]; linarith
    · have : b.z - a.z < 0 := lt_of_le_of_ne (by linarith) hz
      rw [div_le_one_of_neg this]; linarith

/-- the vertices of one step: in range and on the edge -/
theorem step_sound {lo hi : ℚ} (hlh : lo ≤ hi) {a p v : P} (hv : v ∈ step lo hi a p) :
    Within lo hi v ∧ On a p v := by
  have key : ∀ h, h = lo ∨ h = hi → a.z ≠ p.z → (a.z ≤ h ∧ h ≤ p.z) ∨ (p.z ≤ h ∧ h ≤ a.z) →
      Within lo hi (lerp a p (factor h a p)) ∧ On a p (lerp a p (factor h a p)) := by
    intro h hh hne hb
    obtain ⟨c1, c2, c3⟩ := crossing hne hb
    refine ⟨?_, on_iff.2 ⟨_, c2, c3, rfl⟩⟩
    unfold Within; rw [c1]
    rcases hh with rfl | rfl
    · exact ⟨le_refl _, hlh⟩
    · exact ⟨hlh, le_refl _⟩
  unfold step at hv
  rw [List.mem_append] at hv
  rcases hv with hv | hv
  · split at hv
    · rename_i hc
      rw [List.mem_singleton] at hv; subst hv
      cases ha : side lo hi a with
      | box => exact absurd ha hc.1
      | low =>
        rw [if_pos rfl]
        have h1 := side_low.1 ha
        have h2 : ¬ p.z < lo := fun e => hc.2 (by rw [side_low.2 e, ha])
        exact key lo (Or.inl rfl) (by intro e; apply h2; rw [← e]; exact h1) (Or.inl ⟨h1.le, by linarith⟩)
      | high =>
        rw [if_neg (by decide)]
        have h1 := side_high.1 ha
        have h2 : p.z ≤ hi := by
          by_contra e
          exact hc.2 (by rw [side_high.2 ⟨by linarith, by linarith⟩, ha])
        exact key hi (Or.inr rfl) (by intro e; linarith [h1.2]) (Or.inr ⟨h2, h1.2.le⟩)
    · exact absurd hv List.not_mem_nil
  · split at hv
    · rename_i hb
      rw [List.mem_singleton] at hv; subst hv
      exact ⟨side_box.1 hb, on_right _ _⟩
    · rename_i hnb
      split at hv
      · rename_i hc
        rw [List.mem_singleton] at hv; subst hv
        cases hp : side lo hi p with
        | box => exact absurd hp hnb
        | low =>
          rw [if_pos rfl]
          have h1 := side_low.1 hp
          have h2 : ¬ a.z < lo := fun e => hc (by rw [side_low.2 e, hp])
          exact key lo (Or.inl rfl) (by intro e; apply h2; rw [e]; exact h1) (Or.inr ⟨h1.le, by linarith⟩)
        | high =>
          rw [if_neg (by decide)]
          have h1 := side_high.1 hp
          have h2 : a.z ≤ hi := by
            by_contra e
            exact hc (by rw [hp]; exact (side_high.2 ⟨by linarith, by linarith⟩).symm)
          exact key hi (Or.inr rfl) (by intro e; linarith [h1.2]) (Or.inl ⟨h2, h1.2.le⟩)
      · exact absurd hv List.not_mem_nil

/-- the ends of the part of an edge that is in range -/
theorem step_complete {lo hi : ℚ} {poly : List P} {a b : P}
    (hs : ∀ v ∈ step lo hi a b, v ∈ poly) (ha : Within lo hi a → a ∈ poly) : Covered lo hi poly a b := by
  intro v hv hw
  obtain ⟨t, ht0, ht1, rfl⟩ := on_iff.1 hv
  have hz : (lerp a b t).z = a.z + (b.z - a.z) * t := rfl
  obtain ⟨w1, w2⟩ := hw
  rw [hz] at w1 w2
  -- the first end
  have first : ∃ t0, 0 ≤ t0 ∧ t0 ≤ t ∧ lerp a b t0 ∈ poly := by
    have l0 : lerp a b 0 = a := by apply P.ext' <;> simp [lerp]
    cases hA : side lo hi a with
    | box => exact ⟨0, le_refl _, ht0, by rw [l0]; exact ha (side_box.1 hA)⟩
    | low =>
      have h1 := side_low.1 hA
      have hlt : 0 < (b.z - a.z) * t := by linarith
      have htp : 0 < t := lt_of_le_of_ne ht0 (by rintro rfl; simp at hlt)
      have hd : 0 < b.z - a.z := by
        by_contra hn
        have := mul_nonpos_of_nonpos_of_nonneg (not_lt.1 hn) ht0
        linarith
      have hb : ¬ b.z < lo := by
        have : (b.z - a.z) * t ≤ (b.z - a.z) * 1 := mul_le_mul_of_nonneg_left ht1 hd.le
        intro h; linarith
      refine ⟨factor lo a b, div_nonneg (by linarith) hd.le, ?_, hs _ ?_⟩
      · unfold factor; rw [div_le_iff₀ hd]; linarith
      · unfold step
        rw [List.mem_append]; left
        have hne : side lo hi b ≠ .low := fun e => hb (side_low.1 e)
        rw [hA, if_pos ⟨by decide, hne⟩, if_pos rfl]
        exact List.mem_cons_self ..
    | high =>
      have h1 := (side_high.1 hA).2
      have hlt : (b.z - a.z) * t < 0 := by linarith
      have hd : b.z - a.z < 0 := by
        by_contra hn
        have := mul_nonneg (not_lt.1 hn) ht0
        linarith
      have hb : ¬ hi < b.z := by
        have : (b.z - a.z) * 1 ≤ (b.z - a.z) * t := mul_le_mul_of_nonpos_left ht1 hd.le
        intro h; linarith
      refine ⟨factor hi a b, div_nonneg_of_nonpos (by linarith) hd.le, ?_, hs _ ?_⟩
      · unfold factor; rw [div_le_iff_of_neg hd]; linarith
      · unfold step
        rw [List.mem_append]; left
        have hne : side lo hi b ≠ .high := fun e => hb (side_high.1 e).2
        rw [hA, if_pos ⟨by decide, hne⟩, if_neg (by decide)]
        exact List.mem_cons_self ..
  have last : ∃ t1, t ≤ t1 ∧ t1 ≤ 1 ∧ lerp a b t1 ∈ poly := by
    have l1 : lerp a b 1 = b := by apply P.ext' <;> simp [lerp]
    cases hB : side lo hi b with
    | box =>
      refine ⟨1, ht1, le_refl _, hs _ ?_⟩
      rw [l1]; unfold step
      rw [List.mem_append]; right
      rw [if_pos hB]; exact List.mem_cons_self ..
    | low =>
      have h1 := side_low.1 hB
      have hd : b.z - a.z < 0 := by
        by_contra hn
        have : (b.z - a.z) * t ≤ (b.z - a.z) * 1 := mul_le_mul_of_nonneg_left ht1 (not_lt.1 hn)
        linarith
      have hA : ¬ a.z < lo := by
        have := mul_nonpos_of_nonpos_of_nonneg hd.le ht0
        intro h; linarith
      refine ⟨factor lo a b, ?_, ?_, hs _ ?_⟩
      · unfold factor; rw [le_div_iff_of_neg hd]; linarith
      · unfold factor; rw [div_le_one_of_neg hd]; linarith
      · unfold step
        rw [List.mem_append]; right
        have hne : Side.low ≠ side lo hi a := fun e => hA (side_low.1 e.symm)
        rw [hB, if_neg (by decide), if_pos hne, if_pos rfl]
        exact List.mem_cons_self ..
    | high =>
      have h1 := (side_high.1 hB).2
      have hd : 0 < b.z - a.z := by
        by_contra hn
        have : (b.z - a.z) * 1 ≤ (b.z - a.z) * t := mul_le_mul_of_nonpos_left ht1 (not_lt.1 hn)
        linarith
      have hA : ¬ hi < a.z := by
        have := mul_nonneg hd.le ht0
        intro h; linarith
      refine ⟨factor hi a b, ?_, ?_, hs _ ?_⟩
      · unfold factor; rw [le_div_iff₀ hd]; linarith
      · unfold factor; rw [div_le_one hd]; linarith
      · unfold step
        rw [List.mem_append]; right
        have hne : Side.high ≠ side lo hi a := fun e => hA (side_high.1 e.symm).2
        rw [hB, if_neg (by decide), if_pos hne, if_neg (by decide)]
        exact List.mem_cons_self ..
  obtain ⟨t0, a0, b0, m0⟩ := first
  obtain ⟨t1, a1, b1, m1⟩ := last
  exact ⟨_, m0, _, m1, on_iff.2 ⟨t0, a0, by linarith, rfl⟩, on_iff.2 ⟨t1, by linarith, b1, rfl⟩,
    between b0 a1⟩

/-- the vertices of the loop: of the first corner and of the three steps -/
theorem mem_drawPlane {xp yp xs ys h0 h1 h2 h3 lo hi : ℚ} {v : P} :
    v ∈ drawPlane xp yp xs ys h0 h1 h2 h3 lo hi ↔
      (v = corner xp yp xs ys h0 h1 h2 h3 0 ∧ Within lo hi v) ∨
      ∃ i < 3, v ∈ step lo hi (corner xp yp xs ys h0 h1 h2 h3 i) (corner xp yp xs ys h0 h1 h2 h3 (i + 1)) := by
  unfold drawPlane corners polygon
  simp only [draw, List.append_nil, List.mem_append]
  constructor
  · rintro (h | h | h | h)
    · left
      split at h
      · rename_i hb
        rw [List.mem_singleton] at h; subst h
        exact ⟨rfl, side_box.1 hb⟩
      · exact absurd h List.not_mem_nil
    · exact Or.inr ⟨0, by omega, h⟩
    · exact Or.inr ⟨1, by omega, h⟩
    · exact Or.inr ⟨2, by omega, h⟩
  · rintro (⟨rfl, h⟩ | ⟨i, hi, h⟩)
    · left
      have hb : side lo hi ⟨xp - xs / 2, yp - ys / 2, h0⟩ = .box := side_box.2 h
      rw [if_pos hb]; exact List.mem_cons_self ..
    · have : i = 0 ∨ i = 1 ∨ i = 2 := by omega
      rcases this with rfl | rfl | rfl
      · exact Or.inr (Or.inl h)
      · exact Or.inr (Or.inr (Or.inl h))
      · exact Or.inr (Or.inr (Or.inr h))

/-! ### C157 -/

/-- Every vertex of the polygon is at a height of the patch and lies on an edge of the rectangle of
the cell on the plane of the patch. -/
theorem C157_inside (xp yp xs ys h0 h1 h2 h3 lo hi : ℚ) (hlh : lo ≤ hi) :
    ∀ v ∈ drawPlane xp yp xs ys h0 h1 h2 h3 lo hi, Within lo hi v ∧
      ∃ i < 3, On (corner xp yp xs ys h0 h1 h2 h3 i) (corner xp yp xs ys h0 h1 h2 h3 (i + 1)) v := by
  intro v hv
  rcases mem_drawPlane.1 hv with ⟨rfl, h⟩ | ⟨i, hi, h⟩
  · exact ⟨h, 0, by omega, on_left _ _⟩
  · exact ⟨(step_sound hlh h).1, i, hi, (step_sound hlh h).2⟩

/-- PARTIAL.  Full statement: for each of the four edges of the patch, the part of the edge at the
heights of the patch is bounded by vertices of the polygon.

Proved for the edges between the corners 0, 1, 2 and 3.  Missing: the edge from the last corner back
to the first one, see `C157_closing` and `C157_gap`. -/
theorem C157_edges_partial (xp yp xs ys h0 h1 h2 h3 lo hi : ℚ) (i : ℕ) (h : i < 3) :
    Covered lo hi (drawPlane xp yp xs ys h0 h1 h2 h3 lo hi)
      (corner xp yp xs ys h0 h1 h2 h3 i) (corner xp yp xs ys h0 h1 h2 h3 (i + 1)) := by
  refine step_complete (fun v hv => mem_drawPlane.2 (Or.inr ⟨i, h, hv⟩)) fun hw => ?_
  cases i with
  | zero => exact mem_drawPlane.2 (Or.inl ⟨rfl, hw⟩)
  | succ j =>
    refine mem_drawPlane.2 (Or.inr ⟨j, by omega, ?_⟩)
    unfold step
    rw [List.mem_append]; right
    rw [if_pos (side_box.2 hw)]; exact List.mem_cons_self ..

/-- The last edge is right when both of its corners are in range, or when both are out of it on the
same side. -/
theorem C157_closing (xp yp xs ys h0 h1 h2 h3 lo hi : ℚ)
    (h : (Within lo hi (corner xp yp xs ys h0 h1 h2 h3 0) ∧ Within lo hi (corner xp yp xs ys h0 h1 h2 h3 3)) ∨
      (h0 < lo ∧ h3 < lo) ∨ (hi < h0 ∧ hi < h3)) :
    Covered lo hi (drawPlane xp yp xs ys h0 h1 h2 h3 lo hi)
      (corner xp yp xs ys h0 h1 h2 h3 3) (corner xp yp xs ys h0 h1 h2 h3 0) := by
  intro v hv hw
  rcases h with ⟨w0, w3⟩ | hout
  · refine ⟨_, ?_, _, mem_drawPlane.2 (Or.inl ⟨rfl, w0⟩), on_left _ _, on_right _ _, hv⟩
    refine mem_drawPlane.2 (Or.inr ⟨2, by omega, ?_⟩)
    unfold step
    rw [List.mem_append]; right
    rw [if_pos (side_box.2 w3)]; exact List.mem_cons_self ..
  · exfalso
    obtain ⟨t, t0, t1, -, -, hz⟩ := hv
    simp only [corner] at hz
    obtain ⟨w1, w2⟩ := hw
    rw [hz] at w1 w2
    rcases hout with ⟨a, b⟩ | ⟨a, b⟩
    · nlinarith [mul_nonneg t0 (sub_nonneg.2 a.le), mul_nonneg (sub_nonneg.2 t1) (sub_nonneg.2 b.le)]
    · nlinarith [mul_nonneg t0 (sub_nonneg.2 a.le), mul_nonneg (sub_nonneg.2 t1) (sub_nonneg.2 b.le)]

/-- On the last edge the polygon has no vertices but the corners. -/
theorem C157_last_edge (xp yp xs ys h0 h1 h2 h3 lo hi : ℚ) (hlh : lo ≤ hi) (hx : 0 < xs) (hy : 0 < ys)
    {v : P} (hv : v ∈ drawPlane xp yp xs ys h0 h1 h2 h3 lo hi)
    (hon : On (corner xp yp xs ys h0 h1 h2 h3 3) (corner xp yp xs ys h0 h1 h2 h3 0) v) :
    v = corner xp yp xs ys h0 h1 h2 h3 3 ∨ v = corner xp yp xs ys h0 h1 h2 h3 0 := by
  obtain ⟨s, s0, s1, ex, ey, ez⟩ := hon
  obtain ⟨-, i, hi3, t, t0, t1, fx, fy, fz⟩ := C157_inside xp yp xs ys h0 h1 h2 h3 lo hi hlh v hv
  have : i = 0 ∨ i = 1 ∨ i = 2 := by omega
  rcases this with rfl | rfl | rfl
  · simp only [corner] at ex ey ez fx fy fz ⊢
    have ht : t = 0 := by
      have : t * xs = 0 := by linarith
      rcases mul_eq_zero.1 this with h | h
      · exact h
      · exact absurd h hx.ne'
    subst ht
    right; apply P.ext' <;> simp only <;> linarith
  · simp only [corner] at ex ey ez fx fy fz ⊢
    exfalso; linarith
  · simp only [corner] at ex ey ez fx fy fz ⊢
    have ht : t = 1 := by
      have : (1 - t) * xs = 0 := by linarith
      rcases mul_eq_zero.1 this with h | h
      · linarith
      · exact absurd h hx.ne'
    subst ht
    left; apply P.ext' <;> simp only <;> linarith

/-- The last edge is never cut: when it leaves the range of the patch between its corners, then the
part of it that is in range is not bounded by vertices of the polygon. -/
theorem C157_gap (xp yp xs ys h0 h1 h2 h3 lo hi : ℚ) (hlh : lo ≤ hi) (hx : 0 < xs) (hy : 0 < ys)
    (h : (h3 < lo ∧ lo < h0) ∨ (hi < h3 ∧ h0 < hi) ∨ (h0 < lo ∧ lo < h3) ∨ (hi < h0 ∧ h3 < hi)) :
    ¬ Covered lo hi (drawPlane xp yp xs ys h0 h1 h2 h3 lo hi)
      (corner xp yp xs ys h0 h1 h2 h3 3) (corner xp yp xs ys h0 h1 h2 h3 0) := by
  intro hc
  -- the point where the edge crosses the bound `m`
  have main : ∀ m, (m = lo ∨ m = hi) → ((h3 < m ∧ m < h0) ∨ (h0 < m ∧ m < h3)) →
      (¬ Within lo hi (corner xp yp xs ys h0 h1 h2 h3 3) ∨ ¬ Within lo hi (corner xp yp xs ys h0 h1 h2 h3 0)) →
      False := by
    intro m hm hb hout
    have hne : (corner xp yp xs ys h0 h1 h2 h3 3).z ≠ (corner xp yp xs ys h0 h1 h2 h3 0).z := by
      simp only [corner]; rcases hb with hb | hb <;> intro e <;> linarith
    obtain ⟨c1, c2, c3⟩ := crossing (h := m) hne (by
      simp only [corner]
      rcases hb with hb | hb
      · exact Or.inl ⟨hb.1.le, hb.2.le⟩
      · exact Or.inr ⟨hb.1.le, hb.2.le⟩)
    have hw : Within lo hi (lerp (corner xp yp xs ys h0 h1 h2 h3 3) (corner xp yp xs ys h0 h1 h2 h3 0)
        (factor m (corner xp yp xs ys h0 h1 h2 h3 3) (corner xp yp xs ys h0 h1 h2 h3 0))) := by
      unfold Within; rw [c1]
      rcases hm with rfl | rfl
      · exact ⟨le_refl _, hlh⟩
      · exact ⟨hlh, le_refl _⟩
    obtain ⟨u, hu, w, hw', ou, ow, ouw⟩ := hc _ (on_iff.2 ⟨_, c2, c3, rfl⟩) hw
    have wu := (C157_inside xp yp xs ys h0 h1 h2 h3 lo hi hlh u hu).1
    have ww := (C157_inside xp yp xs ys h0 h1 h2 h3 lo hi hlh w hw').1
    obtain ⟨t, t0, t1, -, -, tz⟩ := ouw
    rw [c1] at tz
    have eu := C157_last_edge xp yp xs ys h0 h1 h2 h3 lo hi hlh hx hy hu ou
    have ew := C157_last_edge xp yp xs ys h0 h1 h2 h3 lo hi hlh hx hy hw' ow
    have same : u = w := by
      rcases eu with rfl | rfl <;> rcases ew with rfl | rfl
      · rfl
      · rcases hout with ho | ho
        · exact absurd wu ho
        · exact absurd ww ho
      · rcases hout with ho | ho
        · exact absurd ww ho
        · exact absurd wu ho
      · rfl
    subst same
    have hmz : m = u.z := by linarith
    rcases eu with rfl | rfl
    · simp only [corner] at hmz; rcases hb with hb | hb <;> linarith
    · simp only [corner] at hmz; rcases hb with hb | hb <;> linarith
  rcases h with h | h | h | h
  · exact main lo (Or.inl rfl) (Or.inl h) (Or.inl fun w => by
      have := w.1; simp only [corner] at this; linarith)
  · exact main hi (Or.inr rfl) (Or.inr ⟨h.2, h.1⟩) (Or.inl fun w => by
      have := w.2; simp only [corner] at this; linarith)
  · exact main lo (Or.inl rfl) (Or.inr h) (Or.inr fun w => by
      have := w.1; simp only [corner] at this; linarith)
  · exact main hi (Or.inr rfl) (Or.inl ⟨h.2, h.1⟩) (Or.inr fun w => by
      have := w.2; simp only [corner] at this; linarith)

/-- A patch whose corners are all in range is drawn with its four corners, in order; a patch that is
out of range on one side is not drawn. -/
theorem C157_whole (xp yp xs ys h0 h1 h2 h3 lo hi : ℚ) :
    ((∀ i < 4, Within lo hi (corner xp yp xs ys h0 h1 h2 h3 i)) →
      drawPlane xp yp xs ys h0 h1 h2 h3 lo hi = (List.range 4).map (corner xp yp xs ys h0 h1 h2 h3)) ∧
    (((∀ i < 4, (corner xp yp xs ys h0 h1 h2 h3 i).z < lo) ∨
      (lo ≤ hi ∧ ∀ i < 4, hi < (corner xp yp xs ys h0 h1 h2 h3 i).z)) →
      drawPlane xp yp xs ys h0 h1 h2 h3 lo hi = []) := by
  constructor
  · intro h
    have e0 := side_box.2 (h 0 (by omega))
    have e1 := side_box.2 (h 1 (by omega))
    have e2 := side_box.2 (h 2 (by omega))
    have e3 := side_box.2 (h 3 (by omega))
    simp only [corner] at e0 e1 e2 e3
    simp [drawPlane, corners, polygon, draw, step, e0, e1, e2, e3, List.range_succ, corner]
  · intro h
    have : ∃ sd, sd ≠ Side.box ∧ ∀ i < 4, side lo hi (corner xp yp xs ys h0 h1 h2 h3 i) = sd := by
      rcases h with h | ⟨hlh, h⟩
      · exact ⟨.low, by decide, fun i hi => side_low.2 (h i hi)⟩
      · exact ⟨.high, by decide, fun i hi => side_high.2 ⟨by linarith [h i hi], h i hi⟩⟩
    obtain ⟨sd, hsd, e⟩ := this
    have e0 := e 0 (by omega)
    have e1 := e 1 (by omega)
    have e2 := e 2 (by omega)
    have e3 := e 3 (by omega)
    simp only [corner] at e0 e1 e2 e3
    simp [drawPlane, corners, polygon, draw, step, e0, e1, e2, e3, hsd]

/-- A cell of size 1 with the heights 4, 4, 0, 0 of a patch from 1 to 3: the polygon has the two cuts
of the edge from the corner 1 to the corner 2, but none on the opposite edge: a line instead of a
rectangle. -/
example : drawPlane 0 0 1 1 4 4 0 0 1 3 = [⟨1/2, -1/4, 3⟩, ⟨1/2, 1/4, 1⟩] := by decide +kernel

/-- a patch that is cut at the corner 2 only is drawn right: five vertices -/
example : drawPlane 0 0 2 2 0 1 3 1 0 2 =
    [⟨-1, -1, 0⟩, ⟨1, -1, 1⟩, ⟨1, 0, 2⟩, ⟨0, 1, 2⟩, ⟨-1, 1, 1⟩] := by decide +kernel

example : (4 : ℚ) > 3 ∧ (0 : ℚ) < 1 ∧ ((0 : ℚ) < 1 ∧ (1 : ℚ) < 4) := by norm_num

end Envire.PatchView

section AxiomAudit
open Envire.PatchView
#print axioms C157_inside
#print axioms C157_edges_partial
#print axioms C157_closing
#print axioms C157_last_edge
#print axioms C157_gap
#print axioms C157_whole
end AxiomAudit
