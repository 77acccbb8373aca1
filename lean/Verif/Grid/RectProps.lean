import Verif.Grid.RectRows

/-!
C96: forEachInRectangle calls the callback for the cells of the rectangle.
-/

namespace Envire.Rect

/-! ## Specification -/

/-- the point q, in the axes of a rectangle at p -/
noncomputable def along (p : Pose2) (q : ℝ × ℝ) : ℝ := Real.cos p.θ * (q.1 - p.x) + Real.sin p.θ * (q.2 - p.y)
noncomputable def across (p : Pose2) (q : ℝ × ℝ) : ℝ := Real.cos p.θ * (q.2 - p.y) - Real.sin p.θ * (q.1 - p.x)

/-- q is a point of the rectangle with the centre and orientation p -/
def InRect (p : Pose2) (sizeX sizeY : ℝ) (q : ℝ × ℝ) : Prop := |along p q| ≤ sizeX / 2 ∧ |across p q| ≤ sizeY / 2

/-- q is a corner of the rectangle -/
def IsCorner (p : Pose2) (sizeX sizeY : ℝ) (q : ℝ × ℝ) : Prop := |along p q| = sizeX / 2 ∧ |across p q| = sizeY / 2

/-- q is in the area of the grid -/
def InGrid (g : Geo) (q : ℝ × ℝ) : Prop := (g.ox ≤ q.1 ∧ q.1 < g.ox + g.w * g.sx) ∧ g.oy ≤ q.2 ∧ q.2 < g.oy + g.h * g.sy

/-- q is in the cell c -/
def InCell (g : Geo) (q : ℝ × ℝ) (c : Int × Int) : Prop :=
  (g.ox + c.1 * g.sx ≤ q.1 ∧ q.1 < g.ox + (c.1 + 1) * g.sx) ∧ g.oy + c.2 * g.sy ≤ q.2 ∧ q.2 < g.oy + (c.2 + 1) * g.sy

/-- the distance of two points is at most 15% of a cell, in x and in y -/
def Close (g : Geo) (q q' : ℝ × ℝ) : Prop := |q.1 - q'.1| ≤ 15 / 100 * g.sx ∧ |q.2 - q'.2| ≤ 15 / 100 * g.sy

/-! ## Coordinates of the fine grid -/

/-- the coordinates of the fine grid -/
noncomputable def fine (g : Geo) (q : ℝ × ℝ) : ℝ × ℝ := ((q.1 - g.ox) / g.sx * 10, (q.2 - g.oy) / g.sy * 10)
noncomputable def fineV (g : Geo) (q : ℝ × ℝ) : ℝ × ℝ := (q.1 / g.sx * 10, q.2 / g.sy * 10)
noncomputable def coarse (g : Geo) (q : ℝ × ℝ) : ℝ × ℝ := (g.ox + q.1 / 10 * g.sx, g.oy + q.2 / 10 * g.sy)

theorem fine_coarse {g : Geo} (hx : 0 < g.sx) (hy : 0 < g.sy) (q : ℝ × ℝ) : fine g (coarse g q) = q := by
  have := hx.ne'
  have := hy.ne'
  unfold fine coarse
  ext
  · dsimp only; field_simp; ring
  · dsimp only; field_simp; ring

theorem coarse_fine {g : Geo} (hx : 0 < g.sx) (hy : 0 < g.sy) (q : ℝ × ℝ) : coarse g (fine g q) = q := by
  have := hx.ne'
  have := hy.ne'
  unfold fine coarse
  ext
  · dsimp only; field_simp; ring
  · dsimp only; field_simp; ring

theorem fine_pt (g : Geo) (p a b : ℝ × ℝ) (s t : ℝ) : fine g (pt p a b s t) = pt (fine g p) (fineV g a) (fineV g b) s t := by
  simp only [fine, fineV, pt, Prod.mk.injEq]
  constructor <;> ring

theorem inPar_fine {g : Geo} (hx : 0 < g.sx) (hy : 0 < g.sy) (p a b q : ℝ × ℝ) : InPar (fine g p) (fineV g a) (fineV g b) (fine g q) ↔ InPar p a b q := by
  constructor
  · rintro ⟨s, t, hs, ht, h⟩
    refine ⟨s, t, hs, ht, ?_⟩
    rw [← fine_pt] at h
    rw [← coarse_fine hx hy q, h, coarse_fine hx hy]
  · rintro ⟨s, t, hs, ht, rfl⟩
    exact ⟨s, t, hs, ht, fine_pt ..⟩

theorem toGrid10_some {g : Geo} (hx : 0 < g.sx) (hy : 0 < g.sy) {q : ℝ × ℝ} (h : InGrid g q) (hw : g.w * 10 ≤ 2 ^ 28) (hh : g.h * 10 ≤ 2 ^ 28) :
    ∃ c, toGrid10 g q = some c ∧ Below c (fine g q) ∧ Good c := by
  obtain ⟨⟨a1, a2⟩, a3, a4⟩ := h
  have e1 : 0 ≤ (q.1 - g.ox) / g.sx * 10 := mul_nonneg (div_nonneg (by linarith) hx.le) (by norm_num)
  have e2 : 0 ≤ (q.2 - g.oy) / g.sy * 10 := mul_nonneg (div_nonneg (by linarith) hy.le) (by norm_num)
  have e3 : (q.1 - g.ox) / g.sx < g.w := by rw [div_lt_iff₀ hx]; linarith
  have e4 : (q.2 - g.oy) / g.sy < g.h := by rw [div_lt_iff₀ hy]; linarith
  have f1 : 0 ≤ ⌊(q.1 - g.ox) / g.sx * 10⌋ := Int.floor_nonneg.2 e1
  have f2 : 0 ≤ ⌊(q.2 - g.oy) / g.sy * 10⌋ := Int.floor_nonneg.2 e2
  have f3 : ⌊(q.1 - g.ox) / g.sx * 10⌋ < g.w * 10 := by rw [Int.floor_lt]; push_cast; linarith
  have f4 : ⌊(q.2 - g.oy) / g.sy * 10⌋ < g.h * 10 := by rw [Int.floor_lt]; push_cast; linarith
  refine ⟨(⌊(q.1 - g.ox) / g.sx * 10⌋, ⌊(q.2 - g.oy) / g.sy * 10⌋), ?_, ?_, ?_⟩
  · simp only [toGrid10]
    rw [if_pos ⟨f1, f3, f2, f4⟩]
  · exact ⟨Int.floor_le _, Int.lt_floor_add_one _, Int.floor_le _, Int.lt_floor_add_one _⟩
  · refine ⟨f1, ?_, f2, ?_⟩
    · dsimp only; omega
    · dsimp only; omega

theorem toGrid10_none {g : Geo} (hx : 0 < g.sx) (hy : 0 < g.sy) {q : ℝ × ℝ} (h : ¬ InGrid g q) : toGrid10 g q = none := by
  simp only [toGrid10]
  rw [if_neg]
  rintro ⟨f1, f2, f3, f4⟩
  apply h
  rw [Int.floor_nonneg] at f1 f3
  rw [Int.floor_lt] at f2 f4
  push_cast at f2 f4
  have e1 : 0 ≤ (q.1 - g.ox) / g.sx := by linarith
  have e2 : 0 ≤ (q.2 - g.oy) / g.sy := by linarith
  have e3 : (q.1 - g.ox) / g.sx < g.w := by linarith
  have e4 : (q.2 - g.oy) / g.sy < g.h := by linarith
  rw [le_div_iff₀ hx] at e1
  rw [le_div_iff₀ hy] at e2
  rw [div_lt_iff₀ hx] at e3
  rw [div_lt_iff₀ hy] at e4
  exact ⟨⟨by linarith, by linarith⟩, by linarith, by linarith⟩

/-! ## The corners -/

/-- centre and half axes of the rectangle -/
noncomputable def axisX (p : Pose2) (sizeX : ℝ) : ℝ × ℝ := (Real.cos p.θ * (sizeX / 2), Real.sin p.θ * (sizeX / 2))
noncomputable def axisY (p : Pose2) (sizeY : ℝ) : ℝ × ℝ := (-(Real.sin p.θ * (sizeY / 2)), Real.cos p.θ * (sizeY / 2))

theorem corners_spec (p : Pose2) (sizeX sizeY : ℝ) : ∃ a b, (a = if (axisX p sizeX).1 < 0 then -axisX p sizeX else axisX p sizeX) ∧ (b = axisY p sizeY ∨ b = -axisY p sizeY) ∧ 0 ≤ b.2 ∧
    corners p sizeX sizeY = { ul := pt (p.x, p.y) a b 1 (-1), ur := pt (p.x, p.y) a b 1 1, dl := pt (p.x, p.y) a b (-1) (-1), dr := pt (p.x, p.y) a b (-1) 1 } := by
  set A := axisX p sizeX with hA
  set B := axisY p sizeY with hB
  let C (a b : ℝ × ℝ) : Corners (ℝ × ℝ) :=
    { ul := pt (p.x, p.y) a b 1 (-1), ur := pt (p.x, p.y) a b 1 1, dl := pt (p.x, p.y) a b (-1) (-1), dr := pt (p.x, p.y) a b (-1) 1 }
  have h0 : corners p sizeX sizeY = swap2 (swap1 (C A B)) := by
    unfold corners
    congr 2
    simp only [C, place, pt, hA, hB, axisX, axisY, Corners.mk.injEq, Prod.mk.injEq]
    refine ⟨⟨?_, ?_⟩, ⟨?_, ?_⟩, ⟨?_, ?_⟩, ?_, ?_⟩ <;> ring
  have h1 : ∃ a, (a = if A.1 < 0 then -A else A) ∧ swap1 (C A B) = C a B := by
    unfold swap1
    have hiff : (C A B).ul.1 < (C A B).dl.1 ↔ A.1 < 0 := by
      simp only [C, pt]
      constructor <;> intro h <;> linarith
    by_cases hlt : A.1 < 0
    · rw [if_pos (hiff.2 hlt), if_pos hlt]
      refine ⟨-A, rfl, ?_⟩
      simp only [C, pt, Corners.mk.injEq, Prod.mk.injEq, Prod.fst_neg, Prod.snd_neg]
      refine ⟨⟨?_, ?_⟩, ⟨?_, ?_⟩, ⟨?_, ?_⟩, ?_, ?_⟩ <;> ring
    · rw [if_neg (fun h => hlt (hiff.1 h)), if_neg hlt]
      exact ⟨A, rfl, rfl⟩
  obtain ⟨a, ha, h1⟩ := h1
  rw [h0, h1]
  unfold swap2
  by_cases h : (C a B).ur.2 < (C a B).ul.2
  · rw [if_pos h]
    simp only [C, pt] at h
    refine ⟨a, -B, ha, .inr rfl, ?_, ?_⟩
    · rw [Prod.snd_neg]; linarith
    · simp only [C, pt, Corners.mk.injEq, Prod.mk.injEq, Prod.fst_neg, Prod.snd_neg]
      refine ⟨⟨?_, ?_⟩, ⟨?_, ?_⟩, ⟨?_, ?_⟩, ?_, ?_⟩ <;> ring
  · rw [if_neg h]
    simp only [C, pt] at h
    exact ⟨a, B, ha, .inl rfl, by linarith, rfl⟩

theorem sign_of_ite {a A : ℝ × ℝ} {c : Prop} [Decidable c] (h : a = if c then -A else A) : a = A ∨ a = -A := by
  split at h
  · exact .inr h
  · exact .inl h

theorem along_pt (p : Pose2) (sizeX sizeY s t : ℝ) : along p (pt (p.x, p.y) (axisX p sizeX) (axisY p sizeY) s t) = s * (sizeX / 2) := by
  have := Real.sin_sq_add_cos_sq p.θ
  simp only [along, pt, axisX, axisY]
  linear_combination (s * (sizeX / 2)) * this

theorem across_pt (p : Pose2) (sizeX sizeY s t : ℝ) : across p (pt (p.x, p.y) (axisX p sizeX) (axisY p sizeY) s t) = t * (sizeY / 2) := by
  have := Real.sin_sq_add_cos_sq p.θ
  simp only [across, pt, axisX, axisY]
  linear_combination (t * (sizeY / 2)) * this

theorem eq_pt (p : Pose2) (sizeX sizeY s t : ℝ) (q : ℝ × ℝ) (h1 : along p q = s * (sizeX / 2)) (h2 : across p q = t * (sizeY / 2)) :
    q = pt (p.x, p.y) (axisX p sizeX) (axisY p sizeY) s t := by
  have := Real.sin_sq_add_cos_sq p.θ
  simp only [along] at h1
  simp only [across] at h2
  simp only [pt, axisX, axisY]
  ext
  · dsimp only
    linear_combination Real.cos p.θ * h1 - Real.sin p.θ * h2 - (q.1 - p.x) * this
  · dsimp only
    linear_combination Real.sin p.θ * h1 + Real.cos p.θ * h2 - (q.2 - p.y) * this

theorem ex_coeff {x m : ℝ} (hx : |x| ≤ m) : ∃ s, |s| ≤ 1 ∧ x = s * m := by
  rcases eq_or_lt_of_le ((abs_nonneg x).trans hx) with h | h
  · rw [← h] at hx ⊢
    exact ⟨0, by norm_num, by rw [abs_eq_zero.1 (le_antisymm hx (abs_nonneg x))]; ring⟩
  · exact ⟨x / m, by rw [abs_div, abs_of_pos h]; exact (div_le_one h).2 hx, by field_simp⟩

theorem inRect_iff {p : Pose2} {sizeX sizeY : ℝ} (hx : 0 ≤ sizeX) (hy : 0 ≤ sizeY) (q : ℝ × ℝ) :
    InRect p sizeX sizeY q ↔ InPar (p.x, p.y) (axisX p sizeX) (axisY p sizeY) q := by
  constructor
  · rintro ⟨h1, h2⟩
    obtain ⟨s, hs, e1⟩ := ex_coeff h1
    obtain ⟨t, ht, e2⟩ := ex_coeff h2
    exact ⟨s, t, hs, ht, eq_pt p sizeX sizeY s t q e1 e2⟩
  · rintro ⟨s, t, hs, ht, rfl⟩
    refine ⟨?_, ?_⟩
    · rw [along_pt, abs_mul, abs_of_nonneg (by linarith : 0 ≤ sizeX / 2)]
      nlinarith
    · rw [across_pt, abs_mul, abs_of_nonneg (by linarith : 0 ≤ sizeY / 2)]
      nlinarith

theorem inPar_sign {p A B a b q : ℝ × ℝ} (ha : a = A ∨ a = -A) (hb : b = B ∨ b = -B) : InPar p a b q ↔ InPar p A B q := by
  rcases ha with rfl | rfl <;> rcases hb with rfl | rfl
  · rfl
  · rw [inPar_neg']
  · rw [inPar_neg]
  · rw [inPar_neg, inPar_neg']

theorem isCorner_pt {p : Pose2} {sizeX sizeY : ℝ} (hx : 0 ≤ sizeX) (hy : 0 ≤ sizeY) {s t : ℝ} (hs : |s| = 1) (ht : |t| = 1) :
    IsCorner p sizeX sizeY (pt (p.x, p.y) (axisX p sizeX) (axisY p sizeY) s t) := by
  refine ⟨?_, ?_⟩
  · rw [along_pt, abs_mul, hs, abs_of_nonneg (by linarith : 0 ≤ sizeX / 2), one_mul]
  · rw [across_pt, abs_mul, ht, abs_of_nonneg (by linarith : 0 ≤ sizeY / 2), one_mul]

theorem pt_sign {p A B a b : ℝ × ℝ} (ha : a = A ∨ a = -A) (hb : b = B ∨ b = -B) : ∃ σ τ : ℝ, |σ| = 1 ∧ |τ| = 1 ∧ ∀ s t, pt p a b s t = pt p A B (σ * s) (τ * t) := by
  rcases ha with rfl | rfl <;> rcases hb with rfl | rfl
  · exact ⟨1, 1, by norm_num, by norm_num, fun s t => by simp⟩
  · exact ⟨1, -1, by norm_num, by norm_num, fun s t => by simp [pt]⟩
  · exact ⟨-1, 1, by norm_num, by norm_num, fun s t => by simp [pt]⟩
  · exact ⟨-1, -1, by norm_num, by norm_num, fun s t => by simp [pt]⟩

/-- the corners found are the corners of the rectangle -/
theorem corners_all {p : Pose2} {sizeX sizeY : ℝ} (hx : 0 ≤ sizeX) (hy : 0 ≤ sizeY) (q : ℝ × ℝ) :
    IsCorner p sizeX sizeY q ↔ q = (corners p sizeX sizeY).ul ∨ q = (corners p sizeX sizeY).ur ∨ q = (corners p sizeX sizeY).dl ∨ q = (corners p sizeX sizeY).dr := by
  obtain ⟨a, b, ha, hb, _, h⟩ := corners_spec p sizeX sizeY
  have ha := sign_of_ite ha
  rw [h]
  dsimp only
  obtain ⟨σ, τ, h1, h2, h3⟩ := pt_sign (p := (p.x, p.y)) ha hb
  have σσ : σ * σ = 1 := by rw [← abs_mul_abs_self, h1]; norm_num
  have ττ : τ * τ = 1 := by rw [← abs_mul_abs_self, h2]; norm_num
  simp only [h3]
  constructor
  · rintro ⟨c1, c2⟩
    have e1 : ∃ s : ℝ, (s = 1 ∨ s = -1) ∧ along p q = (σ * s) * (sizeX / 2) := by
      rcases eq_or_eq_neg_of_abs_eq c1 with e | e <;> rcases eq_or_eq_neg_of_abs_eq h1 with e' | e'
      · exact ⟨1, .inl rfl, by rw [e, e']; ring⟩
      · exact ⟨-1, .inr rfl, by rw [e, e']; ring⟩
      · exact ⟨-1, .inr rfl, by rw [e, e']; ring⟩
      · exact ⟨1, .inl rfl, by rw [e, e']; ring⟩
    have e2 : ∃ t : ℝ, (t = 1 ∨ t = -1) ∧ across p q = (τ * t) * (sizeY / 2) := by
      rcases eq_or_eq_neg_of_abs_eq c2 with e | e <;> rcases eq_or_eq_neg_of_abs_eq h2 with e' | e'
      · exact ⟨1, .inl rfl, by rw [e, e']; ring⟩
      · exact ⟨-1, .inr rfl, by rw [e, e']; ring⟩
      · exact ⟨-1, .inr rfl, by rw [e, e']; ring⟩
      · exact ⟨1, .inl rfl, by rw [e, e']; ring⟩
    obtain ⟨s, hs, e1⟩ := e1
    obtain ⟨t, ht, e2⟩ := e2
    have := eq_pt p sizeX sizeY _ _ q e1 e2
    rcases hs with rfl | rfl <;> rcases ht with rfl | rfl
    · exact .inr (.inl this)
    · exact .inl this
    · exact .inr (.inr (.inr this))
    · exact .inr (.inr (.inl this))
  · rintro (rfl | rfl | rfl | rfl) <;> refine isCorner_pt hx hy ?_ ?_ <;> simp [h1, h2]

/-! ## The calls -/

theorem mem_rowCalls {w : Nat} {a b Y : Int} {c : Int × Int} : c ∈ rowCalls w a b Y ↔ c.2 = Y ∧ a ≤ c.1 ∧ c.1 ≤ b ∧ c.1 < w := by
  obtain ⟨x, y⟩ := c
  simp only [rowCalls, List.mem_map, List.mem_filter, List.mem_range, decide_eq_true_eq, Prod.mk.injEq]
  constructor
  · rintro ⟨x', ⟨⟨i, hi, rfl⟩, h⟩, rfl, rfl⟩
    exact ⟨rfl, by omega, by omega, h⟩
  · rintro ⟨rfl, h1, h2, h3⟩
    exact ⟨x, ⟨⟨(x - a).toNat, by omega, by omega⟩, h3⟩, rfl, rfl⟩

theorem nodup_rowCalls (w : Nat) (a b Y : Int) : (rowCalls w a b Y).Nodup := by
  unfold rowCalls
  refine List.Nodup.map ?_ (List.Nodup.filter _ (List.Nodup.map ?_ List.nodup_range))
  · intro x y h
    exact (Prod.mk.inj h).1
  · intro i j h
    dsimp only at h
    omega

theorem mem_allCalls {g : Geo} {rows : List (Int × Int × Int)} {c : Int × Int} :
    c ∈ allCalls g rows ↔ ∃ e ∈ rows, c.2 = e.1 ∧ e.2.1 ≤ c.1 ∧ c.1 ≤ e.2.2 ∧ c.1 < g.w ∧ c.2 < g.h := by
  simp only [allCalls, List.mem_flatMap]
  constructor
  · rintro ⟨e, he, h⟩
    split at h
    · cases h
    · rename_i hh
      rw [mem_rowCalls] at h
      exact ⟨e, he, h.1, h.2.1, h.2.2.1, h.2.2.2, by omega⟩
  · rintro ⟨e, he, h1, h2, h3, h4, h5⟩
    refine ⟨e, he, ?_⟩
    rw [if_neg (by omega), mem_rowCalls]
    exact ⟨h1, h2, h3, h4⟩

theorem nodup_allCalls {g : Geo} {rows : List (Int × Int × Int)} (h : rows.Pairwise fun e f => f.1 < e.1) : (allCalls g rows).Nodup := by
  unfold allCalls
  rw [List.nodup_flatMap]
  constructor
  · intro e _
    split
    · exact List.nodup_nil
    · exact nodup_rowCalls ..
  · refine h.imp ?_
    intro e f hef
    change List.Disjoint _ _
    intro c h1 h2
    dsimp only at h1 h2
    split at h1
    · cases h1
    split at h2
    · cases h2
    rw [mem_rowCalls] at h1 h2
    omega

theorem conv_inPar {p a b q q' : ℝ × ℝ} (h : InPar p a b q) (h' : InPar p a b q') {k : ℝ} (h0 : 0 ≤ k) (h1 : k ≤ 1) : InPar p a b (seg q q' k) := by
  obtain ⟨s, t, hs, ht, rfl⟩ := h
  obtain ⟨s', t', hs', ht', rfl⟩ := h'
  rw [seg_pt]
  rw [abs_le] at hs ht hs' ht'
  refine ⟨_, _, ?_, ?_, rfl⟩
  · rw [abs_le]
    constructor <;> nlinarith
  · rw [abs_le]
    constructor <;> nlinarith

theorem div_bounds {n m : Int} (h : n / 10 = m) : ((m : ℝ) * 10 ≤ n) ∧ (n : ℝ) + 1 ≤ (m + 1) * 10 := by
  have h1 : m * 10 ≤ n := by omega
  have h2 : n + 1 ≤ (m + 1) * 10 := by omega
  exact ⟨by exact_mod_cast h1, by exact_mod_cast h2⟩

/-- a cell between two points of a row: a point of the cell near to a point of the parallelogram -/
theorem cell_near {p a b : ℝ × ℝ} {c d : Pt} {x Y : Int} (hc : c.2 / 10 = Y) (hd : d.2 / 10 = Y) (h1 : c.1 / 10 ≤ x) (h2 : x ≤ d.1 / 10)
    (nc : ∃ q, InPar p a b q ∧ Near c q) (nd : ∃ q, InPar p a b q ∧ Near d q) :
    ∃ q q' : ℝ × ℝ, ((x : ℝ) * 10 ≤ q.1 ∧ q.1 < (x + 1) * 10 ∧ (Y : ℝ) * 10 ≤ q.2 ∧ q.2 < (Y + 1) * 10) ∧ InPar p a b q' ∧ |q.1 - q'.1| ≤ 3 / 2 ∧ |q.2 - q'.2| ≤ 3 / 2 := by
  obtain ⟨e, he, e1, e2, e3, e4⟩ := nc
  obtain ⟨f, hf, f1, f2, f3, f4⟩ := nd
  obtain ⟨c1, c2⟩ := div_bounds hc
  obtain ⟨d1, d2⟩ := div_bounds hd
  rcases eq_or_lt_of_le h1 with h1 | h1
  · obtain ⟨x1, x2⟩ := div_bounds h1
    refine ⟨((c.1 : ℝ), (c.2 : ℝ)), e, ⟨x1, by linarith, c1, by linarith⟩, he, ?_, ?_⟩
    · rw [abs_le]; constructor <;> dsimp only <;> linarith
    · rw [abs_le]; constructor <;> dsimp only <;> linarith
  rcases eq_or_lt_of_le h2 with h2 | h2
  · obtain ⟨x1, x2⟩ := div_bounds h2.symm
    refine ⟨((d.1 : ℝ), (d.2 : ℝ)), f, ⟨x1, by linarith, d1, by linarith⟩, hf, ?_, ?_⟩
    · rw [abs_le]; constructor <;> dsimp only <;> linarith
    · rw [abs_le]; constructor <;> dsimp only <;> linarith
  have l1 : c.1 < x * 10 := by omega
  have l2 : x * 10 < d.1 := by omega
  have l1' : (c.1 : ℝ) < x * 10 := by exact_mod_cast l1
  have l2' : (x : ℝ) * 10 < d.1 := by exact_mod_cast l2
  have hpos : (0 : ℝ) < d.1 - c.1 := by linarith
  obtain ⟨k, hk⟩ : ∃ k : ℝ, k = (x * 10 - c.1) / (d.1 - c.1) := ⟨_, rfl⟩
  have k0 : 0 ≤ k := by rw [hk]; exact div_nonneg (by linarith) hpos.le
  have k1 : k ≤ 1 := by rw [hk, div_le_one hpos]; linarith
  have hk' : k * (d.1 - c.1) = x * 10 - c.1 := by rw [hk]; field_simp
  refine ⟨seg ((c.1 : ℝ), (c.2 : ℝ)) ((d.1 : ℝ), (d.2 : ℝ)) k, seg e f k, ⟨?_, ?_, ?_, ?_⟩, conv_inPar he hf k0 k1, ?_, ?_⟩
  · dsimp only [seg]; linarith
  · dsimp only [seg]; linarith
  · dsimp only [seg]; nlinarith
  · dsimp only [seg]; nlinarith
  · dsimp only [seg]
    have : (c.1 : ℝ) + k * (d.1 - c.1) - (e.1 + k * (f.1 - e.1)) = (1 - k) * (c.1 - e.1) + k * (d.1 - f.1) := by ring
    rw [this, abs_le]
    constructor <;> nlinarith
  · dsimp only [seg]
    have : (c.2 : ℝ) + k * (d.2 - c.2) - (e.2 + k * (f.2 - e.2)) = (1 - k) * (c.2 - e.2) + k * (d.2 - f.2) := by ring
    rw [this, abs_le]
    constructor <;> nlinarith

theorem inCell_coarse {g : Geo} (hx : 0 < g.sx) (hy : 0 < g.sy) {q : ℝ × ℝ} {c : Int × Int}
    (h : (c.1 : ℝ) * 10 ≤ q.1 ∧ q.1 < (c.1 + 1) * 10 ∧ (c.2 : ℝ) * 10 ≤ q.2 ∧ q.2 < (c.2 + 1) * 10) : InCell g (coarse g q) c := by
  obtain ⟨h1, h2, h3, h4⟩ := h
  refine ⟨⟨?_, ?_⟩, ?_, ?_⟩ <;> dsimp only [coarse]
  · nlinarith
  · nlinarith
  · nlinarith
  · nlinarith

theorem close_coarse {g : Geo} (hx : 0 < g.sx) (hy : 0 < g.sy) {q q' : ℝ × ℝ} (h1 : |q.1 - q'.1| ≤ 3 / 2) (h2 : |q.2 - q'.2| ≤ 3 / 2) :
    Close g (coarse g q) (coarse g q') := by
  refine ⟨?_, ?_⟩ <;> dsimp only [coarse]
  · have : g.ox + q.1 / 10 * g.sx - (g.ox + q'.1 / 10 * g.sx) = (q.1 - q'.1) * (g.sx / 10) := by ring
    rw [this, abs_mul, abs_of_pos (by positivity : 0 < g.sx / 10)]
    nlinarith
  · have : g.oy + q.2 / 10 * g.sy - (g.oy + q'.2 / 10 * g.sy) = (q.2 - q'.2) * (g.sy / 10) := by ring
    rw [this, abs_mul, abs_of_pos (by positivity : 0 < g.sy / 10)]
    nlinarith

theorem inCell_floor {g : Geo} (hx : 0 < g.sx) (hy : 0 < g.sy) (q : ℝ × ℝ) : InCell g q (⌊(fine g q).1⌋ / 10, ⌊(fine g q).2⌋ / 10) := by
  rw [← coarse_fine hx hy q]
  refine inCell_coarse hx hy ?_
  rw [fine_coarse hx hy]
  obtain ⟨a1, a2⟩ := div_bounds (rfl : ⌊(fine g q).1⌋ / 10 = ⌊(fine g q).1⌋ / 10)
  obtain ⟨b1, b2⟩ := div_bounds (rfl : ⌊(fine g q).2⌋ / 10 = ⌊(fine g q).2⌋ / 10)
  have f1 := Int.floor_le (fine g q).1
  have f2 := Int.lt_floor_add_one (fine g q).1
  have f3 := Int.floor_le (fine g q).2
  have f4 := Int.lt_floor_add_one (fine g q).2
  exact ⟨by linarith, by linarith, by linarith, by linarith⟩

theorem par_le {p a b s t : ℝ} {M : ℝ} (hs : |s| ≤ 1) (ht : |t| ≤ 1) (h1 : p + 1 * a + 1 * b < M) (h2 : p + 1 * a + -1 * b < M) (h3 : p + -1 * a + 1 * b < M)
    (h4 : p + -1 * a + -1 * b < M) : p + s * a + t * b < M := by
  rw [abs_le] at hs ht
  rcases le_total 0 a with ha | ha <;> rcases le_total 0 b with hb | hb <;> nlinarith

theorem le_par {p a b s t : ℝ} {M : ℝ} (hs : |s| ≤ 1) (ht : |t| ≤ 1) (h1 : M ≤ p + 1 * a + 1 * b) (h2 : M ≤ p + 1 * a + -1 * b) (h3 : M ≤ p + -1 * a + 1 * b)
    (h4 : M ≤ p + -1 * a + -1 * b) : M ≤ p + s * a + t * b := by
  rw [abs_le] at hs ht
  rcases le_total 0 a with ha | ha <;> rcases le_total 0 b with hb | hb <;> nlinarith

theorem inGrid_par {g : Geo} {p a b q : ℝ × ℝ} (h1 : InGrid g (pt p a b 1 1)) (h2 : InGrid g (pt p a b 1 (-1))) (h3 : InGrid g (pt p a b (-1) 1))
    (h4 : InGrid g (pt p a b (-1) (-1))) (h : InPar p a b q) : InGrid g q := by
  obtain ⟨s, t, hs, ht, rfl⟩ := h
  exact ⟨⟨le_par hs ht h1.1.1 h2.1.1 h3.1.1 h4.1.1, par_le hs ht h1.1.2 h2.1.2 h3.1.2 h4.1.2⟩,
    le_par hs ht h1.2.1 h2.2.1 h3.2.1 h4.2.1, par_le hs ht h1.2.2 h2.2.2 h3.2.2 h4.2.2⟩

theorem inCell_lt {g : Geo} (hx : 0 < g.sx) (hy : 0 < g.sy) {q : ℝ × ℝ} {c : Int × Int} (h : InGrid g q) (hc : InCell g q c) : c.1 < g.w ∧ c.2 < g.h := by
  constructor
  · have : (c.1 : ℝ) * g.sx < g.w * g.sx := by linarith [h.1.2, hc.1.1]
    have := lt_of_mul_lt_mul_right this hx.le
    exact_mod_cast this
  · have : (c.2 : ℝ) * g.sy < g.h * g.sy := by linarith [h.2.2, hc.2.1]
    have := lt_of_mul_lt_mul_right this hy.le
    exact_mod_cast this

/-- a point of the fine grid in the cell (x, Y) near to the rectangle -/
def End (g : Geo) (p : Pose2) (sizeX sizeY : ℝ) (Y x : Int) : Prop :=
  ∃ c : Pt, Good c ∧ c.2 / 10 = Y ∧ c.1 / 10 = x ∧ ∃ q, InRect p sizeX sizeY q ∧ Near c (fine g q)

/-- a cell between two such points -/
theorem near_of_ends {g : Geo} {p : Pose2} {sizeX sizeY : ℝ} (hsx : 0 < g.sx) (hsy : 0 < g.sy) (hx : 0 ≤ sizeX) (hy : 0 ≤ sizeY) {Y a b x : Int}
    (ha : End g p sizeX sizeY Y a) (hb : End g p sizeX sizeY Y b) (h1 : a ≤ x) (h2 : x ≤ b) :
    (0 ≤ x ∧ 0 ≤ Y) ∧ ∃ q q', InCell g q (x, Y) ∧ Close g q q' ∧ InRect p sizeX sizeY q' := by
  obtain ⟨c, gc, c1, c2, qc, c3, c4⟩ := ha
  obtain ⟨d, gd, d1, d2, qd, d3, d4⟩ := hb
  unfold Good at gc gd
  have hpar : ∀ q, InPar (fine g (p.x, p.y)) (fineV g (axisX p sizeX)) (fineV g (axisY p sizeY)) (fine g q) ↔ InRect p sizeX sizeY q := by
    intro q
    rw [inPar_fine hsx hsy, inRect_iff hx hy]
  refine ⟨⟨by omega, by omega⟩, ?_⟩
  obtain ⟨q, q', h1, h2, h3, h4⟩ := cell_near (x := x) c1 d1 (by omega) (by omega) ⟨_, (hpar qc).2 c3, c4⟩ ⟨_, (hpar qd).2 d3, d4⟩
  refine ⟨coarse g q, coarse g q', inCell_coarse hsx hsy h1, close_coarse hsx hsy h3 h4, ?_⟩
  rw [← hpar, fine_coarse hsx hsy]
  exact h2

/-- what the loop finds for a rectangle in the grid: the rows of cells with their ranges -/
structure Found (g : Geo) (p : Pose2) (sizeX sizeY : ℝ) (rows : List (Int × Int × Int)) : Prop where
  desc : rows.Pairwise fun e f => f.1 < e.1
  ends : ∀ e ∈ rows, End g p sizeX sizeY e.1 e.2.1 ∧ End g p sizeX sizeY e.1 e.2.2
  deep : ∀ q, (∀ q', Close g q q' → InRect p sizeX sizeY q') → ∃ e ∈ rows, ∃ x, e.2.1 ≤ x ∧ x ≤ e.2.2 ∧ x < g.w ∧ e.1 < g.h ∧ InCell g q (x, e.1)
  range : ∀ e ∈ rows, e.2.1 ≤ e.2.2

theorem rect_outside {g : Geo} {p : Pose2} {sizeX sizeY : ℝ} (hsx : 0 < g.sx) (hsy : 0 < g.sy) (hx : 0 ≤ sizeX) (hy : 0 ≤ sizeY) {q : ℝ × ℝ}
    (hq : IsCorner p sizeX sizeY q) (hn : ¬ InGrid g q) : getRectPoints g p sizeX sizeY = none := by
  rw [corners_all hx hy] at hq
  have hnone := toGrid10_none hsx hsy hn
  simp only [getRectPoints]
  cases h1 : toGrid10 g (corners p sizeX sizeY).ul with
  | none => rfl
  | some a =>
  cases h2 : toGrid10 g (corners p sizeX sizeY).ur with
  | none => rfl
  | some a =>
  cases h3 : toGrid10 g (corners p sizeX sizeY).dl with
  | none => rfl
  | some a =>
  cases h4 : toGrid10 g (corners p sizeX sizeY).dr with
  | none => rfl
  | some a =>
    rcases hq with rfl | rfl | rfl | rfl
    · rw [h1] at hnone; cases hnone
    · rw [h2] at hnone; cases hnone
    · rw [h3] at hnone; cases hnone
    · rw [h4] at hnone; cases hnone

theorem rect_found {g : Geo} {p : Pose2} {sizeX sizeY : ℝ} (hsx : 0 < g.sx) (hsy : 0 < g.sy) (hx : 0 ≤ sizeX) (hy : 0 ≤ sizeY)
    (hw : g.w * 10 ≤ 2 ^ 28) (hh : g.h * 10 ≤ 2 ^ 28) (hin : ∀ q, IsCorner p sizeX sizeY q → InGrid g q) :
    ∃ c l r rows, getRectPoints g p sizeX sizeY = some c ∧ Below c.ur (fine g (corners p sizeX sizeY).ur) ∧ Below c.dr (fine g (corners p sizeX sizeY).dr) ∧
      sides (c.ur.2 > c.dr.2) c = some (l, r) ∧ Run l r rows ∧ Desc l ∧ (∃ T ∈ l.head?, T.2 = max c.ur.2 c.dr.2) ∧ Found g p sizeX sizeY rows := by
  have hin' := fun q h => hin q ((corners_all hx hy q).2 h)
  obtain ⟨ul, t1, bul, gul⟩ := toGrid10_some hsx hsy (hin' _ (.inl rfl)) hw hh
  obtain ⟨ur, t2, bur, gur⟩ := toGrid10_some hsx hsy (hin' _ (.inr (.inl rfl))) hw hh
  obtain ⟨dl, t3, bdl, gdl⟩ := toGrid10_some hsx hsy (hin' _ (.inr (.inr (.inl rfl)))) hw hh
  obtain ⟨dr, t4, bdr, gdr⟩ := toGrid10_some hsx hsy (hin' _ (.inr (.inr (.inr rfl)))) hw hh
  have hrect : getRectPoints g p sizeX sizeY = some { ul := ul, ur := ur, dl := dl, dr := dr } := by
    simp only [getRectPoints, t1, t2, t3, t4]
  have bur0 := bur
  have bdr0 := bdr
  obtain ⟨a, b, ha, hb, hb2, hc⟩ := corners_spec p sizeX sizeY
  rw [hc] at bul bur bdl bdr
  dsimp only at bul bur bdl bdr
  rw [fine_pt] at bul bur bdl bdr
  have hpar : ∀ q, InPar (fine g (p.x, p.y)) (fineV g a) (fineV g b) (fine g q) ↔ InRect p sizeX sizeY q := by
    intro q
    rw [inPar_fine hsx hsy, inRect_iff hx hy, inPar_sign (sign_of_ite ha) hb]
  obtain ⟨l, r, rows, s1, s2, s3, s4, hrows⟩ := rows_spec (c := { ul := ul, ur := ur, dl := dl, dr := dr })
    (show 0 ≤ (fineV g b).2 from mul_nonneg (div_nonneg hb2 hsy.le) (by norm_num)) gur gul gdr gdl bur bul bdr bdl
  refine ⟨_, l, r, rows, hrect, bur0, bdr0, s1, s2, s3, s4, hrows.desc, ?_, ?_, hrows.range⟩
  · intro e he
    obtain ⟨c, d, gc, gd, r1, r2, r3, r4, ⟨q, q1, q2⟩, q', q3, q4⟩ := hrows.near e he
    rw [← fine_coarse hsx hsy q] at q1 q2
    rw [← fine_coarse hsx hsy q'] at q3 q4
    exact ⟨⟨c, gc, r1, r3.symm, _, (hpar _).1 q1, q2⟩, d, gd, r2, r4.symm, _, (hpar _).1 q3, q4⟩
  · intro q hq
    have hdeep : Deep (fine g (p.x, p.y)) (fineV g a) (fineV g b) (fine g q) := by
      intro dx dy hdx hdy
      have := hq (coarse g ((fine g q).1 + dx, (fine g q).2 + dy)) (by
        rw [← coarse_fine hsx hsy q, fine_coarse hsx hsy]
        refine close_coarse hsx hsy ?_ ?_
        · dsimp only; rwa [sub_add_cancel_left, abs_neg]
        · dsimp only; rwa [sub_add_cancel_left, abs_neg])
      rwa [← hpar, fine_coarse hsx hsy] at this
    obtain ⟨e, he, e1, e2, e3⟩ := hrows.deep _ hdeep
    have hcell := inCell_floor hsx hsy q
    have hlt : ⌊(fine g q).1⌋ / 10 < g.w ∧ ⌊(fine g q).2⌋ / 10 < g.h := by
      rw [hc] at hin'
      refine inCell_lt hsx hsy ?_ hcell
      refine inGrid_par (hin' _ (.inr (.inl rfl))) (hin' _ (.inl rfl)) (hin' _ (.inr (.inr (.inr rfl)))) (hin' _ (.inr (.inr (.inl rfl)))) ?_
      have h0 := hdeep 0 0 (by norm_num) (by norm_num)
      simp only [add_zero] at h0
      exact (inPar_fine hsx hsy _ _ _ _).1 h0
    rw [← e1] at hlt hcell
    exact ⟨e, he, _, e2, e3, hlt.1, hlt.2, hcell⟩

/-! ## The property -/

/-- C96 -/
theorem C96_rectangle (g : Geo) (p : Pose2) (sizeX sizeY : ℝ) (hsx : 0 < g.sx) (hsy : 0 < g.sy) (hx : 0 ≤ sizeX) (hy : 0 ≤ sizeY)
    (hw : g.w * 10 ≤ 2 ^ 28) (hh : g.h * 10 ≤ 2 ^ 28) :
    -- a corner outside of the grid: the result is false, nothing is called
    ((∃ q, IsCorner p sizeX sizeY q ∧ ¬ InGrid g q) → forEachInRectangle g p sizeX sizeY = .outside) ∧
    -- otherwise the result is true
    ((∀ q, IsCorner p sizeX sizeY q → InGrid g q) →
      ∃ calls, forEachInRectangle g p sizeX sizeY = .done calls ∧ calls.Nodup ∧
        -- every cell called is a cell of the grid and touches the rectangle, up to the tolerance
        (∀ c ∈ calls, (0 ≤ c.1 ∧ c.1 < g.w ∧ 0 ≤ c.2 ∧ c.2 < g.h) ∧ ∃ q q', InCell g q c ∧ Close g q q' ∧ InRect p sizeX sizeY q') ∧
        -- the cell of every point in the rectangle, up to the tolerance, is called
        ∀ q, (∀ q', Close g q q' → InRect p sizeX sizeY q') → ∃ c ∈ calls, InCell g q c) := by
  constructor
  · rintro ⟨q, hq, hn⟩
    simp only [forEachInRectangle, rect_outside hsx hsy hx hy hq hn]
  · intro hin
    obtain ⟨c, l, r, rows, h1, _, _, h2, h3, _, _, h4⟩ := rect_found hsx hsy hx hy hw hh hin
    refine ⟨allCalls g rows, ?_, nodup_allCalls h4.desc, ?_, ?_⟩
    · simp only [forEachInRectangle, h1, h2, sweep_of_run h3]
    · rintro ⟨x, y⟩ hxy
      obtain ⟨e, he, e1, e2, e3, e4, e5⟩ := mem_allCalls.1 hxy
      dsimp only at e1 e2 e3 e4 e5
      subst e1
      obtain ⟨n1, n2⟩ := near_of_ends hsx hsy hx hy (h4.ends e he).1 (h4.ends e he).2 e2 e3
      exact ⟨⟨n1.1, e4, n1.2, e5⟩, n2⟩
    · intro q hq
      obtain ⟨e, he, x, e2, e3, e4, e5, e6⟩ := h4.deep q hq
      exact ⟨(x, e.1), mem_allCalls.2 ⟨e, he, rfl, e2, e3, e4, e5⟩, e6⟩

/-- a square of 4 x 2 cells in a grid of 10 x 10 cells of size 1/2, not turned: all the corners are in the grid, the point in the middle is deep inside -/
example : ∃ (g : Geo) (p : Pose2) (sizeX sizeY : ℝ), 0 < g.sx ∧ 0 < g.sy ∧ 0 ≤ sizeX ∧ 0 ≤ sizeY ∧ g.w * 10 ≤ 2 ^ 28 ∧ g.h * 10 ≤ 2 ^ 28 ∧
    (∀ q, IsCorner p sizeX sizeY q → InGrid g q) ∧ ∃ q, ∀ q', Close g q q' → InRect p sizeX sizeY q' := by
  refine ⟨⟨1 / 2, 1 / 2, 0, 0, 10, 10⟩, ⟨5 / 2, 5 / 2, 0⟩, 2, 1, by norm_num, by norm_num, by norm_num, by norm_num, by norm_num, by norm_num, ?_, (5 / 2, 5 / 2), ?_⟩
  · rintro ⟨x, y⟩ ⟨h1, h2⟩
    simp only [along, across, Real.cos_zero, Real.sin_zero] at h1 h2
    have h1 := abs_le.1 h1.le
    have h2 := abs_le.1 h2.le
    refine ⟨⟨?_, ?_⟩, ?_, ?_⟩ <;> norm_num <;> linarith
  · rintro ⟨x, y⟩ ⟨h1, h2⟩
    have h1 := abs_le.1 h1
    have h2 := abs_le.1 h2
    simp only at h1 h2
    refine ⟨?_, ?_⟩ <;> simp only [along, across, Real.cos_zero, Real.sin_zero] <;> rw [abs_le] <;> constructor <;> linarith

/-- and a rectangle with a corner outside of the grid -/
example : ∃ (g : Geo) (p : Pose2) (sizeX sizeY : ℝ), 0 < g.sx ∧ 0 < g.sy ∧ 0 ≤ sizeX ∧ 0 ≤ sizeY ∧ ∃ q, IsCorner p sizeX sizeY q ∧ ¬ InGrid g q := by
  refine ⟨⟨1, 1, 0, 0, 10, 10⟩, ⟨1, 5, 0⟩, 4, 2, by norm_num, by norm_num, by norm_num, by norm_num, (-1, 4), ?_, ?_⟩
  · refine ⟨?_, ?_⟩ <;> simp only [along, across, Real.cos_zero, Real.sin_zero] <;> norm_num
  · rintro ⟨⟨h, _⟩, _⟩
    norm_num at h

#print axioms C96_rectangle

end Envire.Rect
