import Verif.Maps.TravRectModel
import Verif.Maps.TravProps
import Verif.Grid.RectsProps
import Verif.Tools.LookupProps

/-!
C98: the statistic of a rectangle. C99: worst class and worst probability of a rectangle.
-/

namespace Envire.TravRect

open Envire.Rect Envire.Lookup

/-! ## Specification -/

/-- all the corners of the rectangle are in the grid -/
def Inside (g : Geo) (p : Pose2) (sizeX sizeY : ℝ) : Prop := ∀ q, IsCorner p sizeX sizeY q → InGrid g q

/-- the list has the cells of the rectangle, each once, up to the tolerance of C96: all the cells touch the rectangle, and the cells of all the points inside of
it are in the list -/
def CellsOf (g : Geo) (p : Pose2) (sizeX sizeY : ℝ) (cells : List (Int × Int)) : Prop :=
  cells.Nodup ∧
  (∀ c ∈ cells, (0 ≤ c.1 ∧ c.1 < g.w ∧ 0 ≤ c.2 ∧ c.2 < g.h) ∧ ∃ q q', InCell g q c ∧ Close g q q' ∧ InRect p sizeX sizeY q') ∧
  ∀ q, (∀ q', Close g q q' → InRect p sizeX sizeY q') → ∃ c ∈ cells, InCell g q c

/-- the distance of the centres of two cells -/
noncomputable def cellDist (g : Geo) (c m : Int × Int) : ℝ := Real.sqrt (((c.1 - m.1) * g.sx) ^ 2 + ((c.2 - m.2) * g.sy) ^ 2)

/-- `s'` has what `s` has and the measurements of the cells -/
structure Measured (cls : Int × Int → Nat) (dist : Int × Int → ℝ) (cells : List (Int × Int)) (s s' : Stat) : Prop where
  total : s'.total = s.total + cells.length
  counts : ∀ k, s'.counts k = s.counts k + (cells.filter fun c => cls c = k).length
  highest : s.highest ≤ s'.highest ∧ (∀ c ∈ cells, cls c ≤ s'.highest) ∧ (s'.highest = s.highest ∨ ∃ c ∈ cells, s'.highest = cls c)
  least : ∀ k d, s'.minDist k = some d ↔ IsLeast {x | s.minDist k = some x ∨ ∃ c ∈ cells, cls c = k ∧ x = dist c} d
  never : ∀ k, s'.minDist k = none ↔ s.minDist k = none ∧ ∀ c ∈ cells, cls c ≠ k

/-! ## The loop -/

theorem add_some {s : Stat} {k : Nat} (d : ℝ) (hk : k < 255) : ∃ s', s.add k d = some s' ∧ s'.total = s.total + 1 ∧ s'.highest = max s.highest k ∧
    (∀ j, s'.counts j = if j = k then s.counts j + 1 else s.counts j) ∧
    ∀ j, s'.minDist j = if j = k then some (match s.minDist k with | none => d | some m => min d m) else s.minDist j := by
  unfold Stat.add
  rw [if_pos hk]
  exact ⟨_, rfl, rfl, rfl, fun _ => rfl, fun _ => rfl⟩

theorem addAllInner_spec {lut : Radial} {m : Int × Int} {cls : Int × Int → Nat} {dist : Int × Int → ℝ} : ∀ (cells : List (Int × Int)) (s : Stat),
    (∀ c ∈ cells, cls c < 255 ∧ ∃ a, lut.get (c.1 - m.1) (c.2 - m.2) = some (dist c, a)) → ∃ s', addAllInner lut m cls s cells = some s' ∧ Measured cls dist cells s s' := by
  intro cells
  induction cells with
  | nil =>
    intro s _
    refine ⟨s, rfl, rfl, fun k => by simp, ⟨le_refl _, by simp, .inl rfl⟩, ?_, by simp⟩
    intro k d
    simp only [List.not_mem_nil, false_and, exists_false, or_false]
    constructor
    · intro h
      refine ⟨h, ?_⟩
      intro x hx
      rw [Set.mem_setOf_eq, h, Option.some.injEq] at hx
      exact hx.le
    · exact fun h => h.1
  | cons c l ih =>
    intro s h
    obtain ⟨hk, a, ha⟩ := h c (by simp)
    obtain ⟨s1, e1, t1, hi1, c1, m1⟩ := add_some (s := s) (dist c) hk
    obtain ⟨s', e2, hm⟩ := ih s1 fun c hc => h c (List.mem_cons_of_mem _ hc)
    refine ⟨s', ?_, ?_, ?_, ?_, ?_, ?_⟩
    · unfold addAllInner addInner
      rw [ha]
      dsimp only
      rw [e1]
      exact e2
    · rw [hm.total, t1, List.length_cons]; omega
    · intro k
      rw [hm.counts, c1]
      by_cases hkc : k = cls c
      · rw [if_pos hkc, List.filter_cons_of_pos (by simp [hkc]), List.length_cons]; omega
      · rw [if_neg hkc, List.filter_cons_of_neg (by simpa using fun e => hkc e.symm)]
    · obtain ⟨h1, h2, h3⟩ := hm.highest
      rw [hi1] at h1 h3
      refine ⟨(le_max_left _ _).trans h1, ?_, ?_⟩
      · intro b hb
        rcases List.mem_cons.1 hb with rfl | hb
        · exact (le_max_right _ _).trans h1
        · exact h2 b hb
      · rcases h3 with h3 | ⟨b, hb, h3⟩
        · rcases max_choice s.highest (cls c) with hc | hc
          · exact .inl (h3.trans hc)
          · exact .inr ⟨c, by simp, h3.trans hc⟩
        · exact .inr ⟨b, List.mem_cons_of_mem _ hb, h3⟩
    · intro k d
      rw [hm.least, m1]
      by_cases hkc : k = cls c
      · subst hkc
        rw [if_pos rfl]
        cases hs : s.minDist (cls c) with
        | none =>
          have : {x | some (dist c) = some x ∨ ∃ b ∈ l, cls b = cls c ∧ x = dist b} = {x | (none : Option ℝ) = some x ∨ ∃ b ∈ c :: l, cls b = cls c ∧ x = dist b} := by
            ext x
            simp only [Set.mem_setOf_eq, List.mem_cons, Option.some.injEq, reduceCtorEq, false_or]
            constructor
            · rintro (rfl | ⟨b, hb, h1, h2⟩)
              · exact ⟨c, .inl rfl, rfl, rfl⟩
              · exact ⟨b, .inr hb, h1, h2⟩
            · rintro ⟨b, rfl | hb, h1, h2⟩
              · exact .inl h2.symm
              · exact .inr ⟨b, hb, h1, h2⟩
          dsimp only
          rw [this]
        | some v =>
          dsimp only
          constructor
          · rintro ⟨h1, h2⟩
            have hmin : d ≤ min (dist c) v := h2 (.inl rfl)
            refine ⟨?_, ?_⟩
            · rcases h1 with h1 | ⟨b, hb, h3, h4⟩
              · rw [Option.some.injEq] at h1
                rcases min_choice (dist c) v with e | e
                · exact .inr ⟨c, by simp, rfl, by rw [← h1, e]⟩
                · exact .inl (by rw [← h1, e])
              · exact .inr ⟨b, List.mem_cons_of_mem _ hb, h3, h4⟩
            · rintro x (hx | ⟨b, hb, h3, h4⟩)
              · rw [Option.some.injEq] at hx
                exact hx ▸ hmin.trans (min_le_right _ _)
              · rcases List.mem_cons.1 hb with rfl | hb
                · exact h4 ▸ hmin.trans (min_le_left _ _)
                · exact h2 (.inr ⟨b, hb, h3, h4⟩)
          · rintro ⟨h1, h2⟩
            have hv : d ≤ v := h2 (.inl rfl)
            have hd : d ≤ dist c := h2 (.inr ⟨c, by simp, rfl, rfl⟩)
            refine ⟨?_, ?_⟩
            · rcases h1 with h1 | ⟨b, hb, h3, h4⟩
              · rw [Option.some.injEq] at h1
                exact .inl (by rw [Option.some.injEq, ← h1, min_eq_right (h1 ▸ hd)])
              · rcases List.mem_cons.1 hb with rfl | hb
                · exact .inl (by rw [Option.some.injEq, h4, min_eq_left (h4 ▸ hv)])
                · exact .inr ⟨b, hb, h3, h4⟩
            · rintro x (hx | ⟨b, hb, h3, h4⟩)
              · rw [Option.some.injEq] at hx
                exact hx ▸ le_min hd hv
              · exact h2 (.inr ⟨b, List.mem_cons_of_mem _ hb, h3, h4⟩)
      · rw [if_neg hkc]
        have : {x | s.minDist k = some x ∨ ∃ b ∈ l, cls b = k ∧ x = dist b} = {x | s.minDist k = some x ∨ ∃ b ∈ c :: l, cls b = k ∧ x = dist b} := by
          ext x
          simp only [Set.mem_setOf_eq, List.mem_cons]
          constructor
          · rintro (hx | ⟨b, hb, h1, h2⟩)
            · exact .inl hx
            · exact .inr ⟨b, .inr hb, h1, h2⟩
          · rintro (hx | ⟨b, rfl | hb, h1, h2⟩)
            · exact .inl hx
            · exact absurd h1.symm hkc
            · exact .inr ⟨b, hb, h1, h2⟩
        rw [this]
    · intro k
      rw [hm.never, m1]
      by_cases hkc : k = cls c
      · rw [if_pos hkc]
        simp only [reduceCtorEq, false_and, false_iff, not_and, not_forall]
        intro _
        exact ⟨c, by simp, by simpa using hkc.symm⟩
      · rw [if_neg hkc]
        simp only [List.mem_cons, forall_eq_or_imp]
        exact ⟨fun h => ⟨h.1, fun e => hkc e.symm, h.2⟩, fun h => ⟨h.1, h.2.2⟩⟩

/-! ## The table is large enough -/

/-- a point of the rectangle is near to the centre -/
theorem inRect_near {p : Pose2} {sizeX sizeY M : ℝ} {q : ℝ × ℝ} (h : InRect p sizeX sizeY q) (hX : sizeX ≤ M) (hY : sizeY ≤ M) :
    |q.1 - p.x| ≤ 7072 / 10000 * M ∧ |q.2 - p.y| ≤ 7072 / 10000 * M := by
  obtain ⟨h1, h2⟩ := h
  have hcs := Real.cos_sq_add_sin_sq p.θ
  have e1 : q.1 - p.x = Real.cos p.θ * along p q - Real.sin p.θ * across p q := by
    unfold along across; linear_combination (-(q.1 - p.x)) * hcs
  have e2 : q.2 - p.y = Real.sin p.θ * along p q + Real.cos p.θ * across p q := by
    unfold along across; linear_combination (-(q.2 - p.y)) * hcs
  have b1 : |along p q| ≤ M / 2 := h1.trans (by linarith)
  have b2 : |across p q| ≤ M / 2 := h2.trans (by linarith)
  have hM : 0 ≤ M := by linarith [abs_nonneg (along p q)]
  have s1 : along p q ^ 2 ≤ (M / 2) ^ 2 := sq_le_sq' (by linarith [(abs_le.1 b1).1]) (abs_le.1 b1).2
  have s2 : across p q ^ 2 ≤ (M / 2) ^ 2 := sq_le_sq' (by linarith [(abs_le.1 b2).1]) (abs_le.1 b2).2
  have hsum : (q.1 - p.x) ^ 2 + (q.2 - p.y) ^ 2 = along p q ^ 2 + across p q ^ 2 := by
    rw [e1, e2]; linear_combination (along p q ^ 2 + across p q ^ 2) * hcs
  have hM2 : 0 ≤ M ^ 2 := sq_nonneg M
  constructor
  · apply abs_le_of_sq_le_sq _ (by linarith)
    nlinarith [sq_nonneg (q.2 - p.y)]
  · apply abs_le_of_sq_le_sq _ (by linarith)
    nlinarith [sq_nonneg (q.1 - p.x)]

/-- cells of near points, in one axis -/
theorem near_index {o s q p B : ℝ} {c : Int} (hs : 0 < s) (h1 : o + c * s ≤ q) (h2 : q < o + (c + 1) * s) (hB : |q - p| ≤ B) :
    |((c - ⌊(p - o) / s⌋ : Int) : ℝ)| * s ≤ B + s := by
  have f1 : (⌊(p - o) / s⌋ : ℝ) * s ≤ p - o := by
    have := mul_le_mul_of_nonneg_right (Int.floor_le ((p - o) / s)) hs.le
    rwa [div_mul_cancel₀ _ hs.ne'] at this
  have f2 : p - o < ((⌊(p - o) / s⌋ : ℝ) + 1) * s := by
    have := mul_lt_mul_of_pos_right (Int.lt_floor_add_one ((p - o) / s)) hs
    rwa [div_mul_cancel₀ _ hs.ne'] at this
  obtain ⟨g1, g2⟩ := abs_le.1 hB
  rw [← abs_of_pos hs, ← abs_mul, abs_of_pos hs]
  push_cast
  rw [abs_le]
  constructor <;> nlinarith

/-- the cells of the rectangle are in the table -/
theorem lut_cell {hist : List (ℝ × ℝ)} {g : Geo} {p : Pose2} {sizeX sizeY : ℝ} {c : Int × Int} (hsx : 0 < g.sx) (hsy : g.sx ≤ g.sy)
    (hM : 8 * g.sy ≤ max sizeX sizeY) (hM' : max sizeX sizeY / g.sx * 2 ≤ 46340)
    (h : ∃ q q', InCell g q c ∧ Close g q q' ∧ InRect p sizeX sizeY q') :
    ∃ a, (Radial.run ((g.sx, max sizeX sizeY) :: hist)).get (c.1 - (centre g p).1) (c.2 - (centre g p).2) =
      some (Real.sqrt (((c.1 - (centre g p).1) * g.sx) ^ 2 + ((c.2 - (centre g p).2) * g.sx) ^ 2), a) := by
  obtain ⟨q, q', ⟨⟨i1, i2⟩, i3, i4⟩, ⟨n1, n2⟩, hr⟩ := h
  obtain ⟨b1, b2⟩ := inRect_near hr (le_max_left _ _) (le_max_right _ _)
  have hsy' : 0 < g.sy := hsx.trans_le hsy
  generalize hm : max sizeX sizeY = M at *
  have d1 : |q.1 - p.x| ≤ 7072 / 10000 * M + 15 / 100 * g.sx := by
    calc |q.1 - p.x| = |(q.1 - q'.1) + (q'.1 - p.x)| := by congr 1; ring
      _ ≤ |q.1 - q'.1| + |q'.1 - p.x| := abs_add_le _ _
      _ ≤ _ := by linarith
  have d2 : |q.2 - p.y| ≤ 7072 / 10000 * M + 15 / 100 * g.sy := by
    calc |q.2 - p.y| = |(q.2 - q'.2) + (q'.2 - p.y)| := by congr 1; ring
      _ ≤ |q.2 - q'.2| + |q'.2 - p.y| := abs_add_le _ _
      _ ≤ _ := by linarith
  have k1 := near_index hsx i1 i2 d1
  have k2 := near_index hsy' i3 i4 d2
  change |((c.1 - (centre g p).1 : Int) : ℝ)| * g.sx ≤ _ at k1
  change |((c.2 - (centre g p).2 : Int) : ℝ)| * g.sy ≤ _ at k2
  have k2' : |((c.2 - (centre g p).2 : Int) : ℝ)| * g.sx ≤ 7072 / 10000 * M + 15 / 100 * g.sy + g.sy :=
    (mul_le_mul_of_nonneg_left hsy (abs_nonneg _)).trans k2
  have em : ∀ a : ℝ, |a| * g.sx = |a * g.sx| := fun a => by rw [abs_mul, abs_of_pos hsx]
  rw [em] at k1 k2'
  obtain ⟨l1, l2⟩ := abs_le.1 k1
  obtain ⟨l3, l4⟩ := abs_le.1 k2'
  have := C85_radial_partial hist g.sx M hsx hM' (c.1 - (centre g p).1) (c.2 - (centre g p).2) (by linarith) (by linarith) (by linarith) (by linarith)
  push_cast at this
  exact ⟨_, this⟩

/-! ## C98 -/

theorem computeStatistic_eq (hist : List (ℝ × ℝ)) {g : Geo} {cls : Int × Int → Nat} {p : Pose2} {sizeX sizeY : ℝ} {s : Stat} {cells : List (Int × Int)}
    (h : forEachInRectangle g p sizeX sizeY = .done cells) :
    computeStatistic hist g cls p sizeX sizeY s = addAllInner (Radial.run ((g.sx, max sizeX sizeY) :: hist)) (centre g p) cls s cells := by
  simp only [computeStatistic, h]

/-- the statistic, with the distances of the table -/
theorem statistic_spec (hist : List (ℝ × ℝ)) {g : Geo} {cls : Int × Int → Nat} {p : Pose2} {sizeX sizeY : ℝ} (s : Stat) (hsx : 0 < g.sx) (hsy : g.sx ≤ g.sy)
    (hx : 0 ≤ sizeX) (hy : 0 ≤ sizeY) (hw : g.w * 10 ≤ 2 ^ 28) (hh : g.h * 10 ≤ 2 ^ 28) (hM : 8 * g.sy ≤ max sizeX sizeY) (hM' : max sizeX sizeY / g.sx * 2 ≤ 46340)
    (hc : ∀ c : Int × Int, 0 ≤ c.1 → c.1 < g.w → 0 ≤ c.2 → c.2 < g.h → cls c < 255) (hin : Inside g p sizeX sizeY) :
    ∃ cells s', forEachInRectangle g p sizeX sizeY = .done cells ∧ CellsOf g p sizeX sizeY cells ∧ computeStatistic hist g cls p sizeX sizeY s = some s' ∧
      Measured cls (fun c => Real.sqrt (((c.1 - (centre g p).1) * g.sx) ^ 2 + ((c.2 - (centre g p).2) * g.sx) ^ 2)) cells s s' := by
  obtain ⟨cells, e, n, h1, h2⟩ := (C96_rectangle g p sizeX sizeY hsx (hsx.trans_le hsy) hx hy hw hh).2 hin
  obtain ⟨s', e', hm⟩ := addAllInner_spec (lut := Radial.run ((g.sx, max sizeX sizeY) :: hist)) (m := centre g p) (cls := cls)
    (dist := fun c => Real.sqrt (((c.1 - (centre g p).1) * g.sx) ^ 2 + ((c.2 - (centre g p).2) * g.sx) ^ 2)) cells s
    (fun c hcc => ⟨hc c (h1 c hcc).1.1 (h1 c hcc).1.2.1 (h1 c hcc).1.2.2.1 (h1 c hcc).1.2.2.2, lut_cell hsx hsy hM hM' (h1 c hcc).2⟩)
  exact ⟨cells, s', e, ⟨n, h1, h2⟩, (computeStatistic_eq hist e).trans e', hm⟩

/-- C98. Full claim: for every rectangle inside of the grid, computeStatistic adds the measurements of the cells of the rectangle to the statistic: the number of cells
in total and of each class, and for each class the least distance of such a cell from the cell of the centre; if the rectangle is not inside of the grid the statistic stays as it is.
Proved for square cells, rectangles whose longer side is at least 8 cells long, and classes below 255.
Missing: shorter rectangles (`C98_small`), cells that are no squares (`C98_scale`), class 255 (`Trav.C41_class_255`). -/
theorem C98_statistic_partial (hist : List (ℝ × ℝ)) (g : Geo) (cls : Int × Int → Nat) (p : Pose2) (sizeX sizeY : ℝ) (s : Stat) (hsx : 0 < g.sx) (hsy : g.sy = g.sx)
    (hx : 0 ≤ sizeX) (hy : 0 ≤ sizeY) (hw : g.w * 10 ≤ 2 ^ 28) (hh : g.h * 10 ≤ 2 ^ 28) (hM : 8 * g.sx ≤ max sizeX sizeY) (hM' : max sizeX sizeY / g.sx * 2 ≤ 46340)
    (hc : ∀ c : Int × Int, 0 ≤ c.1 → c.1 < g.w → 0 ≤ c.2 → c.2 < g.h → cls c < 255) :
    (¬ Inside g p sizeX sizeY → computeStatistic hist g cls p sizeX sizeY s = some s) ∧
    (Inside g p sizeX sizeY → ∃ m cells s', InCell g (p.x, p.y) m ∧ CellsOf g p sizeX sizeY cells ∧ computeStatistic hist g cls p sizeX sizeY s = some s' ∧
      Measured cls (fun c => cellDist g c m) cells s s') := by
  constructor
  · intro h
    simp only [Inside, not_forall] at h
    obtain ⟨q, hq, hn⟩ := h
    simp only [computeStatistic, (C96_rectangle g p sizeX sizeY hsx (hsy ▸ hsx) hx hy hw hh).1 ⟨q, hq, hn⟩]
  · intro hin
    obtain ⟨cells, s', _, h1, h2, h3⟩ := statistic_spec hist s hsx hsy.ge hx hy hw hh (hsy ▸ hM) hM' hc hin
    refine ⟨centre g p, cells, s', ?_, h1, h2, ?_⟩
    · have hs' : 0 < g.sy := hsy ▸ hsx
      refine ⟨⟨?_, ?_⟩, ?_, ?_⟩
      · have := (le_div_iff₀ hsx).1 (Int.floor_le ((p.x - g.ox) / g.sx))
        simp only [centre]; linarith
      · have := (div_lt_iff₀ hsx).1 (Int.lt_floor_add_one ((p.x - g.ox) / g.sx))
        simp only [centre]; linarith
      · have := (le_div_iff₀ hs').1 (Int.floor_le ((p.y - g.oy) / g.sy))
        simp only [centre]; linarith
      · have := (div_lt_iff₀ hs').1 (Int.lt_floor_add_one ((p.y - g.oy) / g.sy))
        simp only [centre]; linarith
    · convert h3 using 2
      simp only [cellDist, hsy]

/-- a grid of 40 x 40 cells and a rectangle of 10 x 4 cells -/
noncomputable def gridE : Geo := { sx := 1 / 10, sy := 1 / 10, ox := 0, oy := 0, w := 40, h := 40 }
def poseE : Pose2 := { x := 2, y := 2, θ := 0 }

theorem insideE : Inside gridE poseE 1 (4 / 10) := by
  rintro ⟨x, y⟩ ⟨h1, h2⟩
  simp only [along, across, poseE, Real.cos_zero, Real.sin_zero] at h1 h2
  have h1 := abs_le.1 h1.le
  have h2 := abs_le.1 h2.le
  refine ⟨⟨?_, ?_⟩, ?_, ?_⟩ <;> norm_num [gridE] <;> linarith

example : 0 < gridE.sx ∧ gridE.sy = gridE.sx ∧ gridE.w * 10 ≤ 2 ^ 28 ∧ gridE.h * 10 ≤ 2 ^ 28 ∧ 8 * gridE.sx ≤ max 1 (4 / 10) ∧ max 1 (4 / 10) / gridE.sx * 2 ≤ 46340 ∧
    Inside gridE poseE 1 (4 / 10) :=
  ⟨by norm_num [gridE], rfl, by norm_num [gridE], by norm_num [gridE], by norm_num [gridE], by norm_num [gridE], insideE⟩

/-- C98 is violated for cells that are no squares: the distances are computed with the size in x only. The cell `c` is the only one of its class k and not in the row of the centre,
the distance in the statistic is too small. -/
theorem C98_scale (hist : List (ℝ × ℝ)) (g : Geo) (cls : Int × Int → Nat) (p : Pose2) (sizeX sizeY : ℝ) (hsx : 0 < g.sx) (hsy : g.sx < g.sy)
    (hx : 0 ≤ sizeX) (hy : 0 ≤ sizeY) (hw : g.w * 10 ≤ 2 ^ 28) (hh : g.h * 10 ≤ 2 ^ 28) (hM : 8 * g.sy ≤ max sizeX sizeY) (hM' : max sizeX sizeY / g.sx * 2 ≤ 46340)
    (hc : ∀ c : Int × Int, 0 ≤ c.1 → c.1 < g.w → 0 ≤ c.2 → c.2 < g.h → cls c < 255) (hin : Inside g p sizeX sizeY)
    (q : ℝ × ℝ) (hq : ∀ q', Close g q q' → InRect p sizeX sizeY q') (c m : Int × Int) (hqc : InCell g q c) (hm : InCell g (p.x, p.y) m) (hcm : c.2 ≠ m.2)
    (hcls : ∀ b, cls b = cls c → b = c) :
    ∃ s' d, computeStatistic hist g cls p sizeX sizeY {} = some s' ∧ s'.minDist (cls c) = some d ∧ d < cellDist g c m := by
  have hsy' := hsx.trans hsy
  obtain ⟨cells, s', _, ⟨_, _, h1⟩, h2, h3⟩ := statistic_spec hist {} hsx hsy.le hx hy hw hh hM hM' hc hin
  have uniq : ∀ {o s v : ℝ} {a b : Int}, 0 < s → o + a * s ≤ v → v < o + (a + 1) * s → o + b * s ≤ v → v < o + (b + 1) * s → a = b := by
    intro o s v a b hs e1 e2 e3 e4
    have l1 : a < b + 1 := by
      have : (a : ℝ) < b + 1 := lt_of_mul_lt_mul_right (by linarith : (a : ℝ) * s < (b + 1) * s) hs.le
      exact_mod_cast this
    have l2 : b < a + 1 := by
      have : (b : ℝ) < a + 1 := lt_of_mul_lt_mul_right (by linarith : (b : ℝ) * s < (a + 1) * s) hs.le
      exact_mod_cast this
    omega
  have cellUniq : ∀ {v : ℝ × ℝ} {a b : Int × Int}, InCell g v a → InCell g v b → a = b := by
    rintro v a b ⟨⟨a1, a2⟩, a3, a4⟩ ⟨⟨b1, b2⟩, b3, b4⟩
    exact Prod.ext (uniq hsx a1 a2 b1 b2) (uniq hsy' a3 a4 b3 b4)
  have hmc : m = centre g p := by
    refine cellUniq hm ⟨⟨?_, ?_⟩, ?_, ?_⟩
    · have := (le_div_iff₀ hsx).1 (Int.floor_le ((p.x - g.ox) / g.sx))
      simp only [centre]; linarith
    · have := (div_lt_iff₀ hsx).1 (Int.lt_floor_add_one ((p.x - g.ox) / g.sx))
      simp only [centre]; linarith
    · have := (le_div_iff₀ hsy').1 (Int.floor_le ((p.y - g.oy) / g.sy))
      simp only [centre]; linarith
    · have := (div_lt_iff₀ hsy').1 (Int.lt_floor_add_one ((p.y - g.oy) / g.sy))
      simp only [centre]; linarith
  obtain ⟨b, hb, hb'⟩ := h1 q hq
  obtain rfl := cellUniq hb' hqc
  refine ⟨s', Real.sqrt (((b.1 - m.1) * g.sx) ^ 2 + ((b.2 - m.2) * g.sx) ^ 2), h2, ?_, ?_⟩
  · rw [h3.least, hmc]
    refine ⟨.inr ⟨b, hb, rfl, rfl⟩, ?_⟩
    rintro x (hx | ⟨e, _, he, rfl⟩)
    · cases hx
    · rw [hcls e he]
  · apply Real.sqrt_lt_sqrt (by positivity)
    have h0 : ((b.2 : ℝ) - m.2) ≠ 0 := by
      rw [sub_ne_zero]; exact_mod_cast hcm
    have h1 : 0 < ((b.2 : ℝ) - m.2) ^ 2 := by positivity
    have h2 : g.sx ^ 2 < g.sy ^ 2 := by nlinarith
    nlinarith

/-- a case of `C98_scale`: cells of 1 x 2, a square of 16 x 8 cells, the point two cells above the centre -/
example : ∃ (g : Geo) (p : Pose2) (q : ℝ × ℝ) (c m : Int × Int), 0 < g.sx ∧ g.sx < g.sy ∧ g.w * 10 ≤ 2 ^ 28 ∧ g.h * 10 ≤ 2 ^ 28 ∧ 8 * g.sy ≤ max 16 16 ∧
    max 16 16 / g.sx * 2 ≤ 46340 ∧ Inside g p 16 16 ∧ (∀ q', Close g q q' → InRect p 16 16 q') ∧ InCell g q c ∧ InCell g (p.x, p.y) m ∧ c.2 ≠ m.2 := by
  refine ⟨⟨1, 2, 0, 0, 40, 20⟩, ⟨20, 20, 0⟩, (20, 24), (20, 12), (20, 10), by norm_num, by norm_num, by norm_num, by norm_num, by norm_num, by norm_num, ?_, ?_, ?_, ?_, by norm_num⟩
  · rintro ⟨x, y⟩ ⟨h1, h2⟩
    simp only [along, across, Real.cos_zero, Real.sin_zero] at h1 h2
    have h1 := abs_le.1 h1.le
    have h2 := abs_le.1 h2.le
    refine ⟨⟨?_, ?_⟩, ?_, ?_⟩ <;> norm_num <;> linarith
  · rintro ⟨x, y⟩ ⟨h1, h2⟩
    have h1 := abs_le.1 h1
    have h2 := abs_le.1 h2
    simp only at h1 h2
    refine ⟨?_, ?_⟩ <;> simp only [along, across, Real.cos_zero, Real.sin_zero] <;> rw [abs_le] <;> constructor <;> linarith
  · refine ⟨⟨?_, ?_⟩, ?_, ?_⟩ <;> norm_num
  · refine ⟨⟨?_, ?_⟩, ?_, ?_⟩ <;> norm_num

/-- a rectangle of one cell, in the middle of a cell -/
def gridS : Geo := { sx := 1, sy := 1, ox := 0, oy := 0, w := 10, h := 10 }
noncomputable def poseS : Pose2 := { x := 11 / 2, y := 11 / 2, θ := 0 }
def cornersS : Corners Pt := { ul := (60, 50), ur := (60, 60), dl := (50, 50), dr := (50, 60) }

theorem cornersS_eq : getRectPoints gridS poseS 1 1 = some cornersS := by
  have hc : corners poseS 1 1 = ⟨place poseS (1 / 2) (-(1 / 2)), place poseS (1 / 2) (1 / 2), place poseS (-(1 / 2)) (-(1 / 2)), place poseS (-(1 / 2)) (1 / 2)⟩ := by
    simp only [corners, swap1, swap2, place, poseS, Real.cos_zero, Real.sin_zero]
    norm_num
  simp only [getRectPoints, hc, place, show poseS.θ = 0 from rfl, Real.cos_zero, Real.sin_zero]
  rw [toGrid10_eq (c := cornersS.ul), toGrid10_eq (c := cornersS.ur), toGrid10_eq (c := cornersS.dl), toGrid10_eq (c := cornersS.dr)] <;>
    first | rfl | (simp only [cornersS, gridS, poseS]; norm_num)

theorem callsS : forEachInRectangle gridS poseS 1 1 = .done [(5, 6), (6, 6), (5, 5), (6, 5)] := by
  have h : (match sides (cornersS.ur.2 > cornersS.dr.2) cornersS with
      | none => none
      | some (l, r) => sweep l r) = some [(6, 5, 6), (5, 5, 6)] := by decide +kernel
  simp only [forEachInRectangle, cornersS_eq]
  revert h
  cases sides (cornersS.ur.2 > cornersS.dr.2) cornersS with
  | none => intro h; cases h
  | some a =>
    intro h
    dsimp only at h ⊢
    rw [h]
    rfl

/-- C98 is violated for short rectangles: for one of the size of a cell the distance is read outside of the lookup table -/
theorem C98_small (hist : List (ℝ × ℝ)) (cls : Int × Int → Nat) (s : Stat) :
    Inside gridS poseS 1 1 ∧ computeStatistic hist gridS cls poseS 1 1 s = none := by
  constructor
  · rintro ⟨x, y⟩ ⟨h1, h2⟩
    simp only [along, across, poseS, Real.cos_zero, Real.sin_zero] at h1 h2
    have h1 := abs_le.1 h1.le
    have h2 := abs_le.1 h2.le
    refine ⟨⟨?_, ?_⟩, ?_, ?_⟩ <;> norm_num [gridS] <;> linarith
  · have hcen : centre gridS poseS = (5, 5) := by
      simp only [centre, gridS, poseS, Prod.mk.injEq, Int.floor_eq_iff]
      norm_num
    rw [computeStatistic_eq hist callsS, hcen]
    have hget : (Radial.run ((gridS.sx, max 1 1) :: hist)).get 0 1 = none := by
      have h1 : trunc ((1 : ℝ) / 1) = 1 := by rw [trunc_nonneg (by norm_num)]; norm_num
      have h2 : trunc ((1 : ℝ) / 1 * 2) = 2 := by rw [trunc_nonneg (by norm_num)]; norm_num
      rw [show gridS.sx = 1 from rfl, max_self, Radial.run_cons _ _ _ one_pos, h1, h2]
      rfl
    unfold addAllInner addInner
    have : (Radial.run ((gridS.sx, max 1 1) :: hist)).get (5 - 5) (6 - 5) = none := hget
    dsimp only
    rw [this]

/-! ## C99 -/

theorem addAll_of_inner {lut : Radial} {m : Int × Int} {cls : Int × Int → Nat} : ∀ (cells : List (Int × Int)) (s s' : Stat),
    addAllInner lut m cls s cells = some s' → Trav.Stat.addAll ⟨s.counts, s.highest⟩ (cells.map cls) = .ok ⟨s'.counts, s'.highest⟩ := by
  intro cells
  induction cells with
  | nil =>
    intro s s' h
    cases h
    rfl
  | cons c l ih =>
    intro s s' h
    unfold addAllInner at h
    cases ha : addInner lut m cls s c with
    | none => rw [ha] at h; cases h
    | some s1 =>
      rw [ha] at h
      have h := ih s1 s' h
      unfold addInner at ha
      cases hg : lut.get (c.1 - m.1) (c.2 - m.2) with
      | none => rw [hg] at ha; cases ha
      | some e =>
        rw [hg] at ha
        dsimp only at ha
        unfold Stat.add at ha
        by_cases hk : cls c < 255
        · rw [if_pos hk, Option.some.injEq] at ha
          subst ha
          rw [List.map_cons]
          unfold Trav.Stat.addAll Trav.Stat.add
          rw [if_pos hk]
          exact h
        · rw [if_neg hk] at ha; cases ha

/-- C99. Full claim: for every rectangle inside of the grid getWorstTraversabilityClassInRectangle returns the least drivable class that occurs in a cell of the rectangle, and
getWorstProbabilityInRectangle the least probability of these cells. For a rectangle that is not inside of the grid there is no result, but an exception.
Proved: the class, for rectangles whose longer side is at least 8 cells long and classes below 255; the probability for rectangles inside of the grid.
Missing: short rectangles (`C99_small`), class 255 (`Trav.C41_class_255`), the exception for the probability (`C99_outside`). -/
theorem C99_worst_partial (hist : List (ℝ × ℝ)) (g : Geo) (t : Trav.Table) (cls prob : Int × Int → Nat) (p : Pose2) (sizeX sizeY : ℝ) (hsx : 0 < g.sx) (hsy : g.sx ≤ g.sy)
    (hx : 0 ≤ sizeX) (hy : 0 ≤ sizeY) (hw : g.w * 10 ≤ 2 ^ 28) (hh : g.h * 10 ≤ 2 ^ 28) :
    (8 * g.sy ≤ max sizeX sizeY → max sizeX sizeY / g.sx * 2 ≤ 46340 → (∀ c : Int × Int, 0 ≤ c.1 → c.1 < g.w → 0 ≤ c.2 → c.2 < g.h → cls c < 255) →
      (¬ Inside g p sizeX sizeY → worstClass hist g t cls p sizeX sizeY = .throws) ∧
      (Inside g p sizeX sizeY → ∃ cells, CellsOf g p sizeX sizeY cells ∧ worstClass hist g t cls p sizeX sizeY ≠ .undefined ∧
        (∀ k, worstClass hist g t cls p sizeX sizeY = .ok k →
          (∃ c ∈ cells, cls c = k) ∧ ∃ d, Trav.drv t k = some d ∧ ∀ c ∈ cells, ∀ e, Trav.drv t (cls c) = some e → d ≤ e) ∧
        (cells ≠ [] → (∀ c ∈ cells, (Trav.drv t (cls c)).isSome = true) → ∃ k, worstClass hist g t cls p sizeX sizeY = .ok k))) ∧
    ((∀ c : Int × Int, 0 ≤ c.1 → c.1 < g.w → 0 ≤ c.2 → c.2 < g.h → prob c < 256) → Inside g p sizeX sizeY →
      ∃ cells w, CellsOf g p sizeX sizeY cells ∧ worstProbability g prob p sizeX sizeY = .ok w ∧ (∀ c ∈ cells, w ≤ (prob c : ℚ) / 255) ∧
        (cells ≠ [] → ∃ c ∈ cells, w = (prob c : ℚ) / 255)) := by
  have hsy' := hsx.trans_le hsy
  constructor
  · intro hM hM' hc
    constructor
    · intro h
      simp only [Inside, not_forall] at h
      obtain ⟨q, hq, hn⟩ := h
      simp only [worstClass, computeStatistic, (C96_rectangle g p sizeX sizeY hsx hsy' hx hy hw hh).1 ⟨q, hq, hn⟩]
      rfl
    · intro hin
      obtain ⟨cells, s', e, h1, h2, h3⟩ := statistic_spec hist {} hsx hsy hx hy hw hh hM hM' hc hin
      have hcl : ∀ k ∈ cells.map cls, k < 255 := by
        intro k hk
        obtain ⟨c, hcc, rfl⟩ := List.mem_map.1 hk
        have := (h1.2.1 c hcc).1
        exact hc c this.1 this.2.1 this.2.2.1 this.2.2.2
      have hworst : worstClass hist g t cls p sizeX sizeY = Trav.worst t (cells.map cls) := by
        have := addAll_of_inner _ _ _ ((computeStatistic_eq hist e).symm.trans h2)
        unfold worstClass Trav.worst
        rw [h2]
        change _ = match Trav.Stat.addAll ⟨fun _ => 0, 0⟩ (cells.map cls) with | .ok s => _ | .throws => _ | .undefined => _
        rw [this]
      obtain ⟨w1, w2, _, _, w5⟩ := Trav.C41_worst_partial t (cells.map cls) hcl
      rw [hworst]
      refine ⟨cells, h1, w1, ?_, ?_⟩
      · intro k hk
        obtain ⟨a1, d, a2, a3⟩ := w2 k hk
        obtain ⟨c, hcc, hck⟩ := List.mem_map.1 a1
        exact ⟨⟨c, hcc, hck⟩, d, a2, fun c hcc e he => a3 _ (List.mem_map_of_mem hcc) e he⟩
      · intro hne hall
        refine w5 (by simpa using hne) ?_
        intro j hj
        obtain ⟨c, hcc, rfl⟩ := List.mem_map.1 hj
        exact hall c hcc
  · intro hp hin
    obtain ⟨cells, e, n, h1, h2⟩ := (C96_rectangle g p sizeX sizeY hsx hsy' hx hy hw hh).2 hin
    have hb : ∀ v ∈ cells.map prob, v < 256 := by
      intro k hk
      obtain ⟨c, hcc, rfl⟩ := List.mem_map.1 hk
      have := (h1 c hcc).1
      exact hp c this.1 this.2.1 this.2.2.1 this.2.2.2
    obtain ⟨p1, _, p3⟩ := Trav.C63_worst_probability (cells.map prob) hb
    refine ⟨cells, Trav.worstProb (cells.map prob), ⟨n, h1, h2⟩, ?_, ?_, ?_⟩
    · simp only [worstProbability, e]
    · exact fun c hcc => p1 _ (List.mem_map_of_mem hcc)
    · intro hne
      obtain ⟨v, hv, e⟩ := p3 (by simpa using hne)
      obtain ⟨c, hcc, rfl⟩ := List.mem_map.1 hv
      exact ⟨c, hcc, e⟩

/-- C99 is violated: for a rectangle that is not inside of the grid the worst probability is the best one -/
theorem C99_outside (g : Geo) (prob : Int × Int → Nat) (p : Pose2) (sizeX sizeY : ℝ) (hsx : 0 < g.sx) (hsy : 0 < g.sy)
    (hx : 0 ≤ sizeX) (hy : 0 ≤ sizeY) (hw : g.w * 10 ≤ 2 ^ 28) (hh : g.h * 10 ≤ 2 ^ 28) (h : ¬ Inside g p sizeX sizeY) :
    worstProbability g prob p sizeX sizeY = .ok 1 := by
  simp only [Inside, not_forall] at h
  obtain ⟨q, hq, hn⟩ := h
  simp only [worstProbability, (C96_rectangle g p sizeX sizeY hsx hsy hx hy hw hh).1 ⟨q, hq, hn⟩]

/-- a rectangle that is half outside; the cells in the grid have probability 0 -/
example : ¬ Inside gridE ⟨0, 2, 0⟩ 1 1 ∧ worstProbability gridE (fun _ => 0) ⟨0, 2, 0⟩ 1 1 = .ok 1 := by
  have h : ¬ Inside gridE ⟨0, 2, 0⟩ 1 1 := by
    intro h
    have := h (-(1 / 2), 3 / 2) ⟨by simp [along], by simp only [across, Real.cos_zero, Real.sin_zero]; norm_num⟩
    have := this.1.1
    norm_num [gridE] at this
  exact ⟨h, C99_outside _ _ _ _ _ (by norm_num [gridE]) (by norm_num [gridE]) (by norm_num) (by norm_num) (by norm_num [gridE]) (by norm_num [gridE]) h⟩

/-- C99 is violated: the worst class of a rectangle of the size of a cell is undefined behaviour -/
theorem C99_small (hist : List (ℝ × ℝ)) (t : Trav.Table) (cls : Int × Int → Nat) :
    Inside gridS poseS 1 1 ∧ worstClass hist gridS t cls poseS 1 1 = .undefined := by
  refine ⟨(C98_small hist cls {}).1, ?_⟩
  unfold worstClass
  rw [(C98_small hist cls {}).2]

#print axioms C98_statistic_partial
#print axioms C98_scale
#print axioms C98_small
#print axioms C99_worst_partial
#print axioms C99_outside
#print axioms C99_small

end Envire.TravRect
