import Verif.Grid.RectsModel
import Verif.Grid.RectProps
import Mathlib.Analysis.SpecialFunctions.Trigonometric.Inverse

/-!
C97: forEachInRectangles calls one callback for the cells of the inner rectangle, and the other one for the remaining cells of the outer rectangle.
-/

namespace Envire.Rect

/-! ## The loop over the rows -/

theorem takeWhile_head {c : Pt} {l : List Pt} {Y : Int} (h : c.2 / 10 ≠ Y) : (c :: l).takeWhile (inRow Y) = [] ∧ (c :: l).dropWhile (inRow Y) = c :: l := by
  have : inRow Y c = false := by simpa [inRow] using h
  rw [List.takeWhile_cons_of_neg (by simp [this]), List.dropWhile_cons_of_neg (by simp [this])]
  exact ⟨rfl, rfl⟩

theorem length_drop_lt {p : Pt} {l : List Pt} : ((p :: l).dropWhile (inRow (p.2 / 10))).length ≤ l.length := by
  rw [List.dropWhile_cons_of_pos (by simp [inRow])]
  exact (List.dropWhile_suffix _).length_le

/-- the loop for both rectangles finds the rows of the outer rectangle, each with the row of the inner rectangle -/
theorem sweep2_spec {lo ro : List Pt} {Ro : List (Int × Int × Int)} (ho : Run lo ro Ro) : ∀ (n : Nat) (li ri : List Pt) (Ri : List (Int × Int × Int)) (iy : Int),
    Run li ri Ri → Ro.IsChain (fun e f => f.1 = e.1 - 1) → Ro.Pairwise (fun e f => f.1 < e.1) → Ri.Pairwise (fun e f => f.1 < e.1) → (∀ e ∈ Ri.head?, ∀ f ∈ Ro.head?, e.1 ≤ f.1) →
    (li = [] → ∀ f ∈ Ro, f.1 ≠ iy) → lo.length ≤ n →
    sweep2 n li ri lo ro iy = Ro.map fun f => { y := f.1, lo := f.2.1, hi := f.2.2, inner := (Ri.find? fun e => e.1 == f.1).map fun e => e.2 } := by
  induction ho with
  | done r =>
    intro n li ri Ri iy _ _ _ _ _ _ _
    cases n with
    | zero => rfl
    | succ n => simp only [sweep2, List.map_nil]
  | @step p q l r rest hq h ih =>
    intro n li ri Ri iy hi hchain hdesc hdi hhead hiy hn
    cases n with
    | zero => simp at hn
    | succ n =>
    have hlen : ((p :: l).dropWhile (inRow (p.2 / 10))).length ≤ n := by
      have := length_drop_lt (p := p) (l := l)
      simp only [List.length_cons] at hn
      omega
    rw [List.isChain_cons] at hchain
    rw [List.pairwise_cons] at hdesc
    rw [List.map_cons]
    cases hi with
    | done ri =>
      have hne : ¬ iy = p.2 / 10 := fun h => hiy rfl _ List.mem_cons_self h.symm
      simp only [sweep2, if_neg hne]
      refine congrArg₂ _ ?_ ?_
      · rfl
      · exact ih n [] (ri.dropWhile _) [] iy (.done _) hchain.2 hdesc.2 .nil (by simp) (fun _ f hf => hiy rfl f (List.mem_cons_of_mem _ hf)) hlen
    | @step p' q' l' r' rest' hq' h' =>
      rw [List.pairwise_cons] at hdi
      have hle : p'.2 / 10 ≤ p.2 / 10 := hhead _ rfl _ rfl
      by_cases heq : p'.2 / 10 = p.2 / 10
      · simp only [sweep2, heq, if_true]
        refine congrArg₂ _ ?_ ?_
        · simp
        · rw [heq] at h'
          rw [ih n _ _ rest' (p.2 / 10) h' hchain.2 hdesc.2 hdi.2 ?_ ?_ hlen]
          · refine List.map_congr_left ?_
            intro f hf
            have := hdesc.1 f hf
            dsimp only at this
            rw [List.find?_cons_of_neg]
            simp only [beq_iff_eq]
            omega
          · intro e he f hf
            have := hchain.1 f hf
            have := hdi.1 e (List.mem_of_mem_head? he)
            dsimp only at *
            omega
          · intro _ f hf
            have := hdesc.1 f hf
            dsimp only at this
            omega
      · have hq'' : q'.2 / 10 ≠ p.2 / 10 := by rw [hq']; exact heq
        simp only [sweep2, if_neg heq, (takeWhile_head heq).2, (takeWhile_head hq'').2]
        refine congrArg₂ _ ?_ ?_
        · have : ((p'.2 / 10, minX ((p' :: l').takeWhile (inRow (p'.2 / 10)) ++ (q' :: r').takeWhile (inRow (p'.2 / 10))) / 10,
              maxX ((p' :: l').takeWhile (inRow (p'.2 / 10)) ++ (q' :: r').takeWhile (inRow (p'.2 / 10))) / 10) :: rest').find? (fun e => e.1 == p.2 / 10) = none := by
            rw [List.find?_eq_none]
            intro e he
            simp only [beq_iff_eq]
            rcases List.mem_cons.1 he with rfl | he
            · exact heq
            · have := hdi.1 e he
              dsimp only at this
              omega
          rw [this]
          rfl
        · refine ih n _ _ _ _ (.step hq' h') hchain.2 hdesc.2 (List.pairwise_cons.2 hdi) ?_ ?_ hlen
          · rintro e ⟨⟩ f hf
            have := hchain.1 f hf
            dsimp only at *
            omega
          · intro h0
            cases h0

/-! ## The calls -/

/-- the cells called for a row -/
def Called (e : Row) (k : Bool) (x : Int) : Prop :=
  match e.inner with
  | none => k = false ∧ e.lo ≤ x ∧ x ≤ e.hi
  | some (a, b) => (k = true ∧ a ≤ x ∧ x ≤ b) ∨ (k = false ∧ ((e.lo ≤ x ∧ x < a) ∨ (b < x ∧ x ≤ e.hi)))

theorem mem_rowCalls2 {g : Geo} {e : Row} {k : Bool} {c : Int × Int} :
    (k, c) ∈ rowCalls2 g e ↔ c.2 = e.y ∧ c.1 < g.w ∧ c.2 < g.h ∧ Called e k c.1 := by
  unfold rowCalls2 Called
  by_cases hy : e.y ≥ (g.h : Int)
  · rw [if_pos hy]
    constructor
    · intro h; cases h
    · rintro ⟨h1, _, h2, _⟩; omega
  · rw [if_neg hy]
    cases hi : e.inner with
    | none =>
      simp only [List.mem_map, mem_rowCalls, Prod.mk.injEq]
      constructor
      · rintro ⟨c', h, rfl, rfl⟩
        exact ⟨h.1, h.2.2.2, by omega, rfl, h.2.1, h.2.2.1⟩
      · rintro ⟨h1, h2, h3, rfl, h4, h5⟩
        exact ⟨c, ⟨h1, h4, h5, h2⟩, rfl, rfl⟩
    | some ab =>
      obtain ⟨a, b⟩ := ab
      simp only [List.mem_append, List.mem_map, mem_rowCalls, Prod.mk.injEq]
      constructor
      · rintro ((⟨c', h, rfl, rfl⟩ | ⟨c', h, rfl, rfl⟩) | ⟨c', h, rfl, rfl⟩)
        · exact ⟨h.1, h.2.2.2, by omega, .inr ⟨rfl, .inl (by omega)⟩⟩
        · exact ⟨h.1, h.2.2.2, by omega, .inl ⟨rfl, h.2.1, h.2.2.1⟩⟩
        · exact ⟨h.1, h.2.2.2, by omega, .inr ⟨rfl, .inr (by omega)⟩⟩
      · rintro ⟨h1, h2, h3, ⟨rfl, h4, h5⟩ | ⟨rfl, h4 | h4⟩⟩
        · exact .inl (.inr ⟨c, ⟨h1, h4, h5, h2⟩, rfl, rfl⟩)
        · exact .inl (.inl ⟨c, ⟨h1, h4.1, by omega, h2⟩, rfl, rfl⟩)
        · exact .inr ⟨c, ⟨h1, by omega, h4.2, h2⟩, rfl, rfl⟩

theorem nodup_rowCalls2 {g : Geo} {e : Row} (hr : ∀ a b, e.inner = some (a, b) → a ≤ b) : ((rowCalls2 g e).map fun c => c.2).Nodup := by
  unfold rowCalls2
  by_cases hy : e.y ≥ (g.h : Int)
  · rw [if_pos hy]
    exact List.nodup_nil
  · rw [if_neg hy]
    cases hi : e.inner with
    | none =>
      simp only [List.map_map]
      exact (nodup_rowCalls ..).map fun _ _ h => h
    | some ab =>
      obtain ⟨a, b⟩ := ab
      have hab := hr a b hi
      simp only [List.map_append, List.map_map]
      have hid : ∀ (k : Bool) (l : List (Int × Int)), l.map ((fun c : Bool × (Int × Int) => c.2) ∘ fun c => (k, c)) = l := fun k l => List.map_id l
      rw [hid, hid, hid, List.nodup_append, List.nodup_append]
      refine ⟨⟨nodup_rowCalls .., nodup_rowCalls .., ?_⟩, nodup_rowCalls .., ?_⟩
      · rintro c hc d hd rfl
        rw [mem_rowCalls] at hc hd
        omega
      · rintro c hc d hd rfl
        rw [List.mem_append, mem_rowCalls, mem_rowCalls] at hc
        rw [mem_rowCalls] at hd
        omega

theorem nodup_calls2 {g : Geo} {rows : List Row} (hd : rows.Pairwise fun e f => f.y < e.y) (hr : ∀ e ∈ rows, ∀ a b, e.inner = some (a, b) → a ≤ b) :
    ((rows.flatMap (rowCalls2 g)).map fun c => c.2).Nodup := by
  rw [List.map_flatMap, List.nodup_flatMap]
  refine ⟨fun e he => nodup_rowCalls2 (hr e he), hd.imp ?_⟩
  intro e f hef
  change List.Disjoint _ _
  intro c h1 h2
  simp only [List.mem_map] at h1 h2
  obtain ⟨⟨k, c'⟩, h1, rfl⟩ := h1
  obtain ⟨⟨k', c''⟩, h2, h3⟩ := h2
  dsimp only at h3
  subst h3
  rw [mem_rowCalls2] at h1 h2
  omega

/-! ## Inner and outer rectangle -/

theorem inRect_mono {p : Pose2} {X Y X' Y' : ℝ} (hX : X ≤ X') (hY : Y ≤ Y') {q : ℝ × ℝ} (h : InRect p X Y q) : InRect p X' Y' q :=
  ⟨h.1.trans (by linarith), h.2.trans (by linarith)⟩

theorem end_mono {g : Geo} {p : Pose2} {X Y X' Y' : ℝ} (hX : X ≤ X') (hY : Y ≤ Y') {y x : Int} (h : End g p X Y y x) : End g p X' Y' y x := by
  obtain ⟨c, h1, h2, h3, q, h4, h5⟩ := h
  exact ⟨c, h1, h2, h3, q, inRect_mono hX hY h4, h5⟩

theorem inRect_of_corner {p : Pose2} {X Y : ℝ} {q : ℝ × ℝ} (h : IsCorner p X Y q) : InRect p X Y q := ⟨h.1.le, h.2.le⟩

/-- a rectangle whose corners are in the grid is in the grid -/
theorem inGrid_of_inRect {g : Geo} {p : Pose2} {X Y : ℝ} (hx : 0 ≤ X) (hy : 0 ≤ Y) (hin : ∀ q, IsCorner p X Y q → InGrid g q) {q : ℝ × ℝ} (h : InRect p X Y q) :
    InGrid g q := by
  rw [inRect_iff hx hy] at h
  refine inGrid_par (hin _ (isCorner_pt hx hy ?_ ?_)) (hin _ (isCorner_pt hx hy ?_ ?_)) (hin _ (isCorner_pt hx hy ?_ ?_)) (hin _ (isCorner_pt hx hy ?_ ?_)) h <;> norm_num

/-- the upper edges rise to the right: the rectangle is turned by more than 0 and at most 90 degrees, or by more than 180 and less than 270 degrees -/
def Rising (p : Pose2) : Prop := (0 < Real.sin p.θ ∧ 0 ≤ Real.cos p.θ) ∨ (Real.sin p.θ < 0 ∧ Real.cos p.θ < 0)

/-- difference of the heights of the two corners on the right hand side -/
theorem corner_heights (p : Pose2) {X Y : ℝ} (hx : 0 ≤ X) (hy : 0 ≤ Y) :
    (corners p X Y).ur.2 = p.y + (X / 2) * (if Real.cos p.θ < 0 then -Real.sin p.θ else Real.sin p.θ) + (Y / 2) * |Real.cos p.θ| ∧
    (corners p X Y).dr.2 = p.y - (X / 2) * (if Real.cos p.θ < 0 then -Real.sin p.θ else Real.sin p.θ) + (Y / 2) * |Real.cos p.θ| := by
  obtain ⟨a, b, ha, hb, hb2, hc⟩ := corners_spec p X Y
  have ha2 : a.2 = (X / 2) * (if Real.cos p.θ < 0 then -Real.sin p.θ else Real.sin p.θ) := by
    have h1 : (axisX p X).1 = Real.cos p.θ * (X / 2) := rfl
    have h2 : (axisX p X).2 = Real.sin p.θ * (X / 2) := rfl
    rw [ha]
    rcases eq_or_lt_of_le hx with rfl | hx
    · rw [if_neg (by rw [h1]; simp), h2]
      simp
    · by_cases hcos : Real.cos p.θ < 0
      · rw [if_pos hcos, if_pos (by rw [h1]; exact mul_neg_of_neg_of_pos hcos (by linarith)), Prod.snd_neg, h2]
        ring
      · rw [if_neg hcos, if_neg (by rw [h1]; exact not_lt.2 (mul_nonneg (not_lt.1 hcos) (by linarith))), h2]
        ring
  have hb2 : b.2 = (Y / 2) * |Real.cos p.θ| := by
    have : b.2 = |(axisY p Y).2| := by
      rcases hb with rfl | rfl
      · rw [abs_of_nonneg hb2]
      · rw [Prod.snd_neg] at hb2
        rw [abs_of_nonpos (by linarith), Prod.snd_neg]
    rw [this]
    simp only [axisY]
    rw [abs_mul, abs_of_nonneg (by linarith : 0 ≤ Y / 2)]
    ring
  rw [hc]
  simp only [pt, ha2, hb2]
  constructor <;> ring

/-- the height of the fine grid of the upper one of the corners -/
theorem below_iff {g : Geo} (hsy : 0 < g.sy) {c d : Pt} {q q' : ℝ × ℝ} (hc : Below c (fine g q)) (hd : Below d (fine g q')) :
    (q.2 ≤ q'.2 → c.2 ≤ d.2) ∧ (q.2 + g.sy / 10 ≤ q'.2 → c.2 < d.2) := by
  constructor
  · intro h
    refine below_mono hc hd ?_
    dsimp only [fine]
    have : (q.2 - g.oy) / g.sy ≤ (q'.2 - g.oy) / g.sy := div_le_div_of_nonneg_right (by linarith) hsy.le
    linarith
  · intro h
    rw [below_floor hc, below_floor hd]
    dsimp only [fine]
    have : (q.2 - g.oy) / g.sy * 10 + 1 ≤ (q'.2 - g.oy) / g.sy * 10 := by
      have h1 : (q.2 - g.oy) / g.sy * 10 + 1 = ((q.2 + g.sy / 10) - g.oy) / g.sy * 10 := by field_simp; ring
      rw [h1]
      have : (q.2 + g.sy / 10 - g.oy) / g.sy ≤ (q'.2 - g.oy) / g.sy := div_le_div_of_nonneg_right (by linarith) hsy.le
      linarith
    have h2 : ⌊(q.2 - g.oy) / g.sy * 10⌋ + 1 ≤ ⌊(q'.2 - g.oy) / g.sy * 10⌋ := by
      rw [← Int.floor_add_one]
      exact Int.floor_le_floor this
    omega

theorem row_unique {g : Geo} (hsy : 0 < g.sy) {q : ℝ × ℝ} {c d : Int × Int} (hc : InCell g q c) (hd : InCell g q d) : c.2 = d.2 := by
  have h1 : (c.2 : ℝ) * g.sy < (d.2 + 1) * g.sy := by linarith [hc.2.1, hd.2.2]
  have h2 : (d.2 : ℝ) * g.sy < (c.2 + 1) * g.sy := by linarith [hd.2.1, hc.2.2]
  have h1 := lt_of_mul_lt_mul_right h1 hsy.le
  have h2 := lt_of_mul_lt_mul_right h2 hsy.le
  have h1 : c.2 < d.2 + 1 := by exact_mod_cast h1
  have h2 : d.2 < c.2 + 1 := by exact_mod_cast h2
  omega

theorem find_row {rows : List (Int × Int × Int)} (hd : rows.Pairwise fun e f => f.1 < e.1) {e : Int × Int × Int} (he : e ∈ rows) :
    (rows.find? fun f => f.1 == e.1) = some e := by
  induction rows with
  | nil => cases he
  | cons a rows ih =>
    rw [List.pairwise_cons] at hd
    rcases List.mem_cons.1 he with rfl | he
    · rw [List.find?_cons_of_pos (by simp)]
    · have := hd.1 e he
      rw [List.find?_cons_of_neg (by simp only [beq_iff_eq]; omega)]
      exact ih hd.2 he

/-! ## The property -/

/-- C97: the code tests the corners of the inner rectangle only in order to find the sides of both rectangles. If the rectangle is turned such that the upper edge rises,
the part that is missing here is the case of an inner rectangle whose two upper corners are less than a tenth of a cell apart in height. -/
theorem C97_rectangles_partial (g : Geo) (p : Pose2) (innerX innerY outerX outerY : ℝ) (hsx : 0 < g.sx) (hsy : 0 < g.sy) (hx : 0 ≤ innerX) (hy : 0 ≤ innerY)
    (hX : innerX ≤ outerX) (hY : innerY ≤ outerY) (hw : g.w * 10 ≤ 2 ^ 28) (hh : g.h * 10 ≤ 2 ^ 28) :
    ((∃ q, IsCorner p outerX outerY q ∧ ¬ InGrid g q) → forEachInRectangles g p innerX innerY outerX outerY = .outside) ∧
    ((∀ q, IsCorner p outerX outerY q → InGrid g q) → (Rising p → g.sy / 10 ≤ innerX * |Real.sin p.θ|) →
      ∃ calls, forEachInRectangles g p innerX innerY outerX outerY = .done calls ∧
        -- one call per cell at most
        (calls.map fun c => c.2).Nodup ∧
        -- inner calls touch the inner rectangle, outer calls the outer rectangle
        (∀ k c, (k, c) ∈ calls → (0 ≤ c.1 ∧ c.1 < g.w ∧ 0 ≤ c.2 ∧ c.2 < g.h) ∧
          ∃ q q', InCell g q c ∧ Close g q q' ∧ InRect p (if k then innerX else outerX) (if k then innerY else outerY) q') ∧
        -- points inside of the inner rectangle get inner calls, points inside of the outer rectangle get calls
        (∀ q, (∀ q', Close g q q' → InRect p innerX innerY q') → ∃ c, (true, c) ∈ calls ∧ InCell g q c) ∧
        ∀ q, (∀ q', Close g q q' → InRect p outerX outerY q') → ∃ k c, (k, c) ∈ calls ∧ InCell g q c) := by
  have hx' := hx.trans hX
  have hy' := hy.trans hY
  constructor
  · rintro ⟨q, hq, hn⟩
    simp only [forEachInRectangles, rect_outside hsx hsy hx' hy' hq hn]
    split <;> rfl
  · intro hout hrise
    have hin : ∀ q, IsCorner p innerX innerY q → InGrid g q := fun q hq => inGrid_of_inRect hx' hy' hout (inRect_mono hX hY (inRect_of_corner hq))
    obtain ⟨ci, li, ri, Ri, i1, i2, i3, i4, i5, i6, ⟨Ti, i7, i8⟩, i9⟩ := rect_found hsx hsy hx hy hw hh hin
    obtain ⟨co, lo, ro, Ro, o1, o2, o3, o4, o5, o6, ⟨To, o7, o8⟩, o9⟩ := rect_found hsx hsy hx' hy' hw hh hout
    obtain ⟨hi1, hi2⟩ := corner_heights p hx hy
    obtain ⟨ho1, ho2⟩ := corner_heights p hx' hy'
    generalize hτ : (if Real.cos p.θ < 0 then -Real.sin p.θ else Real.sin p.θ) = τ at hi1 hi2 ho1 ho2
    have hcond : τ ≤ 0 ∨ g.sy / 10 ≤ innerX * τ := by
      by_cases hr : Rising p
      · right
        have h1 := hrise hr
        have : |Real.sin p.θ| = τ := by
          rw [← hτ]
          rcases hr with ⟨r1, r2⟩ | ⟨r1, r2⟩
          · rw [if_neg (not_lt.2 r2), abs_of_pos r1]
          · rw [if_pos r2, abs_of_neg r1]
        rwa [this] at h1
      · left
        rw [← hτ]
        by_contra hn
        apply hr
        split at hn
        · rename_i hc
          exact .inr ⟨by linarith, hc⟩
        · rename_i hc
          exact .inl ⟨by linarith, not_lt.1 hc⟩
    have hcos := abs_nonneg (Real.cos p.θ)
    have hb : innerY / 2 * |Real.cos p.θ| ≤ outerY / 2 * |Real.cos p.θ| := mul_le_mul_of_nonneg_right (by linarith) hcos
    -- the same condition for both rectangles
    have hup : (ci.ur.2 > ci.dr.2) = (co.ur.2 > co.dr.2) := by
      rcases hcond with h | h
      · have h1 := (below_iff hsy i2 i3).1 (by rw [hi1, hi2]; nlinarith)
        have h2 := (below_iff hsy o2 o3).1 (by rw [ho1, ho2]; nlinarith)
        exact propext ⟨fun h => absurd h (by omega), fun h => absurd h (by omega)⟩
      · have hτ0 : 0 ≤ τ := by
          by_contra hn
          have : innerX * τ ≤ 0 := mul_nonpos_of_nonneg_of_nonpos hx (by linarith)
          linarith
        have h1 := (below_iff hsy i3 i2).2 (by rw [hi1, hi2]; linarith)
        have h2 := (below_iff hsy o3 o2).2 (by
          rw [ho1, ho2]
          have := mul_le_mul_of_nonneg_right hX hτ0
          linarith)
        exact propext ⟨fun _ => h2, fun _ => h1⟩
    -- the inner rectangle is not higher
    have htop : Ti.2 ≤ To.2 := by
      rw [i8, o8]
      have e1 : innerX / 2 * |τ| ≤ outerX / 2 * |τ| := mul_le_mul_of_nonneg_right (by linarith) (abs_nonneg _)
      rcases le_total 0 τ with h | h
      · rw [abs_of_nonneg h] at e1
        have h1 := (below_iff hsy i2 o2).1 (by rw [hi1, ho1]; linarith)
        have h2 := (below_iff hsy i3 o2).1 (by rw [hi2, ho1]; nlinarith)
        omega
      · rw [abs_of_nonpos h] at e1
        have h1 := (below_iff hsy i2 o3).1 (by rw [hi1, ho2]; nlinarith)
        have h2 := (below_iff hsy i3 o3).1 (by rw [hi2, ho2]; nlinarith)
        omega
    obtain ⟨c1, c2⟩ := run_contig o5 o6
    obtain ⟨c3, c4⟩ := run_contig i5 i6
    have hsweep := sweep2_spec o5 lo.length li ri Ri 0 i5 c1 o9.desc i9.desc (by
      intro e he f hf
      rw [c2 f hf To o7, c4 e he Ti i7]
      omega) (by rintro rfl; cases i7) le_rfl
    generalize hrows : (Ro.map fun f => ({ y := f.1, lo := f.2.1, hi := f.2.2, inner := (Ri.find? fun e => e.1 == f.1).map fun e => e.2 } : Row)) = rows at hsweep
    have hfind : ∀ (f : Int × Int × Int) (a b : Int), ((Ri.find? fun e => e.1 == f.1).map fun e => e.2) = some (a, b) → (f.1, a, b) ∈ Ri := by
      intro f a b h
      rw [Option.map_eq_some_iff] at h
      obtain ⟨e, h1, h2⟩ := h
      have h3 := List.find?_some h1
      rw [beq_iff_eq] at h3
      have := List.mem_of_find?_eq_some h1
      rw [← h3, ← h2]
      exact this
    refine ⟨rows.flatMap (rowCalls2 g), ?_, ?_, ?_, ?_, ?_⟩
    · have o4' : sides (ci.ur.2 > ci.dr.2) co = some (lo, ro) := by
        rw [← o4]
        congr 1
        exact decide_eq_decide.2 (iff_of_eq hup)
      simp only [forEachInRectangles, i1, o1, calls2, i4, o4', hsweep]
    · refine nodup_calls2 ?_ ?_
      · rw [← hrows, List.pairwise_map]
        exact o9.desc
      · intro e he a b hab
        rw [← hrows, List.mem_map] at he
        obtain ⟨f, hf, rfl⟩ := he
        exact i9.range _ (hfind f a b hab)
    · rintro k ⟨x, y⟩ hc
      rw [List.mem_flatMap] at hc
      obtain ⟨e, he, hc⟩ := hc
      rw [mem_rowCalls2] at hc
      rw [← hrows, List.mem_map] at he
      obtain ⟨f, hf, rfl⟩ := he
      obtain ⟨h1, h2, h3, h4⟩ := hc
      dsimp only at h1 h2 h3 h4
      subst h1
      unfold Called at h4
      dsimp only at h4
      have eo := o9.ends f hf
      cases hinner : ((Ri.find? fun e => e.1 == f.1).map fun e => e.2) with
      | none =>
        rw [hinner] at h4
        dsimp only at h4
        obtain ⟨rfl, h5, h6⟩ := h4
        obtain ⟨n1, n2⟩ := near_of_ends hsx hsy hx' hy' eo.1 eo.2 h5 h6
        exact ⟨⟨n1.1, h2, n1.2, h3⟩, n2⟩
      | some ab =>
        obtain ⟨a, b⟩ := ab
        have ei := i9.ends _ (hfind f a b hinner)
        rw [hinner] at h4
        dsimp only at h4 ei
        rcases h4 with ⟨rfl, h5, h6⟩ | ⟨rfl, ⟨h5, h6⟩ | ⟨h5, h6⟩⟩
        · obtain ⟨n1, n2⟩ := near_of_ends hsx hsy hx hy ei.1 ei.2 h5 h6
          exact ⟨⟨n1.1, h2, n1.2, h3⟩, n2⟩
        · obtain ⟨n1, n2⟩ := near_of_ends hsx hsy hx' hy' eo.1 (end_mono hX hY ei.1) h5 h6.le
          exact ⟨⟨n1.1, h2, n1.2, h3⟩, n2⟩
        · obtain ⟨n1, n2⟩ := near_of_ends hsx hsy hx' hy' (end_mono hX hY ei.2) eo.2 h5.le h6
          exact ⟨⟨n1.1, h2, n1.2, h3⟩, n2⟩
    · intro q hq
      obtain ⟨e, he, x, e2, e3, e4, e5, e6⟩ := i9.deep q hq
      obtain ⟨f, hf, x', f2, f3, f4, f5, f6⟩ := o9.deep q fun q' hq' => inRect_mono hX hY (hq q' hq')
      have hey : e.1 = f.1 := row_unique hsy e6 f6
      refine ⟨(x, e.1), ?_, e6⟩
      rw [List.mem_flatMap]
      refine ⟨_, by rw [← hrows]; exact List.mem_map_of_mem hf, ?_⟩
      rw [mem_rowCalls2]
      refine ⟨hey, e4, e5, ?_⟩
      have : (Ri.find? fun e => e.1 == f.1) = some e := by
        rw [← hey]
        exact find_row i9.desc he
      simp only [Called, this, Option.map_some]
      exact .inl ⟨trivial, e2, e3⟩
    · intro q hq
      obtain ⟨f, hf, x, f2, f3, f4, f5, f6⟩ := o9.deep q hq
      have : ∃ k, Called { y := f.1, lo := f.2.1, hi := f.2.2, inner := (Ri.find? fun e => e.1 == f.1).map fun e => e.2 } k x := by
        simp only [Called]
        cases hinner : ((Ri.find? fun e => e.1 == f.1).map fun e => e.2) with
        | none => exact ⟨false, rfl, f2, f3⟩
        | some ab =>
          obtain ⟨a, b⟩ := ab
          by_cases h1 : x < a
          · exact ⟨false, .inr ⟨rfl, .inl ⟨f2, h1⟩⟩⟩
          · by_cases h2 : b < x
            · exact ⟨false, .inr ⟨rfl, .inr ⟨h2, f3⟩⟩⟩
            · exact ⟨true, .inl ⟨rfl, by omega, by omega⟩⟩
      obtain ⟨k, hk⟩ := this
      refine ⟨k, (x, f.1), ?_, f6⟩
      rw [List.mem_flatMap]
      refine ⟨_, by rw [← hrows]; exact List.mem_map_of_mem hf, ?_⟩
      rw [mem_rowCalls2]
      exact ⟨rfl, f4, f5, hk⟩

/-! ## Violation -/

theorem toGrid10_eq {g : Geo} {v : ℝ × ℝ} {c : Pt} (h1 : (c.1 : ℝ) ≤ (v.1 - g.ox) / g.sx * 10) (h2 : (v.1 - g.ox) / g.sx * 10 < c.1 + 1) (h3 : (c.2 : ℝ) ≤ (v.2 - g.oy) / g.sy * 10)
    (h4 : (v.2 - g.oy) / g.sy * 10 < c.2 + 1) (h5 : 0 ≤ c.1 ∧ c.1 < g.w * 10 ∧ 0 ≤ c.2 ∧ c.2 < g.h * 10) : toGrid10 g v = some c := by
  have e1 : ⌊(v.1 - g.ox) / g.sx * 10⌋ = c.1 := Int.floor_eq_iff.2 ⟨h1, h2⟩
  have e2 : ⌊(v.2 - g.oy) / g.sy * 10⌋ = c.2 := Int.floor_eq_iff.2 ⟨h3, h4⟩
  simp only [toGrid10, e1, e2]
  rw [if_pos h5]

/-- a grid of 20 x 20 cells of size 1 -/
def gridW : Geo := { sx := 1, sy := 1, ox := 0, oy := 0, w := 20, h := 20 }

/-- in the middle of the grid, turned by about 1.1 degrees -/
noncomputable def poseW : Pose2 := { x := 10, y := 201 / 20, θ := Real.arccos (9999 / 10001) }

theorem cosW : Real.cos poseW.θ = 9999 / 10001 := Real.cos_arccos (by norm_num) (by norm_num)

theorem sinW : Real.sin poseW.θ = 200 / 10001 := by
  have h : Real.sin poseW.θ = √(1 - (9999 / 10001) ^ 2) := Real.sin_arccos _
  rw [h, show (1 - (9999 / 10001) ^ 2 : ℝ) = (200 / 10001) ^ 2 by norm_num, Real.sqrt_sq (by norm_num)]

def innerW : Corners Pt := { ul := (120, 90), ur := (119, 110), dl := (80, 90), dr := (79, 110) }
def outerW : Corners Pt := { ul := (140, 71), ur := (139, 131), dl := (60, 69), dr := (59, 129) }

theorem innerW_eq : getRectPoints gridW poseW 4 2 = some innerW := by
  have hc : corners poseW 4 2 = ⟨place poseW 2 (-1), place poseW 2 1, place poseW (-2) (-1), place poseW (-2) 1⟩ := by
    simp only [corners, swap1, swap2, place, cosW, sinW, show poseW.x = 10 from rfl, show poseW.y = 201 / 20 from rfl]
    norm_num
  simp only [getRectPoints, hc, place, cosW, sinW]
  rw [toGrid10_eq (c := innerW.ul), toGrid10_eq (c := innerW.ur), toGrid10_eq (c := innerW.dl), toGrid10_eq (c := innerW.dr)] <;>
    first | rfl | (simp only [innerW, gridW, poseW]; norm_num)

theorem outerW_eq : getRectPoints gridW poseW 8 6 = some outerW := by
  have hc : corners poseW 8 6 = ⟨place poseW 4 (-3), place poseW 4 3, place poseW (-4) (-3), place poseW (-4) 3⟩ := by
    simp only [corners, swap1, swap2, place, cosW, sinW, show poseW.x = 10 from rfl, show poseW.y = 201 / 20 from rfl]
    norm_num
  simp only [getRectPoints, hc, place, cosW, sinW]
  rw [toGrid10_eq (c := outerW.ul), toGrid10_eq (c := outerW.ur), toGrid10_eq (c := outerW.dl), toGrid10_eq (c := outerW.dr)] <;>
    first | rfl | (simp only [outerW, gridW, poseW]; norm_num)

/-- the rows found for these corners: the first one comes twice, with a gap between -/
def rowsW : List Row :=
  [⟨12, 5, 7, none⟩, ⟨13, 8, 13, none⟩, ⟨12, 13, 13, none⟩, ⟨11, 5, 13, some (7, 11)⟩, ⟨10, 5, 14, some (7, 11)⟩, ⟨9, 5, 14, some (8, 12)⟩, ⟨8, 6, 14, none⟩, ⟨7, 6, 14, none⟩]

theorem rowsW_eq : (match sides (innerW.ur.2 > innerW.dr.2) innerW, sides (innerW.ur.2 > innerW.dr.2) outerW with
    | some (li, ri), some (lo, ro) => sweep2 lo.length li ri lo ro 0
    | _, _ => []) = rowsW := by decide +kernel

/-- there are no calls for cells inside of the outer rectangle, here for a rectangle of 4 x 2 cells with a border of 2 cells -/
theorem C97_rectangles_missed : ∃ (g : Geo) (p : Pose2) (innerX innerY outerX outerY : ℝ) (calls : List (Bool × (Int × Int))),
    0 < g.sx ∧ 0 < g.sy ∧ 0 ≤ innerX ∧ 0 ≤ innerY ∧ innerX ≤ outerX ∧ innerY ≤ outerY ∧ g.w * 10 ≤ 2 ^ 28 ∧ g.h * 10 ≤ 2 ^ 28 ∧
    (∀ q, IsCorner p outerX outerY q → InGrid g q) ∧ forEachInRectangles g p innerX innerY outerX outerY = .done calls ∧
    ∃ q, (∀ q', Close g q q' → InRect p outerX outerY q') ∧ ∀ k c, (k, c) ∈ calls → ¬ InCell g q c := by
  have hcalls : calls2 gridW innerW outerW = some (rowsW.flatMap (rowCalls2 gridW)) := by
    have h := rowsW_eq
    unfold calls2
    revert h
    cases sides (innerW.ur.2 > innerW.dr.2) innerW with
    | none => intro h; exact absurd h (by decide)
    | some a =>
      cases sides (innerW.ur.2 > innerW.dr.2) outerW with
      | none =>
        intro h
        cases a
        exact absurd h (by simp [rowsW])
      | some b =>
        intro h
        dsimp only at h ⊢
        rw [h]
  have hnot : (false, ((10, 12) : Int × Int)) ∉ rowsW.flatMap (rowCalls2 gridW) ∧ (true, ((10, 12) : Int × Int)) ∉ rowsW.flatMap (rowCalls2 gridW) := by
    have hm : ∀ k : Bool, (k, ((10, 12) : Int × Int)) ∉ rowsW.flatMap (rowCalls2 gridW) := by
      intro k h
      rw [List.mem_flatMap] at h
      obtain ⟨e, he, h⟩ := h
      rw [mem_rowCalls2] at h
      simp only [rowsW, List.mem_cons, List.not_mem_nil, or_false] at he
      rcases he with rfl | rfl | rfl | rfl | rfl | rfl | rfl | rfl <;> simp [Called] at h
    exact ⟨hm false, hm true⟩
  refine ⟨gridW, poseW, 4, 2, 8, 6, rowsW.flatMap (rowCalls2 gridW), by norm_num [gridW], by norm_num [gridW], by norm_num, by norm_num, by norm_num, by norm_num, by norm_num [gridW], by norm_num [gridW], ?_, ?_,
    (21 / 2, 25 / 2), ?_, ?_⟩
  · intro q hq
    by_contra hn
    have := rect_outside (by norm_num [gridW]) (by norm_num [gridW]) (by norm_num) (by norm_num) hq hn
    rw [outerW_eq] at this
    cases this
  · simp only [forEachInRectangles, innerW_eq, outerW_eq, hcalls]
  · rintro ⟨x, y⟩ ⟨h1, h2⟩
    have h1 := abs_le.1 h1
    have h2 := abs_le.1 h2
    simp only [gridW] at h1 h2
    refine ⟨?_, ?_⟩ <;> simp only [along, across, cosW, sinW] <;> simp only [poseW] <;> rw [abs_le] <;> constructor <;> linarith
  · rintro k ⟨x, y⟩ hc ⟨⟨h1, h2⟩, h3, h4⟩
    simp only [gridW, zero_add, mul_one] at h1 h2 h3 h4
    have hx : x = 10 := by
      have a1 : x < 11 := by exact_mod_cast (by linarith : (x : ℝ) < 11)
      have a2 : 9 < x := by exact_mod_cast (by linarith : (9 : ℝ) < x)
      omega
    have hy : y = 12 := by
      have a1 : y < 13 := by exact_mod_cast (by linarith : (y : ℝ) < 13)
      have a2 : 11 < y := by exact_mod_cast (by linarith : (11 : ℝ) < y)
      omega
    subst hx hy
    cases k
    · exact hnot.1 hc
    · exact hnot.2 hc

/-- the hypotheses of C97_rectangles_partial, for a rectangle turned by about 37 degrees -/
example : ∃ (g : Geo) (p : Pose2) (innerX innerY outerX outerY : ℝ), 0 < g.sx ∧ 0 < g.sy ∧ 0 ≤ innerX ∧ 0 ≤ innerY ∧ innerX ≤ outerX ∧ innerY ≤ outerY ∧
    g.w * 10 ≤ 2 ^ 28 ∧ g.h * 10 ≤ 2 ^ 28 ∧ (∀ q, IsCorner p outerX outerY q → InGrid g q) ∧ (Rising p → g.sy / 10 ≤ innerX * |Real.sin p.θ|) ∧ Rising p ∧
    (∃ q, ∀ q', Close g q q' → InRect p innerX innerY q') := by
  have hcos : Real.cos (Real.arccos (4 / 5)) = 4 / 5 := Real.cos_arccos (by norm_num) (by norm_num)
  have hsin : Real.sin (Real.arccos (4 / 5)) = 3 / 5 := by
    rw [Real.sin_arccos, show (1 - (4 / 5) ^ 2 : ℝ) = (3 / 5) ^ 2 by norm_num, Real.sqrt_sq (by norm_num)]
  refine ⟨⟨1, 1, 0, 0, 20, 20⟩, ⟨10, 10, Real.arccos (4 / 5)⟩, 4, 2, 8, 6, by norm_num, by norm_num, by norm_num, by norm_num, by norm_num, by norm_num, by norm_num, by norm_num, ?_, ?_, ?_,
    (10, 10), ?_⟩
  · rintro ⟨x, y⟩ ⟨h1, h2⟩
    simp only [along, across, hcos, hsin] at h1 h2
    have h1 := abs_le.1 h1.le
    have h2 := abs_le.1 h2.le
    refine ⟨⟨?_, ?_⟩, ?_, ?_⟩ <;> norm_num <;> linarith
  · intro _
    simp only [hsin]
    norm_num
  · simp only [Rising, hcos, hsin]
    norm_num
  · rintro ⟨x, y⟩ ⟨h1, h2⟩
    have h1 := abs_le.1 h1
    have h2 := abs_le.1 h2
    simp only at h1 h2
    refine ⟨?_, ?_⟩ <;> simp only [along, across, hcos, hsin] <;> rw [abs_le] <;> constructor <;> linarith

#print axioms C97_rectangles_partial
#print axioms C97_rectangles_missed

end Envire.Rect
