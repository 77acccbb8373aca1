import Verif.Grid.RectGeom

/-!
The rows found by the loop for the corners of a rectangle.
-/

namespace Envire.Rect

open Envire.Bresenham (IsLine Fits)

def Good (c : Pt) : Prop := 0 ≤ c.1 ∧ c.1 ≤ 2 ^ 28 ∧ 0 ≤ c.2 ∧ c.2 ≤ 2 ^ 28

/-- a list of points, each of them near to a point of the set -/
structure Side (ch : ℝ × ℝ → Prop) (l : List Pt) : Prop where
  good : ∀ c ∈ l, Good c
  near : ∀ c ∈ l, ∃ e, ch e ∧ Near c e

theorem Side.append {ch : ℝ × ℝ → Prop} {l r : List Pt} (hl : Side ch l) (hr : Side ch r) : Side ch (l ++ r) := by
  refine ⟨?_, ?_⟩
  · intro c hc
    rcases List.mem_append.1 hc with h | h
    · exact hl.good c h
    · exact hr.good c h
  · intro c hc
    rcases List.mem_append.1 hc with h | h
    · exact hl.near c h
    · exact hr.near c h

theorem Side.mono {ch ch' : ℝ × ℝ → Prop} {l : List Pt} (hl : Side ch l) (h : ∀ e, ch e → ch' e) : Side ch' l :=
  ⟨hl.good, fun c hc => (hl.near c hc).imp fun e he => ⟨h e he.1, he.2⟩⟩

theorem Side.xfits {ch : ℝ × ℝ → Prop} {l : List Pt} (hl : Side ch l) : XFits l := by
  intro c hc
  have := hl.good c hc
  unfold Good at this
  omega

theorem fits_of_good {c : Pt} (h : Good c) : Fits c := by
  unfold Good at h
  refine ⟨?_, ?_⟩
  · rw [abs_of_nonneg h.1]; exact h.2.1
  · rw [abs_of_nonneg h.2.2.1]; exact h.2.2.2

theorem edge {P Q : Pt} (hP : Good P) (hQ : Good Q) {P' Q' : ℝ × ℝ} (bP : Below P P') (bQ : Below Q Q') :
    ∃ l, line P Q = some l ∧ l.head? = some P ∧ l.getLast? = some Q ∧ (Q.2 ≤ P.2 → Desc l) ∧
      Side (fun e => ∃ t, 0 ≤ t ∧ t ≤ 1 ∧ e = seg P' Q' t) l := by
  obtain ⟨l, h1, h2⟩ := line_spec P Q (fits_of_good hP) (fits_of_good hQ)
  refine ⟨l, h1, h2.first, h2.last, isLine_desc h2, ?_, ?_⟩
  · intro c hc
    have := h2.box c hc
    unfold Good at hP hQ ⊢
    omega
  · intro c hc
    obtain ⟨t, t0, t1, h⟩ := line_near h2 bP bQ c hc
    exact ⟨_, ⟨t, t0, t1, rfl⟩, h⟩

theorem seg_pt (p a b : ℝ × ℝ) (s t s' t' τ : ℝ) : seg (pt p a b s t) (pt p a b s' t') τ = pt p a b (s + τ * (s' - s)) (t + τ * (t' - t)) := by
  simp only [seg, pt, Prod.mk.injEq]
  constructor <;> ring

/-- the rows found by the loop: descending, each of them between points near to the rectangle, and covering what is deep inside of the rectangle -/
structure Rows (p a b : ℝ × ℝ) (rows : List (Int × Int × Int)) : Prop where
  desc : rows.Pairwise fun e f => f.1 < e.1
  near : ∀ e ∈ rows, ∃ c d : Pt, Good c ∧ Good d ∧ c.2 / 10 = e.1 ∧ d.2 / 10 = e.1 ∧ e.2.1 = c.1 / 10 ∧ e.2.2 = d.1 / 10 ∧
    (∃ q, InPar p a b q ∧ Near c q) ∧ ∃ q, InPar p a b q ∧ Near d q
  range : ∀ e ∈ rows, e.2.1 ≤ e.2.2
  deep : ∀ r, Deep p a b r → ∃ e ∈ rows, e.1 = ⌊r.2⌋ / 10 ∧ e.2.1 ≤ ⌊r.1⌋ / 10 ∧ ⌊r.1⌋ / 10 ≤ e.2.2

theorem rows_of {p a b : ℝ × ℝ} {l r s : List Pt} {P P' Q Q' : Pt} (dl : Desc l) (dr : Desc r) (hl : l.head? = some P) (hr : r.head? = some P') (hP : P.2 = P'.2)
    (ll : l.getLast? = some Q) (lr : r.getLast? = some Q') (hQ : Q'.2 ≤ Q.2) (nl : Side (InPar p a b) l) (nr : Side (InPar p a b) (r ++ s))
    (hd : ∀ ρ, Deep p a b ρ → ∃ A ∈ l, ∃ B ∈ r, A.2 = ⌊ρ.2⌋ ∧ B.2 = ⌊ρ.2⌋ ∧
      ((A.1 / 10 ≤ ⌊ρ.1⌋ / 10 ∧ ⌊ρ.1⌋ / 10 ≤ B.1 / 10) ∨ (B.1 / 10 ≤ ⌊ρ.1⌋ / 10 ∧ ⌊ρ.1⌋ / 10 ≤ A.1 / 10))) :
    ∃ rows, Run l (r ++ s) rows ∧ Rows p a b rows := by
  obtain ⟨rows, h1, _, h2, h3, h4⟩ := sweep_spec l.length l r s P P' Q Q' le_rfl dl dr hl hr hP ll lr hQ nl.xfits nr.xfits
  refine ⟨rows, h1, h2, ?_, run_range h1 (nl.append nr).xfits, ?_⟩
  · intro e he
    obtain ⟨c, hc, d, hd, e1, e2, e3, e4⟩ := h3 e he
    have n := nl.append nr
    exact ⟨c, d, n.good c hc, n.good d hd, e1, e2, e3, e4, n.near c hc, n.near d hd⟩
  · intro ρ hρ
    obtain ⟨A, hA, B, hB, a1, b1, hAB⟩ := hd ρ hρ
    obtain ⟨e, he, e1, e2, e3, e4, e5⟩ := h4 A hA B hB (by rw [a1, b1])
    refine ⟨e, he, by rw [e1, a1], ?_⟩
    rcases hAB with h | h
    · exact ⟨by omega, by omega⟩
    · exact ⟨by omega, by omega⟩

theorem chain1_inPar {p a b e : ℝ × ℝ} (h : Chain1 p a b e) : InPar p a b e := by
  rcases h with ⟨t, ht, rfl⟩ | ⟨s, hs, rfl⟩
  · exact ⟨1, t, by norm_num, ht, rfl⟩
  · exact ⟨s, -1, hs, by norm_num, rfl⟩

theorem chain2_inPar {p a b e : ℝ × ℝ} (h : Chain2 p a b e) : InPar p a b e := by
  rcases h with ⟨t, ht, rfl⟩ | ⟨s, hs, rfl⟩
  · exact ⟨-1, t, by norm_num, ht, rfl⟩
  · exact ⟨s, 1, hs, by norm_num, rfl⟩

theorem below_mono {c d : Pt} {P Q : ℝ × ℝ} (hc : Below c P) (hd : Below d Q) (h : P.2 ≤ Q.2) : c.2 ≤ d.2 := by
  have h1 := hc.2.2.1
  have h2 := hd.2.2.2
  have : (c.2 : ℝ) < d.2 + 1 := by linarith
  have : c.2 < d.2 + 1 := by exact_mod_cast this
  omega

theorem below_floor {c : Pt} {P : ℝ × ℝ} (hc : Below c P) : c.2 = ⌊P.2⌋ := by
  symm
  rw [Int.floor_eq_iff]
  exact ⟨hc.2.2.1, hc.2.2.2⟩

section

variable {p a b : ℝ × ℝ} {T U V W : Pt} (ha : 0 ≤ a.2) (hb : 0 ≤ b.2)
  (gT : Good T) (gU : Good U) (gV : Good V) (gW : Good W)
  (bT : Below T (pt p a b 1 1)) (bU : Below U (pt p a b 1 (-1))) (bV : Below V (pt p a b (-1) 1)) (bW : Below W (pt p a b (-1) (-1)))

include gT gU bT bU in
theorem edgeTU : ∃ l, line T U = some l ∧ l.head? = some T ∧ l.getLast? = some U ∧ (U.2 ≤ T.2 → Desc l) ∧ Side (Chain1 p a b) l := by
  obtain ⟨l, h1, h2, h3, h4, h5⟩ := edge gT gU bT bU
  refine ⟨l, h1, h2, h3, h4, h5.mono ?_⟩
  rintro e ⟨τ, t0, t1, rfl⟩
  rw [seg_pt]
  exact .inl ⟨1 + τ * (-1 - 1), by rw [abs_le]; constructor <;> linarith, by congr 1; ring⟩

include gU gW bU bW in
theorem edgeUW : ∃ l, line U W = some l ∧ l.head? = some U ∧ l.getLast? = some W ∧ (W.2 ≤ U.2 → Desc l) ∧ Side (Chain1 p a b) l := by
  obtain ⟨l, h1, h2, h3, h4, h5⟩ := edge gU gW bU bW
  refine ⟨l, h1, h2, h3, h4, h5.mono ?_⟩
  rintro e ⟨τ, t0, t1, rfl⟩
  rw [seg_pt]
  exact .inr ⟨1 + τ * (-1 - 1), by rw [abs_le]; constructor <;> linarith, by congr 1; ring⟩

include gT gV bT bV in
theorem edgeTV : ∃ l, line T V = some l ∧ l.head? = some T ∧ l.getLast? = some V ∧ (V.2 ≤ T.2 → Desc l) ∧ Side (Chain2 p a b) l := by
  obtain ⟨l, h1, h2, h3, h4, h5⟩ := edge gT gV bT bV
  refine ⟨l, h1, h2, h3, h4, h5.mono ?_⟩
  rintro e ⟨τ, t0, t1, rfl⟩
  rw [seg_pt]
  exact .inr ⟨1 + τ * (-1 - 1), by rw [abs_le]; constructor <;> linarith, by congr 1; ring⟩

include gV gW bV bW in
theorem edgeVW : ∃ l, line V W = some l ∧ l.head? = some V ∧ l.getLast? = some W ∧ (W.2 ≤ V.2 → Desc l) ∧ Side (Chain2 p a b) l := by
  obtain ⟨l, h1, h2, h3, h4, h5⟩ := edge gV gW bV bW
  refine ⟨l, h1, h2, h3, h4, h5.mono ?_⟩
  rintro e ⟨τ, t0, t1, rfl⟩
  rw [seg_pt]
  exact .inl ⟨1 + τ * (-1 - 1), by rw [abs_le]; constructor <;> linarith, by congr 1; ring⟩

include ha hb gT gU gW bT bU bW in
theorem chainList1 : ∃ l, path T U W = some l ∧ l.head? = some T ∧ l.getLast? = some W ∧ Desc l ∧ Side (Chain1 p a b) l := by
  obtain ⟨l, h1, h2, h3, h4, h5⟩ := edgeTU gT gU bT bU
  obtain ⟨m, k1, k2, k3, k4, k5⟩ := edgeUW gU gW bU bW
  refine ⟨l ++ m, ?_, ?_, ?_, ?_, h5.append k5⟩
  · simp only [path, h1, k1]
  · simp only [List.head?_append, h2, Option.some_or]
  · simp only [List.getLast?_append, k3, Option.some_or]
  · refine desc_append (h4 ?_) (k4 ?_) h3 k2
    · refine below_mono bU bT ?_
      dsimp only [pt]; linarith
    · refine below_mono bW bU ?_
      dsimp only [pt]; linarith

include ha hb gT gV gW bT bV bW in
theorem chainList2 : ∃ l, path T V W = some l ∧ l.head? = some T ∧ l.getLast? = some W ∧ Desc l ∧ Side (Chain2 p a b) l := by
  obtain ⟨l, h1, h2, h3, h4, h5⟩ := edgeTV gT gV bT bV
  obtain ⟨m, k1, k2, k3, k4, k5⟩ := edgeVW gV gW bV bW
  refine ⟨l ++ m, ?_, ?_, ?_, ?_, h5.append k5⟩
  · simp only [path, h1, k1]
  · simp only [List.head?_append, h2, Option.some_or]
  · simp only [List.getLast?_append, k3, Option.some_or]
  · refine desc_append (h4 ?_) (k4 ?_) h3 k2
    · refine below_mono bV bT ?_
      dsimp only [pt]; linarith
    · refine below_mono bW bV ?_
      dsimp only [pt]; linarith

include ha hb bT bW in
theorem row_between {ρ : ℝ × ℝ} (hρ : Deep p a b ρ) : W.2 ≤ ⌊ρ.2⌋ ∧ ⌊ρ.2⌋ ≤ T.2 := by
  have h1 := height_le (hρ 0 0 (by norm_num) (by norm_num)) ha hb
  dsimp only at h1
  rw [below_floor bT, below_floor bW]
  dsimp only [pt]
  constructor
  · refine Int.floor_le_floor ?_
    linarith
  · refine Int.floor_le_floor ?_
    linarith

/-- the two sides as chains, in either order -/
theorem rows_chains (ha : 0 ≤ a.2) (hb : 0 ≤ b.2) (gT : Good T) (gU : Good U) (gV : Good V) (gW : Good W)
    (bT : Below T (pt p a b 1 1)) (bU : Below U (pt p a b 1 (-1))) (bV : Below V (pt p a b (-1) 1)) (bW : Below W (pt p a b (-1) (-1))) :
    ∃ l r, path T U W = some l ∧ path T V W = some r ∧ (Desc l ∧ l.head? = some T) ∧ (Desc r ∧ r.head? = some T) ∧
      (∃ rows, Run l r rows ∧ Rows p a b rows) ∧ ∃ rows, Run r l rows ∧ Rows p a b rows := by
  obtain ⟨l, h1, h2, h3, h4, h5⟩ := chainList1 ha hb gT gU gW bT bU bW
  obtain ⟨r, k1, k2, k3, k4, k5⟩ := chainList2 ha hb gT gV gW bT bV bW
  have hd : ∀ ρ, Deep p a b ρ → ∃ A ∈ l, ∃ B ∈ r, A.2 = ⌊ρ.2⌋ ∧ B.2 = ⌊ρ.2⌋ ∧
      ((A.1 / 10 ≤ ⌊ρ.1⌋ / 10 ∧ ⌊ρ.1⌋ / 10 ≤ B.1 / 10) ∨ (B.1 / 10 ≤ ⌊ρ.1⌋ / 10 ∧ ⌊ρ.1⌋ / 10 ≤ A.1 / 10)) := by
    intro ρ hρ
    have hy := row_between ha hb bT bW hρ
    obtain ⟨A, hA, a1⟩ := desc_ivt l h4 T W h2 h3 _ hy
    obtain ⟨B, hB, b1⟩ := desc_ivt r k4 T W k2 k3 _ hy
    obtain ⟨eA, cA, nA⟩ := h5.near A hA
    obtain ⟨eB, cB, nB⟩ := k5.near B hB
    exact ⟨A, hA, B, hB, a1, b1, column_between hρ ha hb a1 b1 nA nB cA cB⟩
  have nl := h5.mono fun e => chain1_inPar
  have nr := k5.mono fun e => chain2_inPar
  refine ⟨l, r, h1, k1, ⟨h4, h2⟩, ⟨k4, k2⟩, ?_, ?_⟩
  · have := rows_of (s := []) h4 k4 h2 k2 rfl h3 k3 le_rfl nl (by rwa [List.append_nil]) hd
    rwa [List.append_nil] at this
  · have := rows_of (s := []) k4 h4 k2 h2 rfl k3 h3 le_rfl nr (by rwa [List.append_nil]) (by
      intro ρ hρ
      obtain ⟨A, hA, B, hB, a1, b1, h⟩ := hd ρ hρ
      exact ⟨B, hB, A, hA, b1, a1, h.symm⟩)
    rwa [List.append_nil] at this

/-- the sides when the upper two corners are in the same row of the fine grid -/
theorem rows_tie (ha : 0 ≤ a.2) (hb : 0 ≤ b.2) (gT : Good T) (gU : Good U) (gV : Good V) (gW : Good W)
    (bT : Below T (pt p a b 1 1)) (bU : Below U (pt p a b 1 (-1))) (bV : Below V (pt p a b (-1) 1)) (bW : Below W (pt p a b (-1) (-1))) (tie : T.2 = V.2) :
    ∃ l r, path V T U = some l ∧ path V W U = some r ∧ (Desc l ∧ l.head? = some V) ∧ ∃ rows, Run l r rows ∧ Rows p a b rows := by
  obtain ⟨l1, h1, h2, h3, h4, h5⟩ := edgeTU gT gU bT bU
  obtain ⟨r1, k1, k2, k3, k4, k5⟩ := edgeVW gV gW bV bW
  obtain ⟨l0, i1, i2, i3, i4, i5⟩ := edge gV gT bV bT
  obtain ⟨s, j1, j2, j3, j4, j5⟩ := edge gW gU bW bU
  have TU : U.2 ≤ T.2 := by
    refine below_mono bU bT ?_
    dsimp only [pt]; linarith
  have VW : W.2 ≤ V.2 := by
    refine below_mono bW bV ?_
    dsimp only [pt]; linarith
  have UW : W.2 ≤ U.2 := by
    refine below_mono bW bU ?_
    dsimp only [pt]; linarith
  have nl0 : Side (InPar p a b) l0 := i5.mono (by
    rintro e ⟨τ, t0, t1, rfl⟩
    rw [seg_pt]
    exact ⟨_, _, by rw [abs_le]; constructor <;> linarith, by rw [abs_le]; constructor <;> linarith, rfl⟩)
  have ns : Side (InPar p a b) s := j5.mono (by
    rintro e ⟨τ, t0, t1, rfl⟩
    rw [seg_pt]
    exact ⟨_, _, by rw [abs_le]; constructor <;> linarith, by rw [abs_le]; constructor <;> linarith, rfl⟩)
  have nl1 := h5.mono fun e => chain1_inPar
  have nr1 := k5.mono fun e => chain2_inPar
  have hhead : (l0 ++ l1).head? = some V := by simp only [List.head?_append, i2, Option.some_or]
  have hdesc := desc_append (i4 tie.le) (h4 TU) i3 h2
  refine ⟨l0 ++ l1, r1 ++ s, by simp only [path, i1, h1], by simp only [path, k1, j1], ⟨hdesc, hhead⟩, ?_⟩
  refine rows_of (P := V) (P' := V) (Q := U) (Q' := W) hdesc (k4 VW) hhead k2 rfl ?_ k3 UW (nl0.append nl1) (nr1.append ns) ?_
  · simp only [List.getLast?_append, h3, Option.some_or]
  · intro ρ hρ
    have hy := row_between ha hb bT bW hρ
    -- the row is above the corner U: the rectangle is lower than one fine cell below of U
    have hyU : U.2 ≤ ⌊ρ.2⌋ := by
      have h1 := height_le (hρ 0 (-(3 / 2)) (by norm_num) (by norm_num)) ha hb
      dsimp only at h1
      rw [below_floor bU]
      refine Int.floor_le_floor ?_
      have t1 := bT.2.2.2
      have t2 := bV.2.2.1
      rw [tie] at t1
      dsimp only [pt] at t1 t2 ⊢
      linarith
    obtain ⟨A, hA, a1⟩ := desc_ivt l1 (h4 TU) T U h2 h3 _ ⟨hyU, hy.2⟩
    obtain ⟨B, hB, b1⟩ := desc_ivt r1 (k4 VW) V W k2 k3 _ ⟨hy.1, tie ▸ hy.2⟩
    obtain ⟨eA, cA, nA⟩ := h5.near A hA
    obtain ⟨eB, cB, nB⟩ := k5.near B hB
    exact ⟨A, List.mem_append_right _ hA, B, hB, a1, b1, column_between hρ ha hb a1 b1 nA nB cA cB⟩

end

theorem pt_neg (p a b : ℝ × ℝ) (s t : ℝ) : pt p (-a) b s t = pt p a b (-s) t := by simp [pt]

theorem rows_neg {p a b : ℝ × ℝ} {rows : List (Int × Int × Int)} (h : Rows p (-a) b rows) : Rows p a b rows := by
  refine ⟨h.desc, ?_, h.range, fun r hr => h.deep r (deep_neg hr)⟩
  intro e he
  obtain ⟨c, d, h1, h2, h3, h4, h5, h6, ⟨q, q1, q2⟩, q', q3, q4⟩ := h.near e he
  exact ⟨c, d, h1, h2, h3, h4, h5, h6, ⟨q, inPar_neg.1 q1, q2⟩, q', inPar_neg.1 q3, q4⟩

/-- the loop for the four corners of the fine grid -/
theorem rows_spec {p a b : ℝ × ℝ} {c : Corners Pt} (hb : 0 ≤ b.2) (gur : Good c.ur) (gul : Good c.ul) (gdr : Good c.dr) (gdl : Good c.dl)
    (bur : Below c.ur (pt p a b 1 1)) (bul : Below c.ul (pt p a b 1 (-1))) (bdr : Below c.dr (pt p a b (-1) 1)) (bdl : Below c.dl (pt p a b (-1) (-1))) :
    ∃ l r rows, sides (c.ur.2 > c.dr.2) c = some (l, r) ∧ Run l r rows ∧ Desc l ∧ (∃ T ∈ l.head?, T.2 = max c.ur.2 c.dr.2) ∧ Rows p a b rows := by
  by_cases hup : c.ur.2 > c.dr.2
  · have ha : 0 ≤ a.2 := by
      by_contra hn
      have := below_mono bur bdr (by dsimp only [pt]; linarith)
      omega
    obtain ⟨l, r, h1, h2, ⟨d1, d2⟩, _, ⟨rows, h3, h4⟩, _⟩ := rows_chains ha hb gur gul gdr gdl bur bul bdr bdl
    exact ⟨l, r, rows, by simp only [sides, hup, decide_true, if_true, h1, h2], h3, d1, ⟨_, d2, by omega⟩, h4⟩
  · rcases le_total 0 a.2 with ha | ha
    · have tie : c.ur.2 = c.dr.2 := by
        have := below_mono bdr bur (by dsimp only [pt]; linarith)
        omega
      obtain ⟨l, r, h1, h2, ⟨d1, d2⟩, rows, h3, h4⟩ := rows_tie ha hb gur gul gdr gdl bur bul bdr bdl tie
      exact ⟨l, r, rows, by simp only [sides, hup, decide_false, Bool.false_eq_true, if_false, h1, h2], h3, d1, ⟨_, d2, by omega⟩, h4⟩
    · obtain ⟨r, l, h1, h2, _, ⟨d1, d2⟩, _, rows, h3, h4⟩ := rows_chains (p := p) (a := -a) (b := b) (T := c.dr) (U := c.dl) (V := c.ur) (W := c.ul) (by simpa using ha) hb
        gdr gdl gur gul (by rw [pt_neg]; exact bdr) (by rw [pt_neg]; exact bdl) (by rw [pt_neg, neg_neg]; exact bur) (by rw [pt_neg, neg_neg]; exact bul)
      exact ⟨l, r, rows, by simp only [sides, hup, decide_false, Bool.false_eq_true, if_false, h1, h2], h3, d1, ⟨_, d2, by omega⟩, rows_neg h4⟩

end Envire.Rect
