import Verif.Grid.RectModel
import Verif.Tools.BresenhamProps
import Mathlib.Data.List.Chain
import Mathlib.Tactic.Linarith

/-!
Lemmas on the lines and the loop over the rows of `forEachInRectangle`.
-/

namespace Envire.Rect

/-! ### lists of points whose rows go down by at most one per step -/

def Desc (l : List Pt) : Prop := l.IsChain fun c d => d.2 ≤ c.2 ∧ c.2 ≤ d.2 + 1

theorem desc_append {l r : List Pt} {q : Pt} (hl : Desc l) (hr : Desc r) (h1 : l.getLast? = some q) (h2 : r.head? = some q) : Desc (l ++ r) := by
  unfold Desc
  rw [List.isChain_append]
  refine ⟨hl, hr, ?_⟩
  intro x hx y hy
  rw [h1] at hx
  rw [h2] at hy
  cases hx
  cases hy
  omega

/-- all rows between the first and the last one occur -/
theorem desc_ivt (l : List Pt) (hl : Desc l) (a b : Pt) (h1 : l.head? = some a) (h2 : l.getLast? = some b) (y : Int) (hy : b.2 ≤ y ∧ y ≤ a.2) :
    ∃ c ∈ l, c.2 = y := by
  induction l generalizing a with
  | nil => cases h1
  | cons c l ih =>
    simp only [List.head?_cons, Option.some.injEq] at h1
    subst h1
    by_cases hc : c.2 = y
    · exact ⟨c, List.mem_cons_self, hc⟩
    · cases l with
      | nil =>
        simp only [List.getLast?_singleton, Option.some.injEq] at h2
        subst h2
        omega
      | cons d l =>
        unfold Desc at hl
        rw [List.isChain_cons_cons] at hl
        obtain ⟨e, he, hey⟩ := ih hl.2 d rfl (by rwa [List.getLast?_cons_cons] at h2) ⟨hy.1, by omega⟩
        exact ⟨e, List.mem_cons_of_mem _ he, hey⟩

/-- the part of a row, and what follows -/
theorem desc_split (l : List Pt) (hl : Desc l) (Y : Int) (h0 : ∀ c ∈ l.head?, c.2 / 10 ≤ Y) (hY : ∀ c ∈ l.head?, 10 * Y - 1 ≤ c.2) :
    (∀ c ∈ l, c.2 / 10 = Y → c ∈ l.takeWhile (inRow Y)) ∧
    (∀ c ∈ (l.dropWhile (inRow Y)).head?, c.2 = 10 * Y - 1) ∧ ∀ c ∈ l.dropWhile (inRow Y), c.2 < 10 * Y := by
  induction l with
  | nil => simp
  | cons c l ih =>
    have hc := h0 c rfl
    have hc2 := hY c rfl
    by_cases hrow : c.2 / 10 = Y
    · have hb : inRow Y c = true := by simp [inRow, hrow]
      have hl' : Desc l := List.IsChain.tail hl
      obtain ⟨i1, i2, i3⟩ := ih hl' (by
        intro d hd
        cases l with
        | nil => cases hd
        | cons e l =>
          cases hd
          unfold Desc at hl
          rw [List.isChain_cons_cons] at hl
          omega) (by
        intro d hd
        cases l with
        | nil => cases hd
        | cons e l =>
          cases hd
          unfold Desc at hl
          rw [List.isChain_cons_cons] at hl
          omega)
      rw [List.takeWhile_cons_of_pos hb, List.dropWhile_cons_of_pos hb]
      refine ⟨?_, i2, i3⟩
      intro d hd hdY
      rcases List.mem_cons.1 hd with rfl | hd
      · exact List.mem_cons_self
      · exact List.mem_cons_of_mem _ (i1 d hd hdY)
    · have hb : ¬ inRow Y c = true := by simp [inRow, hrow]
      rw [List.takeWhile_cons_of_neg hb, List.dropWhile_cons_of_neg hb]
      have hlt : c.2 < 10 * Y := by omega
      have hall : ∀ d ∈ c :: l, d.2 ≤ c.2 := by
        have : (c :: l).Pairwise fun c d => d.2 ≤ c.2 := by
          have := List.isChain_iff_pairwise (R := fun c d : Pt => d.2 ≤ c.2) (l := c :: l)
          exact this.1 (List.IsChain.imp (fun _ _ h => h.1) hl)
        intro d hd
        rcases List.mem_cons.1 hd with rfl | hd
        · exact le_refl _
        · exact (List.pairwise_cons.1 this).1 d hd
      refine ⟨?_, ?_, ?_⟩
      · intro d hd hdY
        have := hall d hd
        omega
      · intro d hd
        cases hd
        omega
      · intro d hd
        have := hall d hd
        omega

theorem desc_dropWhile {l : List Pt} (hl : Desc l) (f : Pt → Bool) : Desc (l.dropWhile f) :=
  List.IsChain.suffix hl (List.dropWhile_suffix f)

theorem getLast_dropWhile {l : List Pt} {f : Pt → Bool} {b : Pt} (h : l.getLast? = some b) (hne : l.dropWhile f ≠ []) : (l.dropWhile f).getLast? = some b := by
  obtain ⟨t, ht⟩ := List.dropWhile_suffix (l := l) f
  rw [← ht, List.getLast?_append_of_ne_nil _ hne] at h
  exact h

/-! ### least and greatest x -/

theorem foldl_min (l : List Pt) (a : Int) : (∀ p ∈ l, l.foldl (fun m p => min m p.1) a ≤ p.1) ∧ l.foldl (fun m p => min m p.1) a ≤ a ∧
    (l.foldl (fun m p => min m p.1) a = a ∨ ∃ p ∈ l, l.foldl (fun m p => min m p.1) a = p.1) := by
  induction l generalizing a with
  | nil => simp
  | cons c l ih =>
    obtain ⟨h1, h2, h3⟩ := ih (min a c.1)
    rw [List.foldl_cons]
    refine ⟨?_, by omega, ?_⟩
    · intro p hp
      rcases List.mem_cons.1 hp with rfl | hp
      · omega
      · exact h1 p hp
    · rcases h3 with h3 | ⟨p, hp, h3⟩
      · rcases min_choice a c.1 with h | h
        · exact .inl (by rw [h3, h])
        · exact .inr ⟨c, List.mem_cons_self, by rw [h3, h]⟩
      · exact .inr ⟨p, List.mem_cons_of_mem _ hp, h3⟩

theorem foldl_max (l : List Pt) (a : Int) : (∀ p ∈ l, p.1 ≤ l.foldl (fun m p => max m p.1) a) ∧ a ≤ l.foldl (fun m p => max m p.1) a ∧
    (l.foldl (fun m p => max m p.1) a = a ∨ ∃ p ∈ l, l.foldl (fun m p => max m p.1) a = p.1) := by
  induction l generalizing a with
  | nil => simp
  | cons c l ih =>
    obtain ⟨h1, h2, h3⟩ := ih (max a c.1)
    rw [List.foldl_cons]
    refine ⟨?_, by omega, ?_⟩
    · intro p hp
      rcases List.mem_cons.1 hp with rfl | hp
      · omega
      · exact h1 p hp
    · rcases h3 with h3 | ⟨p, hp, h3⟩
      · rcases max_choice a c.1 with h | h
        · exact .inl (by rw [h3, h])
        · exact .inr ⟨c, List.mem_cons_self, by rw [h3, h]⟩
      · exact .inr ⟨p, List.mem_cons_of_mem _ hp, h3⟩

/-- the x of all points are numbers that fit -/
def XFits (l : List Pt) : Prop := ∀ p ∈ l, 0 ≤ p.1 ∧ p.1 < 2 ^ 64 - 1

theorem minX_spec (l : List Pt) (hx : XFits l) (hne : l ≠ []) : (∀ p ∈ l, minX l ≤ p.1) ∧ ∃ p ∈ l, minX l = p.1 := by
  obtain ⟨h1, h2, h3⟩ := foldl_min l (2 ^ 64 - 1)
  refine ⟨h1, ?_⟩
  rcases h3 with h3 | h3
  · obtain ⟨c, hc⟩ := List.exists_mem_of_ne_nil l hne
    have := h1 c hc
    have := hx c hc
    omega
  · exact h3

theorem maxX_spec (l : List Pt) (hx : XFits l) (hne : l ≠ []) : (∀ p ∈ l, p.1 ≤ maxX l) ∧ ∃ p ∈ l, maxX l = p.1 := by
  obtain ⟨h1, h2, h3⟩ := foldl_max l 0
  refine ⟨h1, ?_⟩
  rcases h3 with h3 | h3
  · obtain ⟨c, hc⟩ := List.exists_mem_of_ne_nil l hne
    have := h1 c hc
    have := hx c hc
    exact ⟨c, hc, by unfold maxX; omega⟩
  · exact h3

/-! ### the loop over the rows -/

theorem mem_takeWhile {l : List Pt} {Y : Int} {c : Pt} (h : c ∈ l.takeWhile (inRow Y)) : c ∈ l ∧ c.2 / 10 = Y := by
  refine ⟨(List.takeWhile_prefix _).subset h, ?_⟩
  have := List.all_eq_true.1 (List.all_takeWhile (p := inRow Y) (l := l)) c h
  simpa [inRow] using this

theorem row_of_drop_nil {l : List Pt} {Y : Int} (h : l.dropWhile (inRow Y) = []) (c : Pt) (hc : c ∈ l) : c.2 / 10 = Y := by
  rw [← List.takeWhile_append_dropWhile (p := inRow Y) (l := l), h, List.append_nil] at hc
  exact (mem_takeWhile hc).2

/-- the loop over the rows ends with the left side, and the assertion holds -/
inductive Run : List Pt → List Pt → List (Int × Int × Int) → Prop
  | done (r : List Pt) : Run [] r []
  | step {p q : Pt} {l r : List Pt} {rest : List (Int × Int × Int)} : q.2 = p.2 →
      Run ((p :: l).dropWhile (inRow (p.2 / 10))) ((q :: r).dropWhile (inRow (p.2 / 10))) rest →
      Run (p :: l) (q :: r)
        ((p.2 / 10, minX ((p :: l).takeWhile (inRow (p.2 / 10)) ++ (q :: r).takeWhile (inRow (p.2 / 10))) / 10,
          maxX ((p :: l).takeWhile (inRow (p.2 / 10)) ++ (q :: r).takeWhile (inRow (p.2 / 10))) / 10) :: rest)

theorem sweep_of_run {l r : List Pt} {rows : List (Int × Int × Int)} (h : Run l r rows) : sweep l r = some rows := by
  induction h with
  | done r => rw [sweep]
  | step hq _ ih => rw [sweep, if_neg (not_not.2 hq)]; dsimp only; rw [ih]

/-- the range of a row is not empty -/
theorem run_range {l r : List Pt} {rows : List (Int × Int × Int)} (h : Run l r rows) (hx : XFits (l ++ r)) : ∀ e ∈ rows, e.2.1 ≤ e.2.2 := by
  induction h with
  | done r => intro e he; cases he
  | @step p q l r rest hq h ih =>
    intro e he
    rcases List.mem_cons.1 he with rfl | he
    · generalize hpts : (p :: l).takeWhile (inRow (p.2 / 10)) ++ (q :: r).takeWhile (inRow (p.2 / 10)) = pts
      have hp : inRow (p.2 / 10) p = true := by simp [inRow]
      have hpin : p ∈ pts := by
        rw [← hpts, List.takeWhile_cons_of_pos hp]
        exact List.mem_append_left _ List.mem_cons_self
      have hfit : XFits pts := by
        intro c hc
        rw [← hpts, List.mem_append] at hc
        refine hx c ?_
        rcases hc with hc | hc
        · exact List.mem_append_left _ (mem_takeWhile hc).1
        · exact List.mem_append_right _ (mem_takeWhile hc).1
      have := (minX_spec pts hfit (List.ne_nil_of_mem hpin)).1 p hpin
      have := (maxX_spec pts hfit (List.ne_nil_of_mem hpin)).1 p hpin
      dsimp only
      omega
    · refine ih ?_ e he
      intro c hc
      refine hx c ?_
      rcases List.mem_append.1 hc with hc | hc
      · exact List.mem_append_left _ ((List.dropWhile_suffix _).subset hc)
      · exact List.mem_append_right _ ((List.dropWhile_suffix _).subset hc)

/-- the rows follow each other -/
theorem run_contig {l r : List Pt} {rows : List (Int × Int × Int)} (h : Run l r rows) (hd : Desc l) :
    rows.IsChain (fun e f => f.1 = e.1 - 1) ∧ ∀ e ∈ rows.head?, ∀ c ∈ l.head?, e.1 = c.2 / 10 := by
  induction h with
  | done r =>
    refine ⟨List.isChain_nil, ?_⟩
    intro e he
    cases he
  | @step p q l r rest hq h ih =>
    obtain ⟨i1, i2⟩ := ih (desc_dropWhile hd _)
    obtain ⟨_, l2, _⟩ := desc_split (p :: l) hd (p.2 / 10) (by rintro c ⟨⟩; exact le_refl _) (by rintro c ⟨⟩; omega)
    constructor
    · rw [List.isChain_cons]
      refine ⟨?_, i1⟩
      intro f hf
      generalize (p :: l).dropWhile (inRow (p.2 / 10)) = L at *
      generalize (q :: r).dropWhile (inRow (p.2 / 10)) = R at *
      cases h with
      | done _ => cases hf
      | @step p' q' l' r' rest' hq' h' =>
        have e := i2 f hf p' rfl
        have := l2 p' rfl
        dsimp only
        omega
    · rintro e ⟨⟩ c ⟨⟩
      rfl

/-- the loop over the rows of a left side that goes down, and a right side that begins with a part that goes down at least as far: the assertion holds, the
rows come in descending order, each row is between two of the points, and between any two points of both sides -/
theorem sweep_spec (n : Nat) : ∀ (l r s : List Pt) (a a' b b' : Pt), l.length ≤ n → Desc l → Desc r → l.head? = some a → r.head? = some a' → a.2 = a'.2 →
    l.getLast? = some b → r.getLast? = some b' → b'.2 ≤ b.2 → XFits l → XFits (r ++ s) →
    ∃ rows, Run l (r ++ s) rows ∧ (∀ e ∈ rows, e.1 ≤ a.2 / 10) ∧ rows.Pairwise (fun e f => f.1 < e.1) ∧
      (∀ e ∈ rows, ∃ c ∈ l ++ (r ++ s), ∃ d ∈ l ++ (r ++ s), c.2 / 10 = e.1 ∧ d.2 / 10 = e.1 ∧ e.2.1 = c.1 / 10 ∧ e.2.2 = d.1 / 10) ∧
      (∀ c ∈ l, ∀ d ∈ r, c.2 / 10 = d.2 / 10 → ∃ e ∈ rows, e.1 = c.2 / 10 ∧ e.2.1 ≤ c.1 / 10 ∧ e.2.1 ≤ d.1 / 10 ∧ c.1 / 10 ≤ e.2.2 ∧ d.1 / 10 ≤ e.2.2) := by
  induction n with
  | zero =>
    intro l r s a a' b b' hn _ _ hl
    rw [List.length_eq_zero_iff.1 (Nat.le_zero.1 hn)] at hl
    cases hl
  | succ n ih =>
    intro l r s a a' b b' hn dl dr hl hr haa hb hb' hbb xl xr
    cases l with
    | nil => cases hl
    | cons p l =>
    cases r with
    | nil => cases hr
    | cons q r =>
    rw [List.head?_cons, Option.some.injEq] at hl hr
    subst hl
    subst hr
    rw [List.cons_append] at xr ⊢
    have hstep := fun rest => Run.step (l := l) (r := r ++ s) (rest := rest) haa.symm
    obtain ⟨l1, l2, l3⟩ := desc_split (p :: l) dl (p.2 / 10) (by rintro c ⟨⟩; exact le_refl _) (by rintro c ⟨⟩; omega)
    obtain ⟨r1, r2, r3⟩ := desc_split (q :: r) dr (p.2 / 10) (by rintro c ⟨⟩; omega) (by rintro c ⟨⟩; omega)
    have tsub : ∀ c ∈ (q :: r).takeWhile (inRow (p.2 / 10)), c ∈ (q :: (r ++ s)).takeWhile (inRow (p.2 / 10)) := by
      intro c hc
      rw [← List.cons_append, List.takeWhile_append]
      split
      · exact List.mem_append_left _ ((List.takeWhile_prefix _).subset hc)
      · exact hc
    have hp : inRow (p.2 / 10) p = true := by simp [inRow]
    generalize hpts : (p :: l).takeWhile (inRow (p.2 / 10)) ++ (q :: (r ++ s)).takeWhile (inRow (p.2 / 10)) = pts at hstep
    have hpin : p ∈ pts := by
      rw [← hpts, List.takeWhile_cons_of_pos hp]
      exact List.mem_append_left _ List.mem_cons_self
    have hmem : ∀ c ∈ pts, c ∈ (p :: l) ++ (q :: (r ++ s)) ∧ c.2 / 10 = p.2 / 10 := by
      intro c hc
      rw [← hpts, List.mem_append] at hc
      rcases hc with hc | hc
      · exact ⟨List.mem_append_left _ (mem_takeWhile hc).1, (mem_takeWhile hc).2⟩
      · exact ⟨List.mem_append_right _ (mem_takeWhile hc).1, (mem_takeWhile hc).2⟩
    have hfit : XFits pts := by
      intro c hc
      rcases List.mem_append.1 (hmem c hc).1 with h | h
      · exact xl c h
      · exact xr c h
    obtain ⟨m1, m2⟩ := minX_spec pts hfit (List.ne_nil_of_mem hpin)
    obtain ⟨M1, M2⟩ := maxX_spec pts hfit (List.ne_nil_of_mem hpin)
    -- the first row
    have first : ∀ c ∈ p :: l, ∀ d ∈ q :: r, c.2 / 10 = p.2 / 10 → d.2 / 10 = p.2 / 10 →
        minX pts / 10 ≤ c.1 / 10 ∧ minX pts / 10 ≤ d.1 / 10 ∧ c.1 / 10 ≤ maxX pts / 10 ∧ d.1 / 10 ≤ maxX pts / 10 := by
      intro c hc d hd hcY hdY
      have h1 : c ∈ pts := by
        rw [← hpts]
        exact List.mem_append_left _ (l1 c hc hcY)
      have h2 : d ∈ pts := by
        rw [← hpts]
        exact List.mem_append_right _ (tsub d (r1 d hd hdY))
      have := m1 c h1
      have := m1 d h2
      have := M1 c h1
      have := M1 d h2
      omega
    have bound : ∃ c ∈ (p :: l) ++ (q :: (r ++ s)), ∃ d ∈ (p :: l) ++ (q :: (r ++ s)), c.2 / 10 = p.2 / 10 ∧ d.2 / 10 = p.2 / 10 ∧
        minX pts / 10 = c.1 / 10 ∧ maxX pts / 10 = d.1 / 10 := by
      obtain ⟨c, hc, ec⟩ := m2
      obtain ⟨d, hd, ed⟩ := M2
      exact ⟨c, (hmem c hc).1, d, (hmem d hd).1, (hmem c hc).2, (hmem d hd).2, by rw [ec], by rw [ed]⟩
    by_cases hrest : (p :: l).dropWhile (inRow (p.2 / 10)) = []
    · rw [hrest] at hstep
      refine ⟨_, hstep _ (.done _), ?_, by simp, ?_, ?_⟩
      · intro e he
        rw [List.mem_singleton.1 he]
      · intro e he
        rw [List.mem_singleton.1 he]
        exact bound
      · intro c hc d hd hcd
        have hcY : c.2 / 10 = p.2 / 10 := row_of_drop_nil hrest c hc
        exact ⟨_, List.mem_singleton_self _, hcY.symm, first c hc d hd hcY (by omega)⟩
    · -- the right side goes on, too
      obtain ⟨c0, hc0⟩ : ∃ c0, ((p :: l).dropWhile (inRow (p.2 / 10))).head? = some c0 := by
        cases h : (p :: l).dropWhile (inRow (p.2 / 10)) with
        | nil => exact absurd h hrest
        | cons c t => exact ⟨c, rfl⟩
      have hbl := getLast_dropWhile hb hrest
      have hlow := l3 b (List.mem_of_getLast? hbl)
      have hrest' : (q :: r).dropWhile (inRow (p.2 / 10)) ≠ [] := by
        intro h
        have := row_of_drop_nil h b' (List.mem_of_getLast? hb')
        omega
      obtain ⟨d0, hd0⟩ : ∃ d0, ((q :: r).dropWhile (inRow (p.2 / 10))).head? = some d0 := by
        cases h : (q :: r).dropWhile (inRow (p.2 / 10)) with
        | nil => exact absurd h hrest'
        | cons c t => exact ⟨c, rfl⟩
      have hdrop : (q :: (r ++ s)).dropWhile (inRow (p.2 / 10)) = (q :: r).dropWhile (inRow (p.2 / 10)) ++ s := by
        rw [← List.cons_append, List.dropWhile_append]
        rw [if_neg]
        simpa using hrest'
      have hlen : ((p :: l).dropWhile (inRow (p.2 / 10))).length ≤ n := by
        rw [List.dropWhile_cons_of_pos hp]
        have := (List.dropWhile_suffix (l := l) (inRow (p.2 / 10))).length_le
        simp only [List.length_cons] at hn
        omega
      have e1 := l2 c0 hc0
      have e2 := r2 d0 hd0
      obtain ⟨rows, hs, i1, i2, i3, i4⟩ := ih ((p :: l).dropWhile (inRow (p.2 / 10))) ((q :: r).dropWhile (inRow (p.2 / 10))) s c0 d0 b b' hlen
        (desc_dropWhile dl _) (desc_dropWhile dr _) hc0 hd0 (by omega) hbl (getLast_dropWhile hb' hrest') hbb
        (fun c hc => xl c ((List.dropWhile_suffix _).subset hc)) (by
          intro c hc
          refine xr c ?_
          rw [← List.cons_append]
          rcases List.mem_append.1 hc with hc | hc
          · exact List.mem_append_left _ ((List.dropWhile_suffix _).subset hc)
          · exact List.mem_append_right _ hc)
      rw [hdrop] at hstep
      refine ⟨_, hstep _ hs, ?_, ?_, ?_, ?_⟩
      · intro e he
        rcases List.mem_cons.1 he with rfl | he
        · exact le_refl _
        · have := i1 e he
          omega
      · rw [List.pairwise_cons]
        refine ⟨?_, i2⟩
        intro e he
        have := i1 e he
        dsimp only
        omega
      · intro e he
        rcases List.mem_cons.1 he with rfl | he
        · exact bound
        · obtain ⟨c, hc, d, hd, h⟩ := i3 e he
          have sub : ∀ c ∈ (p :: l).dropWhile (inRow (p.2 / 10)) ++ ((q :: r).dropWhile (inRow (p.2 / 10)) ++ s), c ∈ (p :: l) ++ (q :: (r ++ s)) := by
            intro c hc
            rcases List.mem_append.1 hc with hc | hc
            · exact List.mem_append_left _ ((List.dropWhile_suffix _).subset hc)
            · refine List.mem_append_right _ ?_
              rw [← List.cons_append]
              rcases List.mem_append.1 hc with hc | hc
              · exact List.mem_append_left _ ((List.dropWhile_suffix _).subset hc)
              · exact List.mem_append_right _ hc
          exact ⟨c, sub c hc, d, sub d hd, h⟩
      · intro c hc d hd hcd
        by_cases hcY : c.2 / 10 = p.2 / 10
        · exact ⟨_, List.mem_cons_self, hcY.symm, first c hc d hd hcY (by omega)⟩
        · have part : ∀ (t : List Pt) (x : Pt), x ∈ t → x.2 / 10 ≠ p.2 / 10 → x ∈ t.dropWhile (inRow (p.2 / 10)) := by
            intro t x hx hne
            rw [← List.takeWhile_append_dropWhile (p := inRow (p.2 / 10)) (l := t), List.mem_append] at hx
            exact hx.resolve_left fun h => hne (mem_takeWhile h).2
          obtain ⟨e, he, h⟩ := i4 c (part _ c hc hcY) d (part _ d hd (by omega)) hcd
          exact ⟨e, List.mem_cons_of_mem _ he, h⟩

/-! ### lines -/

open Envire.Bresenham in
theorem line_spec (p q : Pt) (hp : Fits p) (hq : Fits q) : ∃ l, line p q = some l ∧ IsLine p q l := by
  obtain ⟨l, h1, h2⟩ := C32_bresenham_line p q hp hq
  refine ⟨l, h2 _ ?_, h1⟩
  push_cast
  omega

open Envire.Bresenham in
theorem isLine_desc {p q : Pt} {l : List Pt} (h : IsLine p q l) (hpq : q.2 ≤ p.2) : Desc l := by
  unfold Desc
  rw [List.isChain_iff_getElem]
  intro i hi
  have e1 : l[i]? = some l[i] := List.getElem?_eq_getElem _
  have e2 : l[i + 1]? = some l[i + 1] := List.getElem?_eq_getElem _
  have h1 := (h.connected i _ _ e1 e2).2
  have h2 := (h.towards i _ _ e1 e2).2
  have b1 := h.box l[i] (List.getElem_mem _)
  have b2 := h.box l[i + 1] (List.getElem_mem _)
  rw [abs_le] at h1
  rcases eq_or_lt_of_le hpq with he | he
  · omega
  · have : l[i + 1].2 - l[i].2 ≤ 0 := by
      by_contra hc
      have : (l[i + 1].2 - l[i].2) * (q.2 - p.2) < 0 := mul_neg_of_pos_of_neg (by omega) (by omega)
      omega
    omega

/-- the corner of the fine grid below a point -/
def Below (c : Pt) (P : ℝ × ℝ) : Prop := (c.1 : ℝ) ≤ P.1 ∧ P.1 < c.1 + 1 ∧ (c.2 : ℝ) ≤ P.2 ∧ P.2 < c.2 + 1

/-- a point is within the tolerance of a point of the fine grid -/
def Near (c : Pt) (e : ℝ × ℝ) : Prop := -(1 / 2) ≤ e.1 - c.1 ∧ e.1 - c.1 < 3 / 2 ∧ -(1 / 2) ≤ e.2 - c.2 ∧ e.2 - c.2 < 3 / 2

/-- the point at t between P and Q -/
def seg (P Q : ℝ × ℝ) (t : ℝ) : ℝ × ℝ := (P.1 + t * (Q.1 - P.1), P.2 + t * (Q.2 - P.2))

theorem conv01 {t f g : ℝ} (h0 : 0 ≤ t) (h1 : t ≤ 1) (hf : 0 ≤ f ∧ f < 1) (hg : 0 ≤ g ∧ g < 1) : 0 ≤ f + t * (g - f) ∧ f + t * (g - f) < 1 := by
  constructor
  · nlinarith [mul_nonneg h0 hg.1, mul_nonneg (sub_nonneg.2 h1) hf.1]
  · rcases eq_or_lt_of_le h0 with rfl | h0
    · linarith
    · nlinarith [mul_pos h0 (sub_pos.2 hg.2), mul_nonneg (sub_nonneg.2 h1) (sub_nonneg.2 hf.2.le)]

theorem near_flat {px qx py qy cx cy : Int} {Px Qx Py Qy : ℝ} (hflat : |qy - py| ≤ |qx - px|)
    (bx : min px qx ≤ cx ∧ cx ≤ max px qx) (by' : min py qy ≤ cy ∧ cy ≤ max py qy)
    (hst : 2 * |(qx - px) * (cy - py) - (qy - py) * (cx - px)| ≤ |qx - px|)
    (hPx : (px : ℝ) ≤ Px ∧ Px < px + 1) (hQx : (qx : ℝ) ≤ Qx ∧ Qx < qx + 1) (hPy : (py : ℝ) ≤ Py ∧ Py < py + 1) (hQy : (qy : ℝ) ≤ Qy ∧ Qy < qy + 1) :
    ∃ t, 0 ≤ t ∧ t ≤ 1 ∧ (0 ≤ Px + t * (Qx - Px) - cx ∧ Px + t * (Qx - Px) - cx < 1) ∧
      (-(1 / 2) ≤ Py + t * (Qy - Py) - cy ∧ Py + t * (Qy - Py) - cy < 3 / 2) := by
  by_cases h0 : qx = px
  · have : qy = py := by
      subst h0
      rw [sub_self, abs_zero] at hflat
      have := abs_nonpos_iff.1 hflat
      omega
    have e1 : cx = px := by omega
    have e2 : cy = py := by omega
    subst e1 e2
    exact ⟨0, le_refl _, zero_le_one, ⟨by linarith, by linarith⟩, ⟨by linarith, by linarith⟩⟩
  · have hd : (qx : ℝ) - px ≠ 0 := by
      intro h
      apply h0
      have : (qx : ℝ) = px := by linarith
      exact_mod_cast this
    generalize ht : ((cx : ℝ) - px) / (qx - px) = t
    have htd : t * ((qx : ℝ) - px) = cx - px := by rw [← ht, div_mul_cancel₀ _ hd]
    have t01 : 0 ≤ t ∧ t ≤ 1 := by
      rcases lt_or_gt_of_ne h0 with h | h
      · have h1 : (qx : ℝ) - px < 0 := by
          have : (qx : ℝ) < px := by exact_mod_cast h
          linarith
        have h2 : (cx : ℝ) ≤ px := by exact_mod_cast (by omega : cx ≤ px)
        have h3 : (qx : ℝ) ≤ cx := by exact_mod_cast (by omega : qx ≤ cx)
        rw [← ht]
        exact ⟨div_nonneg_of_nonpos (by linarith) h1.le, (div_le_one_of_neg h1).2 (by linarith)⟩
      · have h1 : 0 < (qx : ℝ) - px := by
          have : (px : ℝ) < qx := by exact_mod_cast h
          linarith
        have h2 : (px : ℝ) ≤ cx := by exact_mod_cast (by omega : px ≤ cx)
        have h3 : (cx : ℝ) ≤ qx := by exact_mod_cast (by omega : cx ≤ qx)
        rw [← ht]
        exact ⟨div_nonneg (by linarith) h1.le, (div_le_one h1).2 (by linarith)⟩
    have hst' : 2 * |((qx : ℝ) - px) * (cy - py) - (qy - py) * (cx - px)| ≤ |(qx : ℝ) - px| := by exact_mod_cast hst
    rw [← htd] at hst'
    have e : ((qx : ℝ) - px) * (cy - py) - (qy - py) * (t * ((qx : ℝ) - px)) = ((qx : ℝ) - px) * (cy - py - t * (qy - py)) := by ring
    rw [e, abs_mul] at hst'
    have hpos : 0 < |(qx : ℝ) - px| := abs_pos.2 hd
    have hle : |(cy : ℝ) - py - t * (qy - py)| ≤ 1 / 2 := by
      by_contra hc
      push Not at hc
      nlinarith
    rw [abs_le] at hle
    have c1 := conv01 t01.1 t01.2 (f := Px - px) (g := Qx - qx) ⟨by linarith, by linarith⟩ ⟨by linarith, by linarith⟩
    have c2 := conv01 t01.1 t01.2 (f := Py - py) (g := Qy - qy) ⟨by linarith, by linarith⟩ ⟨by linarith, by linarith⟩
    refine ⟨t, t01.1, t01.2, ⟨by linarith, by linarith⟩, ⟨by linarith, by linarith⟩⟩

open Envire.Bresenham in
/-- every point of the line is within the tolerance of the segment between the ends -/
theorem line_near {p q : Pt} {l : List Pt} (h : IsLine p q l) {P Q : ℝ × ℝ} (hP : Below p P) (hQ : Below q Q) (c : Pt) (hc : c ∈ l) :
    ∃ t, 0 ≤ t ∧ t ≤ 1 ∧ Near c (seg P Q t) := by
  obtain ⟨b1, b2, b3, b4⟩ := h.box c hc
  have hst := h.straight c hc
  obtain ⟨P1, P2, P3, P4⟩ := hP
  obtain ⟨Q1, Q2, Q3, Q4⟩ := hQ
  by_cases hf : |q.2 - p.2| ≤ |q.1 - p.1|
  · rw [max_eq_left hf] at hst
    obtain ⟨t, t0, t1, ⟨a1, a2⟩, a3, a4⟩ := near_flat hf ⟨b1, b2⟩ ⟨b3, b4⟩ hst ⟨P1, P2⟩ ⟨Q1, Q2⟩ ⟨P3, P4⟩ ⟨Q3, Q4⟩
    exact ⟨t, t0, t1, by dsimp only [seg]; linarith, by dsimp only [seg]; linarith, a3, a4⟩
  · have hf' : |q.1 - p.1| ≤ |q.2 - p.2| := by omega
    rw [max_eq_right hf', abs_sub_comm] at hst
    obtain ⟨t, t0, t1, ⟨a1, a2⟩, a3, a4⟩ := near_flat hf' ⟨b3, b4⟩ ⟨b1, b2⟩ hst ⟨P3, P4⟩ ⟨Q3, Q4⟩ ⟨P1, P2⟩ ⟨Q1, Q2⟩
    exact ⟨t, t0, t1, a3, a4, by dsimp only [seg]; linarith, by dsimp only [seg]; linarith⟩

end Envire.Rect
