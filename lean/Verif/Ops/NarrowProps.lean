import Verif.Ops.SimpleProps

/-!
C70: SimpleTraversability closes narrow passages. See SimpleModel.lean.
-/

namespace Envire.Simple

open Envire.Grow (Cell Geo cells offsets mem_cells mem_offsets)

/-! ### the lookup table -/

/-- a share of at most one is rounded towards zero by at most one, one itself is kept -/
theorem rint_share (a : ℤ) {b : ℤ} (hb : 0 < b) (hab : |a| ≤ b) :
    (0 ≤ a → 0 ≤ rint ((a : ℚ) / b) ∧ rint ((a : ℚ) / b) ≤ 1) ∧ (a ≤ 0 → -1 ≤ rint ((a : ℚ) / b) ∧ rint ((a : ℚ) / b) ≤ 0) ∧
    (a = b → rint ((a : ℚ) / b) = 1) ∧ (a = -b → rint ((a : ℚ) / b) = -1) := by
  have hb' : (0 : ℚ) < b := by exact_mod_cast hb
  rw [abs_le] at hab
  have h1 : (a : ℚ) / b ≤ 1 := by
    rw [div_le_one hb']
    exact_mod_cast hab.2
  have h2 : -1 ≤ (a : ℚ) / b := by
    rw [le_div_iff₀ hb', neg_one_mul]
    exact_mod_cast hab.1
  have e0 : rint 0 = 0 := by decide +kernel
  have e1 : rint 1 = 1 := by decide +kernel
  have e2 : rint (-1) = -1 := by decide +kernel
  have m1 := rint_mono h1
  have m2 := rint_mono h2
  rw [e1] at m1
  rw [e2] at m2
  refine ⟨fun h => ⟨rint_nonneg (div_nonneg (by exact_mod_cast h) hb'.le), m1⟩, fun h => ⟨m2, ?_⟩, ?_, ?_⟩
  · have : (a : ℚ) / b ≤ 0 := div_nonpos_of_nonpos_of_nonneg (by exact_mod_cast h) hb'.le
    have := rint_mono this
    rwa [e0] at this
  · rintro rfl
    rw [div_self hb'.ne', e1]
  · rintro rfl
    push_cast
    rw [neg_div, div_self hb'.ne', e2]

def Btw (a b t : ℤ) : Prop := (a ≤ t ∧ t ≤ b) ∨ (b ≤ t ∧ t ≤ a)

theorem parent_none {d : ℤ × ℤ} (h : parent d = none) : d = (0, 0) := by
  unfold parent at h
  dsimp only at h
  split at h
  next h1 =>
    apply Prod.ext
    · change d.1 = 0
      omega
    · change d.2 = 0
      omega
  · split at h <;> cases h

/-- a parent is a neighbour, in the rectangle between the offset and the centre, and one ring nearer to the centre -/
theorem parent_some {d e : ℤ × ℤ} (h : parent d = some e) : (|e.1 - d.1| ≤ 1 ∧ |e.2 - d.2| ≤ 1) ∧ Btw 0 d.1 e.1 ∧ Btw 0 d.2 e.2 ∧
    max |e.1| |e.2| < max |d.1| |d.2| := by
  obtain ⟨x, y⟩ := d
  unfold parent at h
  dsimp only at h
  split at h
  · cases h
  next hne =>
    split at h
    next hc =>
      have hb : 0 < |(-x : ℤ)| := lt_of_le_of_lt (abs_nonneg _) hc
      obtain ⟨r1, r2, -, -⟩ := rint_share (-y) hb hc.le
      rw [Option.some.injEq] at h
      subst h
      dsimp only
      generalize rint (((-y : ℤ) : ℚ) / ((|-x| : ℤ) : ℚ)) = r at r1 r2 ⊢
      have hs : (x < 0 ∧ (-x).sign = 1) ∨ (0 < x ∧ (-x).sign = -1) := by
        rcases lt_trichotomy x 0 with h | h | h
        · exact .inl ⟨h, Int.sign_eq_one_of_pos (by omega)⟩
        · subst h
          simp at hb
        · exact .inr ⟨h, Int.sign_eq_neg_one_of_neg (by omega)⟩
      generalize (-x).sign = sg at hs ⊢
      rw [abs_neg, abs_neg] at hc
      unfold Btw
      simp only [abs_eq_max_neg] at *
      refine ⟨⟨by omega, ?_⟩, by omega, ?_, ?_⟩ <;> rcases le_total y 0 with hy | hy <;>
        first
        | (have := r1 (by omega); omega)
        | (have := r2 (by omega); omega)
    next hc =>
      have hb : 0 < |(-y : ℤ)| := by
        rw [abs_pos]
        intro hy
        rw [hy, abs_zero, not_lt] at hc
        have := abs_nonpos_iff.1 hc
        exact hne ⟨this, hy⟩
      obtain ⟨r1, r2, r3, r4⟩ := rint_share (-x) hb (not_lt.1 hc)
      rw [Option.some.injEq] at h
      subst h
      dsimp only
      generalize rint (((-x : ℤ) : ℚ) / ((|-y| : ℤ) : ℚ)) = r at r1 r2 r3 r4 ⊢
      have hs : (y < 0 ∧ (-y).sign = 1) ∨ (0 < y ∧ (-y).sign = -1) := by
        rcases lt_trichotomy y 0 with h | h | h
        · exact .inl ⟨h, Int.sign_eq_one_of_pos (by omega)⟩
        · subst h
          simp at hb
        · exact .inr ⟨h, Int.sign_eq_neg_one_of_neg (by omega)⟩
      generalize (-y).sign = sg at hs ⊢
      rw [abs_neg, abs_neg, not_lt] at hc
      unfold Btw
      simp only [abs_eq_max_neg] at *
      refine ⟨⟨?_, by omega⟩, ?_, by omega, ?_⟩ <;> rcases le_total x 0 with hx | hx <;>
        first
        | (have := r1 (by omega); omega)
        | (have := r2 (by omega); omega)

/-! ### marks -/

/-- neighbours, also diagonal ones -/
def Adj (a b : Cell) : Prop := |(a.1 : ℤ) - b.1| ≤ 1 ∧ |(a.2 : ℤ) - b.2| ≤ 1

/-- connected by a chain of neighbours with the property -/
def Conn (Q : Cell → Prop) (a b : Cell) : Prop := Relation.ReflTransGen (fun x y => Adj x y ∧ Q x ∧ Q y) a b

/-- in the rectangle spanned by two cells -/
def InBox (a b t : Cell) : Prop := Btw a.1 b.1 t.1 ∧ Btw a.2 b.2 t.2

def In (g : Geo) (c : Cell) : Prop := c.1 < g.w ∧ c.2 < g.h

theorem cellAt_eq {g : Geo} {c : Cell} {d : ℤ × ℤ} {t : Cell} (h : cellAt g c d = some t) :
    In g t ∧ (t.1 : ℤ) = c.1 + d.1 ∧ (t.2 : ℤ) = c.2 + d.2 := by
  unfold cellAt at h
  dsimp only at h
  split at h
  next hc =>
    rw [Option.some.injEq] at h
    subst h
    unfold In
    dsimp only
    omega
  · cases h

theorem cellAt_some {g : Geo} {c : Cell} {d : ℤ × ℤ} {t : Cell} (ht : In g t) (h1 : (t.1 : ℤ) = c.1 + d.1) (h2 : (t.2 : ℤ) = c.2 + d.2) :
    cellAt g c d = some t := by
  unfold In at ht
  unfold cellAt
  dsimp only
  rw [if_pos (by omega), Option.some.injEq]
  apply Prod.ext
  · change ((c.1 : ℤ) + d.1).toNat = t.1
    omega
  · change ((c.2 : ℤ) + d.2).toNat = t.2
    omega

/-- the ray from a cell to the centre: defined, marks a list of cells in the rectangle that connects the two -/
theorem ray_spec {g : Geo} {c : Cell} (hc : In g c) : ∀ (n : Nat) (d : ℤ × ℤ) (t : Cell), max |d.1| |d.2| ≤ n → cellAt g c d = some t →
    |d.1| ≤ (reach g).1 → |d.2| ≤ (reach g).2 → ∀ fuel, n ≤ fuel → ∃ L : List Cell,
      (∀ s, markRay g c fuel s (parent d) = some (L.foldl markCell s)) ∧ (∀ u ∈ L, In g u ∧ InBox c t u) ∧
      ∀ Q : Cell → Prop, Q t → (∀ u ∈ L, Q u) → Conn Q t c := by
  intro n
  induction n with
  | zero =>
    intro d t hd ht h1 h2 fuel hf
    have hd1 : d.1 = 0 := abs_nonpos_iff.1 (by have := le_max_left |d.1| |d.2|; omega)
    have hd2 : d.2 = 0 := abs_nonpos_iff.1 (by have := le_max_right |d.1| |d.2|; omega)
    obtain ⟨-, e1, e2⟩ := cellAt_eq ht
    have htc : t = c := Prod.ext (by omega) (by omega)
    have hp : parent d = none := by
      unfold parent
      dsimp only
      rw [if_pos (by omega)]
    refine ⟨[], fun s => ?_, fun u hu => absurd hu List.not_mem_nil, fun Q _ _ => ?_⟩
    · rw [hp]
      unfold markRay
      rfl
    · rw [htc]
      exact Relation.ReflTransGen.refl
  | succ n ih =>
    intro d t hd ht h1 h2 fuel hf
    obtain ⟨hti, e1, e2⟩ := cellAt_eq ht
    cases hp : parent d with
    | none =>
      have hd0 := parent_none hp
      subst hd0
      have htc : t = c := Prod.ext (by dsimp only at e1; omega) (by dsimp only at e2; omega)
      refine ⟨[], fun s => ?_, fun u hu => absurd hu List.not_mem_nil, fun Q _ _ => ?_⟩
      · unfold markRay
        rfl
      · rw [htc]
        exact Relation.ReflTransGen.refl
    | some e =>
      obtain ⟨⟨a1, a2⟩, b1, b2, hm⟩ := parent_some hp
      obtain ⟨f, rfl⟩ : ∃ f, fuel = f + 1 := ⟨fuel - 1, by omega⟩
      -- the cell of the parent
      have hin : ∃ u : Cell, cellAt g c e = some u := by
        unfold In at hti hc
        unfold Btw at b1 b2
        refine ⟨(((c.1 : ℤ) + e.1).toNat, ((c.2 : ℤ) + e.2).toNat), ?_⟩
        unfold cellAt
        dsimp only
        rw [if_pos (by omega)]
      obtain ⟨u, hu⟩ := hin
      obtain ⟨hui, u1, u2⟩ := cellAt_eq hu
      have r1 : |e.1| ≤ (reach g).1 := by
        unfold Btw at b1
        simp only [abs_eq_max_neg] at *
        omega
      have r2 : |e.2| ≤ (reach g).2 := by
        unfold Btw at b2
        simp only [abs_eq_max_neg] at *
        omega
      obtain ⟨L, l1, l2, l3⟩ := ih e u (by push_cast at hd; omega) hu r1 r2 f (by omega)
      have hbox : InBox c t u := by
        unfold InBox Btw
        unfold Btw at b1 b2
        omega
      refine ⟨u :: L, ?_, ?_, ?_⟩
      · intro s
        rw [show markRay g c (f + 1) s (some e) = markRay g c f (markCell s u) (parent e) by
          rw [markRay]
          rw [hu]
          exact if_pos ⟨r1, r2⟩]
        rw [l1, List.foldl_cons]
      · intro v hv
        rcases List.mem_cons.1 hv with rfl | hv
        · exact ⟨hui, hbox⟩
        · refine ⟨(l2 v hv).1, ?_⟩
          have := (l2 v hv).2
          unfold InBox Btw at *
          omega
      · intro Q hQ hQL
        refine Relation.ReflTransGen.head (b := u) ⟨?_, hQ, hQL u List.mem_cons_self⟩ (l3 Q (hQL u List.mem_cons_self) fun v hv => hQL v (List.mem_cons_of_mem _ hv))
        unfold Adj
        rw [abs_le] at *
        rw [abs_le]
        omega

/-! ### the loops -/

/-- squared distance of two cells -/
def sqDist (g : Geo) (a b : Cell) : ℚ := (((b.1 : ℚ) - a.1) * g.sx) ^ 2 + (((b.2 : ℚ) - a.2) * g.sy) ^ 2

/-- two different cells, nearer to each other than the width -/
def Near (g : Geo) (a b : Cell) : Prop := a ≠ b ∧ sqDist g a b < g.r ^ 2

/-- same obstacles as at the start -/
def Same (o : Cell → Nat) (s : Data) : Prop := ∀ t, s.1 t = OBSTACLE ↔ o t = OBSTACLE

theorem same_mark {o : Cell → Nat} {s : Data} (h : Same o s) (t : Cell) : Same o (markCell s t) := by
  intro u
  unfold markCell
  split
  next hs =>
    by_cases hu : u = t
    · subst hu
      change Function.update s.1 u 255 u = OBSTACLE ↔ _
      rw [Function.update_self]
      constructor
      · intro h
        exact absurd h (by unfold OBSTACLE; omega)
      · intro hh
        exact absurd ((h u).2 hh) hs
    · change Function.update s.1 t 255 u = OBSTACLE ↔ _
      rw [Function.update_of_ne hu]
      exact h u
  · exact h u

theorem same_marks {o : Cell → Nat} : ∀ (L : List Cell) {s : Data}, Same o s → Same o (L.foldl markCell s)
  | [], _, h => h
  | t :: L, _, h => by
    rw [List.foldl_cons]
    exact same_marks L (same_mark h t)

theorem marks_value {o : Cell → Nat} : ∀ (L : List Cell) {s : Data}, Same o s → ∀ t,
    (L.foldl markCell s).1 t = (if t ∈ L ∧ o t ≠ OBSTACLE then 255 else s.1 t) ∧
    (L.foldl markCell s).2 t = (if t ∈ L ∧ o t ≠ OBSTACLE then 255 else s.2 t)
  | [], s, _, t => by
    rw [if_neg (fun h => absurd h.1 List.not_mem_nil), if_neg (fun h => absurd h.1 List.not_mem_nil)]
    exact ⟨rfl, rfl⟩
  | u :: L, s, h, t => by
    rw [List.foldl_cons, (marks_value L (same_mark h u) t).1, (marks_value L (same_mark h u) t).2]
    by_cases ho : o t = OBSTACLE
    · have hs := (h t).2 ho
      have e : (markCell s u).1 t = s.1 t ∧ (markCell s u).2 t = s.2 t := by
        unfold markCell
        split
        next hu =>
          have : t ≠ u := fun e => hu (e ▸ hs)
          exact ⟨Function.update_of_ne this .., Function.update_of_ne this ..⟩
        · exact ⟨rfl, rfl⟩
      rw [if_neg (fun hh => hh.2 ho), if_neg (fun hh => hh.2 ho), if_neg (fun hh => hh.2 ho), if_neg (fun hh => hh.2 ho)]
      exact e
    · by_cases hL : t ∈ L
      · have h1 : t ∈ L ∧ o t ≠ OBSTACLE := ⟨hL, ho⟩
        have h2 : t ∈ u :: L ∧ o t ≠ OBSTACLE := ⟨List.mem_cons_of_mem _ hL, ho⟩
        exact ⟨(if_pos h1).trans (if_pos h2).symm, (if_pos h1).trans (if_pos h2).symm⟩
      · have h1 : ¬(t ∈ L ∧ o t ≠ OBSTACLE) := fun hh => hL hh.1
        suffices hsuf : (markCell s u).1 t = (if t ∈ u :: L ∧ o t ≠ OBSTACLE then 255 else s.1 t) ∧
            (markCell s u).2 t = (if t ∈ u :: L ∧ o t ≠ OBSTACLE then 255 else s.2 t) from
          ⟨(if_neg h1).trans hsuf.1, (if_neg h1).trans hsuf.2⟩
        by_cases htu : t = u
        · subst htu
          rw [if_pos ⟨List.mem_cons_self, ho⟩, if_pos ⟨List.mem_cons_self, ho⟩]
          unfold markCell
          rw [if_pos (fun hh => ho ((h t).1 hh))]
          exact ⟨Function.update_self .., Function.update_self ..⟩
        · have hm : ¬(t ∈ u :: L ∧ o t ≠ OBSTACLE) := fun hh => (List.mem_cons.1 hh.1).elim htu hL
          rw [if_neg hm, if_neg hm]
          unfold markCell
          split
          · exact ⟨Function.update_of_ne htu .., Function.update_of_ne htu ..⟩
          · exact ⟨rfl, rfl⟩

theorem reach_of_near {g : Geo} (hx : 0 < g.sx) (hy : 0 < g.sy) (hr : 0 ≤ g.r) {d : ℤ × ℤ}
    (h : (d.1 : ℚ) * d.1 * g.sx * g.sx + (d.2 : ℚ) * d.2 * g.sy * g.sy < g.r * g.r) : |d.1| ≤ (reach g).1 ∧ |d.2| ≤ (reach g).2 := by
  have h1 : (|d.1| : ℚ) ≤ g.r / g.sx := by
    rw [le_div_iff₀ hx]
    apply le_of_sq_le_sq _ hr
    have : (|(d.1 : ℚ)| * g.sx) ^ 2 = (d.1 : ℚ) * d.1 * g.sx * g.sx := by rw [mul_pow, sq_abs]; ring
    rw [this]
    nlinarith [mul_self_nonneg ((d.2 : ℚ) * g.sy)]
  have h2 : (|d.2| : ℚ) ≤ g.r / g.sy := by
    rw [le_div_iff₀ hy]
    apply le_of_sq_le_sq _ hr
    have : (|(d.2 : ℚ)| * g.sy) ^ 2 = (d.2 : ℚ) * d.2 * g.sy * g.sy := by rw [mul_pow, sq_abs]; ring
    rw [this]
    nlinarith [mul_self_nonneg ((d.1 : ℚ) * g.sx)]
  unfold reach
  constructor
  · have := h1.trans (Int.le_ceil _)
    exact_mod_cast this
  · have := h2.trans (Int.le_ceil _)
    exact_mod_cast this
where
  le_of_sq_le_sq {a b : ℚ} (h : a ^ 2 ≤ b ^ 2) (hb : 0 ≤ b) : a ≤ b := by
    by_contra hn
    rw [not_le] at hn
    nlinarith

theorem inDistance_iff {g : Geo} {c t : Cell} {d : ℤ × ℤ} (h1 : (t.1 : ℤ) = c.1 + d.1) (h2 : (t.2 : ℤ) = c.2 + d.2) :
    inDistance g d = true ↔ Near g c t := by
  have e1 : (d.1 : ℚ) = t.1 - c.1 := by
    have : (t.1 : ℚ) = c.1 + d.1 := by exact_mod_cast h1
    linarith
  have e2 : (d.2 : ℚ) = t.2 - c.2 := by
    have : (t.2 : ℚ) = c.2 + d.2 := by exact_mod_cast h2
    linarith
  unfold inDistance Near sqDist
  rw [Bool.and_eq_true, decide_eq_true_eq, decide_eq_true_eq, e1, e2]
  have hd : d ≠ (0, 0) ↔ c ≠ t := by
    rw [not_iff_not]
    constructor
    · rintro rfl
      dsimp only at h1 h2
      exact Prod.ext (by omega) (by omega)
    · rintro rfl
      exact Prod.ext (by change d.1 = 0; omega) (by change d.2 = 0; omega)
  rw [hd]
  apply and_congr_right'
  rw [← sub_neg (b := g.r * g.r), ← sub_neg (b := g.r ^ 2)]
  have : ((t.1 : ℚ) - c.1) * (t.1 - c.1) * g.sx * g.sx + ((t.2 : ℚ) - c.2) * (t.2 - c.2) * g.sy * g.sy - g.r * g.r =
      (((t.1 : ℚ) - c.1) * g.sx) ^ 2 + (((t.2 : ℚ) - c.2) * g.sy) ^ 2 - g.r ^ 2 := by ring
  rw [this]

/-- the marks of one cell -/
theorem markAll_spec {g : Geo} (hx : 0 < g.sx) (hy : 0 < g.sy) (hr : 0 ≤ g.r) {o : Cell → Nat} {c : Cell} (hc : In g c) {fuel : Nat}
    (hf : max g.w g.h ≤ fuel) : ∃ M : List Cell, (∀ s, Same o s → markAll g fuel s c = some (M.foldl markCell s)) ∧
      (∀ t ∈ M, In g t ∧ ∃ e, In g e ∧ o e = OBSTACLE ∧ Near g c e ∧ InBox c e t) ∧
      ∀ e, In g e → o e = OBSTACLE → Near g c e → ∀ Q : Cell → Prop, Q e → (∀ u ∈ M, Q u) → Conn Q e c := by
  have key : ∀ D : List (ℤ × ℤ), ∃ M : List Cell, (∀ s, Same o s → D.foldlM (fun s d =>
        match cellAt g c d with
        | none => some s
        | some t => if inDistance g d = true ∧ s.1 t = OBSTACLE then markRay g c fuel s (parent d) else some s) s = some (M.foldl markCell s)) ∧
      (∀ t ∈ M, In g t ∧ ∃ e, In g e ∧ o e = OBSTACLE ∧ Near g c e ∧ InBox c e t) ∧
      ∀ e, In g e → o e = OBSTACLE → Near g c e → ((e.1 : ℤ) - c.1, (e.2 : ℤ) - c.2) ∈ D →
        ∀ Q : Cell → Prop, Q e → (∀ u ∈ M, Q u) → Conn Q e c := by
    intro D
    induction D with
    | nil => exact ⟨[], fun s _ => rfl, fun t ht => absurd ht List.not_mem_nil, fun e _ _ _ h => absurd h List.not_mem_nil⟩
    | cons d D ih =>
      obtain ⟨M, m1, m2, m3⟩ := ih
      cases ht : cellAt g c d with
      | none =>
        refine ⟨M, fun s hs => ?_, m2, fun e he1 he2 he3 he4 => ?_⟩
        · rw [List.foldlM_cons, ht]
          exact m1 s hs
        · rcases List.mem_cons.1 he4 with h | h
          · have := cellAt_some (g := g) (c := c) (d := d) he1 (by rw [← h]; dsimp only; omega) (by rw [← h]; dsimp only; omega)
            rw [this] at ht
            cases ht
          · exact m3 e he1 he2 he3 h
      | some t =>
        obtain ⟨hti, e1, e2⟩ := cellAt_eq ht
        have hit := inDistance_iff (g := g) e1 e2
        have het : ∀ e : Cell, ((e.1 : ℤ) - c.1, (e.2 : ℤ) - c.2) = d → e = t := by
          rintro e rfl
          dsimp only at e1 e2
          exact Prod.ext (by omega) (by omega)
        by_cases hcond : inDistance g d = true ∧ o t = OBSTACLE
        · have hn := hit.1 hcond.1
          have hd : (d.1 : ℚ) * d.1 * g.sx * g.sx + (d.2 : ℚ) * d.2 * g.sy * g.sy < g.r * g.r := by
            have := hcond.1
            unfold inDistance at this
            rw [Bool.and_eq_true, decide_eq_true_eq, decide_eq_true_eq] at this
            exact this.2
          obtain ⟨r1, r2⟩ := reach_of_near hx hy hr hd
          have hm : max |d.1| |d.2| ≤ ((max g.w g.h : Nat) : ℤ) := by
            unfold In at hc hti
            simp only [abs_eq_max_neg]
            push_cast
            omega
          obtain ⟨L, l1, l2, l3⟩ := ray_spec hc _ d t hm ht r1 r2 fuel hf
          refine ⟨L ++ M, fun s hs => ?_, ?_, ?_⟩
          · rw [List.foldlM_cons, ht]
            dsimp only
            rw [if_pos ⟨hcond.1, (hs t).2 hcond.2⟩, l1, List.foldl_append]
            exact m1 _ (same_marks L hs)
          · intro u hu
            rcases List.mem_append.1 hu with hu | hu
            · exact ⟨(l2 u hu).1, t, hti, hcond.2, hn, (l2 u hu).2⟩
            · exact m2 u hu
          · intro e he1 he2 he3 he4 Q hQ hQL
            rcases List.mem_cons.1 he4 with h | h
            · have := het e h
              subst this
              exact l3 Q hQ fun u hu => hQL u (List.mem_append_left _ hu)
            · exact m3 e he1 he2 he3 h Q hQ fun u hu => hQL u (List.mem_append_right _ hu)
        · refine ⟨M, fun s hs => ?_, m2, fun e he1 he2 he3 he4 => ?_⟩
          · rw [List.foldlM_cons, ht]
            dsimp only
            rw [if_neg (fun h => hcond ⟨h.1, (hs t).1 h.2⟩)]
            exact m1 s hs
          · rcases List.mem_cons.1 he4 with h | h
            · have := het e h
              subst this
              exact absurd ⟨hit.2 he3, he2⟩ hcond
            · exact m3 e he1 he2 he3 h
  obtain ⟨M, m1, m2, m3⟩ := key (offsets (reach g).1 (reach g).2)
  refine ⟨M, m1, m2, fun e he1 he2 he3 => m3 e he1 he2 he3 ?_⟩
  rw [mem_offsets]
  have hi := (inDistance_iff (g := g) (c := c) (t := e) (d := ((e.1 : ℤ) - c.1, (e.2 : ℤ) - c.2)) (by dsimp only; omega) (by dsimp only; omega)).2 he3
  unfold inDistance at hi
  rw [Bool.and_eq_true, decide_eq_true_eq, decide_eq_true_eq] at hi
  obtain ⟨r1, r2⟩ := reach_of_near hx hy hr hi.2
  rw [abs_le] at r1 r2
  exact ⟨r1, r2⟩

/-- the last loop -/
theorem finish_value : ∀ (C : List Cell) (s : Data) (t : Cell), t ∈ C ∨ s.1 t ≠ 255 →
    (C.foldl (fun s t => if s.1 t = 255 then (Function.update s.1 t OBSTACLE, Function.update s.2 t 255) else s) s).1 t =
      (if s.1 t = 255 then OBSTACLE else s.1 t) ∧
    (C.foldl (fun s t => if s.1 t = 255 then (Function.update s.1 t OBSTACLE, Function.update s.2 t 255) else s) s).2 t =
      (if s.1 t = 255 then 255 else s.2 t)
  | [], s, t, h => by
    rcases h with h | h
    · cases h
    · rw [if_neg h, if_neg h]
      exact ⟨rfl, rfl⟩
  | u :: C, s, t, h => by
    rw [List.foldl_cons]
    by_cases hu : s.1 u = 255
    · rw [if_pos hu]
      by_cases htu : t = u
      · subst htu
        have := finish_value C (Function.update s.1 t OBSTACLE, Function.update s.2 t 255) t
          (.inr (by
            change Function.update s.1 t OBSTACLE t ≠ 255
            rw [Function.update_self]
            unfold OBSTACLE
            omega))
        have hne : ¬(Function.update s.1 t OBSTACLE, Function.update s.2 t 255).1 t = 255 := by
          change ¬Function.update s.1 t OBSTACLE t = 255
          rw [Function.update_self]
          unfold OBSTACLE
          omega
        rw [this.1, this.2, if_neg hne, if_neg hne, if_pos hu, if_pos hu]
        exact ⟨Function.update_self .., Function.update_self ..⟩
      · have := finish_value C (Function.update s.1 u OBSTACLE, Function.update s.2 u 255) t (by
          rcases h with h | h
          · exact .inl ((List.mem_cons.1 h).resolve_left htu)
          · right
            change Function.update s.1 u OBSTACLE t ≠ 255
            rw [Function.update_of_ne htu]
            exact h)
        have e1 : (Function.update s.1 u OBSTACLE, Function.update s.2 u 255).1 t = s.1 t := Function.update_of_ne htu ..
        have e2 : (Function.update s.1 u OBSTACLE, Function.update s.2 u 255).2 t = s.2 t := Function.update_of_ne htu ..
        rw [e1, e2] at this
        exact this
    · rw [if_neg hu]
      apply finish_value C s t
      by_cases htu : t = u
      · subst htu
        exact .inr hu
      · rcases h with h | h
        · exact .inl ((List.mem_cons.1 h).resolve_left htu)
        · exact .inr h

/-! ### C70 -/

/-- **C70**: closing narrow passages ends, never reads or writes outside of the map or of the lookup table, and in the result
(1) two obstacles of the map nearer to each other than the width are connected by a chain of neighbouring obstacles;
(2) obstacles stay; (3) a cell that becomes an obstacle gets the full probability and lies in the rectangle spanned by two such
obstacles, or had the class 255 that the operator uses for its marks; (4) all other cells keep class and probability. -/
theorem C70_narrow (g : Geo) (hx : 0 < g.sx) (hy : 0 < g.sy) (hr : 0 ≤ g.r) (fuel : Nat) (hf : max g.w g.h ≤ fuel) (s : Data) :
    ∃ s', closeNarrow g fuel s = some s' ∧
      (∀ a b, In g a → In g b → s.1 a = OBSTACLE → s.1 b = OBSTACLE → Near g a b → Conn (fun t => In g t ∧ s'.1 t = OBSTACLE) a b) ∧
      (∀ t, s.1 t = OBSTACLE → s'.1 t = OBSTACLE ∧ s'.2 t = s.2 t) ∧
      (∀ t, s'.1 t ≠ s.1 t → In g t ∧ s'.1 t = OBSTACLE ∧ s'.2 t = 255 ∧
        (s.1 t = 255 ∨ ∃ a b, In g a ∧ In g b ∧ s.1 a = OBSTACLE ∧ s.1 b = OBSTACLE ∧ Near g a b ∧ InBox a b t)) ∧
      (∀ t, s'.1 t = s.1 t → s'.2 t = s.2 t) := by
  have key : ∀ C : List Cell, (∀ c ∈ C, In g c) → ∃ M : List Cell,
      (∀ s', Same s.1 s' → C.foldlM (fun s c => if s.1 c = OBSTACLE then markAll g fuel s c else some s) s' = some (M.foldl markCell s')) ∧
      (∀ t ∈ M, In g t ∧ ∃ a b, In g a ∧ In g b ∧ s.1 a = OBSTACLE ∧ s.1 b = OBSTACLE ∧ Near g a b ∧ InBox a b t) ∧
      ∀ c ∈ C, ∀ e, In g e → s.1 c = OBSTACLE → s.1 e = OBSTACLE → Near g c e → ∀ Q : Cell → Prop, Q e → (∀ u ∈ M, Q u) → Conn Q e c := by
    intro C hC
    induction C with
    | nil => exact ⟨[], fun s _ => rfl, fun t ht => absurd ht List.not_mem_nil, fun c h => absurd h List.not_mem_nil⟩
    | cons c C ih =>
      obtain ⟨M, m1, m2, m3⟩ := ih fun c hc => hC c (List.mem_cons_of_mem _ hc)
      have hc := hC c List.mem_cons_self
      by_cases ho : s.1 c = OBSTACLE
      · obtain ⟨L, l1, l2, l3⟩ := markAll_spec hx hy hr (o := s.1) hc hf
        refine ⟨L ++ M, fun s' hs => ?_, ?_, ?_⟩
        · rw [List.foldlM_cons, if_pos ((hs c).2 ho), l1 s' hs, List.foldl_append]
          exact m1 _ (same_marks L hs)
        · intro t ht
          rcases List.mem_append.1 ht with ht | ht
          · obtain ⟨h1, e, h2, h3, h4, h5⟩ := l2 t ht
            exact ⟨h1, c, e, hc, h2, ho, h3, h4, h5⟩
          · exact m2 t ht
        · intro c' hc' e he ho' hoe hn Q hQ hQM
          rcases List.mem_cons.1 hc' with rfl | hc'
          · exact l3 e he hoe hn Q hQ fun u hu => hQM u (List.mem_append_left _ hu)
          · exact m3 c' hc' e he ho' hoe hn Q hQ fun u hu => hQM u (List.mem_append_right _ hu)
      · refine ⟨M, fun s' hs => ?_, m2, ?_⟩
        · rw [List.foldlM_cons, if_neg (fun h => ho ((hs c).1 h))]
          exact m1 s' hs
        · intro c' hc' e he ho'
          rcases List.mem_cons.1 hc' with rfl | hc'
          · exact absurd ho' ho
          · exact m3 c' hc' e he ho'
  have hcells : ∀ c ∈ cells g.w g.h, In g c := fun c hc => mem_cells.1 hc
  obtain ⟨M, m1, m2, m3⟩ := key _ hcells
  have hs : Same s.1 s := fun t => Iff.rfl
  have hval := marks_value M hs
  set s1 := M.foldl markCell s with hs1
  refine ⟨(cells g.w g.h).foldl (fun s t => if s.1 t = 255 then (Function.update s.1 t OBSTACLE, Function.update s.2 t 255) else s) s1, ?_, ?_⟩
  · unfold closeNarrow
    rw [m1 s hs]
    rfl
  have hfin := fun t => finish_value (cells g.w g.h) s1 t
  have hout : ∀ t, ¬In g t → (((cells g.w g.h).foldl (fun s t => if s.1 t = 255 then (Function.update s.1 t OBSTACLE, Function.update s.2 t 255) else s) s1).1 t = s.1 t ∧
      ((cells g.w g.h).foldl (fun s t => if s.1 t = 255 then (Function.update s.1 t OBSTACLE, Function.update s.2 t 255) else s) s1).2 t = s.2 t) := by
    intro t ht
    have hM : ¬(t ∈ M ∧ s.1 t ≠ OBSTACLE) := fun h => ht (m2 t h.1).1
    have h := hval t
    rw [if_neg hM, if_neg hM] at h
    rw [← h.1, ← h.2]
    exact finish_out (cells g.w g.h) s1 t fun h => ht (hcells t h)
  generalize (cells g.w g.h).foldl (fun s t => if s.1 t = 255 then (Function.update s.1 t OBSTACLE, Function.update s.2 t 255) else s) s1 = s2 at hfin hout
  have hin : ∀ t, In g t → s2.1 t = (if s1.1 t = 255 then OBSTACLE else s1.1 t) ∧ s2.2 t = (if s1.1 t = 255 then 255 else s1.2 t) :=
    fun t ht => hfin t (.inl (mem_cells.2 ht))
  have hobs : ∀ t, s.1 t = OBSTACLE → s2.1 t = OBSTACLE ∧ s2.2 t = s.2 t := by
    intro t ht
    by_cases hti : In g t
    · have h := hval t
      rw [if_neg (fun h => h.2 ht), if_neg (fun h => h.2 ht)] at h
      have h' := hin t hti
      rw [h.1, if_neg (by rw [ht]; unfold OBSTACLE; omega), if_neg (by rw [ht]; unfold OBSTACLE; omega), h.2] at h'
      exact ⟨h'.1.trans ht, h'.2⟩
    · rw [(hout t hti).1, (hout t hti).2]
      exact ⟨ht, rfl⟩
  have hmark : ∀ t ∈ M, In g t ∧ s2.1 t = OBSTACLE := by
    intro t ht
    have hti := (m2 t ht).1
    refine ⟨hti, ?_⟩
    by_cases ho : s.1 t = OBSTACLE
    · exact (hobs t ho).1
    · have h := (hval t).1
      rw [if_pos ⟨ht, ho⟩] at h
      rw [(hin t hti).1, if_pos h]
  refine ⟨?_, hobs, ?_, ?_⟩
  · intro a b ha hb hoa hob hn
    have hn' : Near g b a := by
      refine ⟨hn.1.symm, ?_⟩
      have : sqDist g b a = sqDist g a b := by
        unfold sqDist
        ring
      rw [this]
      exact hn.2
    exact m3 b (mem_cells.2 hb) a ha hob hoa hn' _ ⟨ha, (hobs a hoa).1⟩ hmark
  · intro t ht
    by_cases hti : In g t
    · by_cases h255 : s1.1 t = 255
      · refine ⟨hti, ?_, ?_, ?_⟩
        · rw [(hin t hti).1, if_pos h255]
        · rw [(hin t hti).2, if_pos h255]
        · have h := (hval t).1
          by_cases hM : t ∈ M ∧ s.1 t ≠ OBSTACLE
          · exact .inr (m2 t hM.1).2
          · rw [if_neg hM] at h
            exact .inl (h ▸ h255)
      · have h := (hval t).1
        by_cases hM : t ∈ M ∧ s.1 t ≠ OBSTACLE
        · rw [if_pos hM] at h
          exact absurd h h255
        · rw [if_neg hM] at h
          rw [(hin t hti).1, if_neg h255, h] at ht
          exact absurd rfl ht
    · exact absurd (hout t hti).1 ht
  · intro t ht
    by_cases hti : In g t
    · by_cases ho : s.1 t = OBSTACLE
      · exact (hobs t ho).2
      · by_cases h255 : s1.1 t = 255
        · rw [(hin t hti).1, if_pos h255] at ht
          exact absurd ht.symm ho
        · have h := hval t
          by_cases hM : t ∈ M ∧ s.1 t ≠ OBSTACLE
          · rw [if_pos hM] at h
            exact absurd h.1 h255
          · rw [if_neg hM, if_neg hM] at h
            rw [(hin t hti).2, if_neg h255, h.2]
    · exact (hout t hti).2
where
  finish_out : ∀ (C : List Cell) (s : Data) (t : Cell), t ∉ C →
    (C.foldl (fun s t => if s.1 t = 255 then (Function.update s.1 t OBSTACLE, Function.update s.2 t 255) else s) s).1 t = s.1 t ∧
    (C.foldl (fun s t => if s.1 t = 255 then (Function.update s.1 t OBSTACLE, Function.update s.2 t 255) else s) s).2 t = s.2 t
    | [], _, _, _ => ⟨rfl, rfl⟩
    | u :: C, s, t, h => by
      have h1 := finish_out C (if s.1 u = 255 then (Function.update s.1 u OBSTACLE, Function.update s.2 u 255) else s) t fun hh => h (List.mem_cons_of_mem _ hh)
      rw [List.foldl_cons, h1.1, h1.2]
      have hu : t ≠ u := fun e => h (e ▸ List.mem_cons_self)
      by_cases hs : s.1 u = 255
      · rw [if_pos hs]
        exact ⟨Function.update_of_ne hu .., Function.update_of_ne hu ..⟩
      · rw [if_neg hs]
        exact ⟨rfl, rfl⟩

/-- two obstacles three cells apart in a row of six, width three and a half cells: the two cells between them become obstacles -/
example : ((closeNarrow ⟨6, 1, 1, 1, 7 / 2⟩ 6 (fun t => if t.1 = 1 ∨ t.1 = 4 then 1 else 3, fun _ => 9)).map fun s =>
    (List.range 6).map fun x => (s.1 (x, 0), s.2 (x, 0))) = some [(3, 9), (1, 9), (1, 255), (1, 255), (1, 9), (3, 9)] := by decide +kernel

#print axioms C70_narrow

end Envire.Simple
