import Verif.Maps.TravModel
import Mathlib.Tactic.Linarith
import Mathlib.Tactic.FieldSimp
import Mathlib.Tactic.NormNum
/-! Properties C40, C41, C42, C61 to C64: traversability grid. -/
namespace Envire.Trav

/-! ### C40 -/

theorem setClass_length (t : Table) (k : Nat) (c : Class) : (setClass t k c).length = max t.length (k + 1) := by
  unfold setClass
  dsimp only
  split
  · simp
    omega
  · simp
    omega

theorem setClass_get (t : Table) (k : Nat) (c : Class) : (setClass t k c)[k]? = some c := by
  unfold setClass
  dsimp only
  rw [List.getElem?_set_self]
  split
  · simp
    omega
  · omega

theorem setClass_get_ne (t : Table) {k j : Nat} (c : Class) (h : j ≠ k) (hj : j < t.length) : (setClass t k c)[j]? = t[j]? := by
  unfold setClass
  dsimp only
  rw [List.getElem?_set_ne (by omega)]
  split
  · rw [List.getElem?_append_left hj]
  · rfl

/-- calls on the class table with their results -/
inductive Call where
  | register (c : Class) (result : Option Nat)
  | set (id : Nat) (c : Class)

/-- the calls made so far, newest first -/
inductive Exec : List Call → Table → Prop where
  | init : Exec [] []
  | registered {h t t' c id} : Exec h t → register t c = some (id, t') → Exec (.register c (some id) :: h) t'
  | refused {h t c} : Exec h t → register t c = none → Exec (.register c none :: h) t
  | set {h t id c} : Exec h t → id < 256 → Exec (.set id c :: h) (setClass t id c)

/-- the calls that gave a class to an id -/
def Call.gives (a : Call) (id : Nat) (c : Class) : Prop := a = .register c (some id) ∨ a = .set id c

theorem Exec.length_le {h t} (e : Exec h t) : t.length ≤ 256 := by
  induction e with
  | init => simp
  | registered _ hr ih =>
    unfold register at hr
    split at hr
    · cases hr
    · cases hr
      rw [setClass_length]
      omega
  | refused _ _ ih => exact ih
  | set _ hi ih =>
    rw [setClass_length]
    omega

/-- an id that was given is inside the table -/
theorem Exec.given_lt {h t} (e : Exec h t) : ∀ a ∈ h, ∀ id c, a.gives id c → id < t.length := by
  induction e with
  | init => intro a ha; simp at ha
  | registered e hr ih =>
    intro a ha id c hg
    unfold register at hr
    split at hr
    · cases hr
    · rename_i hlt
      cases hr
      rw [setClass_length]
      rcases List.mem_cons.1 ha with rfl | ha
      · rcases hg with h | h <;> cases h
        omega
      · have := ih a ha id c hg
        omega
  | refused _ _ ih =>
    intro a ha id c hg
    rcases List.mem_cons.1 ha with rfl | ha
    · rcases hg with h | h <;> cases h
    · exact ih a ha id c hg
  | set _ hi ih =>
    intro a ha id c hg
    rw [setClass_length]
    rcases List.mem_cons.1 ha with rfl | ha
    · rcases hg with h | h <;> cases h
      omega
    · have := ih a ha id c hg
      omega

/-- **C40** Registration: a new id was never returned by a registration nor set explicitly before, it is a byte, and the class is found under
it; generally the class of an id is the one of the last call that gave it; registration is refused only if id 254 is
already in use, and it leaves the table unchanged then. -/
theorem C40_register {h t} (e : Exec h t) :
    (∀ c id t', register t c = some (id, t') → id < 256 ∧ (∀ a ∈ h, ∀ c', ¬ a.gives id c') ∧ getClass t' id = .ok c) ∧
    (∀ h1 h2 a id c, h = h1 ++ a :: h2 → a.gives id c → (∀ b ∈ h1, ∀ c', ¬ b.gives id c') → getClass t id = .ok c) ∧
    (∀ c, register t c = none → 255 ≤ t.length) ∧
    (∀ id, (∃ c, getClass t id = .ok c) ∨ getClass t id = .throws) := by
  refine ⟨?_, ?_, ?_, ?_⟩
  · intro c id t' hr
    unfold register at hr
    split at hr
    · cases hr
    · rename_i hlt
      simp only [Option.some.injEq, Prod.mk.injEq] at hr
      obtain ⟨rfl, rfl⟩ := hr
      have hid : (t.length + 1) % 256 = t.length + 1 := by omega
      rw [hid]
      refine ⟨by omega, ?_, ?_⟩
      · intro a ha c' hg
        have := e.given_lt a ha _ c' hg
        omega
      · unfold getClass
        rw [setClass_get]
  · induction e with
    | init => intro h1 h2 a id c he; simp at he
    | @registered h t t' c0 id0 e hr ih =>
      intro h1 h2 a id c he hg hn
      unfold register at hr
      split at hr
      · cases hr
      · rename_i hlt
        simp only [Option.some.injEq, Prod.mk.injEq] at hr
        obtain ⟨rfl, rfl⟩ := hr
        cases h1 with
        | nil =>
          simp only [List.nil_append, List.cons.injEq] at he
          obtain ⟨rfl, rfl⟩ := he
          rcases hg with h | h <;> cases h
          unfold getClass
          rw [setClass_get]
        | cons b h1 =>
          simp only [List.cons_append, List.cons.injEq] at he
          obtain ⟨rfl, rfl⟩ := he
          have := ih h1 h2 a id c rfl hg (fun b hb => hn b (List.mem_cons_of_mem _ hb))
          have hl := e.given_lt a (by simp) id c hg
          unfold getClass at this ⊢
          rw [setClass_get_ne _ _ (by omega) hl]
          exact this
    | refused e hr ih =>
      intro h1 h2 a id c he hg hn
      cases h1 with
      | nil =>
        simp only [List.nil_append, List.cons.injEq] at he
        obtain ⟨rfl, rfl⟩ := he
        rcases hg with h | h <;> cases h
      | cons b h1 =>
        simp only [List.cons_append, List.cons.injEq] at he
        obtain ⟨rfl, rfl⟩ := he
        exact ih h1 h2 a id c rfl hg (fun b hb => hn b (List.mem_cons_of_mem _ hb))
    | @set h t id0 c0 e hi ih =>
      intro h1 h2 a id c he hg hn
      cases h1 with
      | nil =>
        simp only [List.nil_append, List.cons.injEq] at he
        obtain ⟨rfl, rfl⟩ := he
        rcases hg with h | h <;> cases h
        unfold getClass
        rw [setClass_get]
      | cons b h1 =>
        simp only [List.cons_append, List.cons.injEq] at he
        obtain ⟨rfl, rfl⟩ := he
        have := ih h1 h2 a id c rfl hg (fun b hb => hn b (List.mem_cons_of_mem _ hb))
        have hl := e.given_lt a (by simp) id c hg
        have hne : id ≠ id0 := by
          rintro rfl
          exact hn (.set id c0) (by simp) c0 (Or.inr rfl)
        unfold getClass at this ⊢
        rw [setClass_get_ne _ _ hne hl]
        exact this
  · intro c hr
    unfold register at hr
    split at hr
    · assumption
    · cases hr
  · intro id
    unfold getClass
    cases t[id]? with
    | none => exact Or.inr rfl
    | some c => exact Or.inl ⟨c, rfl⟩

/-- a history: two registrations and a class set explicitly -/
example : ∃ t, Exec [.set 7 ⟨1⟩, .register ⟨1 / 2⟩ (some 3), .register ⟨0⟩ (some 1)] t ∧ getClass t 3 = .ok ⟨1 / 2⟩ ∧ (register t ⟨1⟩).map (·.1) = some 9 :=
  ⟨_, .set (.registered (.registered .init rfl) rfl) (by decide), by decide +kernel, by decide +kernel⟩

/-! ### C64 -/

def registerN : Nat → Table → Option Table
  | 0, t => some t
  | n + 1, t => (register t ⟨1⟩).bind fun r => registerN n r.2

/-- **C64, the code violates the property**: registration skips every second id. After 128 registrations the next one is refused, though 128 ids
(for example 0, 2, 254) were never used. -/
theorem C64_half_of_the_ids :
    (∀ n, n ≤ 128 → ∃ t, registerN n [] = some t ∧ t.length = 2 * n) ∧ (∃ t, registerN 128 [] = some t ∧ register t ⟨1⟩ = none ∧ t[254]? = some Class.empty) := by
  have key : ∀ n (t : Table), t.length + 2 * n ≤ 256 → ∃ t', registerN n t = some t' ∧ t'.length = t.length + 2 * n := by
    intro n
    induction n with
    | zero => intro t _; exact ⟨t, rfl, rfl⟩
    | succ n ih =>
      intro t ht
      unfold registerN register
      rw [if_neg (by omega)]
      dsimp only [Option.bind_some]
      have hid : (t.length + 1) % 256 = t.length + 1 := by omega
      obtain ⟨t', e, hl⟩ := ih (setClass t ((t.length + 1) % 256) ⟨1⟩) (by rw [setClass_length, hid]; omega)
      refine ⟨t', e, ?_⟩
      rw [hl, setClass_length, hid]
      omega
  refine ⟨fun n hn => ?_, ?_⟩
  · obtain ⟨t, h1, h2⟩ := key n [] (by simp; omega)
    exact ⟨t, h1, by simpa using h2⟩
  · have h : ((registerN 128 []).map fun t => (register t ⟨1⟩ == none, t[254]?)) = some (true, some Class.empty) := by decide +kernel
    obtain ⟨t, h1, h2⟩ := Option.map_eq_some_iff.1 h
    simp only [Prod.mk.injEq, beq_iff_eq] at h2
    exact ⟨t, h1, h2.1, h2.2⟩

/-- **C64, what is true**: registration succeeds as long as less than 255 ids are in use. Missing: the ids that are skipped count as used. -/
theorem C64_register_partial (t : Table) (c : Class) (h : t.length < 255) : ∃ id t', register t c = some (id, t') ∧ t'.length = t.length + 2 := by
  unfold register
  rw [if_neg (by omega)]
  refine ⟨_, _, rfl, ?_⟩
  rw [setClass_length]
  omega

/-! ### C41 -/

theorem addAll_ok (cells : List Nat) (hc : ∀ k ∈ cells, k < 255) : ∀ s : Stat, ∃ s', s.addAll cells = .ok s' ∧
    (∀ j, s'.counts j = s.counts j + cells.count j) ∧ s'.highest = cells.foldl max s.highest := by
  induction cells with
  | nil => intro s; exact ⟨s, rfl, fun j => by simp, rfl⟩
  | cons k l ih =>
    intro s
    have hk := hc k (by simp)
    unfold Stat.addAll Stat.add
    rw [if_pos hk]
    obtain ⟨s', e, h1, h2⟩ := ih (fun j hj => hc j (List.mem_cons_of_mem _ hj)) { counts := fun j => if j = k then s.counts j + 1 else s.counts j, highest := max s.highest k }
    refine ⟨s', e, fun j => ?_, h2⟩
    rw [h1, List.count_cons]
    dsimp only
    by_cases hj : j = k
    · subst hj
      simp
      omega
    · have : ¬ k = j := fun h => hj h.symm
      simp [hj, this]

theorem foldl_max_ge (l : List Nat) : ∀ a, a ≤ l.foldl max a ∧ ∀ k ∈ l, k ≤ l.foldl max a := by
  induction l with
  | nil => intro a; simp
  | cons b l ih =>
    intro a
    obtain ⟨h1, h2⟩ := ih (max a b)
    rw [List.foldl_cons]
    refine ⟨by omega, ?_⟩
    intro k hk
    rcases List.mem_cons.1 hk with rfl | hk
    · omega
    · exact h2 k hk

theorem foldl_max_lt (l : List Nat) (n : Nat) : ∀ a, a < n → (∀ k ∈ l, k < n) → l.foldl max a < n := by
  induction l with
  | nil => intro a ha _; exact ha
  | cons b l ih =>
    intro a ha h
    have := h b (by simp)
    exact ih _ (by omega) (fun k hk => h k (List.mem_cons_of_mem _ hk))

/-- the drivability of a class of the table -/
def drv (t : Table) (k : Nat) : Option ℚ := (t[k]?).map Class.getDrivability

theorem getDrivability_nonneg (c : Class) : 0 ≤ c.getDrivability := by
  unfold Class.getDrivability
  split
  · exact le_refl _
  · linarith

theorem drv_of_get {t : Table} {k : Nat} {c : Class} (h : getClass t k = .ok c) : drv t k = some c.getDrivability := by
  unfold getClass at h
  unfold drv
  cases e : t[k]? with
  | none => rw [e] at h; cases h
  | some c' => rw [e] at h; cases h; rfl

/-- the classes below i that occur: c is the best candidate among them -/
def Cur (t : Table) (s : Stat) (i : Nat) : Option (Nat × ℚ) → Prop
  | none => ∀ j < i, s.counts j = 0
  | some (k, d) => k < i ∧ s.counts k ≠ 0 ∧ drv t k = some d ∧ ∀ j < i, s.counts j ≠ 0 → ∃ e, drv t j = some e ∧ d ≤ e

theorem worstLoop_spec (t : Table) (s : Stat) : ∀ n i cur, Cur t s i cur →
    match worstLoop t s i n cur with
    | .ok k => k < i + n ∧ s.counts k ≠ 0 ∧ ∃ d, drv t k = some d ∧ ∀ j < i + n, s.counts j ≠ 0 → ∀ e, drv t j = some e → d ≤ e
    | .throws => (∀ j < i + n, s.counts j = 0) ∨ ∃ j < i + n, s.counts j ≠ 0 ∧ drv t j = none
    | .undefined => False := by
  intro n
  induction n with
  | zero =>
    intro i cur h
    cases cur with
    | none => exact Or.inl h
    | some p =>
      obtain ⟨k, d⟩ := p
      obtain ⟨g0, g1, g2, g3⟩ := h
      refine ⟨g0, g1, d, g2, ?_⟩
      intro j hj hne e he
      obtain ⟨e', he', hle⟩ := g3 j hj hne
      rw [he] at he'
      cases he'
      exact hle
  | succ n ih =>
    intro i cur h
    have hin : i + (n + 1) = i + 1 + n := by omega
    rw [hin]
    unfold worstLoop
    by_cases hc : s.counts i ≠ 0
    · rw [if_pos hc]
      cases hg : getClass t i with
      | undefined =>
        unfold getClass at hg
        split at hg <;> cases hg
      | throws =>
        refine Or.inr ⟨i, by omega, hc, ?_⟩
        unfold getClass at hg
        unfold drv
        cases e : t[i]? with
        | none => rfl
        | some c => rw [e] at hg; cases hg
      | ok c =>
        dsimp only
        have hd := drv_of_get hg
        have hnew : worse cur c.getDrivability = true → Cur t s (i + 1) (some (i, c.getDrivability)) := by
          intro hb
          refine ⟨by omega, hc, hd, ?_⟩
          intro j hj hne
          rcases Nat.lt_succ_iff_lt_or_eq.1 hj with hj | rfl
          · cases cur with
            | none => exact absurd (h j hj) hne
            | some p =>
              obtain ⟨k, d⟩ := p
              obtain ⟨e, he, hle⟩ := h.2.2.2 j hj hne
              have := of_decide_eq_true hb
              exact ⟨e, he, by linarith⟩
          · exact ⟨_, hd, le_refl _⟩
        by_cases hb : worse cur c.getDrivability = true
        · rw [if_pos hb]
          by_cases ht : c.isTraversable = true
          · rw [if_pos ht]
            exact ih (i + 1) _ (hnew hb)
          · rw [if_neg ht]
            refine ⟨by omega, hc, _, hd, ?_⟩
            intro j _ _ e he
            have h0 : c.getDrivability = 0 := by
              unfold Class.isTraversable at ht
              unfold Class.getDrivability
              simp only [gt_iff_lt, decide_eq_true_eq, not_lt] at ht
              split
              · rfl
              · linarith
            unfold drv at he
            obtain ⟨c', _, rfl⟩ := Option.map_eq_some_iff.1 he
            rw [h0]
            exact getDrivability_nonneg c'
        · rw [if_neg hb]
          apply ih
          cases cur with
          | none => exact absurd rfl hb
          | some p =>
            obtain ⟨k, d⟩ := p
            obtain ⟨g0, g1, g2, g3⟩ := h
            refine ⟨by omega, g1, g2, ?_⟩
            intro j hj hne
            rcases Nat.lt_succ_iff_lt_or_eq.1 hj with hj | rfl
            · exact g3 j hj hne
            · simp only [worse, gt_iff_lt, decide_eq_true_eq, not_lt] at hb
              exact ⟨_, hd, hb⟩
    · rw [if_neg hc]
      have h0 : s.counts i = 0 := not_not.1 hc
      apply ih
      cases cur with
      | none =>
        intro j hj
        rcases Nat.lt_succ_iff_lt_or_eq.1 hj with hj | rfl
        · exact h j hj
        · exact h0
      | some p =>
        obtain ⟨k, d⟩ := p
        obtain ⟨g0, g1, g2, g3⟩ := h
        refine ⟨by omega, g1, g2, ?_⟩
        intro j hj hne
        rcases Nat.lt_succ_iff_lt_or_eq.1 hj with hj | rfl
        · exact g3 j hj hne
        · exact absurd h0 hne

/-- **C41, what is true**: if no cell of the rectangle has class 255, then the query is defined; a class that is returned occurs in the rectangle
and no class that occurs there and has an entry in the table is less drivable; the query throws only if there is no cell or
a class without entry occurs. It succeeds if there are cells and all their classes have an entry. Missing: class 255. -/
theorem C41_worst_partial (t : Table) (cells : List Nat) (hc : ∀ k ∈ cells, k < 255) :
    worst t cells ≠ .undefined ∧
    (∀ k, worst t cells = .ok k → k ∈ cells ∧ ∃ d, drv t k = some d ∧ ∀ j ∈ cells, ∀ e, drv t j = some e → d ≤ e) ∧
    (worst t cells = .throws → cells = [] ∨ ∃ j ∈ cells, drv t j = none) ∧
    (cells = [] → worst t cells = .throws) ∧
    (cells ≠ [] → (∀ j ∈ cells, (drv t j).isSome = true) → ∃ k, worst t cells = .ok k) := by
  obtain ⟨s, e, h1, h2⟩ := addAll_ok cells hc ⟨fun _ => 0, 0⟩
  have hcount : ∀ j, s.counts j ≠ 0 ↔ j ∈ cells := by
    intro j
    rw [h1]
    simp [List.count_eq_zero]
  have hhigh : ∀ j ∈ cells, j < 0 + (s.highest + 1) := by
    intro j hj
    have := (foldl_max_ge cells 0).2 j hj
    rw [h2]
    dsimp only
    omega
  have hw : worst t cells = worstLoop t s 0 (s.highest + 1) none := by
    unfold worst
    rw [e]
  have hspec := worstLoop_spec t s (s.highest + 1) 0 none (fun j hj => absurd hj (by omega))
  rw [← hw] at hspec
  have hthrow : worst t cells = .throws → cells = [] ∨ ∃ j ∈ cells, drv t j = none := by
    intro h
    rw [h] at hspec
    rcases hspec with h0 | ⟨j, _, hj, hn⟩
    · left
      apply List.eq_nil_iff_forall_not_mem.2
      intro j hj
      exact (hcount j).2 hj (h0 j (hhigh j hj))
    · exact Or.inr ⟨j, (hcount j).1 hj, hn⟩
  have hund : worst t cells ≠ .undefined := by
    intro h
    rw [h] at hspec
    exact hspec
  have hok : ∀ k, worst t cells = .ok k → k ∈ cells ∧ ∃ d, drv t k = some d ∧ ∀ j ∈ cells, ∀ e, drv t j = some e → d ≤ e := by
    intro k h
    rw [h] at hspec
    obtain ⟨_, hk, d, hd, hm⟩ := hspec
    exact ⟨(hcount k).1 hk, d, hd, fun j hj e he => hm j (hhigh j hj) ((hcount j).2 hj) e he⟩
  refine ⟨hund, hok, hthrow, ?_, ?_⟩
  · intro hn
    cases hr : worst t cells with
    | ok k =>
      have := (hok k hr).1
      rw [hn] at this
      simp at this
    | throws => rfl
    | undefined => exact absurd hr hund
  · intro hne hall
    cases hr : worst t cells with
    | ok k => exact ⟨k, rfl⟩
    | throws =>
      rcases hthrow hr with h | ⟨j, hj, hn⟩
      · exact absurd h hne
      · have := hall j hj
        rw [hn] at this
        cases this
    | undefined => exact absurd hr hund

example : worst [⟨-1⟩, ⟨1 / 2⟩, ⟨1⟩, ⟨1 / 4⟩] [2, 1, 3, 2] = .ok 3 := by decide +kernel
example : worst [⟨0⟩, ⟨1 / 2⟩] [7, 0] = .ok 0 := by decide +kernel
example : worst [⟨1⟩, ⟨1 / 2⟩] [7, 0] = .throws := by decide +kernel

/-- **C41, the code violates the property**: a cell with class 255 (which registration can return) is counted outside of the array. -/
theorem C41_class_255 (t : Table) (cells : List Nat) (h : ∀ k ∈ cells, k < 256) (h255 : 255 ∈ cells) : worst t cells = .undefined := by
  have key : ∀ (cells : List Nat), (∀ k ∈ cells, k < 256) → 255 ∈ cells → ∀ s : Stat, s.addAll cells = .undefined := by
    intro cells
    induction cells with
    | nil => intro _ h; simp at h
    | cons k l ih =>
      intro hk h255 s
      unfold Stat.addAll Stat.add
      by_cases hlt : k < 255
      · rw [if_pos hlt]
        apply ih (fun j hj => hk j (List.mem_cons_of_mem _ hj))
        rcases List.mem_cons.1 h255 with rfl | h
        · omega
        · exact h
      · rw [if_neg hlt]
  unfold worst
  rw [key cells h h255]

/-- class 255 is returned by a registration -/
theorem C41_class_255_registered : ∃ t, registerN 127 [] = some t ∧ (register t ⟨1⟩).map (·.1) = some 255 := by
  have h : ((registerN 127 []).map fun t => (register t ⟨1⟩).map (·.1)) = some (some 255) := by decide +kernel
  obtain ⟨t, h1, h2⟩ := Option.map_eq_some_iff.1 h
  exact ⟨t, h1, h2⟩

/-! ### C42 -/

theorem storeProb_eq {p : ℚ} (h0 : 0 ≤ p) (h1 : p ≤ 1) : storeProb p = .ok ⌊p * 255⌋.toNat := by
  unfold storeProb
  rw [if_neg (by rintro (h | h) <;> linarith)]
  have hle : ⌊p * 255⌋ ≤ 255 := by
    have : ⌊p * 255⌋ ≤ ⌊(255 : ℚ)⌋ := Int.floor_le_floor (by linarith)
    simpa using this
  congr 1
  omega

theorem cast_floor {p : ℚ} (h0 : 0 ≤ p) : ((⌊p * 255⌋.toNat : Nat) : ℚ) = (⌊p * 255⌋ : ℚ) := by
  have : 0 ≤ ⌊p * 255⌋ := Int.floor_nonneg.2 (by linarith)
  have h : ((⌊p * 255⌋.toNat : Nat) : ℤ) = ⌊p * 255⌋ := Int.toNat_of_nonneg this
  exact_mod_cast congrArg (fun z : ℤ => (z : ℚ)) h

/-- **C42** A probability of the interval [0,1] is stored with an error below 1/255, never above it, exactly for 0 and 1, monotonically; what is
read can be stored again without change. Numbers above 1 become 1 (up to the range of uint32_t). -/
theorem C42_probability :
    (∀ p : ℚ, 0 ≤ p → p ≤ 1 → ∃ v, storeProb p = .ok v ∧ v < 256 ∧ loadProb v ≤ p ∧ p < loadProb v + 1 / 255) ∧
    (∃ v, storeProb 0 = .ok v ∧ loadProb v = 0) ∧ (∃ v, storeProb 1 = .ok v ∧ loadProb v = 1) ∧
    (∀ p q v w, 0 ≤ p → p ≤ q → q ≤ 1 → storeProb p = .ok v → storeProb q = .ok w → loadProb v ≤ loadProb w) ∧
    (∀ v, v < 256 → storeProb (loadProb v) = .ok v) ∧
    (∀ p : ℚ, 1 ≤ p → p * 255 < 4294967296 → storeProb p = .ok 255) := by
  refine ⟨?_, ⟨0, by decide +kernel, by decide +kernel⟩, ⟨255, by decide +kernel, by decide +kernel⟩, ?_, ?_, ?_⟩
  · intro p h0 h1
    refine ⟨_, storeProb_eq h0 h1, ?_, ?_, ?_⟩
    · have : ⌊p * 255⌋ ≤ ⌊(255 : ℚ)⌋ := Int.floor_le_floor (by linarith)
      simp at this
      omega
    · unfold loadProb
      rw [cast_floor h0]
      have := Int.floor_le (p * 255)
      linarith
    · unfold loadProb
      rw [cast_floor h0]
      have := Int.lt_floor_add_one (p * 255)
      linarith
  · intro p q v w h0 hpq h1 hv hw
    rw [storeProb_eq h0 (by linarith)] at hv
    rw [storeProb_eq (by linarith) h1] at hw
    cases hv
    cases hw
    unfold loadProb
    rw [cast_floor h0, cast_floor (by linarith)]
    have : ⌊p * 255⌋ ≤ ⌊q * 255⌋ := Int.floor_le_floor (by linarith)
    have : (⌊p * 255⌋ : ℚ) ≤ (⌊q * 255⌋ : ℚ) := by exact_mod_cast this
    linarith
  · intro v hv
    have hv' : (v : ℚ) ≤ 255 := by exact_mod_cast (by omega : v ≤ 255)
    have hv0 : (0 : ℚ) ≤ v := by exact_mod_cast Nat.zero_le v
    rw [storeProb_eq (by unfold loadProb; linarith) (by unfold loadProb; linarith)]
    unfold loadProb
    have : (v : ℚ) / 255 * 255 = v := by linarith
    rw [this]
    simp
  · intro p h1 h2
    unfold storeProb
    rw [if_neg (by rintro (h | h) <;> linarith)]
    have : ⌊(255 : ℚ)⌋ ≤ ⌊p * 255⌋ := Int.floor_le_floor (by linarith)
    simp at this
    congr 1
    omega

example : storeProb (1 / 2) = .ok 127 := by decide +kernel

/-! ### C61 -/

/-- **C61, the code violates the property**: isSet is inverted. It is false for every class that was constructed with a drivability and true for
the placeholder. -/
theorem C61_isSet_inverted : (∀ d c, Class.make d = .ok c → c.isSet = false) ∧ Class.empty.isSet = true := by
  refine ⟨?_, by decide +kernel⟩
  intro d c h
  unfold Class.make at h
  split at h
  · cases h
  · rename_i hn
    cases h
    unfold Class.isSet
    simp only [decide_eq_false_iff_not, not_lt]
    push Not at hn
    exact hn.1

/-- **C61, what is true**: the negation of isSet tells which classes are defined. Missing: isSet itself. -/
theorem C61_isSet_partial (c : Class) (h : c = Class.empty ∨ ∃ d, Class.make d = .ok c) : (∃ d, Class.make d = .ok c) ↔ c.isSet = false := by
  refine ⟨fun ⟨d, hd⟩ => C61_isSet_inverted.1 d c hd, ?_⟩
  intro hs
  rcases h with rfl | h
  · rw [C61_isSet_inverted.2] at hs
    cases hs
  · exact h

example : Class.make (1 / 2) = .ok ⟨1 / 2⟩ := by decide +kernel

/-! ### C62 -/

/-- a table that can be reached: at most 256 entries, each a placeholder or constructed -/
def Valid (t : Table) : Prop := t.length ≤ 256 ∧ ∀ c ∈ t, c = Class.empty ∨ ∃ d, Class.make d = .ok c

theorem make_getDrivability {c : Class} (h : c = Class.empty ∨ ∃ d, Class.make d = .ok c) : Class.make c.getDrivability = .ok ⟨c.getDrivability⟩ := by
  rcases h with rfl | ⟨d, h⟩
  · decide +kernel
  · unfold Class.make at h
    split at h
    · cases h
    · rename_i hn
      cases h
      push Not at hn
      have : (⟨d⟩ : Class).getDrivability = d := by
        unfold Class.getDrivability
        rw [if_neg (by dsimp only; linarith [hn.1])]
      rw [this]
      unfold Class.make
      rw [if_neg (by push Not; exact hn)]

/-- one step of loadTable -/
def loadStep (s : Stored) (r : Res Table) (i : Nat) : Res Table :=
  match r with
  | .ok t => match s.drivability i with
    | none => .ok t
    | some d => match Class.make d with
      | .ok c => .ok (setClass t (i % 256) c)
      | .throws => .throws
      | .undefined => .undefined
  | r => r

theorem loadTable_eq (t : Table) (s : Stored) : loadTable t s = (List.range s.count).foldl (loadStep s) (.ok t) := rfl

theorem loadTable_store (t : Table) (hv : Valid t) (u : Table) : ∀ n ≤ t.length,
    ∃ t', (List.range n).foldl (loadStep (storeTable t)) (.ok u) = .ok t' ∧ t'.length = max u.length n ∧
      (∀ i < n, t'[i]? = (t[i]?).map fun c => ⟨c.getDrivability⟩) ∧ (∀ i, n ≤ i → i < u.length → t'[i]? = u[i]?) := by
  intro n
  induction n with
  | zero => intro _; exact ⟨u, rfl, by simp, fun i hi => absurd hi (by omega), fun _ _ _ => rfl⟩
  | succ n ih =>
    intro hn
    obtain ⟨t', e, hl, h1, h2⟩ := ih (by omega)
    rw [List.range_succ, List.foldl_append, e]
    have hget : t[n]? = some t[n] := List.getElem?_eq_getElem (by omega)
    have hm := make_getDrivability (hv.2 t[n] (List.getElem_mem _))
    have hmod : n % 256 = n := by have := hv.1; omega
    refine ⟨setClass t' n ⟨t[n].getDrivability⟩, ?_, ?_, ?_, ?_⟩
    · simp only [List.foldl_cons, List.foldl_nil, loadStep, storeTable, hget, Option.map_some, hm, hmod]
    · rw [setClass_length, hl]
      omega
    · intro i hi
      rcases Nat.lt_succ_iff_lt_or_eq.1 hi with hi | rfl
      · rw [setClass_get_ne _ _ (by omega) (by omega), h1 i hi]
      · rw [setClass_get, hget]
        rfl
    · intro i hi hu
      rw [setClass_get_ne _ _ (by omega) (by omega), h2 i (by omega) hu]

/-- **C62, what is true**: loading what was written into a new grid gives a table of the same size where every class has the same drivability
and is traversable if and only if it was before; so getTraversabilityClass fails for the same ids. Missing: placeholders stay placeholders. -/
theorem C62_table_roundtrip_partial (t : Table) (hv : Valid t) : ∃ t', loadTable [] (storeTable t) = .ok t' ∧ t'.length = t.length ∧
    (∀ k c, getClass t k = .ok c → ∃ c', getClass t' k = .ok c' ∧ c'.getDrivability = c.getDrivability ∧ c'.isTraversable = c.isTraversable ∧
      (c ≠ Class.empty → c' = c)) ∧
    (∀ k, getClass t k = .throws → getClass t' k = .throws) := by
  obtain ⟨t', e, hl, h1, -⟩ := loadTable_store t hv [] t.length (le_refl _)
  have hlen : t'.length = t.length := by simpa using hl
  refine ⟨t', by rw [loadTable_eq]; exact e, hlen, ?_, ?_⟩
  · intro k c hg
    have hk : t[k]? = some c := by
      unfold getClass at hg
      cases e : t[k]? with
      | none => rw [e] at hg; cases hg
      | some c' => rw [e] at hg; cases hg; rfl
    have hlt : k < t.length := (List.getElem?_eq_some_iff.1 hk).1
    have hmem : c ∈ t := List.mem_of_getElem? hk
    refine ⟨⟨c.getDrivability⟩, ?_, ?_, ?_, ?_⟩
    · unfold getClass
      rw [h1 k hlt, hk]
      rfl
    · have := getDrivability_nonneg c
      change (if c.getDrivability < 0 then 0 else c.getDrivability) = c.getDrivability
      rw [if_neg (by linarith)]
    · unfold Class.isTraversable Class.getDrivability
      dsimp only
      split
      · rename_i hneg
        have : ¬ c.drivability > 0 := by linarith
        simp [this]
      · rfl
    · intro hne
      rcases hv.2 c hmem with h | ⟨d, h⟩
      · exact absurd h hne
      · have hs := C61_isSet_inverted.1 d c h
        unfold Class.isSet at hs
        unfold Class.getDrivability
        rw [if_neg (of_decide_eq_false hs)]
  · intro k hg
    unfold getClass at hg ⊢
    cases e : t[k]? with
    | some c => rw [e] at hg; cases hg
    | none =>
      have : t.length ≤ k := List.getElem?_eq_none_iff.1 e
      have : t'[k]? = none := List.getElem?_eq_none_iff.2 (by omega)
      rw [this]

example : Valid [Class.empty, ⟨1 / 2⟩] := by
  refine ⟨by decide, ?_⟩
  intro c hc
  simp only [List.mem_cons, List.not_mem_nil, or_false] at hc
  rcases hc with rfl | rfl
  · exact Or.inl rfl
  · exact Or.inr ⟨1 / 2, by decide +kernel⟩

/-- **C62, the code violates the property**: a placeholder becomes a defined class that is not traversable. -/
theorem C62_placeholder_defined : ∃ t', loadTable [] (storeTable [Class.empty]) = .ok t' ∧ t' = [⟨0⟩] ∧ Class.make 0 = .ok ⟨0⟩ ∧ (⟨0⟩ : Class) ≠ Class.empty :=
  ⟨_, by decide +kernel, rfl, by decide +kernel, by decide +kernel⟩

/-- **C62**: classes beyond the stored ones survive when a used grid is loaded -/
theorem C62_stale_classes : loadTable [⟨1⟩, ⟨1 / 2⟩] (storeTable [⟨0⟩]) = .ok [⟨0⟩, ⟨1 / 2⟩] := by decide +kernel

/-! ### C63 -/

/-- **C63** The worst probability is the minimum over the cells of the rectangle, and 1 if there is none. -/
theorem C63_worst_probability (cells : List Nat) (hc : ∀ v ∈ cells, v < 256) :
    (∀ v ∈ cells, worstProb cells ≤ loadProb v) ∧ (cells = [] → worstProb cells = 1) ∧ (cells ≠ [] → ∃ v ∈ cells, worstProb cells = loadProb v) := by
  have key : ∀ (l : List Nat) (w : ℚ), let r := l.foldl (fun w v => if w > loadProb v then loadProb v else w) w
      r ≤ w ∧ (∀ v ∈ l, r ≤ loadProb v) ∧ (r = w ∨ ∃ v ∈ l, r = loadProb v) := by
    intro l
    induction l with
    | nil => intro w; simp
    | cons a l ih =>
      intro w
      dsimp only
      rw [List.foldl_cons]
      obtain ⟨h1, h2, h3⟩ := ih (if w > loadProb a then loadProb a else w)
      have hle : (if w > loadProb a then loadProb a else w) ≤ w ∧ (if w > loadProb a then loadProb a else w) ≤ loadProb a := by
        split
        · exact ⟨by linarith, le_refl _⟩
        · exact ⟨le_refl _, by linarith⟩
      refine ⟨le_trans h1 hle.1, ?_, ?_⟩
      · intro v hv
        rcases List.mem_cons.1 hv with rfl | hv
        · exact le_trans h1 hle.2
        · exact h2 v hv
      · rcases h3 with h3 | ⟨v, hv, h3⟩
        · rw [h3]
          split
          · exact Or.inr ⟨a, by simp, rfl⟩
          · exact Or.inl rfl
        · exact Or.inr ⟨v, List.mem_cons_of_mem _ hv, h3⟩
  obtain ⟨h1, h2, h3⟩ := key cells 1
  refine ⟨h2, ?_, ?_⟩
  · rintro rfl
    rfl
  · intro hne
    rcases h3 with h3 | h3
    · obtain ⟨a, l, rfl⟩ := List.exists_cons_of_ne_nil hne
      refine ⟨a, by simp, le_antisymm (h2 a (by simp)) ?_⟩
      change worstProb (a :: l) = 1 at h3
      rw [h3]
      have : (a : ℚ) ≤ 255 := by exact_mod_cast (by have := hc a (by simp); omega : a ≤ 255)
      unfold loadProb
      linarith
    · exact h3

example : worstProb [255, 51, 102] = 1 / 5 := by decide +kernel

#print axioms C40_register
#print axioms C64_half_of_the_ids
#print axioms C64_register_partial
#print axioms C41_worst_partial
#print axioms C41_class_255
#print axioms C41_class_255_registered
#print axioms C42_probability
#print axioms C61_isSet_inverted
#print axioms C61_isSet_partial
#print axioms C62_table_roundtrip_partial
#print axioms C62_placeholder_defined
#print axioms C62_stale_classes
#print axioms C63_worst_probability

end Envire.Trav
