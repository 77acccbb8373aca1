import Verif.Ops.SlopeModel
import Mathlib.Tactic.Linarith
import Mathlib.Tactic.NormNum
import Mathlib.Tactic.Ring
import Mathlib.Tactic.IntervalCases
import Mathlib.Algebra.Order.Group.Abs

/-!
C89: the greatest step of a cell of a multi-level surface map, as computed by MLSSlope.
-/

namespace Envire.Slope

/-! ### specification -/

/-- p is the topmost patch of a cell (the first one of those with the same height) -/
def IsTop (l : List Patch) (p : Patch) : Prop :=
  ∃ l1 l2, l = l1 ++ p :: l2 ∧ (∀ q ∈ l1, q.mean < p.mean) ∧ ∀ q ∈ l2, q.mean ≤ p.mean

/-- p is the surface of the cell c: its topmost patch, if that has enough measurements -/
def Surface (cfg : Config) (mls : Cells) (c : Nat × Nat) (p : Patch) : Prop := IsTop (mls c.1 c.2) p ∧ cfg.required ≤ p.n

/-- s is the step between the surfaces of the cells c and d -/
def StepTo (cfg : Config) (mls : Cells) (c d : Nat × Nat) (s : ℚ) : Prop :=
  ∃ p q, Surface cfg mls c p ∧ Surface cfg mls d q ∧ s = |p.mean - q.mean| + if cfg.useStdev then p.stdev + q.stdev else 0

/-- the eight neighbours of a cell that is not at the border -/
def neighbours (c : Nat × Nat) : List (Nat × Nat) :=
  [(c.1, c.2 + 1), (c.1, c.2 - 1), (c.1 - 1, c.2 - 1), (c.1 + 1, c.2 + 1), (c.1 - 1, c.2), (c.1 + 1, c.2), (c.1 - 1, c.2 + 1), (c.1 + 1, c.2 - 1)]

/-- the neighbours that the code takes into account: not those below and to the lower right in row 0, nor the upper right one in the last row -/
def observed (height : Nat) (c : Nat × Nat) : List (Nat × Nat) :=
  (neighbours c).filter fun d => ¬ (d.2 = 0 ∧ c.1 ≤ d.1) ∧ ¬ (d.2 = height - 1 ∧ c.1 < d.1)

open Classical in
/-- the number of cells in a list that have a step to the cell c -/
noncomputable def number (cfg : Config) (mls : Cells) (c : Nat × Nat) (l : List (Nat × Nat)) : Nat :=
  l.countP fun d => decide (∃ s, StepTo cfg mls c d s)

/-! ### the topmost patch -/

theorem IsTop.unique {l : List Patch} {p q : Patch} (hp : IsTop l p) (hq : IsTop l q) : p = q := by
  obtain ⟨a, b, e, h1, h2⟩ := hp
  obtain ⟨a', b', e', h1', h2'⟩ := hq
  rw [e] at e'
  rcases List.append_eq_append_iff.1 e' with ⟨m, h3, h4⟩ | ⟨m, h3, h4⟩
  · cases m with
    | nil =>
      simp only [List.nil_append, List.cons.injEq] at h4
      exact h4.1
    | cons r m =>
      simp only [List.cons_append, List.cons.injEq] at h4
      have hpq := h1' p (by rw [h3, h4.1]; simp)
      have hqp := h2 q (by rw [h4.2]; simp)
      linarith
  · cases m with
    | nil =>
      simp only [List.nil_append, List.cons.injEq] at h4
      exact h4.1.symm
    | cons r m =>
      simp only [List.cons_append, List.cons.injEq] at h4
      have hpq := h1 q (by rw [h3, h4.1]; simp)
      have hqp := h2' p (by rw [h4.2]; simp)
      linarith

theorem foldl_top (ps : List Patch) (p : Patch) :
    IsTop (p :: ps) (ps.foldl (fun m q => if m.mean < q.mean then q else m) p) := by
  induction ps generalizing p with
  | nil => exact ⟨[], [], rfl, by simp, by simp⟩
  | cons q ps ih =>
    rw [List.foldl_cons]
    by_cases h : p.mean < q.mean
    · rw [if_pos h]
      obtain ⟨a, b, e, h1, h2⟩ := ih q
      refine ⟨p :: a, b, by rw [e]; rfl, ?_, h2⟩
      intro r hr
      rcases List.mem_cons.1 hr with rfl | hr
      · cases a with
        | nil =>
          simp only [List.nil_append, List.cons.injEq] at e
          rw [← e.1]
          exact h
        | cons x a =>
          simp only [List.cons_append, List.cons.injEq] at e
          have := h1 x (by simp)
          rw [← e.1] at this
          linarith
      · exact h1 r hr
    · rw [if_neg h]
      obtain ⟨a, b, e, h1, h2⟩ := ih p
      cases a with
      | nil =>
        simp only [List.nil_append, List.cons.injEq] at e
        rw [← e.1] at h2 ⊢
        refine ⟨[], q :: ps, rfl, by simp, ?_⟩
        intro r hr
        rcases List.mem_cons.1 hr with rfl | hr
        · exact not_lt.1 h
        · exact h2 r (e.2 ▸ hr)
      | cons x a =>
        simp only [List.cons_append, List.cons.injEq] at e
        refine ⟨p :: q :: a, b, congrArg (fun l => p :: q :: l) e.2, ?_, h2⟩
        have hp := h1 x (by simp)
        rw [← e.1] at hp
        intro r hr
        rcases List.mem_cons.1 hr with rfl | hr
        · exact hp
        · rcases List.mem_cons.1 hr with rfl | hr
          · exact lt_of_le_of_lt (not_lt.1 h) hp
          · exact h1 r (by simp [hr])

theorem maxElement_iff (l : List Patch) (p : Patch) : maxElement l = some p ↔ IsTop l p := by
  cases l with
  | nil =>
    constructor
    · intro h
      cases h
    · rintro ⟨a, b, e, -⟩
      simp at e
  | cons q l =>
    constructor
    · intro h
      have := foldl_top l q
      rw [Option.some.inj h] at this
      exact this
    · intro h
      exact congrArg some ((foldl_top l q).unique h)

/-- the surface of a cell -/
def top (cfg : Config) (mls : Cells) (c : Nat × Nat) : Option Patch := (maxElement (mls c.1 c.2)).filter fun q => q.n ≥ cfg.required

theorem top_iff (cfg : Config) (mls : Cells) (c : Nat × Nat) (p : Patch) : top cfg mls c = some p ↔ Surface cfg mls c p := by
  unfold top Surface
  rw [Option.filter_eq_some_iff, maxElement_iff]
  simp

/-- the step between two cells -/
def st (cfg : Config) (mls : Cells) (c d : Nat × Nat) : Option ℚ :=
  match top cfg mls c, top cfg mls d with
  | some p, some q => some (step cfg.useStdev p q)
  | _, _ => none

theorem step_eq (u : Bool) (p q : Patch) : step u p q = |p.mean - q.mean| + if u then p.stdev + q.stdev else 0 := by
  unfold step
  dsimp only
  split
  · rename_i h
    rw [abs_of_pos (by linarith)]
    cases u
    · simp
    · simp only [if_true]
      ring
  · rename_i h
    rw [abs_of_nonpos (by linarith)]
    cases u
    · simp
    · simp only [if_true]
      ring

theorem step_comm (u : Bool) (p q : Patch) : step u p q = step u q p := by
  rw [step_eq, step_eq, abs_sub_comm, add_comm p.stdev]

theorem st_iff (cfg : Config) (mls : Cells) (c d : Nat × Nat) (s : ℚ) : st cfg mls c d = some s ↔ StepTo cfg mls c d s := by
  unfold st StepTo
  simp only [← top_iff]
  constructor
  · intro h
    cases e : top cfg mls c with
    | none => simp [e] at h
    | some p =>
      cases e' : top cfg mls d with
      | none => simp [e, e'] at h
      | some q =>
        simp only [e, e', Option.some.injEq] at h
        exact ⟨p, q, rfl, rfl, by rw [← h, step_eq]⟩
  · rintro ⟨p, q, e, e', h⟩
    rw [e, e']
    dsimp only
    rw [h, step_eq]

theorem st_comm (cfg : Config) (mls : Cells) (c d : Nat × Nat) : st cfg mls c d = st cfg mls d c := by
  unfold st
  cases top cfg mls c <;> cases top cfg mls d <;> simp [step_comm]

/-! ### the sweep as a list of events -/

/-- one comparison of two cells -/
structure Event where
  this : Nat × Nat
  ti : Nat
  other : Nat × Nat
  oi : Nat

def doEvent (cfg : Config) (mls : Cells) (s : State) (e : Event) : State :=
  match top cfg mls e.this with
  | none => s
  | some p => updateGradient cfg mls e.ti e.this.1 e.this.2 e.oi e.other.1 e.other.2 p s

def events (x y : Nat) : List Event :=
  [⟨(x, y), 0, (x, y + 1), 1⟩, ⟨(x, y), 2, (x - 1, y - 1), 3⟩, ⟨(x, y), 4, (x - 1, y), 5⟩, ⟨(x, y), 6, (x - 1, y + 1), 7⟩]

theorem visit_eq (cfg : Config) (mls : Cells) (x y : Nat) (s : State) :
    visit cfg mls x y s = (events x y).foldl (doEvent cfg mls) s := by
  unfold visit events
  simp only [List.foldl_cons, List.foldl_nil, doEvent]
  unfold top
  dsimp only
  cases h : maxElement (mls x y) with
  | none => rfl
  | some p =>
    dsimp only
    by_cases hr : cfg.required > 0 ∧ p.n < cfg.required
    · rw [if_pos hr, Option.filter_some, if_neg (by simpa using hr.2)]
    · rw [if_neg hr, Option.filter_some, if_pos (by
        simp only [ge_iff_le, decide_eq_true_eq]
        omega)]

def allEvents (width height : Nat) : List Event :=
  (List.range' 1 (width - 1)).flatMap fun x => (List.range' 1 (height - 2)).flatMap fun y => events x y

theorem sweep_eq (cfg : Config) (mls : Cells) (width height : Nat) :
    sweep cfg mls width height = (allEvents width height).foldl (doEvent cfg mls) { diffs := fun _ _ _ => some 0, count := fun _ _ => 0 } := by
  unfold sweep allEvents
  rw [List.foldl_flatMap]
  simp only [List.foldl_flatMap, visit_eq]

/-- the neighbour of a slot -/
def nb (c : Nat × Nat) : Nat → Nat × Nat
  | 0 => (c.1, c.2 + 1)
  | 1 => (c.1, c.2 - 1)
  | 2 => (c.1 - 1, c.2 - 1)
  | 3 => (c.1 + 1, c.2 + 1)
  | 4 => (c.1 - 1, c.2)
  | 5 => (c.1 + 1, c.2)
  | 6 => (c.1 - 1, c.2 + 1)
  | _ => (c.1 + 1, c.2 - 1)

theorem neighbours_eq (c : Nat × Nat) : neighbours c = (List.range 8).map (nb c) := rfl

def Event.Good (e : Event) : Prop := nb e.this e.ti = e.other ∧ nb e.other e.oi = e.this ∧ e.this ≠ e.other

theorem allEvents_good (width height : Nat) : ∀ e ∈ allEvents width height, e.Good := by
  intro e he
  obtain ⟨x, hx, he⟩ := List.mem_flatMap.1 he
  obtain ⟨y, hy, he⟩ := List.mem_flatMap.1 he
  rw [List.mem_range'_1] at hx hy
  unfold events at he
  simp only [List.mem_cons, List.not_mem_nil, or_false] at he
  rcases he with rfl | rfl | rfl | rfl
  · exact ⟨rfl, by simp [nb], by simp⟩
  · refine ⟨rfl, ?_, ?_⟩
    · refine Prod.ext ?_ ?_
      · change x - 1 + 1 = x
        omega
      · change y - 1 + 1 = y
        omega
    · intro h
      have := congrArg Prod.fst h
      dsimp only at this
      omega
  · refine ⟨rfl, ?_, ?_⟩
    · refine Prod.ext ?_ ?_
      · change x - 1 + 1 = x
        omega
      · change y = y
        omega
    · intro h
      have := congrArg Prod.fst h
      dsimp only at this
      omega
  · refine ⟨rfl, ?_, ?_⟩
    · refine Prod.ext ?_ ?_
      · change x - 1 + 1 = x
        omega
      · change y + 1 - 1 = y
        omega
    · intro h
      have := congrArg Prod.fst h
      dsimp only at this
      omega

/-- the event writes to the slot k of the cell c -/
def Event.touches (e : Event) (c : Nat × Nat) (k : Nat) : Bool := (e.this = c ∧ e.ti = k) ∨ (e.other = c ∧ e.oi = k)

theorem updateGradient_some (cfg : Config) (mls : Cells) (e : Event) (p q : Patch) (s : State) (hq : top cfg mls e.other = some q) :
    updateGradient cfg mls e.ti e.this.1 e.this.2 e.oi e.other.1 e.other.2 p s =
      { diffs := setDiff (setDiff s.diffs e.this.2 e.this.1 e.ti (some (step cfg.useStdev p q))) e.other.2 e.other.1 e.oi (some (step cfg.useStdev p q))
        count := incCount (incCount s.count e.this.2 e.this.1) e.other.2 e.other.1 } := by
  unfold updateGradient
  unfold top at hq
  rw [hq]

theorem updateGradient_none (cfg : Config) (mls : Cells) (e : Event) (p : Patch) (s : State) (hq : top cfg mls e.other = none) :
    updateGradient cfg mls e.ti e.this.1 e.this.2 e.oi e.other.1 e.other.2 p s =
      { s with diffs := setDiff (setDiff s.diffs e.other.2 e.other.1 e.ti none) e.other.2 e.other.1 e.oi none } := by
  unfold updateGradient
  unfold top at hq
  rw [hq]

theorem setDiff_apply (d : Nat → Nat → Nat → Option ℚ) (a c : Nat × Nat) (i k : Nat) (v : Option ℚ) :
    setDiff d a.2 a.1 i v c.2 c.1 k = if a = c ∧ i = k then v else d c.2 c.1 k := by
  unfold setDiff
  by_cases h : a = c ∧ i = k
  · rw [if_pos h, if_pos ⟨by rw [h.1], by rw [h.1], h.2.symm⟩]
  · rw [if_neg h, if_neg]
    rintro ⟨h1, h2, h3⟩
    exact h ⟨Prod.ext h2.symm h1.symm, h3.symm⟩

theorem incCount_apply (n : Nat → Nat → Nat) (a c : Nat × Nat) :
    incCount n a.2 a.1 c.2 c.1 = n c.2 c.1 + if a = c then 1 else 0 := by
  unfold incCount
  by_cases h : a = c
  · rw [if_pos h, if_pos ⟨by rw [h], by rw [h]⟩]
  · rw [if_neg h, if_neg]
    · rfl
    · rintro ⟨h1, h2⟩
      exact h (Prod.ext h2.symm h1.symm)

theorem doEvent_diffs (cfg : Config) (mls : Cells) (s : State) (e : Event) (he : e.Good) (c : Nat × Nat) (p : Patch)
    (hc : top cfg mls c = some p) (k : Nat) :
    (doEvent cfg mls s e).diffs c.2 c.1 k = if e.touches c k then (st cfg mls c (nb c k)).orElse fun _ => s.diffs c.2 c.1 k else s.diffs c.2 c.1 k := by
  unfold doEvent Event.touches
  simp only [decide_eq_true_eq]
  cases ht : top cfg mls e.this with
  | none =>
    dsimp only
    split
    · rename_i h
      rcases h with ⟨rfl, -⟩ | ⟨rfl, rfl⟩
      · rw [hc] at ht
        cases ht
      · rw [he.2.1]
        simp [st, ht]
    · rfl
  | some t =>
    dsimp only
    cases ho : top cfg mls e.other with
    | none =>
      have hne : e.other ≠ c := by
        rintro rfl
        rw [hc] at ho
        cases ho
      rw [updateGradient_none _ _ _ _ _ ho]
      dsimp only
      rw [setDiff_apply, setDiff_apply, if_neg (fun h => hne h.1), if_neg (fun h => hne h.1)]
      split
      · rename_i h
        rcases h with ⟨rfl, rfl⟩ | ⟨h, -⟩
        · rw [he.1]
          simp [st, ht, ho]
        · exact absurd h hne
      · rfl
    | some q =>
      rw [updateGradient_some _ _ _ _ _ _ ho]
      dsimp only
      rw [setDiff_apply, setDiff_apply]
      by_cases h1 : e.other = c ∧ e.oi = k
      · rw [if_pos h1, if_pos (.inr h1)]
        obtain ⟨rfl, rfl⟩ := h1
        rw [he.2.1, st_comm]
        simp [st, ht, ho]
      · rw [if_neg h1]
        by_cases h2 : e.this = c ∧ e.ti = k
        · rw [if_pos h2, if_pos (.inl h2)]
          obtain ⟨rfl, rfl⟩ := h2
          rw [he.1]
          simp [st, ht, ho]
        · rw [if_neg h2, if_neg (fun h => h.elim h2 h1)]

theorem events_diffs (cfg : Config) (mls : Cells) (L : List Event) (hL : ∀ e ∈ L, e.Good) (s : State) (c : Nat × Nat) (p : Patch)
    (hc : top cfg mls c = some p) (k : Nat) :
    (L.foldl (doEvent cfg mls) s).diffs c.2 c.1 k =
      if L.any fun e => e.touches c k then (st cfg mls c (nb c k)).orElse fun _ => s.diffs c.2 c.1 k else s.diffs c.2 c.1 k := by
  induction L generalizing s with
  | nil => rfl
  | cons e L ih =>
    rw [List.foldl_cons, ih (fun e he => hL e (List.mem_cons_of_mem _ he)), doEvent_diffs _ _ _ _ (hL e List.mem_cons_self) _ _ hc, List.any_cons]
    cases e.touches c k <;> cases L.any (fun e => e.touches c k) <;> cases st cfg mls c (nb c k) <;> simp

/-- what an event adds to the count of the cell c -/
def inc (cfg : Config) (mls : Cells) (c : Nat × Nat) (e : Event) : Nat :=
  if (st cfg mls e.this e.other).isSome then (if e.this = c then 1 else 0) + (if e.other = c then 1 else 0) else 0

theorem events_count (cfg : Config) (mls : Cells) (L : List Event) (s : State) (c : Nat × Nat) :
    (L.foldl (doEvent cfg mls) s).count c.2 c.1 = s.count c.2 c.1 + (L.map (inc cfg mls c)).sum := by
  induction L generalizing s with
  | nil => rfl
  | cons e L ih =>
    rw [List.foldl_cons, ih, List.map_cons, List.sum_cons, ← Nat.add_assoc]
    congr 1
    unfold doEvent inc st
    cases ht : top cfg mls e.this with
    | none => simp
    | some t =>
      cases ho : top cfg mls e.other with
      | none =>
        dsimp only
        rw [updateGradient_none _ _ _ _ _ ho]
        simp
      | some q =>
        dsimp only
        rw [updateGradient_some _ _ _ _ _ _ ho]
        dsimp only
        rw [incCount_apply, incCount_apply]
        simp only [Option.isSome_some, if_true]
        omega

/-- the cell in whose visit the slot k of the cell c is written -/
def src (c : Nat × Nat) (k : Nat) : Nat × Nat := if k % 2 = 0 then c else nb c k

/-- the cell is visited -/
def InLoop (width height : Nat) (c : Nat × Nat) : Prop := 1 ≤ c.1 ∧ c.1 < width ∧ 1 ≤ c.2 ∧ c.2 < height - 1

instance (w h : Nat) (c : Nat × Nat) : Decidable (InLoop w h c) := by unfold InLoop; infer_instance

theorem touched_iff (width height : Nat) (c : Nat × Nat) (hc : 1 ≤ c.1 ∧ 1 ≤ c.2) (k : Nat) (hk : k < 8) :
    (allEvents width height).any (fun e => e.touches c k) = decide (InLoop width height (src c k)) := by
  rw [Bool.eq_iff_iff, decide_eq_true_eq, List.any_eq_true]
  have key : ∀ x y, 1 ≤ x → 1 ≤ y → ((∃ e ∈ events x y, e.touches c k = true) ↔ (x, y) = src c k) := by
    intro x y hx hy
    obtain ⟨cx, cy⟩ := c
    simp only [events, Event.touches, List.mem_cons, List.not_mem_nil, or_false, exists_eq_or_imp, exists_eq_left, decide_eq_true_eq, Prod.mk.injEq]
    dsimp only at hc
    interval_cases k <;> simp [src, nb] <;> omega
  constructor
  · rintro ⟨e, he, ht⟩
    obtain ⟨x, hx, he⟩ := List.mem_flatMap.1 he
    obtain ⟨y, hy, he⟩ := List.mem_flatMap.1 he
    rw [List.mem_range'_1] at hx hy
    rw [← (key x y hx.1 hy.1).1 ⟨e, he, ht⟩]
    refine ⟨hx.1, ?_, hy.1, ?_⟩
    · change x < width
      omega
    · change y < height - 1
      omega
  · rintro ⟨h1, h2, h3, h4⟩
    obtain ⟨e, he, ht⟩ := (key _ _ h1 h3).2 rfl
    refine ⟨e, List.mem_flatMap.2 ⟨_, List.mem_range'_1.2 ⟨h1, ?_⟩, List.mem_flatMap.2 ⟨_, List.mem_range'_1.2 ⟨h3, ?_⟩, he⟩⟩, ht⟩
    · omega
    · omega

theorem sum_add {α : Type} (l : List α) (f g : α → Nat) : (l.map fun a => f a + g a).sum = (l.map f).sum + (l.map g).sum := by
  induction l with
  | nil => rfl
  | cons a l ih =>
    simp only [List.map_cons, List.sum_cons, ih]
    omega

theorem sum_zero {α : Type} (l : List α) : (l.map fun _ => 0).sum = 0 := by
  induction l with
  | nil => rfl
  | cons a l ih => rw [List.map_cons, List.sum_cons, ih]

/-- the sum of an indicator function over the visited cells -/
theorem sum_indicator (width height : Nat) (a : Nat × Nat) (v : Nat) :
    ((List.range' 1 (width - 1)).map fun x => ((List.range' 1 (height - 2)).map fun y => if (x, y) = a then v else 0).sum).sum =
      if InLoop width height a then v else 0 := by
  have one : ∀ (n b m : Nat) (u : Nat), ((List.range' m n).map fun y => if y = b then u else 0).sum = if m ≤ b ∧ b < m + n then u else 0 := by
    intro n b
    induction n with
    | zero =>
      intro m u
      rw [if_neg (by omega)]
      rfl
    | succ n ih =>
      intro m u
      rw [List.range'_succ, List.map_cons, List.sum_cons, ih]
      by_cases h : m = b
      · rw [if_pos h, if_neg (by omega), if_pos (by omega)]
        rfl
      · rw [if_neg h, Nat.zero_add]
        by_cases h2 : m ≤ b ∧ b < m + (n + 1)
        · rw [if_pos h2, if_pos (by omega)]
        · rw [if_neg h2, if_neg (by omega)]
  have inner : ∀ x, ((List.range' 1 (height - 2)).map fun y => if (x, y) = a then v else 0).sum =
      if x = a.1 then (if 1 ≤ a.2 ∧ a.2 < 1 + (height - 2) then v else 0) else 0 := by
    intro x
    by_cases h : x = a.1
    · rw [if_pos h, ← one]
      congr 1
      refine List.map_congr_left fun y _ => ?_
      by_cases hy : y = a.2
      · rw [if_pos (by rw [h, hy]), if_pos hy]
      · rw [if_neg (fun e => hy (by rw [← e])), if_neg hy]
    · have z : ((List.range' 1 (height - 2)).map fun y => if (x, y) = a then v else 0) = (List.range' 1 (height - 2)).map fun _ => 0 :=
        List.map_congr_left fun y _ => if_neg fun e => h (by rw [← e])
      rw [if_neg h, z, sum_zero]
  rw [List.map_congr_left fun x _ => inner x, one]
  have hi : InLoop width height a ↔ (1 ≤ a.1 ∧ a.1 < 1 + (width - 1)) ∧ (1 ≤ a.2 ∧ a.2 < 1 + (height - 2)) := by
    unfold InLoop
    omega
  by_cases h1 : 1 ≤ a.1 ∧ a.1 < 1 + (width - 1)
  · rw [if_pos h1]
    by_cases h2 : 1 ≤ a.2 ∧ a.2 < 1 + (height - 2)
    · rw [if_pos h2, if_pos (hi.2 ⟨h1, h2⟩)]
    · rw [if_neg h2, if_neg (fun h => h2 (hi.1 h).2)]
  · rw [if_neg h1, if_neg (fun h => h1 (hi.1 h).1)]

theorem inc_events (cfg : Config) (mls : Cells) (c : Nat × Nat) (hc : 1 ≤ c.1 ∧ 1 ≤ c.2) (x y : Nat) (hx : 1 ≤ x) (hy : 1 ≤ y) :
    ((events x y).map (inc cfg mls c)).sum =
      ((List.range 8).map fun k => if (x, y) = src c k then (if (st cfg mls c (nb c k)).isSome then 1 else 0) else 0).sum := by
  have pair : ∀ e : Event, e.this = (x, y) → ∀ k, k % 2 = 0 → e.other = nb (x, y) k → ((x, y) = nb c (k + 1) ↔ e.other = c) →
      inc cfg mls c e = (if (x, y) = src c k then (if (st cfg mls c (nb c k)).isSome then 1 else 0) else 0) +
        (if (x, y) = src c (k + 1) then (if (st cfg mls c (nb c (k + 1))).isSome then 1 else 0) else 0) := by
    intro e ht k hk ho hb
    have s1 : src c k = c := if_pos hk
    have s2 : src c (k + 1) = nb c (k + 1) := if_neg (by omega)
    rw [s1, s2]
    unfold inc
    have h1 : (if (x, y) = nb c (k + 1) then (if (st cfg mls c (nb c (k + 1))).isSome then 1 else 0) else 0) =
        if (st cfg mls e.this e.other).isSome then (if e.other = c then 1 else 0) else 0 := by
      by_cases h : e.other = c
      · rw [if_pos (hb.2 h), if_pos h, ← hb.2 h, h, ht, st_comm]
      · rw [if_neg (fun e => h (hb.1 e)), if_neg h]
        simp
    have h2 : (if (x, y) = c then (if (st cfg mls c (nb c k)).isSome then 1 else 0) else 0) =
        if (st cfg mls e.this e.other).isSome then (if e.this = c then 1 else 0) else 0 := by
      by_cases h : (x, y) = c
      · rw [if_pos h, ht, if_pos h, ho, h]
      · rw [if_neg h, ht, if_neg h]
        simp
    rw [h1, h2]
    split <;> rfl
  have h0 := pair ⟨(x, y), 0, (x, y + 1), 1⟩ rfl 0 rfl rfl (by
    obtain ⟨cx, cy⟩ := c
    dsimp only at hc
    simp only [nb, Prod.mk.injEq]
    omega)
  have h2 := pair ⟨(x, y), 2, (x - 1, y - 1), 3⟩ rfl 2 rfl rfl (by
    obtain ⟨cx, cy⟩ := c
    dsimp only at hc
    simp only [nb, Prod.mk.injEq]
    omega)
  have h4 := pair ⟨(x, y), 4, (x - 1, y), 5⟩ rfl 4 rfl rfl (by
    obtain ⟨cx, cy⟩ := c
    dsimp only at hc
    simp only [nb, Prod.mk.injEq]
    omega)
  have h6 := pair ⟨(x, y), 6, (x - 1, y + 1), 7⟩ rfl 6 rfl rfl (by
    obtain ⟨cx, cy⟩ := c
    dsimp only at hc
    simp only [nb, Prod.mk.injEq]
    omega)
  unfold events
  simp only [List.map_cons, List.map_nil, List.sum_cons, List.sum_nil, h0, h2, h4, h6, Nat.zero_add, Nat.reduceAdd]
  simp only [show List.range 8 = [0, 1, 2, 3, 4, 5, 6, 7] from rfl, List.map_cons, List.map_nil, List.sum_cons, List.sum_nil]
  ring

theorem sweep_count (cfg : Config) (mls : Cells) (width height : Nat) (c : Nat × Nat) (hc : 1 ≤ c.1 ∧ 1 ≤ c.2) :
    (sweep cfg mls width height).count c.2 c.1 =
      ((List.range 8).map fun k => if InLoop width height (src c k) then (if (st cfg mls c (nb c k)).isSome then 1 else 0) else 0).sum := by
  rw [sweep_eq, events_count, Nat.zero_add]
  unfold allEvents
  have flat : ∀ {α : Type} (l : List α) (f : α → List Event),
      ((l.flatMap f).map (inc cfg mls c)).sum = (l.map fun a => ((f a).map (inc cfg mls c)).sum).sum := by
    intro α l f
    induction l with
    | nil => rfl
    | cons a l ih => rw [List.flatMap_cons, List.map_append, List.sum_append, ih, List.map_cons, List.sum_cons]
  rw [flat]
  have e : ∀ x ∈ List.range' 1 (width - 1), (((List.range' 1 (height - 2)).flatMap fun y => events x y).map (inc cfg mls c)).sum =
      ((List.range' 1 (height - 2)).map fun y => ((List.range 8).map fun k =>
        if (x, y) = src c k then (if (st cfg mls c (nb c k)).isSome then 1 else 0) else 0).sum).sum := by
    intro x hx
    rw [flat]
    refine congrArg List.sum (List.map_congr_left fun y hy => ?_)
    exact inc_events cfg mls c hc x y (List.mem_range'_1.1 hx).1 (List.mem_range'_1.1 hy).1
  rw [List.map_congr_left e]
  simp only [← sum_indicator]
  simp only [show List.range 8 = [0, 1, 2, 3, 4, 5, 6, 7] from rfl, List.map_cons, List.map_nil, List.sum_cons, List.sum_nil, sum_add, sum_zero]

theorem sweep_diffs (cfg : Config) (mls : Cells) (width height : Nat) (c : Nat × Nat) (hc : 1 ≤ c.1 ∧ 1 ≤ c.2) (p : Patch)
    (ht : top cfg mls c = some p) (k : Nat) (hk : k < 8) :
    (sweep cfg mls width height).diffs c.2 c.1 k =
      some (if InLoop width height (src c k) then (st cfg mls c (nb c k)).getD 0 else 0) := by
  rw [sweep_eq, events_diffs _ _ _ (allEvents_good _ _) _ _ _ ht, touched_iff _ _ _ hc _ hk]
  simp only [decide_eq_true_eq]
  split
  · cases st cfg mls c (nb c k) <;> rfl
  · rfl

theorem countP_filter_sum {α : Type} (p q : α → Bool) (l : List α) :
    (l.filter q).countP p = (l.map fun a => if q a then (if p a then 1 else 0) else 0).sum := by
  induction l with
  | nil => rfl
  | cons a l ih =>
    rw [List.map_cons, List.sum_cons, ← ih]
    cases hq : q a
    · rw [List.filter_cons_of_neg (by simp [hq])]
      simp
    · rw [List.filter_cons_of_pos hq, List.countP_cons]
      simp
      omega

theorem seen_iff (width height : Nat) (c : Nat × Nat) (hx : 1 ≤ c.1 ∧ c.1 + 1 < width) (hy : 1 ≤ c.2 ∧ c.2 + 1 < height) (k : Nat) (hk : k < 8) :
    (¬ ((nb c k).2 = 0 ∧ c.1 ≤ (nb c k).1) ∧ ¬ ((nb c k).2 = height - 1 ∧ c.1 < (nb c k).1)) ↔ InLoop width height (src c k) := by
  obtain ⟨x, y⟩ := c
  dsimp only at hx hy
  interval_cases k <;> simp [src, nb, InLoop] <;> omega

theorem number_eq (cfg : Config) (mls : Cells) (width height : Nat) (c : Nat × Nat) (hx : 1 ≤ c.1 ∧ c.1 + 1 < width)
    (hy : 1 ≤ c.2 ∧ c.2 + 1 < height) :
    (sweep cfg mls width height).count c.2 c.1 = number cfg mls c (observed height c) := by
  rw [sweep_count _ _ _ _ _ ⟨hx.1, hy.1⟩]
  unfold number observed
  rw [countP_filter_sum, neighbours_eq, List.map_map]
  refine congrArg List.sum (List.map_congr_left fun k hk => ?_)
  simp only [Function.comp, decide_eq_true_eq, seen_iff width height c hx hy k (List.mem_range.1 hk)]
  refine if_congr Iff.rfl (if_congr ?_ rfl rfl) rfl
  rw [Option.isSome_iff_exists]
  classical
  exact (exists_congr fun s => st_iff _ _ _ _ s).trans (decide_eq_true_iff (p := ∃ s, StepTo cfg mls c (nb c k) s)).symm

theorem foldl_omax (l : List ℚ) (a : ℚ) : ∃ m, (l.map some).foldl omax (some a) = some m ∧ (m = a ∨ m ∈ l) ∧ a ≤ m ∧ ∀ b ∈ l, b ≤ m := by
  induction l generalizing a with
  | nil => exact ⟨a, rfl, .inl rfl, le_refl _, by simp⟩
  | cons b l ih =>
    obtain ⟨m, h1, h2, h3, h4⟩ := ih (if a < b then b else a)
    refine ⟨m, h1, ?_, ?_, ?_⟩
    · rcases h2 with h2 | h2
      · split at h2
        · exact .inr (by simp [h2])
        · exact .inl h2
      · exact .inr (List.mem_cons_of_mem _ h2)
    · split at h3
      · linarith
      · exact h3
    · intro e he
      rcases List.mem_cons.1 he with rfl | he
      · split at h3
        · exact h3
        · linarith
      · exact h4 e he

theorem maxima_spec (d : Nat → Option ℚ) (f : Nat → ℚ) (h : ∀ k < 8, d k = some (f k)) :
    (∃ m, (maxima d).1 = some m ∧ (∃ k < 8, m = f k) ∧ ∀ k < 8, f k ≤ m) ∧
    ∃ m, (maxima d).2 = some m ∧ (∃ k < 8, k % 2 = 0 ∧ (m = (3 * f k - f (k + 1)) / 4 ∨ m = (f k - 3 * f (k + 1)) / 4)) ∧
      ∀ k < 8, k % 2 = 0 → (3 * f k - f (k + 1)) / 4 ≤ m ∧ (f k - 3 * f (k + 1)) / 4 ≤ m := by
  have h0 := h 0 (by omega)
  have h1 := h 1 (by omega)
  have h2 := h 2 (by omega)
  have h3 := h 3 (by omega)
  have h4 := h 4 (by omega)
  have h5 := h 5 (by omega)
  have h6 := h 6 (by omega)
  have h7 := h 7 (by omega)
  constructor
  · obtain ⟨m, e, hm, h8, h9⟩ := foldl_omax [f 1, f 2, f 3, f 4, f 5, f 6, f 7] (f 0)
    refine ⟨m, ?_, ?_, ?_⟩
    · rw [← e]
      simp only [maxima, List.foldl_cons, List.foldl_nil, List.map_cons, List.map_nil, h0, h1, h2, h3, h4, h5, h6, h7, Nat.zero_add, Nat.reduceAdd]
      rfl
    · simp only [List.mem_cons, List.not_mem_nil, or_false] at hm
      rcases hm with h | h | h | h | h | h | h | h
      · exact ⟨0, by omega, h⟩
      · exact ⟨1, by omega, h⟩
      · exact ⟨2, by omega, h⟩
      · exact ⟨3, by omega, h⟩
      · exact ⟨4, by omega, h⟩
      · exact ⟨5, by omega, h⟩
      · exact ⟨6, by omega, h⟩
      · exact ⟨7, by omega, h⟩
    · intro k hk
      interval_cases k
      · exact h8
      all_goals exact h9 _ (by simp)
  · obtain ⟨m, e, hm, h8, h9⟩ := foldl_omax [f 0 - (f 0 + f 1) * (3 / 4), f 2 - (f 2 + f 3) * (1 / 4), f 2 - (f 2 + f 3) * (3 / 4),
      f 4 - (f 4 + f 5) * (1 / 4), f 4 - (f 4 + f 5) * (3 / 4), f 6 - (f 6 + f 7) * (1 / 4), f 6 - (f 6 + f 7) * (3 / 4)]
      (f 0 - (f 0 + f 1) * (1 / 4))
    refine ⟨m, ?_, ?_, ?_⟩
    · rw [← e]
      simp only [maxima, List.foldl_cons, List.foldl_nil, List.map_cons, List.map_nil, h0, h1, h2, h3, h4, h5, h6, h7, Nat.zero_add, Nat.reduceAdd, corr]
      rfl
    · simp only [List.mem_cons, List.not_mem_nil, or_false] at hm
      rcases hm with h | h | h | h | h | h | h | h
      · exact ⟨0, by omega, rfl, .inl (by rw [h]; ring)⟩
      · exact ⟨0, by omega, rfl, .inr (by rw [h]; ring)⟩
      · exact ⟨2, by omega, rfl, .inl (by rw [h]; ring)⟩
      · exact ⟨2, by omega, rfl, .inr (by rw [h]; ring)⟩
      · exact ⟨4, by omega, rfl, .inl (by rw [h]; ring)⟩
      · exact ⟨4, by omega, rfl, .inr (by rw [h]; ring)⟩
      · exact ⟨6, by omega, rfl, .inl (by rw [h]; ring)⟩
      · exact ⟨6, by omega, rfl, .inr (by rw [h]; ring)⟩
    · simp only [List.mem_cons, List.not_mem_nil, or_false, forall_eq_or_imp, forall_eq] at h9
      obtain ⟨g1, g2, g3, g4, g5, g6, g7⟩ := h9
      intro k hk hk2
      interval_cases k
      · exact ⟨by linarith, by linarith⟩
      · omega
      · exact ⟨by linarith, by linarith⟩
      · omega
      · exact ⟨by linarith, by linarith⟩
      · omega
      · exact ⟨by linarith, by linarith⟩
      · omega

/-- standard deviations are not negative -/
def Sane (cfg : Config) (mls : Cells) : Prop := cfg.useStdev = true → ∀ x y, ∀ p ∈ mls x y, 0 ≤ p.stdev

theorem StepTo.nonneg {cfg : Config} {mls : Cells} (h : Sane cfg mls) {c d : Nat × Nat} {s : ℚ} (hs : StepTo cfg mls c d s) : 0 ≤ s := by
  obtain ⟨p, q, ⟨hp, -⟩, ⟨hq, -⟩, rfl⟩ := hs
  have mem : ∀ {l : List Patch} {p : Patch}, IsTop l p → p ∈ l := by
    rintro l p ⟨a, b, rfl, -⟩
    simp
  have := abs_nonneg (p.mean - q.mean)
  split
  · rename_i hu
    have := h hu _ _ _ (mem hp)
    have := h hu _ _ _ (mem hq)
    linarith
  · linarith

theorem cell_spec (cfg : Config) (mls : Cells) (h : Sane cfg mls) (width height : Nat) (c : Nat × Nat) (hx : 1 ≤ c.1 ∧ c.1 + 1 < width)
    (hy : 1 ≤ c.2 ∧ c.2 + 1 < height) :
    (number cfg mls c (observed height c) < 5 → cell cfg (sweep cfg mls width height) width height c.1 c.2 = (none, none)) ∧
    (5 ≤ number cfg mls c (observed height c) → ∃ m k, cell cfg (sweep cfg mls width height) width height c.1 c.2 = (some m, some k) ∧
      (∃ d ∈ observed height c, StepTo cfg mls c d m) ∧ (∀ d ∈ observed height c, ∀ s, StepTo cfg mls c d s → s ≤ m) ∧ k ≤ m ∧
      (cfg.threshold ≤ m → k = m)) := by
  unfold cell
  rw [if_neg (by omega), number_eq cfg mls width height c hx hy]
  constructor
  · intro hn
    rw [if_pos hn]
  · intro hn
    rw [if_neg (by omega)]
    have hpos : 0 < number cfg mls c (observed height c) := by omega
    obtain ⟨d0, hd0, hs0⟩ := List.countP_pos_iff.1 hpos
    obtain ⟨s0, hs0⟩ : ∃ s, StepTo cfg mls c d0 s := by classical exact decide_eq_true_iff.1 hs0
    obtain ⟨p, -, hp, -, -⟩ := id hs0
    have ht := (top_iff cfg mls c p).2 hp
    have hd := sweep_diffs cfg mls width height c ⟨hx.1, hy.1⟩ p ht
    let f : Nat → ℚ := fun k => if InLoop width height (src c k) then (st cfg mls c (nb c k)).getD 0 else 0
    obtain ⟨⟨m, m1, ⟨km, hkm, m2⟩, m3⟩, ⟨k, k1, ⟨kk, hkk, hk2, k2⟩, -⟩⟩ :=
      maxima_spec ((sweep cfg mls width height).diffs c.2 c.1) f (fun k hk => hd k hk)
    have mem : ∀ d, d ∈ observed height c ↔ ∃ k < 8, InLoop width height (src c k) ∧ nb c k = d := by
      intro d
      unfold observed
      rw [List.mem_filter, neighbours_eq, List.mem_map]
      simp only [decide_eq_true_eq]
      constructor
      · rintro ⟨⟨k, hk, rfl⟩, hd⟩
        exact ⟨k, List.mem_range.1 hk, (seen_iff width height c hx hy k (List.mem_range.1 hk)).1 hd, rfl⟩
      · rintro ⟨k, hk, hl, rfl⟩
        exact ⟨⟨k, List.mem_range.2 hk, rfl⟩, (seen_iff width height c hx hy k hk).2 hl⟩
    have fnn : ∀ k, 0 ≤ f k := by
      intro k
      simp only [f]
      split
      · cases e : st cfg mls c (nb c k) with
        | none => exact le_refl _
        | some s => exact ((st_iff _ _ _ _ _).1 e).nonneg h
      · exact le_refl _
    have ub : ∀ d ∈ observed height c, ∀ s, StepTo cfg mls c d s → s ≤ m := by
      intro d hd s hs
      obtain ⟨k, hk, hl, rfl⟩ := (mem d).1 hd
      have := m3 k hk
      simp only [f] at this
      rw [if_pos hl, (st_iff _ _ _ _ _).2 hs] at this
      exact this
    have att : ∃ d ∈ observed height c, StepTo cfg mls c d m := by
      simp only [f] at m2
      by_cases hl : InLoop width height (src c km)
      · rw [if_pos hl] at m2
        cases e : st cfg mls c (nb c km) with
        | some s =>
          rw [e] at m2
          exact ⟨_, (mem _).2 ⟨km, hkm, hl, rfl⟩, m2 ▸ (st_iff _ _ _ _ _).1 e⟩
        | none =>
          rw [e] at m2
          have hm0 : m = 0 := m2
          have : s0 = m := le_antisymm (ub d0 hd0 s0 hs0) (hm0 ▸ hs0.nonneg h)
          exact ⟨d0, hd0, this ▸ hs0⟩
      · rw [if_neg hl] at m2
        have : s0 = m := le_antisymm (ub d0 hd0 s0 hs0) (m2 ▸ hs0.nonneg h)
        exact ⟨d0, hd0, this ▸ hs0⟩
    have hkm' : k ≤ m := by
      have a := m3 kk hkk
      have b := fnn kk
      have e := fnn (kk + 1)
      rcases k2 with k2 | k2 <;> rw [k2] <;> linarith
    dsimp only
    rw [m1]
    dsimp only
    by_cases hthr : m < cfg.threshold
    · rw [if_pos hthr]
      exact ⟨m, k, Prod.ext m1 k1, att, ub, hkm', fun hle => absurd hthr (not_lt.2 hle)⟩
    · rw [if_neg hthr]
      exact ⟨m, m, rfl, att, ub, le_refl _, fun _ => rfl⟩

/-! ### C89 -/

/-- C89. Full claim: for each cell that is not at the border, `max_step` is the greatest step between its surface and the surfaces of its eight neighbours,
if at least five have one, else UNKNOWN; `corrected_max_step` is at most that, and the same from the threshold on. Proved for
all cells which are not in the rows next to the lower or upper border. Missing: those rows, in which neighbours are ignored
(`C89_rows_at_border` says which, `C89_wall_missed`). -/
theorem C89_max_step_partial (cfg : Config) (mls : Cells) (h : Sane cfg mls) (width height : Nat) (scale : ℚ × ℚ) (old : Nat → Nat → Option ℚ)
    (hw : 0 < width) (hh : 0 < height) : ∃ maxStep corrected,
    updateAll cfg mls width height scale width height scale old = .ok maxStep corrected ∧
      (∀ x y, 1 ≤ x → x + 1 < width → 2 ≤ y → y + 2 < height →
        (number cfg mls (x, y) (neighbours (x, y)) < 5 → maxStep x y = none ∧ corrected x y = none) ∧
        (5 ≤ number cfg mls (x, y) (neighbours (x, y)) → ∃ m k, maxStep x y = some m ∧ corrected x y = some k ∧
          (∃ d ∈ neighbours (x, y), StepTo cfg mls (x, y) d m) ∧ (∀ d ∈ neighbours (x, y), ∀ s, StepTo cfg mls (x, y) d s → s ≤ m) ∧
          k ≤ m ∧ (cfg.threshold ≤ m → k = m))) ∧
      ∀ x y, x < width → y < height → x = 0 ∨ y = 0 ∨ x + 1 = width ∨ y + 1 = height → maxStep x y = none ∧ corrected x y = none := by
  refine ⟨_, _, by
    unfold updateAll
    rw [if_neg (by simp), if_neg (by simp), if_neg (by omega), if_neg (by omega)], ?_, ?_⟩
  · intro x y hx hx2 hy hy2
    have e : observed height (x, y) = neighbours (x, y) := by
      unfold observed
      rw [List.filter_eq_self]
      intro d hd
      simp only [neighbours, List.mem_cons, List.not_mem_nil, or_false] at hd
      simp only [decide_eq_true_eq]
      rcases hd with rfl | rfl | rfl | rfl | rfl | rfl | rfl | rfl <;> dsimp only <;> omega
    obtain ⟨h1, h2⟩ := cell_spec cfg mls h width height (x, y) ⟨hx, hx2⟩ ⟨by dsimp only; omega, by dsimp only; omega⟩
    rw [e] at h1 h2
    dsimp only at h1 h2
    rw [if_pos ⟨by omega, by omega⟩, if_pos ⟨by omega, by omega⟩]
    constructor
    · intro hn
      rw [h1 hn]
      exact ⟨rfl, rfl⟩
    · intro hn
      obtain ⟨m, k, h3, h4⟩ := h2 hn
      rw [h3]
      exact ⟨m, k, rfl, rfl, h4⟩
  · intro x y hx hy hb
    rw [if_pos ⟨hx, hy⟩, if_pos ⟨hx, hy⟩]
    unfold cell
    rw [if_pos (by omega)]
    exact ⟨rfl, rfl⟩

/-- C89, in all rows: the same for the neighbours that are taken into account -/
theorem C89_rows_at_border (cfg : Config) (mls : Cells) (h : Sane cfg mls) (width height : Nat) (scale : ℚ × ℚ) (old : Nat → Nat → Option ℚ)
    (hw : 0 < width) (hh : 0 < height) : ∃ maxStep corrected,
    updateAll cfg mls width height scale width height scale old = .ok maxStep corrected ∧
      (∀ x y, 1 ≤ x → x + 1 < width → 1 ≤ y → y + 1 < height →
        (number cfg mls (x, y) (observed height (x, y)) < 5 → maxStep x y = none) ∧
        (5 ≤ number cfg mls (x, y) (observed height (x, y)) → ∃ m, maxStep x y = some m ∧
          (∃ d ∈ observed height (x, y), StepTo cfg mls (x, y) d m) ∧ ∀ d ∈ observed height (x, y), ∀ s, StepTo cfg mls (x, y) d s → s ≤ m)) := by
  refine ⟨_, _, by
    unfold updateAll
    rw [if_neg (by simp), if_neg (by simp), if_neg (by omega), if_neg (by omega)], ?_⟩
  intro x y hx hx2 hy hy2
  obtain ⟨h1, h2⟩ := cell_spec cfg mls h width height (x, y) ⟨hx, hx2⟩ ⟨hy, hy2⟩
  dsimp only at h1 h2
  rw [if_pos ⟨by omega, by omega⟩]
  constructor
  · intro hn
    rw [h1 hn]
  · intro hn
    obtain ⟨m, k, h3, h4, h5, -⟩ := h2 hn
    rw [h3]
    exact ⟨m, rfl, h4, h5⟩

/-- flat ground with a wall of height 5 in the row 0 -/
def wall : Cells := fun _ y => if y = 0 then [⟨5, 0, 1⟩] else [⟨0, 0, 1⟩]

/-- C89 is violated: the step to a wall right in front of the cell (2, 1) is not seen from there if there is a hole to the lower left -/
theorem C89_wall_missed : ∃ (mls : Cells) (maxStep corrected : Nat → Nat → Option ℚ),
    updateAll ⟨1 / 4, false, 0⟩ mls 5 5 (1, 1) 5 5 (1, 1) (fun _ _ => none) = .ok maxStep corrected ∧
      StepTo ⟨1 / 4, false, 0⟩ mls (2, 1) (2, 0) 5 ∧ maxStep 2 1 = some 0 := by
  refine ⟨fun x y => if x = 1 ∧ y = 0 then [] else wall x y, _, _, rfl, ?_, by decide +kernel⟩
  refine ⟨⟨0, 0, 1⟩, ⟨5, 0, 1⟩, ⟨⟨[], [], rfl, by simp, by simp⟩, by decide⟩, ⟨⟨[], [], rfl, by simp, by simp⟩, by decide⟩, ?_⟩
  norm_num

/-- C89 is violated: an output that is smaller in one direction is not rejected, the operator writes outside of it -/
theorem C89_size_unchecked (cfg : Config) (mls : Cells) (old : Nat → Nat → Option ℚ) :
    updateAll cfg mls 5 5 (1, 1) 5 3 (1, 1) old = .undefined := by
  simp [updateAll]

/-- C89: the corrected step depends on the direction: a ramp that ends at a cell from below and one that ends there from above have different values -/
theorem C89_corrected_asymmetric : ∃ (mls : Cells) (m1 c1 m2 c2 : Nat → Nat → Option ℚ),
    updateAll ⟨10, false, 0⟩ mls 7 7 (1, 1) 7 7 (1, 1) (fun _ _ => none) = .ok m1 c1 ∧
    updateAll ⟨10, false, 0⟩ (fun x y => mls (6 - x) (6 - y)) 7 7 (1, 1) 7 7 (1, 1) (fun _ _ => none) = .ok m2 c2 ∧
      m1 3 3 = m2 3 3 ∧ c1 3 3 ≠ c2 3 3 := by
  refine ⟨fun x _ => if x < 4 then [⟨0, 0, 1⟩] else [⟨4, 0, 1⟩], _, _, _, _, rfl, rfl, by decide +kernel, by decide +kernel⟩

/-- the hypotheses of `C89_max_step_partial` are met: the wall in a map of 5 x 5 cells, seen from its row 2 with standard deviations -/
example : ∃ (maxStep corrected : Nat → Nat → Option ℚ), updateAll ⟨1 / 4, true, 0⟩ wall 5 5 (1, 1) 5 5 (1, 1) (fun _ _ => none) = .ok maxStep corrected ∧
    maxStep 2 2 = some 0 ∧ maxStep 0 0 = none := by
  obtain ⟨m, c, h1, h2, h3⟩ := C89_max_step_partial ⟨1 / 4, true, 0⟩ wall (by
    intro _ x y p hp
    unfold wall at hp
    split at hp <;> simp only [List.mem_singleton] at hp <;> rw [hp]) 5 5 (1, 1) (fun _ _ => none) (by omega) (by omega)
  have flat : ∀ x y, 1 ≤ y → Surface ⟨1 / 4, true, 0⟩ wall (x, y) ⟨0, 0, 1⟩ := by
    intro x y hy
    refine ⟨?_, by simp⟩
    unfold wall
    dsimp only
    rw [if_neg (by omega)]
    exact ⟨[], [], rfl, by simp, by simp⟩
  have all : ∀ d ∈ neighbours (2, 2), 1 ≤ d.2 := by decide
  have s0 : ∀ d ∈ neighbours (2, 2), StepTo ⟨1 / 4, true, 0⟩ wall (2, 2) d 0 := fun d hd =>
    ⟨_, _, flat 2 2 (by omega), flat d.1 d.2 (all d hd), by simp⟩
  refine ⟨m, c, h1, ?_, (h3 0 0 (by omega) (by omega) (.inl rfl)).1⟩
  have hn : number ⟨1 / 4, true, 0⟩ wall (2, 2) (neighbours (2, 2)) = 8 := by
    unfold number
    rw [List.countP_eq_length.2]
    · rfl
    · intro d hd
      classical
      exact decide_eq_true_iff.2 ⟨0, s0 d hd⟩
  obtain ⟨v, k, e, -, ⟨d, hd, p, q, hp, hq, hv⟩, -⟩ := (h2 2 2 (by omega) (by omega) (by omega) (by omega)).2 (by omega)
  rw [e]
  have hp' := hp.1.unique (flat 2 2 (by omega)).1
  have hq' := hq.1.unique (flat d.1 d.2 (all d hd)).1
  rw [hp', hq'] at hv
  rw [hv]
  simp

end Envire.Slope

#print axioms Envire.Slope.C89_max_step_partial
#print axioms Envire.Slope.C89_rows_at_border
#print axioms Envire.Slope.C89_wall_missed
#print axioms Envire.Slope.C89_size_unchecked
#print axioms Envire.Slope.C89_corrected_asymmetric
