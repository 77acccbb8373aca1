import Verif.Core.FilterModel

/-!
C207: filters of event handlers.

The specification speaks about the list of calls only: `filterOf` (the filter that was set last on a handler), `userOf` (the handler on which a filter was set last).
-/
namespace Envire.Filter

/-! ### specification -/

/-- the filter that the calls have given to the handler last -/
def filterOf (ops : List Op) (h : Nat) : Option Nat :=
  ops.reverse.findSome? fun
    | .setFilter k (some f) => if k = h then some f else none
    | _ => none

/-- the handler to which the calls have given the filter last -/
def userOf (ops : List Op) (f : Nat) : Option Nat :=
  ops.reverse.findSome? fun
    | .setFilter k (some g) => if g = f then some k else none
    | _ => none

/-- the calls that have to do with handler `h`, if filter `f` is meant for handler `owner f` -/
def concerns (owner : Nat → Nat) (h : Nat) : Op → Bool
  | .setFilter k _ => k = h
  | .receive k _ => k = h
  | .direct f _ => owner f = h

/-- each filter is only used for the handler it is meant for -/
def Private (owner : Nat → Nat) (ops : List Op) : Prop := ∀ h f, Op.setFilter h (some f) ∈ ops → owner f = h

/-! ### proofs -/

theorem run_append (B : Behaviour) (a : List Op) : ∀ (s : State) (b : List Op), run B s (a ++ b) = (run B s a).bind fun t => run B t b := by
  induction a with
  | nil => intro s b; rfl
  | cons o a ih =>
    intro s b
    simp only [List.cons_append, run]
    cases step B s o with
    | none => rfl
    | some t => exact ih t b

theorem directs_eq (f : Nat) (ms : List Nat) : ∀ s : State, directs s f ms =
    match ms, s.handler f with
    | [], _ => some s
    | _ :: _, none => none
    | _ :: _, some h => some { s with log := s.log ++ ms.map fun m => (h, m) } := by
  induction ms with
  | nil => intro s; rfl
  | cons m r ih =>
    intro s
    unfold directs direct
    cases hh : s.handler f with
    | none => rfl
    | some h =>
      dsimp only
      rw [ih]
      cases r with
      | nil => rfl
      | cons a r =>
        show (match (a :: r : List Nat), s.handler f with
          | [], _ => some (s.deliver h m)
          | _ :: _, none => none
          | _ :: _, some k => some { s.deliver h m with log := (s.deliver h m).log ++ (a :: r).map fun m => (k, m) }) = _
        rw [hh]
        simp [State.deliver]

/-- the pointers are those the calls have set last -/
structure Good (ops : List Op) (s : State) : Prop where
  filter : ∀ h, s.filter h = filterOf ops h
  handler : ∀ f, s.handler f = userOf ops f

theorem directs_ptr {f : Nat} {ms : List Nat} {s t : State} (h : directs s f ms = some t) : t.filter = s.filter ∧ t.handler = s.handler ∧ t.asked = s.asked := by
  rw [directs_eq] at h
  cases ms with
  | nil => simp at h; subst h; exact ⟨rfl, rfl, rfl⟩
  | cons m r =>
    cases hh : s.handler f with
    | none => rw [hh] at h; simp at h
    | some k => rw [hh] at h; simp at h; subst h; exact ⟨rfl, rfl, rfl⟩

theorem receive_ptr {B : Behaviour} {s t : State} {h m : Nat} (e : receive B s h m = some t) : t.filter = s.filter ∧ t.handler = s.handler := by
  unfold receive at e
  cases hf : s.filter h with
  | none => rw [hf] at e; simp at e; subst e; exact ⟨rfl, rfl⟩
  | some f =>
    rw [hf] at e
    dsimp only at e
    cases hd : directs { s with asked := set s.asked f (s.asked f ++ [m]) } f (B f (s.asked f) m).1 with
    | none => rw [hd] at e; simp at e
    | some u =>
      rw [hd] at e
      have hp := directs_ptr hd
      dsimp only at e
      split at e <;> simp at e <;> subst e
      · exact ⟨hp.1, hp.2.1⟩
      · exact ⟨hp.1, hp.2.1⟩

theorem good_step {B : Behaviour} {ops : List Op} {s t : State} (g : Good ops s) (o : Op) (e : step B s o = some t) : Good (ops ++ [o]) t := by
  cases o with
  | setFilter h f =>
    cases f with
    | none => simp [step, setFilter] at e
    | some f =>
      simp only [step, setFilter, Option.some.injEq] at e
      subst e
      constructor
      · intro k
        have hg := g.filter k
        simp only [filterOf, List.reverse_append, List.reverse_cons, List.reverse_nil, List.nil_append, List.singleton_append, List.findSome?_cons, set] at hg ⊢
        by_cases hk : k = h
        · simp [hk]
        · rw [if_neg hk, if_neg (fun c => hk c.symm)]; exact hg
      · intro k
        have hg := g.handler k
        simp only [userOf, List.reverse_append, List.reverse_cons, List.reverse_nil, List.nil_append, List.singleton_append, List.findSome?_cons, set] at hg ⊢
        by_cases hk : k = f
        · simp [hk]
        · rw [if_neg hk, if_neg (fun c => hk c.symm)]; exact hg
  | receive h m =>
    have hp := receive_ptr e
    constructor
    · intro k
      rw [hp.1, g.filter k]
      simp [filterOf, List.findSome?_cons]
    · intro k
      rw [hp.2, g.handler k]
      simp [userOf, List.findSome?_cons]
  | direct f m =>
    have hp : t.filter = s.filter ∧ t.handler = s.handler := by
      simp only [step, direct] at e
      cases hh : s.handler f with
      | none => rw [hh] at e; simp at e
      | some k => rw [hh] at e; simp at e; subst e; exact ⟨rfl, rfl⟩
    constructor
    · intro k
      rw [hp.1, g.filter k]
      simp [filterOf, List.findSome?_cons]
    · intro k
      rw [hp.2, g.handler k]
      simp [userOf, List.findSome?_cons]

theorem good_run {B : Behaviour} (b : List Op) : ∀ {a : List Op} {s t : State}, Good a s → run B s b = some t → Good (a ++ b) t := by
  induction b with
  | nil => intro a s t g e; simp [run] at e; subst e; simpa using g
  | cons o b ih =>
    intro a s t g e
    unfold run at e
    cases h : step B s o with
    | none => rw [h] at e; simp at e
    | some u =>
      rw [h] at e
      have := ih (good_step g o h) e
      simpa using this

theorem good_start : Good [] State.start := ⟨fun _ => rfl, fun _ => rfl⟩

theorem user_of_filter {h f : Nat} : ∀ {ops : List Op}, filterOf ops h = some f → userOf ops f ≠ none := by
  intro ops e c
  unfold filterOf at e
  unfold userOf at c
  rw [List.findSome?_eq_none_iff] at c
  obtain ⟨o, ho, he⟩ := List.exists_of_findSome?_eq_some e
  have hc := c o ho
  cases o with
  | receive _ _ => simp at he
  | direct _ _ => simp at he
  | setFilter k g =>
    cases g with
    | none => simp at he
    | some g =>
      dsimp only at he hc
      by_cases hk : k = h
      · rw [if_pos hk] at he
        cases he
        simp at hc
      · rw [if_neg hk] at he
        cases he

/-- **C207 (messages, partial)** After any calls, a message that a handler without a filter receives is handed to it. If it has got a filter, the filter is asked once; what the filter hands on itself
comes first, then the message itself exactly if the filter lets it pass. Nothing else is handed to any handler.
Missing: what the filter hands on itself goes to the handler on which the filter was set last, which may be another one (C207_shared_deviation). -/
theorem C207_message_partial (B : Behaviour) (ops : List Op) (s : State) (hs : run B State.start ops = some s) (h m : Nat) :
    ∃ t, run B State.start (ops ++ [.receive h m]) = some t ∧
      match filterOf ops h with
      | none => t.log = s.log ++ [(h, m)] ∧ t.asked = s.asked
      | some f => ∃ k, userOf ops f = some k ∧
          t.log = s.log ++ (B f (s.asked f) m).1.map (fun d => (k, d)) ++ (if (B f (s.asked f) m).2 then [(h, m)] else []) ∧
          t.asked f = s.asked f ++ [m] ∧ ∀ g, g ≠ f → t.asked g = s.asked g := by
  have g := good_run ops good_start hs
  rw [List.nil_append] at g
  rw [run_append, hs]
  show ∃ t, (match receive B s h m with
    | none => none
    | some s' => some s') = some t ∧ _
  unfold receive
  rw [g.filter h]
  cases hf : filterOf ops h with
  | none => exact ⟨_, rfl, rfl, rfl⟩
  | some f =>
    dsimp only
    cases hu : userOf ops f with
    | none => exact absurd hu (user_of_filter hf)
    | some k =>
      have hk : s.handler f = some k := (g.handler f).trans hu
      rw [directs_eq]
      dsimp only
      rw [hk]
      cases hb : (B f (s.asked f) m).1 with
      | nil =>
        dsimp only
        refine ⟨_, rfl, k, rfl, ?_⟩
        cases (B f (s.asked f) m).2
        · refine ⟨by simp, ?_, ?_⟩
          · simp [set]
          · intro j hj; simp [set, hj]
        · refine ⟨by simp [State.deliver], ?_, ?_⟩
          · simp [set, State.deliver]
          · intro j hj; simp [set, hj, State.deliver]
      | cons a r =>
        dsimp only
        refine ⟨_, rfl, k, rfl, ?_⟩
        cases (B f (s.asked f) m).2
        · refine ⟨by simp, ?_, ?_⟩
          · simp [set]
          · intro j hj; simp [set, hj]
        · refine ⟨by simp [State.deliver], ?_, ?_⟩
          · simp [set, State.deliver]
          · intro j hj; simp [set, hj, State.deliver]

/-- **C207 (direct)** A message that a filter hands on at another time reaches exactly the handler on which the filter was set last; if there is none, this is undefined behaviour. -/
theorem C207_direct (B : Behaviour) (ops : List Op) (s : State) (hs : run B State.start ops = some s) (f m : Nat) :
    match userOf ops f with
    | none => run B State.start (ops ++ [.direct f m]) = none
    | some k => ∃ t, run B State.start (ops ++ [.direct f m]) = some t ∧ t.log = s.log ++ [(k, m)] ∧ t.asked = s.asked := by
  have g := good_run ops good_start hs
  rw [List.nil_append] at g
  have e : run B State.start (ops ++ [.direct f m]) = match direct s f m with
    | none => none
    | some s' => some s' := by rw [run_append, hs]; rfl
  rw [e]
  unfold direct
  rw [g.handler f]
  cases userOf ops f with
  | none => rfl
  | some k => exact ⟨_, rfl, rfl, rfl⟩

/-- the part of the state that has to do with one handler -/
structure Same (owner : Nat → Nat) (h : Nat) (s t : State) : Prop where
  filter : t.filter h = s.filter h
  owns : ∀ k f, s.filter k = some f → owner f = k
  user : ∀ f k, s.handler f = some k → owner f = k
  handler : ∀ f, owner f = h → t.handler f = s.handler f
  asked : ∀ f, owner f = h → t.asked f = s.asked f
  log : t.log = s.log.filter fun p => p.1 = h

/-- the effect of `directs` in one formula -/
theorem directs_log {f : Nat} {ms : List Nat} {s t : State} {owner : Nat → Nat} (hu : ∀ f k, s.handler f = some k → owner f = k) (h : directs s f ms = some t) :
    t = { s with log := s.log ++ ms.map fun m => (owner f, m) } := by
  rw [directs_eq] at h
  cases ms with
  | nil => simp at h; subst h; simp
  | cons m r =>
    cases hh : s.handler f with
    | none => rw [hh] at h; simp at h
    | some k => rw [hh] at h; simp at h; subst h; rw [hu f k hh]; simp

theorem filter_all (h : Nat) (ms : List Nat) : (ms.map fun m => (h, m)).filter (fun p => decide (p.1 = h)) = ms.map fun m => (h, m) := by
  rw [List.filter_eq_self]
  intro p hp
  obtain ⟨m, _, e⟩ := List.mem_map.1 hp
  rw [← e]; simp

theorem filter_none (h k : Nat) (hk : k ≠ h) (ms : List Nat) : (ms.map fun m => (k, m)).filter (fun p => decide (p.1 = h)) = [] := by
  rw [List.filter_eq_nil_iff]
  intro p hp
  obtain ⟨m, _, e⟩ := List.mem_map.1 hp
  rw [← e]; simpa using hk

theorem same_other {B : Behaviour} {owner : Nat → Nat} {h : Nat} {s s1 t : State} (g : Same owner h s t) (o : Op) (hc : concerns owner h o = false)
    (hp : ∀ k f, o = .setFilter k (some f) → owner f = k) (e : step B s o = some s1) : Same owner h s1 t := by
  cases o with
  | setFilter k f =>
    cases f with
    | none => simp [step, setFilter] at e
    | some f =>
      have hk : k ≠ h := by simpa [concerns] using hc
      have ho := hp k f rfl
      simp only [step, setFilter, Option.some.injEq] at e
      subst e
      refine ⟨?_, ?_, ?_, ?_, g.asked, g.log⟩
      · simp only [set]; rw [if_neg (fun c => hk c.symm)]; exact g.filter
      · intro j x hj
        simp only [set] at hj
        by_cases c : j = k
        · rw [if_pos c] at hj; cases hj; exact ho.trans c.symm
        · rw [if_neg c] at hj; exact g.owns j x hj
      · intro x j hj
        simp only [set] at hj
        by_cases c : x = f
        · rw [if_pos c] at hj; cases hj; rw [c]; exact ho
        · rw [if_neg c] at hj; exact g.user x j hj
      · intro x hx
        simp only [set]
        have c : x ≠ f := fun c => hk (by rw [← ho, ← c, hx])
        rw [if_neg c]; exact g.handler x hx
  | receive k m =>
    have hk : k ≠ h := by simpa [concerns] using hc
    simp only [step, receive] at e
    cases hf : s.filter k with
    | none =>
      rw [hf] at e; simp at e; subst e
      exact ⟨g.filter, g.owns, g.user, g.handler, g.asked, by rw [g.log]; simp [State.deliver, hk]⟩
    | some f =>
      have ho := g.owns k f hf
      rw [hf] at e
      dsimp only at e
      cases hd : directs { s with asked := set s.asked f (s.asked f ++ [m]) } f (B f (s.asked f) m).1 with
      | none => rw [hd] at e; simp at e
      | some u =>
        have hu := directs_log (s := { s with asked := set s.asked f (s.asked f ++ [m]) }) (owner := owner) g.user hd
        rw [hd] at e
        dsimp only at e
        rw [ho] at hu
        have ha : ∀ x, owner x = h → t.asked x = u.asked x := by
          intro x hx
          subst hu
          simp only [set]
          have c : x ≠ f := fun c => hk (by rw [← ho, ← c, hx])
          rw [if_neg c]; exact g.asked x hx
        have hl : t.log = u.log.filter fun p => p.1 = h := by
          subst hu
          rw [g.log, List.filter_append, filter_none h k hk, List.append_nil]
        have hbase : Same owner h u t := by
          refine ⟨?_, ?_, ?_, ?_, ha, hl⟩
          · subst hu; exact g.filter
          · subst hu; exact g.owns
          · subst hu; exact g.user
          · subst hu; exact g.handler
        split at e <;> simp at e <;> subst e
        · exact ⟨hbase.filter, hbase.owns, hbase.user, hbase.handler, hbase.asked, by rw [hl]; simp [State.deliver, hk]⟩
        · exact hbase
  | direct f m =>
    have hk : owner f ≠ h := by simpa [concerns] using hc
    simp only [step, direct] at e
    cases hh : s.handler f with
    | none => rw [hh] at e; simp at e
    | some k =>
      rw [hh] at e; simp at e; subst e
      have c : k ≠ h := by rw [← g.user f k hh]; exact hk
      exact ⟨g.filter, g.owns, g.user, g.handler, g.asked, by rw [g.log]; simp [State.deliver, c]⟩

theorem same_own {B : Behaviour} {owner : Nat → Nat} {h : Nat} {s s1 t : State} (g : Same owner h s t) (o : Op) (hc : concerns owner h o = true)
    (hp : ∀ k f, o = .setFilter k (some f) → owner f = k) (e : step B s o = some s1) : ∃ t1, step B t o = some t1 ∧ Same owner h s1 t1 := by
  cases o with
  | setFilter k f =>
    cases f with
    | none => simp [step, setFilter] at e
    | some f =>
      have hk : k = h := by simpa [concerns] using hc
      have ho := hp k f rfl
      simp only [step, setFilter, Option.some.injEq] at e
      subst e
      refine ⟨_, rfl, ?_, ?_, ?_, ?_, g.asked, g.log⟩
      · simp only [set]; rw [if_pos hk.symm, if_pos hk.symm]
      · intro j x hj
        simp only [set] at hj
        by_cases c : j = k
        · rw [if_pos c] at hj; cases hj; exact ho.trans c.symm
        · rw [if_neg c] at hj; exact g.owns j x hj
      · intro x j hj
        simp only [set] at hj
        by_cases c : x = f
        · rw [if_pos c] at hj; cases hj; rw [c]; exact ho
        · rw [if_neg c] at hj; exact g.user x j hj
      · intro x hx
        simp only [set]
        by_cases c : x = f
        · rw [if_pos c, if_pos c]
        · rw [if_neg c, if_neg c]; exact g.handler x hx
  | receive k m =>
    have hk : k = h := by simpa [concerns] using hc
    subst hk
    simp only [step, receive] at e ⊢
    rw [g.filter]
    cases hf : s.filter k with
    | none =>
      rw [hf] at e; simp at e; subst e
      exact ⟨_, rfl, g.filter, g.owns, g.user, g.handler, g.asked, by simp [State.deliver, g.log]⟩
    | some f =>
      have ho := g.owns k f hf
      rw [hf] at e
      dsimp only at e ⊢
      rw [g.asked f ho]
      cases hd : directs { s with asked := set s.asked f (s.asked f ++ [m]) } f (B f (s.asked f) m).1 with
      | none => rw [hd] at e; simp at e
      | some u =>
        have hu := directs_log (s := { s with asked := set s.asked f (s.asked f ++ [m]) }) (owner := owner) g.user hd
        rw [hd] at e
        dsimp only at e
        rw [ho] at hu
        have hv : directs { t with asked := set t.asked f (s.asked f ++ [m]) } f (B f (s.asked f) m).1 =
            some { t with asked := set t.asked f (s.asked f ++ [m]), log := t.log ++ (B f (s.asked f) m).1.map fun d => (k, d) } := by
          rw [directs_eq] at hd ⊢
          cases hb : (B f (s.asked f) m).1 with
          | nil => simp
          | cons a r =>
            rw [hb] at hd
            dsimp only at hd ⊢
            rw [g.handler f ho]
            cases hh : s.handler f with
            | none => rw [hh] at hd; simp at hd
            | some j =>
              dsimp only
              rw [← g.user f j hh, ho]
        rw [hv]
        refine ⟨_, rfl, ?_⟩
        have hbase : Same owner k u { t with asked := set t.asked f (s.asked f ++ [m]), log := t.log ++ (B f (s.asked f) m).1.map fun d => (k, d) } := by
          subst hu
          refine ⟨g.filter, g.owns, g.user, g.handler, ?_, ?_⟩
          · intro x hx
            simp only [set]
            by_cases c : x = f
            · rw [if_pos c, if_pos c]
            · rw [if_neg c, if_neg c]; exact g.asked x hx
          · dsimp only
            rw [List.filter_append, filter_all, g.log]
        split at e <;> rename_i hv2 <;> simp at e <;> subst e
        · rw [if_pos hv2]
          refine ⟨hbase.filter, hbase.owns, hbase.user, hbase.handler, hbase.asked, ?_⟩
          have hl := hbase.log
          dsimp only at hl
          simp only [State.deliver, List.filter_append]
          rw [← hl]
          simp
        · rw [if_neg hv2]
          exact hbase
  | direct f m =>
    have hk : owner f = h := by simpa [concerns] using hc
    simp only [step, direct] at e ⊢
    rw [g.handler f hk]
    cases hh : s.handler f with
    | none => rw [hh] at e; simp at e
    | some k =>
      rw [hh] at e; simp at e; subst e
      have c : k = h := by rw [← g.user f k hh]; exact hk
      exact ⟨_, rfl, g.filter, g.owns, g.user, g.handler, g.asked, by simp [State.deliver, g.log, c]⟩

theorem same_run {B : Behaviour} {owner : Nat → Nat} {h : Nat} (ops : List Op) : ∀ {s s1 t : State}, Same owner h s t → Private owner ops → run B s ops = some s1 →
    ∃ t1, run B t (ops.filter (concerns owner h)) = some t1 ∧ Same owner h s1 t1 := by
  induction ops with
  | nil => intro s s1 t g _ e; simp [run] at e; subst e; exact ⟨t, rfl, g⟩
  | cons o r ih =>
    intro s s1 t g hp e
    unfold run at e
    cases hs : step B s o with
    | none => rw [hs] at e; simp at e
    | some u =>
      rw [hs] at e
      dsimp only at e
      have hp' : Private owner r := fun k f hm => hp k f (List.mem_cons_of_mem _ hm)
      have ho : ∀ k f, o = .setFilter k (some f) → owner f = k := fun k f c => hp k f (by rw [c]; exact List.mem_cons_self)
      cases hc : concerns owner h o with
      | false =>
        rw [List.filter_cons_of_neg (by rw [hc]; simp)]
        exact ih (same_other g o hc ho hs) hp' e
      | true =>
        obtain ⟨t1, h1, h2⟩ := same_own g o hc ho hs
        rw [List.filter_cons_of_pos hc]
        obtain ⟨t2, h3, h4⟩ := ih h2 hp' e
        refine ⟨t2, ?_, h4⟩
        unfold run
        rw [h1]
        exact h3

/-- **C207 (no interference, partial)** If each filter is used for one handler only, a handler gets the same messages in the same order as if all calls for other handlers and other filters were left out.
Missing: filters that are used for several handlers (C207_shared_deviation). -/
theorem C207_independent_partial (B : Behaviour) (owner : Nat → Nat) (ops : List Op) (hp : Private owner ops) (s : State) (hs : run B State.start ops = some s) (h : Nat) :
    ∃ t, run B State.start (ops.filter (concerns owner h)) = some t ∧ t.log = s.log.filter fun p => p.1 = h := by
  have g : Same owner h State.start State.start := ⟨rfl, (fun _ _ c => by cases c), (fun _ _ c => by cases c), fun _ _ => rfl, fun _ _ => rfl, rfl⟩
  obtain ⟨t, h1, h2⟩ := same_run ops g hp hs
  exact ⟨t, h1, h2.log⟩

/-- **C207 (shared filter, deviation)** One filter for two handlers: it keeps a message for the first handler back and hands on another one instead. Handler 1 gets nothing; handler 2, which was sent nothing,
gets the message. -/
theorem C207_shared_deviation (B : Behaviour) (f m d : Nat) (hB : B f [] m = ([d], false)) :
    ∃ s, run B State.start [.setFilter 1 (some f), .setFilter 2 (some f), .receive 1 m] = some s ∧ s.log = [(2, d)] := by
  simp [run, step, setFilter, receive, set, State.start, hB, directs, direct, State.deliver]

/-- **C207 (no filter again, deviation)** A filter cannot be taken away: setFilter with NULL is undefined behaviour after any calls. -/
theorem C207_remove_deviation (B : Behaviour) (ops : List Op) (h : Nat) (r : List Op) : run B State.start (ops ++ .setFilter h none :: r) = none := by
  rw [run_append]
  cases run B State.start ops <;> rfl

/-- **C207 (replaced filter, deviation)** A filter that has been replaced still reaches the handler, whatever the new filter lets pass. -/
theorem C207_replaced_deviation (B : Behaviour) (h f g m : Nat) (hfg : f ≠ g) :
    ∃ s, run B State.start [.setFilter h (some f), .setFilter h (some g), .direct f m] = some s ∧ s.log = [(h, m)] := by
  simp [run, step, setFilter, set, State.start, direct, State.deliver, hfg]

/-! ### examples -/

/-- keeps odd messages back until it is asked about an even one, and then hands on the odd ones before it -/
def keepOdd : Behaviour := fun _ past m => if m % 2 = 0 then ((past.reverse.takeWhile fun x => x % 2 = 1).reverse, true) else ([], false)

example : (run keepOdd State.start [.setFilter 1 (some 7), .receive 1 3, .receive 2 5, .receive 1 5, .receive 1 4, .direct 7 9]).map State.log = some [(2, 5), (1, 3), (1, 5), (1, 4), (1, 9)] := by decide +kernel
example : Private (fun f => f - 6) [.setFilter 1 (some 7), .receive 1 3, .setFilter 2 (some 8), .receive 1 5, .direct 7 9] := by
  intro h f hm
  simp at hm
  rcases hm with ⟨h1, h2⟩ | ⟨h1, h2⟩ <;> subst h1 <;> subst h2 <;> rfl
example : (fun _ _ m => ([m + 1], false) : Behaviour) 7 [] 3 = ([4], false) := rfl

#print axioms C207_message_partial
#print axioms C207_direct
#print axioms C207_independent_partial
#print axioms C207_shared_deviation
#print axioms C207_remove_deviation
#print axioms C207_replaced_deviation
end Envire.Filter
