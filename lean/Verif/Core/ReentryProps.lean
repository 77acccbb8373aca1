import Verif.Core.ReentryModel

/-!
C185: handing out events to handlers that change the handlers, and processing messages that fail.
-/
namespace Envire.Reentry

/-! ## specification -/

/-- who is removed -/
def gone : List Act → List Nat
  | [] => []
  | .remove h :: l => h :: gone l
  | .add _ :: l => gone l

/-- who shall receive the event: the first handler, then those that it leaves -/
def receivers (acts : Nat → List Act) : List Nat → List Nat
  | [] => []
  | h :: l => h :: receivers acts (l.filter (fun x => decide (x ∉ gone (acts h))))
termination_by l => l.length
decreasing_by
  rw [List.unattach, List.length_map]
  refine Nat.lt_succ_of_le (Nat.le_trans (List.length_filter_le _ _) ?_)
  exact Nat.le_of_eq List.length_attach

/-- handlers only remove handlers that are behind them in the list, and add none -/
def Later (acts : Nat → List Act) (hs : List Nat) : Prop :=
  ∀ a h b, hs = a ++ h :: b → ∀ x ∈ acts h, ∃ y, x = .remove y ∧ y ∉ a ++ [h]

/-! ## handlers -/

/-- removing handlers behind the iterator -/
theorem acts_later (pre : List Nat) (cap : Nat) : ∀ (l : List Act) (post : List Nat), (∀ x ∈ l, ∃ y, x = .remove y ∧ y ∉ pre) → 0 < pre.length →
    l.foldl (Vec.act (pre.length - 1)) ⟨pre ++ post, cap, true⟩ = ⟨pre ++ post.filter (fun x => decide (x ∉ gone l)), cap, true⟩ := by
  intro l
  induction l with
  | nil =>
    intro post _ _
    have : post.filter (fun x => decide (x ∉ gone [])) = post := List.filter_eq_self.2 (fun x _ => by simp [gone])
    rw [this]; rfl
  | cons a l ih =>
    intro post h hp
    obtain ⟨y, rfl, hy⟩ := h _ List.mem_cons_self
    rw [List.foldl_cons]
    have hpre : pre.filter (fun x => decide (x ≠ y)) = pre := List.filter_eq_self.2 (fun x hx => by
      rw [decide_eq_true_eq]; rintro rfl; exact hy hx)
    have e : Vec.act (pre.length - 1) ⟨pre ++ post, cap, true⟩ (.remove y) = ⟨pre ++ post.filter (fun x => decide (x ≠ y)), cap, true⟩ := by
      unfold Vec.act
      dsimp only
      rw [List.filter_append, hpre]
      have : decide (pre.length - 1 < (pre ++ post.filter (fun x => decide (x ≠ y))).length) = true := by
        rw [decide_eq_true_eq, List.length_append]; omega
      rw [this, Bool.or_true]
      rfl
    rw [e, ih _ (fun x hx => h x (List.mem_cons_of_mem _ hx)) hp, List.filter_filter]
    congr 2
    refine List.filter_congr (fun x _ => ?_)
    simp only [gone, List.mem_cons, not_or, Bool.decide_and, ne_eq]
    rw [Bool.and_comm]

theorem deliver_later (acts : Nat → List Act) (cap : Nat) : ∀ (n : Nat) (pre post log : List Nat) (fuel : Nat), post.length ≤ n → post.length < fuel →
    Later acts (pre ++ post) →
    deliver acts fuel ⟨pre ++ post, cap, true⟩ pre.length log = .done (pre ++ receivers acts post) (log ++ receivers acts post) := by
  intro n
  induction n with
  | zero =>
    intro pre post log fuel hn hf _
    have : post = [] := List.length_eq_zero_iff.1 (Nat.le_zero.1 hn)
    subst this
    obtain ⟨fuel, rfl⟩ : ∃ k, fuel = k + 1 := ⟨fuel - 1, by omega⟩
    unfold deliver receivers
    rw [List.append_nil, List.getElem?_eq_none (Nat.le_refl _), List.append_nil]
  | succ n ih =>
    intro pre post log fuel hn hf hl
    cases post with
    | nil => exact ih pre [] log fuel (Nat.zero_le _) hf hl
    | cons h t =>
      obtain ⟨fuel, rfl⟩ : ∃ k, fuel = k + 1 := ⟨fuel - 1, by omega⟩
      have hg : (pre ++ h :: t)[pre.length]? = some h := by
        rw [List.getElem?_append_right (Nat.le_refl _), Nat.sub_self]; rfl
      have hacts := hl pre h t rfl
      have e := acts_later (pre ++ [h]) cap (acts h) t hacts (by rw [List.length_append]; show 0 < _ + 1; omega)
      rw [List.length_append, List.append_assoc] at e
      simp only [List.length_cons, List.length_nil, Nat.zero_add, Nat.add_sub_cancel, List.cons_append, List.nil_append] at e
      have hlen : (t.filter (fun x => decide (x ∉ gone (acts h)))).length ≤ t.length := List.length_filter_le _ _
      have := ih (pre ++ [h]) (t.filter (fun x => decide (x ∉ gone (acts h)))) (log ++ [h]) fuel
        (by simp only [List.length_cons] at hn; omega) (by simp only [List.length_cons] at hf; omega) (by
          intro a k b hab x hx
          rw [List.append_assoc] at hab
          -- the position of k in the shorter list belongs to a position in the longer one
          have hsub : ∃ a', ∃ b', pre ++ h :: t = a' ++ k :: b' ∧ ∀ z ∈ a, z ∈ a' := by
            rcases List.append_eq_append_iff.1 hab with ⟨c, hc1, hc2⟩ | ⟨c, hc1, hc2⟩
            · -- a = pre ++ c
              cases c with
              | nil =>
                rw [List.nil_append] at hc2
                have : h = k := (List.cons.inj hc2).1
                subst this
                exact ⟨pre, t, rfl, fun z hz => by rw [hc1, List.append_nil] at hz; exact hz⟩
              | cons c0 c =>
                have h2 : h = c0 ∧ t.filter (fun x => decide (x ∉ gone (acts h))) = c ++ k :: b := List.cons.inj hc2
                obtain ⟨t1, t2, ht, h3, h4⟩ := List.filter_eq_append_iff.1 h2.2
                obtain ⟨u1, u2, hu, _, _, _⟩ := List.filter_eq_cons_iff.1 h4
                refine ⟨pre ++ h :: (t1 ++ u1), u2, by rw [ht, hu]; simp, fun z hz => ?_⟩
                rw [hc1] at hz
                rcases List.mem_append.1 hz with hz | hz
                · exact List.mem_append_left _ hz
                · refine List.mem_append_right _ ?_
                  rcases List.mem_cons.1 hz with rfl | hz
                  · rw [← h2.1]; exact List.mem_cons_self
                  · refine List.mem_cons_of_mem _ (List.mem_append_left _ ?_)
                    rw [← h3] at hz
                    exact (List.mem_filter.1 hz).1
            · -- pre = a ++ c
              cases c with
              | nil =>
                rw [List.nil_append] at hc2
                have : h = k := (List.cons.inj hc2).1.symm
                subst this
                exact ⟨pre, t, rfl, fun z hz => by rw [hc1, List.append_nil]; exact hz⟩
              | cons c0 c =>
                have : k = c0 := (List.cons.inj hc2).1
                subst this
                exact ⟨a, c ++ h :: t, by rw [hc1]; simp, fun z hz => hz⟩
          obtain ⟨a', b', he, hz⟩ := hsub
          obtain ⟨y, hy1, hy2⟩ := hl a' k b' he x hx
          refine ⟨y, hy1, fun hy => hy2 ?_⟩
          rcases List.mem_append.1 hy with hy | hy
          · exact List.mem_append_left _ (hz y hy)
          · exact List.mem_append_right _ hy)
      rw [List.length_append] at this
      unfold deliver receivers
      dsimp only
      rw [hg]
      dsimp only
      rw [e, if_pos rfl]
      simp only [List.append_assoc] at this ⊢
      exact this

/-- **C185 (handlers, partial)** As long as handlers only remove handlers that come after them, each handler receives the event
exactly once, in the order of registration, unless it was removed before its turn; the handlers that received it are those that stay registered. Missing: handlers that remove themselves or handlers that had
their turn (`C185_self_deviation`), handlers that add handlers (`C185_add_deviation`). -/
theorem C185_handlers_partial (acts : Nat → List Act) (hs : List Nat) {cap : Nat} (hc : hs.length ≤ cap) (hl : Later acts hs) :
    handle acts hs cap = .done (receivers acts hs) (receivers acts hs) :=
  deliver_later acts cap hs.length [] hs [] (cap + 1) (Nat.le_refl _) (by omega) hl

theorem receivers_all {acts : Nat → List Act} : ∀ {hs : List Nat}, (∀ h ∈ hs, acts h = []) → receivers acts hs = hs := by
  intro hs
  induction hs with
  | nil => intro _; unfold receivers; rfl
  | cons h t ih =>
    intro ha
    unfold receivers
    rw [ha h List.mem_cons_self]
    have : t.filter (fun x => decide (x ∉ gone [])) = t := List.filter_eq_self.2 (fun x _ => by simp [gone])
    rw [this, ih (fun x hx => ha x (List.mem_cons_of_mem _ hx))]

/-- handlers that leave the list alone: all receive the event, and the list stays -/
theorem C185_quiet (acts : Nat → List Act) (hs : List Nat) {cap : Nat} (hc : hs.length ≤ cap) (hq : ∀ h ∈ hs, acts h = []) :
    handle acts hs cap = .done hs hs := by
  have key : ∀ (post pre log : List Nat) (fuel : Nat), (∀ h ∈ post, acts h = []) → post.length < fuel →
      deliver acts fuel ⟨pre ++ post, cap, true⟩ pre.length log = .done (pre ++ post) (log ++ post) := by
    intro post
    induction post with
    | nil =>
      intro pre log fuel _ hf
      obtain ⟨fuel, rfl⟩ : ∃ k, fuel = k + 1 := ⟨fuel - 1, by simp only [List.length_nil] at hf; omega⟩
      unfold deliver
      rw [List.append_nil, List.getElem?_eq_none (Nat.le_refl _), List.append_nil]
    | cons h t ih =>
      intro pre log fuel ha hf
      obtain ⟨fuel, rfl⟩ : ∃ k, fuel = k + 1 := ⟨fuel - 1, by omega⟩
      have hg : (pre ++ h :: t)[pre.length]? = some h := by
        rw [List.getElem?_append_right (Nat.le_refl _), Nat.sub_self]; rfl
      unfold deliver
      dsimp only
      rw [hg]
      dsimp only
      rw [ha h List.mem_cons_self, List.foldl_nil, if_pos rfl]
      have := ih (pre ++ [h]) (log ++ [h]) fuel (fun x hx => ha x (List.mem_cons_of_mem _ hx)) (by simp only [List.length_cons] at hf; omega)
      rw [List.length_append, List.append_assoc, List.append_assoc] at this
      exact this
  exact key hs [] [] (cap + 1) hq (by omega)

/-- a handler that removes itself: everybody before it does nothing -/
theorem C185_self_deviation (acts : Nat → List Act) (a : Nat) (cap : Nat) (ha : acts a = [.remove a]) :
    handle acts [a] cap = .undefined ∧
    (∀ b, b ≠ a → acts b = [] → handle acts [a, b] (cap + 2) = .done [b] [a]) ∧
    ∀ b c, b ≠ a → c ≠ a → acts c = [] → handle acts [a, b, c] (cap + 2) = .done [b, c] [a, c] := by
  refine ⟨?_, fun b hb hab => ?_, fun b c hb hc hac => ?_⟩
  · unfold handle deliver
    dsimp only [List.getElem?_cons_zero]
    rw [ha]
    simp [Vec.act]
  · unfold handle deliver
    dsimp only [List.getElem?_cons_zero]
    rw [ha]
    simp only [List.foldl_cons, List.foldl_nil, Vec.act]
    simp only [ne_eq, decide_not, decide_true, Bool.not_true, Bool.false_eq_true, not_false_eq_true, List.filter_cons_of_neg, hb,
      decide_false, Bool.not_false, List.filter_cons_of_pos, List.filter_nil, List.length_cons, List.length_nil]
    simp [deliver]
  · unfold handle deliver
    dsimp only [List.getElem?_cons_zero]
    rw [ha]
    simp only [List.foldl_cons, List.foldl_nil, Vec.act]
    simp only [ne_eq, decide_not, decide_true, Bool.not_true, Bool.false_eq_true, not_false_eq_true, List.filter_cons_of_neg, hb, hc,
      decide_false, Bool.not_false, List.filter_cons_of_pos, List.filter_nil, List.length_cons, List.length_nil]
    simp [deliver, hac]

/-- adding handlers keeps those that are there, in their places, as long as the iterator stays valid -/
theorem foldl_adds (i : Nat) : ∀ (l : List Act) (v : Vec), (∀ a ∈ l, ∃ h, a = .add h) → v.hs.length ≤ v.cap →
    ((l.foldl (Vec.act i) v).valid = true → v.valid = true ∧ (l.foldl (Vec.act i) v).cap = v.cap ∧ (l.foldl (Vec.act i) v).hs.length ≤ v.cap ∧ ∃ e, (l.foldl (Vec.act i) v).hs = v.hs ++ e) ∧
    (v.valid = false → (l.foldl (Vec.act i) v).valid = false) := by
  intro l
  induction l with
  | nil => intro v _ hc; exact ⟨fun h => ⟨h, rfl, hc, [], (List.append_nil _).symm⟩, fun h => h⟩
  | cons a l ih =>
    intro v ha hc
    obtain ⟨h, rfl⟩ := ha a List.mem_cons_self
    have ha' : ∀ a ∈ l, ∃ h, a = Act.add h := fun a h => ha a (List.mem_cons_of_mem _ h)
    rw [List.foldl_cons]
    by_cases hl : v.hs.length < v.cap
    · have e : Vec.act i v (.add h) = { v with hs := v.hs ++ [h] } := if_pos hl
      rw [e]
      obtain ⟨i1, i2⟩ := ih { v with hs := v.hs ++ [h] } ha' (by simp only [List.length_append, List.length_cons, List.length_nil]; omega)
      refine ⟨fun hv => ?_, i2⟩
      obtain ⟨j1, j2, j3, x, hx⟩ := i1 hv
      exact ⟨j1, j2, j3, h :: x, by rw [hx]; simp⟩
    · have e : Vec.act i v (.add h) = ⟨v.hs ++ [h], 2 * v.cap + 1, false⟩ := if_neg hl
      rw [e]
      obtain ⟨i1, i2⟩ := ih ⟨v.hs ++ [h], 2 * v.cap + 1, false⟩ ha' (by simp only [List.length_append, List.length_cons, List.length_nil]; omega)
      have := i2 rfl
      exact ⟨fun hv => absurd hv (by rw [this]; exact Bool.false_ne_true), fun _ => this⟩

/-- **C185 (handlers, partial)** If handlers only register further ones, each handler that was registered before receives the event exactly once, in the order of registration, and so do the new
ones after them, unless the vector has to grow. -/
theorem C185_adding_partial (acts : Nat → List Act) (hs : List Nat) {cap : Nat} (hc : hs.length ≤ cap) (ha : ∀ h, ∀ a ∈ acts h, ∃ k, a = .add k) :
    handle acts hs cap = .undefined ∨ ∃ new, handle acts hs cap = .done (hs ++ new) (hs ++ new) := by
  have key : ∀ (fuel : Nat) (pre post : List Nat), (pre ++ post).length ≤ cap → cap + 1 ≤ fuel + pre.length →
      deliver acts fuel ⟨pre ++ post, cap, true⟩ pre.length pre = .undefined ∨ ∃ new, deliver acts fuel ⟨pre ++ post, cap, true⟩ pre.length pre = .done (pre ++ post ++ new) (pre ++ post ++ new) := by
    intro fuel
    induction fuel with
    | zero => intro pre post h1 h2; rw [List.length_append] at h1; omega
    | succ fuel ih =>
      intro pre post h1 h2
      unfold deliver
      cases post with
      | nil =>
        right
        refine ⟨[], ?_⟩
        rw [List.append_nil, List.getElem?_eq_none (Nat.le_refl _), List.append_nil]
      | cons h t =>
        rw [List.getElem?_append_right (Nat.le_refl _), Nat.sub_self]
        dsimp only [List.getElem?_cons_zero]
        obtain ⟨f1, -⟩ := foldl_adds pre.length (acts h) ⟨pre ++ h :: t, cap, true⟩ (ha h) h1
        generalize hv : (acts h).foldl (Vec.act pre.length) ⟨pre ++ h :: t, cap, true⟩ = v at f1
        cases hvv : v.valid with
        | false => left; rfl
        | true =>
          obtain ⟨-, g2, g3, x, hx⟩ := f1 hvv
          obtain ⟨vh, vc, vv⟩ := v
          dsimp only at hvv g2 g3 hx
          subst hvv g2 hx
          have := ih (pre ++ [h]) (t ++ x) (by simpa using g3) (by simp only [List.length_append, List.length_cons, List.length_nil]; omega)
          simp only [List.append_assoc, List.cons_append, List.nil_append, List.length_append, List.length_cons, List.length_nil] at this
          rcases this with h | ⟨new, h⟩
          · left
            simpa using h
          · right
            exact ⟨x ++ new, by simpa using h⟩
  rcases key (cap + 1) [] hs hc (by omega) with h | ⟨new, h⟩
  · left; exact h
  · right; exact ⟨new, h⟩

/-- adding handlers for which there is room -/
theorem foldl_room (i : Nat) : ∀ (l : List Nat) (v : Vec), v.hs.length + l.length ≤ v.cap → (l.map Act.add).foldl (Vec.act i) v = { v with hs := v.hs ++ l } := by
  intro l
  induction l with
  | nil => intro v _; rw [List.append_nil]; rfl
  | cons h l ih =>
    intro v hc
    rw [List.length_cons] at hc
    have e : Vec.act i v (.add h) = { v with hs := v.hs ++ [h] } := if_pos (by omega)
    rw [List.map_cons, List.foldl_cons, e, ih _ (by simp only [List.length_append, List.length_cons, List.length_nil]; omega)]
    simp

/-- **C185 (handlers, partial)** If there is room in the vector for all handlers that the registered ones add, and the added ones add none, the event is handed out to the registered ones and then
to the added ones, each of them once. -/
theorem C185_room_partial (news : Nat → List Nat) (hs : List Nat) {cap : Nat} (hq : ∀ h ∈ hs, ∀ k ∈ news h, news k = []) (hc : (hs ++ hs.flatMap news).length ≤ cap) :
    handle (fun h => (news h).map .add) hs cap = .done (hs ++ hs.flatMap news) (hs ++ hs.flatMap news) := by
  have key : ∀ (fuel : Nat) (pre post : List Nat), (∀ h ∈ post, ∀ k ∈ news h, news k = []) → (pre ++ post ++ post.flatMap news).length ≤ cap → cap + 1 ≤ fuel + pre.length →
      deliver (fun h => (news h).map .add) fuel ⟨pre ++ post, cap, true⟩ pre.length pre = .done (pre ++ post ++ post.flatMap news) (pre ++ post ++ post.flatMap news) := by
    intro fuel
    induction fuel with
    | zero => intro pre post _ h1 h2; rw [List.length_append, List.length_append] at h1; omega
    | succ fuel ih =>
      intro pre post hq h1 h2
      unfold deliver
      cases post with
      | nil => simp
      | cons h t =>
        rw [List.getElem?_append_right (Nat.le_refl _), Nat.sub_self]
        dsimp only [List.getElem?_cons_zero]
        rw [List.flatMap_cons, List.length_append, List.length_append, List.length_append] at h1
        rw [foldl_room pre.length (news h) ⟨pre ++ h :: t, cap, true⟩ (by dsimp only; rw [List.length_append]; omega)]
        have hn : (news h).flatMap news = [] := List.flatMap_eq_nil_iff.2 (hq h List.mem_cons_self)
        have := ih (pre ++ [h]) (t ++ news h)
          (by
            intro x hx k hk
            rcases List.mem_append.1 hx with hx | hx
            · exact hq x (List.mem_cons_of_mem _ hx) k hk
            · rw [hq h List.mem_cons_self x hx] at hk; cases hk)
          (by rw [List.flatMap_append, hn]; simp only [List.length_append, List.length_cons, List.length_nil] at h1 ⊢; omega)
          (by simp only [List.length_append, List.length_cons, List.length_nil]; omega)
        rw [List.flatMap_append, hn] at this
        simpa using this
  exact key (cap + 1) [] hs hq hc (by omega)

/-- two handlers in a vector for five, each of which adds one -/
example : (∀ h ∈ [1, 2], ∀ k ∈ (fun h : Nat => if h < 5 then [h + 10] else []) h, (fun h : Nat => if h < 5 then [h + 10] else []) k = [])
    ∧ handle (fun h => ((fun h : Nat => if h < 5 then [h + 10] else []) h).map .add) [1, 2] 5 = .done [1, 2, 11, 12] [1, 2, 11, 12] := by decide

/-- **C185, the code violates the property**: a handler that is registered while an event is handed out receives that event if the vector has room for it, otherwise the loop uses an invalid iterator. -/
theorem C185_add_deviation (acts : Nat → List Act) (a b : Nat) (ha : acts a = [.add b]) (hb : acts b = []) :
    handle acts [a] 2 = .done [a, b] [a, b] ∧ handle acts [a] 1 = .undefined := by
  constructor
  · unfold handle deliver
    dsimp only [List.getElem?_cons_zero]
    rw [ha]
    simp [Vec.act, deliver, hb]
  · unfold handle deliver
    dsimp only [List.getElem?_cons_zero]
    rw [ha]
    simp [Vec.act]

/-! ## the queue -/

theorem flushFrom_fine {proc : Ev → Proc} (queue rest : List Ev) : ∀ (l done : List Ev), (∀ e ∈ l, proc e = .fine) →
    flushFrom proc queue (l ++ rest) done = flushFrom proc queue rest (done ++ l) := by
  intro l
  induction l with
  | nil => intro done _; rw [List.append_nil]; rfl
  | cons e l ih =>
    intro done h
    rw [List.cons_append]
    have e1 : flushFrom proc queue (e :: (l ++ rest)) done = flushFrom proc queue (l ++ rest) (done ++ [e]) := by
      show (match proc e with | .fine => _ | .throws => _ | .reenters => _) = _
      rw [h e List.mem_cons_self]
    rw [e1, ih _ (fun x hx => h x (List.mem_cons_of_mem _ hx)), List.append_assoc]
    rfl

/-- **C185 (queue, partial)** If no processing fails, flush processes every message of the queue exactly once, in order, and leaves an
empty queue. Missing: exceptions (`C185_throw_deviation`) and calls of the queue while it is flushed (`C185_block_deviation`). -/
theorem C185_flush_partial (proc : Ev → Proc) (queue : List Ev) (h : ∀ e ∈ queue, proc e = .fine) : flush proc queue = .ok [] queue := by
  have := flushFrom_fine queue [] queue [] h
  rw [List.append_nil] at this
  unfold flush
  rw [this]
  rfl

/-- **C185, the code violates the property**: if the processing of a message throws, all messages stay in the queue, and those that
were processed are processed again. -/
theorem C185_throw_deviation (proc proc' : Ev → Proc) (a c : List Ev) (b : Ev) (ha : ∀ e ∈ a, proc e = .fine) (hb : proc b = .throws)
    (h' : ∀ e, proc' e = .fine) (done : List Ev) :
    run (a ++ b :: c, done) [.flush proc, .flush proc'] = some ([], done ++ (a ++ [b]) ++ (a ++ b :: c)) := by
  have e1 : flush proc (a ++ b :: c) = .throw (a ++ b :: c) (a ++ [b]) := by
    unfold flush
    rw [flushFrom_fine (a ++ b :: c) (b :: c) a [] ha, List.nil_append]
    unfold flushFrom
    rw [hb]
  have e2 := C185_flush_partial proc' (a ++ b :: c) (fun e _ => h' e)
  unfold run step
  dsimp only
  rw [e1]
  dsimp only
  unfold run step
  dsimp only
  rw [e2]
  rfl

/-- **C185, the code violates the property**: a message whose processing causes an event for the same queue stops the thread for ever. -/
theorem C185_block_deviation (proc : Ev → Proc) (a c : List Ev) (b : Ev) (ha : ∀ e ∈ a, proc e = .fine) (hb : proc b = .reenters) (done : List Ev) :
    run (a ++ b :: c, done) [.flush proc] = none := by
  have e1 : flush proc (a ++ b :: c) = .blocked (a ++ [b]) := by
    unfold flush
    rw [flushFrom_fine (a ++ b :: c) (b :: c) a [] ha, List.nil_append]
    unfold flushFrom
    rw [hb]
  unfold run step
  dsimp only
  rw [e1]

/-- the messages that wait, after calls that do not fail: what arrived since the last flush (the last call first) -/
def waiting : List Call → List Ev
  | [] => []
  | .handle e :: l => waiting l ++ [e]
  | .flush _ :: _ => []

/-- for any calls without failures: the queue holds the compressed messages since the last flush, and each flush processed exactly the compressed messages since the flush before -/
theorem C185_history (calls : List Call) (hf : ∀ c ∈ calls, ∀ proc, c = .flush proc → ∀ e, proc e = .fine) :
    ∃ s, run ([], []) calls = some s ∧ s.1 = compress (waiting calls.reverse) ∧
      ∀ proc, (∀ e, proc e = .fine) → run ([], []) (calls ++ [.flush proc]) = some ([], s.2 ++ compress (waiting calls.reverse)) := by
  have snoc : ∀ (l : List Call) (s : List Ev × List Ev) (c : Call), run s (l ++ [c]) = (run s l).bind (fun s => step s c) := by
    intro l
    induction l with
    | nil => intro s c; show run s [c] = _; simp only [run, Option.bind_some]; cases step s c <;> rfl
    | cons a l ih =>
      intro s c
      rw [List.cons_append]
      simp only [run]
      cases step s a with
      | none => rfl
      | some s => exact ih s c
  have key : ∀ r : List Call, (∀ c ∈ r, ∀ proc, c = .flush proc → ∀ e, proc e = .fine) →
      ∃ s, run ([], []) r.reverse = some s ∧ s.1 = compress (waiting r) := by
    intro r
    induction r with
    | nil => intro _; exact ⟨([], []), rfl, rfl⟩
    | cons c r ih =>
      intro h
      obtain ⟨s, h1, h2⟩ := ih (fun x hx => h x (List.mem_cons_of_mem _ hx))
      rw [List.reverse_cons, snoc, h1, Option.bind_some]
      cases c with
      | handle e =>
        refine ⟨_, rfl, ?_⟩
        show enqueue s.1 e = compress (waiting r ++ [e])
        unfold compress at *
        rw [List.foldl_append, h2]
        rfl
      | flush proc =>
        have := C185_flush_partial proc s.1 (fun e _ => h _ List.mem_cons_self proc rfl e)
        refine ⟨([], s.2 ++ s.1), ?_, rfl⟩
        unfold step
        dsimp only
        rw [this]
  obtain ⟨s, h1, h2⟩ := key calls.reverse (fun c hc => hf c (List.mem_reverse.1 hc))
  rw [List.reverse_reverse] at h1
  refine ⟨s, h1, h2, fun proc hp => ?_⟩
  rw [snoc, h1, Option.bind_some]
  unfold step
  dsimp only
  rw [C185_flush_partial proc s.1 (fun e _ => hp e), h2]

/-! ## examples -/

/-- handler 1 removes 3, which comes later -/
example : handle (fun h => if h = 1 then [.remove 3] else []) [1, 2, 3, 4] 4 = .done [1, 2, 4] [1, 2, 4] := by decide +kernel

example : Later (fun h => if h = 1 then [.remove 3] else []) [1, 2, 3, 4] := by
  intro a h b hab x hx
  by_cases hh : h = 1
  · subst hh
    simp only [if_true, List.mem_singleton] at hx
    refine ⟨3, hx, ?_⟩
    cases a with
    | nil => decide
    | cons a0 a =>
      exfalso
      have : 1 ∈ [2, 3, 4] := by rw [(List.cons.inj hab).2]; simp
      revert this; decide
  · simp only [if_neg hh] at hx; cases hx

#print axioms C185_handlers_partial
#print axioms C185_quiet
#print axioms C185_self_deviation
#print axioms C185_adding_partial
#print axioms C185_room_partial
#print axioms C185_add_deviation
#print axioms C185_flush_partial
#print axioms C185_throw_deviation
#print axioms C185_block_deviation
#print axioms C185_history

end Envire.Reentry
