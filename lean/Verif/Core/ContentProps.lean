import Verif.Core.QueueLemmas
import Verif.Core.Witness
/-! Property C21: the content of items travelling through an asynchronous event queue. Each message carries the content its
item had when the queue received it (`Event::ref( true )` clones the item, Event.cpp l.80-101); a content is a number. -/
namespace Envire

/-- a message with the content of its item -/
abbrev CEv := Ev × Nat

/-- EventQueue::handle, EventHandler.cpp l.75-107, on messages with content -/
def enqueueC (q : List CEv) (m : CEv) : List CEv :=
  let rest := q.filter (fun o => decide (m.1.merge o.1 = .ignore))
  if q.any (fun o => decide (m.1.merge o.1 = .cancel)) then rest else rest ++ [m]

def compressC (ms : List CEv) : List CEv := ms.foldl enqueueC []

/-- forgetting the content gives the queue of `EventModel` -/
theorem compressC_fst (ms : List CEv) : (compressC ms).map (·.1) = compress (ms.map (·.1)) := by
  have step : ∀ (q : List CEv) (m : CEv), (enqueueC q m).map (·.1) = enqueue (q.map (·.1)) m.1 := by
    intro q m
    unfold enqueueC enqueue
    dsimp only
    have h1 : (q.map (·.1)).any (fun o => decide (m.1.merge o = .cancel)) = q.any (fun o => decide (m.1.merge o.1 = .cancel)) := by
      rw [List.any_map]; rfl
    have h2 : (q.map (·.1)).filter (fun o => decide (m.1.merge o = .ignore)) =
        (q.filter (fun o => decide (m.1.merge o.1 = .ignore))).map (·.1) := by
      rw [List.filter_map]; rfl
    rw [h1, h2]
    split
    · rfl
    · rw [List.map_append]; rfl
  have gen : ∀ (ms : List CEv) (q : List CEv), (ms.foldl enqueueC q).map (·.1) = (ms.map (·.1)).foldl enqueue (q.map (·.1)) := by
    intro ms
    induction ms with
    | nil => intro q; rfl
    | cons m ms ih => intro q; rw [List.foldl_cons, ih, step]; rfl
  exact gen ms []

/-- contents of a receiver by id; `none`: no such item -/
abbrev Contents := Uid → Option Nat

/-- what a message does to the contents: `itemAttached` / `itemModified` attach the clone or copy its content into the existing
item (`item->set`), `itemDetached` removes it (ApplyEventHelper, Event.cpp l.111-160) -/
def Contents.apply (C : Contents) (m : CEv) : Contents :=
  match m.1.ty, m.1.op with
  | .item, .add => fun i => if i = m.1.ida then some m.2 else C i
  | .item, .update => fun i => if i = m.1.ida then some m.2 else C i
  | .item, .remove => fun i => if i = m.1.ida then none else C i
  | _, _ => C

def Contents.follow (C : Contents) (ms : List CEv) : Contents := ms.foldl Contents.apply C

/-- the message is about item `i` -/
def CEv.about (m : CEv) (i : Uid) : Prop := m.1.ty = .item ∧ m.1.ida = i

instance (m : CEv) (i : Uid) : Decidable (m.about i) := inferInstanceAs (Decidable (_ ∧ _))

theorem Contents.apply_other {C : Contents} {m : CEv} {i : Uid} (h : ¬ m.about i) : C.apply m i = C i := by
  unfold Contents.apply
  cases h1 : m.1.ty <;> try rfl
  cases m.1.op <;> exact if_neg (fun e => h ⟨h1, e.symm⟩)

theorem Contents.apply_about {C : Contents} {m : CEv} {i : Uid} (h : m.about i) :
    C.apply m i = if m.1.op = .remove then none else some m.2 := by
  obtain ⟨h1, h2⟩ := h
  unfold Contents.apply
  rw [h1]
  cases m.1.op <;> simp [h2]

theorem Contents.follow_none {i : Uid} {ms : List CEv} : ∀ {C : Contents}, (∀ m ∈ ms, ¬ CEv.about m i) → C.follow ms i = C i := by
  induction ms with
  | nil => intro C _; rfl
  | cons m ms ih =>
    intro C h
    have := ih (C := C.apply m) (fun x hx => h x (by simp [hx]))
    exact this.trans (Contents.apply_other (h m (by simp)))

theorem Contents.follow_append (C : Contents) (a b : List CEv) : C.follow (a ++ b) = (C.follow a).follow b := List.foldl_append ..

/-- the contents after a stream are those of the last messages: the specification in words of positions -/
theorem Contents.follow_last (C : Contents) {i : Uid} {a b : List CEv} {m : CEv} (hm : m.about i) (hb : ∀ x ∈ b, ¬ CEv.about x i) :
    C.follow (a ++ m :: b) i = if m.1.op = .remove then none else some m.2 := by
  rw [Contents.follow_append]
  exact (Contents.follow_none (C := (C.follow a).apply m) hb).trans (Contents.apply_about hm)

theorem merge_item {e o : Ev} (he : e.shape) (ho : o.shape) (i : Uid) (h1 : e.ty = .item) (h2 : e.ida = i) :
    (o.ty = .item ∧ o.ida = i) ↔ e.key = o.key := by
  rw [← same_key he ho]
  constructor
  · rintro ⟨a, b⟩
    exact ⟨h1.trans a.symm, h2.trans b.symm, (he.1 (.inl h1)).trans (ho.1 (.inl a)).symm⟩
  · rintro ⟨a, b, _⟩
    exact ⟨a ▸ h1, b ▸ h2⟩

/-- the state of the queue, seen for one item -/
structure HeldInv (C : Contents) (q ms : List CEv) : Prop where
  shape : ∀ m ∈ q, m.1.shape
  cont : C.follow q = C.follow ms
  sub : ∀ m ∈ q, m ∈ ms

theorem Contents.follow_filter {p : CEv → Bool} {i : Uid} {q : List CEv} (h : ∀ m ∈ q, p m = false → ¬ CEv.about m i) :
    ∀ {C : Contents}, C.follow (q.filter p) i = C.follow q i := by
  induction q with
  | nil => intro C; rfl
  | cons m q ih =>
    intro C
    have hq := fun C => ih (fun x hx => h x (by simp [hx])) (C := C)
    cases hp : p m
    · rw [List.filter_cons_of_neg (by simp [hp]), hq C]
      have hc : C.apply m i = C i := Contents.apply_other (h m (by simp) hp)
      show _ = (C.apply m).follow q i
      -- contents of `i` after `q` depend on `C i` only
      have dep : ∀ (q : List CEv) (C D : Contents), C i = D i → C.follow q i = D.follow q i := by
        intro q
        induction q with
        | nil => intro C D h; exact h
        | cons x q ih =>
          intro C D h
          refine ih _ _ ?_
          by_cases hx : x.about i
          · rw [Contents.apply_about hx, Contents.apply_about hx]
          · rw [Contents.apply_other hx, Contents.apply_other hx, h]
      exact dep q _ _ hc.symm
    · rw [List.filter_cons_of_pos hp]
      exact hq (C.apply m)

/-- **C21** If no item is removed and attached again under the same id between two flushes, the receiver has after the flush
for every id exactly the content of the last message about it. `hadd`: an item is only attached when its id is not
in use (C01). Missing for the full claim: removal followed by re-attachment within one batch. -/
theorem C21_last_content_partial {C : Contents} {ms : List CEv} (hsh : ∀ m ∈ ms, m.1.shape)
    (hadd : ∀ a m b, ms = a ++ m :: b → m.1.ty = .item → m.1.op = .add → C.follow a m.1.ida = none)
    (hno : ms.Pairwise (fun x y => ¬ (x.1.ty = .item ∧ x.1.op = .remove ∧ y.1.ty = .item ∧ y.1.op = .add ∧ x.1.ida = y.1.ida))) :
    C.follow (compressC ms) = C.follow ms := by
  have gen : ∀ (b a q : List CEv), ms = a ++ b → HeldInv C q a → HeldInv C (b.foldl enqueueC q) ms := by
    intro b
    induction b with
    | nil => intro a q h hq; rw [List.append_nil] at h; rw [h]; exact hq
    | cons m b ih =>
      intro a q h hq
      refine ih (a ++ [m]) (enqueueC q m) (by rw [h]; simp) ?_
      have hmsh : m.1.shape := hsh m (by rw [h]; simp)
      have hm : ∀ o ∈ q, m.1.merge o.1 = _ := fun o ho => merge_eq hmsh (hq.shape o ho)
      have hsubr : ∀ o ∈ enqueueC q m, o ∈ q ∨ o = m := by
        intro o ho
        unfold enqueueC at ho
        dsimp only at ho
        split at ho
        · exact .inl (List.mem_filter.1 ho).1
        · rcases List.mem_append.1 ho with ho | ho
          · exact .inl (List.mem_filter.1 ho).1
          · exact .inr (List.mem_singleton.1 ho)
      refine ⟨?_, ?_, ?_⟩
      · intro o ho
        rcases hsubr o ho with h | rfl
        · exact hq.shape o h
        · exact hmsh
      · funext i
        rw [Contents.follow_append]
        show _ = (C.follow a).apply m i
        rw [← hq.cont]
        by_cases hi : m.about i
        · -- the message is about `i`
          rw [Contents.apply_about hi]
          unfold enqueueC
          dsimp only
          split
          · rename_i hc
            -- cancelled
            rw [List.any_eq_true] at hc
            obtain ⟨o, ho, hco⟩ := hc
            rw [decide_eq_true_eq, hm o ho] at hco
            split at hco
            · rename_i hk
              split at hco
              · cases hco
              · rename_i hop
                split at hco
                · rename_i hop2
                  have hoi : o.about i := (merge_item hmsh (hq.shape o ho) i hi.1 hi.2).2 hk
                  have hoa := hq.sub o ho
                  obtain ⟨a1, a2, rfl⟩ := List.append_of_mem hoa
                  cases hmo : m.1.op with
                  | update => exact absurd hmo hop2.1
                  | add =>
                    exfalso
                    have hor : o.1.op = .remove := by
                      cases hoo : o.1.op with
                      | update => exact absurd hoo hop2.2
                      | add => exact absurd (.inl (hmo.trans hoo.symm)) hop
                      | remove => rfl
                    rw [h, List.pairwise_append] at hno
                    exact hno.2.2 o (by simp) m (by simp) ⟨hoi.1, hor, hi.1, hmo, hoi.2.trans hi.2.symm⟩
                  | remove =>
                    have hoo : o.1.op = .add := by
                      cases hoo : o.1.op with
                      | update => exact absurd hoo hop2.2
                      | add => rfl
                      | remove => exact absurd (.inl (hmo.trans hoo.symm)) hop
                    rw [if_pos rfl]
                    -- `i` was not there at the last flush
                    have hCi : C i = none := by
                      have h0 := hadd a1 o (a2 ++ m :: b) (by rw [h]; simp) hoi.1 hoo
                      rw [hoi.2] at h0
                      -- no removal before, so what is there stays
                      have stay : ∀ (l : List CEv) (D : Contents), (∀ x ∈ l, ¬ (x.1.ty = .item ∧ x.1.op = .remove ∧ x.1.ida = i)) →
                          D i ≠ none → D.follow l i ≠ none := by
                        intro l
                        induction l with
                        | nil => intro D _ h; exact h
                        | cons x l ih =>
                          intro D hx hD
                          refine ih _ (fun y hy => hx y (by simp [hy])) ?_
                          by_cases hxi : x.about i
                          · rw [Contents.apply_about hxi]
                            have := hx x (by simp)
                            split
                            · rename_i hr; exact absurd ⟨hxi.1, hr, hxi.2⟩ this
                            · simp
                          · rw [Contents.apply_other hxi]; exact hD
                      cases hc : C i with
                      | none => rfl
                      | some v =>
                        refine absurd h0 (stay a1 C ?_ (by rw [hc]; simp))
                        intro x hx ⟨x1, x2, x3⟩
                        rw [h, List.pairwise_append, List.pairwise_append] at hno
                        exact hno.1.2.2 x hx o (by simp) ⟨x1, x2, hoi.1, hoo, x3.trans hoi.2.symm⟩
                    rw [Contents.follow_none, hCi]
                    intro x hx hxi
                    obtain ⟨hx1, hx2⟩ := List.mem_filter.1 hx
                    rw [decide_eq_true_eq, hm x hx1, if_pos ((merge_item hmsh (hq.shape x hx1) i hi.1 hi.2).1 hxi), hmo] at hx2
                    cases hxo : x.1.op <;> rw [hxo] at hx2 <;> simp at hx2
                · cases hco
            · cases hco
          · exact Contents.follow_last _ hi (fun x hx => by simp at hx)
        · -- another item, or no item at all
          rw [Contents.apply_other hi]
          have hf : C.follow (q.filter (fun o => decide (m.1.merge o.1 = .ignore))) i = C.follow q i := by
            refine Contents.follow_filter (fun o ho hp => ?_)
            rw [decide_eq_false_iff_not, hm o ho] at hp
            intro hoi
            refine hp (if_neg (fun hk => hi ?_))
            exact (merge_item (hq.shape o ho) hmsh i hoi.1 hoi.2).2 hk.symm
          unfold enqueueC
          dsimp only
          split
          · exact hf
          · rw [Contents.follow_append]
            exact (Contents.apply_other hi).trans hf
      · intro o ho
        rcases hsubr o ho with h | rfl
        · exact List.mem_append_left _ (hq.sub o h)
        · simp
  exact (gen ms [] [] rfl ⟨by simp, rfl, by simp⟩).cont

/-- the hypotheses of C21 are met by: attach, two modifications, another item modified and removed -/
example : let a : Uid := ['/', 'a']; let b : Uid := ['/', 'b']
    let ms : List CEv := [(⟨.item, .add, 1, none, a, []⟩, 5), (⟨.item, .update, 1, none, a, []⟩, 6), (⟨.item, .update, 2, none, b, []⟩, 3),
      (⟨.item, .update, 1, none, a, []⟩, 7), (⟨.item, .remove, 2, none, b, []⟩, 3)]
    compressC ms = [(⟨.item, .add, 1, none, a, []⟩, 5), (⟨.item, .update, 1, none, a, []⟩, 7), (⟨.item, .remove, 2, none, b, []⟩, 3)] ∧
    Contents.follow (fun i => if i = b then some 1 else none) (compressC ms) a = some 7 ∧
    ms.Pairwise (fun x y => ¬ (x.1.ty = .item ∧ x.1.op = .remove ∧ y.1.ty = .item ∧ y.1.op = .add ∧ x.1.ida = y.1.ida)) := by
  decide +kernel


/-- **C21, the code violates the property**: an item is detached, changed and attached again between two flushes. The two
messages cancel each other, the receiver keeps the old content 5, while the last message about the item carried 6. -/
theorem C21_stale_content :
    ∃ s, Env.run (Env.init 0) [.alloc 1 .frame ['/', 'a'] true 0 0, .attach 1] = some s ∧ ∃ s', Env.run s [.detach 1 false, .attach 1] = some s' ∧
      (let ms := (s'.log.drop s.log.length).zip [5, 6]
       let C : Contents := fun i => if i = ['/', 'a'] then some 5 else none
       s'.getItem ['/', 'a'] = some 1 ∧ C.follow ms ['/', 'a'] = some 6 ∧ C.follow (compressC ms) ['/', 'a'] = some 5) :=
  ex_of_any2 (by decide +kernel)

end Envire

#print axioms Envire.C21_last_content_partial
#print axioms Envire.C21_stale_content
