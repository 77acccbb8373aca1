import Verif.Core.Detach
import Verif.Core.Witness
/-! Properties C01, C02, C03: unique ids and attaching. -/
namespace Envire
open Env

/-! ## C01 -/

/-- **C01** In every state reached by calls in which `detachItem` is only applied to items attached here:
being attached is the same as being stored under the own id, ids are unique, an item is stored once, stored ids
start with '/' and do not end with '/'. -/
theorem C01_ids_index_items {r : Obj} {s : Env} (h : Reach Legal r s) :
    (∀ o, s.owner o = .here ↔ s.getItem (s.uid o) = some o) ∧
    (∀ id o, s.getItem id = some o → s.owner o = .here ∧ s.uid o = id) ∧
    (∀ a b, s.owner a = .here → s.owner b = .here → s.uid a = s.uid b → a = b) ∧
    (∀ id o, s.getItem id = some o → id.head? = some '/' ∧ id.getLast? ≠ some '/') ∧
    (s.items.map (·.1)).Nodup ∧ (s.items.map (·.2)).Nodup := by
  have hw := h.wf
  have h1 : ∀ id o, s.getItem id = some o ↔ s.owner o = .here ∧ s.uid o = id := by
    intro id o
    exact (look_eq_some_iff hw.items_nodup).trans (hw.items_iff id o)
  refine ⟨fun o => ?_, fun id o ho => (h1 _ _).1 ho, ?_, ?_, hw.items_nodup, ?_⟩
  · rw [h1]; exact ⟨fun h => ⟨h, rfl⟩, fun h => h.1⟩
  · intro a b ha hb hab
    have e1 := (h1 (s.uid a) a).2 ⟨ha, rfl⟩
    have e2 := (h1 (s.uid b) b).2 ⟨hb, rfl⟩
    rw [hab, e2] at e1
    exact (Option.some.inj e1).symm
  · intro id o ho
    obtain ⟨hh, hu⟩ := (h1 _ _).1 ho
    have := hw.good o (by unfold isAttached; rw [hh])
    rw [hu] at this
    unfold goodId at this
    simpa using this
  · have hn := hw.items_nodup
    have hi : ∀ e ∈ s.items, e.1 = s.uid e.2 := fun e he => ((hw.items_iff e.1 e.2).1 he).2.symm
    have e : s.items.map (·.1) = (s.items.map (·.2)).map s.uid := by
      rw [List.map_map]; exact List.map_congr_left hi
    rw [e] at hn
    unfold List.Nodup at hn ⊢
    rw [List.pairwise_map] at hn
    exact hn.imp (fun {a b} h he => h (congrArg s.uid he))

/-- a history with two automatic ids, one explicit one, and an item detached again -/
def idHistory : List Op :=
  [.alloc 1 .layer [] false 0 0, .alloc 2 .frame ['m', '/'] true 0 0, .alloc 3 .other ['/', 'a'] true 0 0,
   .attach 1, .attach 2, .attach 3, .detach 3 false]

/-- the history is legal and ends in a state with three items -/
example : ((run (init 0) idHistory).map fun s => (s.items, s.getItem ['/', 'm', '/', '3'], s.owner 3)) =
    some ([(['/', '0'], 0), (['/', '2'], 1), (['/', 'm', '/', '3'], 2)], some 2, .free) := by decide +kernel

/-- **C01, counterexample outside of the rules of use**: `detachItem` on an item that was never attached, but has the
id of an attached one, removes the other item from the index; that item still claims to be attached. -/
theorem C01_detach_of_unattached_corrupts :
    ∃ s, run (init 0) [.alloc 1 .other ['/', 'a'] true 0 0, .alloc 2 .other ['/', 'a'] true 0 0, .attach 1,
        .detach 2 false] = some s ∧ s.owner 1 = .here ∧ s.getItem (s.uid 1) = none := by
  exact ex_of_any (by decide +kernel)

/-! ## C02 -/

/-- specification: the part of the id in front of the number -/
def requestedPrefix (prefix_ id : Uid) : Uid :=
  match id with
  | [] => prefix_
  | c :: t => if c = '/' then c :: t else prefix_ ++ c :: t

theorem absId_eq_requested {s : Env} (hw : WF s) (o : Obj) : s.absId o = requestedPrefix s.pfx (s.uid o) := by
  unfold absId requestedPrefix
  cases h : s.uid o with
  | nil => simp [hw.pfx_head]
  | cons c t => simp

/-- C02 for any well-formed state -/
theorem automatic_id_fresh {s : Env} (hw : WF s) {o : Obj} (hf : s.owner o = .free)
    (ha : s.uid o = [] ∨ (s.uid o).getLast? = some '/') :
    ∃ n s', s.attachItem o = .ok s' ∧ s.lastId < n ∧ s'.lastId = n ∧
      s'.uid o = requestedPrefix s.pfx (s.uid o) ++ Nat.toDigits 10 n ∧
      s.getItem (s'.uid o) = none ∧
      (∀ k, s.lastId < k → k < n → ∃ x, s.getItem (requestedPrefix s.pfx (s.uid o) ++ Nat.toDigits 10 k) = some x) ∧
      s'.getItem (s'.uid o) = some o ∧ s'.owner o = .here ∧
      (∀ x, x ≠ o → s'.uid x = s.uid x ∧ s'.owner x = s.owner x) ∧
      (∀ id x, s.getItem id = some x → s'.getItem id = some x) ∧ RelSame s s' := by
  have hlast : (s.absId o).getLast? = some '/' := by
    rw [absId_eq_requested hw]
    unfold requestedPrefix
    cases h : s.uid o with
    | nil => exact hw.pfx_last
    | cons c t =>
      rw [h] at ha
      have : (c :: t).getLast? = some '/' := by rcases ha with ha | ha <;> simp_all
      dsimp only
      split
      · exact this
      · rw [List.getLast?_append, this]; rfl
  have hsp := freshNum_spec (s.items.map (·.1)) (s.absId o) (s.lastId + 1)
  rw [List.length_map] at hsp
  generalize hn : freshNum (s.items.map (·.1)) (s.absId o) s.items.length (s.lastId + 1) = n at hsp
  obtain ⟨h1, h2, h3⟩ := hsp
  have hid : s.assignId o = { s with lastId := n, uid := upd s.uid o (s.absId o ++ Nat.toDigits 10 n) } := by
    unfold assignId; dsimp only; rw [if_pos hlast, hn]
  have hfin : s.finalId o = s.absId o ++ Nat.toDigits 10 n := by unfold finalId; rw [hid]; exact upd_self _ _ _
  have he := attachItem_free hf
  rw [hfin, if_neg h2, hid] at he
  refine ⟨n, _, he, h1, rfl, ?_, ?_, ?_, ?_, upd_self _ _ _, ?_, ?_, ⟨rfl, rfl, rfl, rfl, rfl⟩⟩
  · dsimp only; rw [upd_self, absId_eq_requested hw]
  · dsimp only; rw [upd_self]; exact look_none_iff.2 h2
  · intro k hk1 hk2
    have := h3 k hk1 hk2
    rw [absId_eq_requested hw] at this
    unfold getItem
    exact look_isSome_iff.2 this
  · dsimp only [getItem]; rw [upd_self]; exact look_ins_self hw.items_nodup h2
  · intro x hx; exact ⟨upd_ne _ _ hx, upd_ne _ _ hx⟩
  · intro id x hx
    show look id (ins _ _ _) = some x
    rw [look_ins_ne ?_]
    · exact hx
    · rintro rfl
      exact h2 (look_isSome_iff.1 ⟨x, hx⟩)

/-- **C02** Attaching an unattached item that asks for an automatic id never fails; the id is the requested prefix
followed by a decimal number, which is the first one above the counter that is free; no attached item had that
id, and nothing else changes except that the item is stored and announced. The search loop stops at that number
because all smaller candidates are taken. -/
theorem C02_automatic_id_is_fresh {r : Obj} {s : Env} (hr : Reach Legal r s) {o : Obj} (hf : s.owner o = .free)
    (ha : s.uid o = [] ∨ (s.uid o).getLast? = some '/') :
    ∃ n s', s.attachItem o = .ok s' ∧ s.lastId < n ∧ s'.lastId = n ∧
      s'.uid o = requestedPrefix s.pfx (s.uid o) ++ Nat.toDigits 10 n ∧
      s.getItem (s'.uid o) = none ∧
      (∀ k, s.lastId < k → k < n → ∃ x, s.getItem (requestedPrefix s.pfx (s.uid o) ++ Nat.toDigits 10 k) = some x) ∧
      s'.getItem (s'.uid o) = some o ∧ s'.owner o = .here ∧
      (∀ x, x ≠ o → s'.uid x = s.uid x ∧ s'.owner x = s.owner x) ∧
      (∀ id x, s.getItem id = some x → s'.getItem id = some x) ∧ RelSame s s' :=
  automatic_id_fresh hr.wf hf ha

/-- the hypotheses are met by a state in which the next two numbers are taken; the third one is used -/
def takenHistory : List Op :=
  [.alloc 1 .other ['/', '2'] false 0 0, .attach 1, .alloc 2 .other ['/', '3'] false 0 0, .attach 2,
   .alloc 3 .layer [] false 0 0]

example : ∃ s, run (init 0) takenHistory = some s ∧ (s.owner 3 = .free ∧ s.uid 3 = [] ∧ s.lastId = 1) :=
  ex_of_any (by decide +kernel)

example : ∃ s, run (init 0) (takenHistory ++ [.attach 3]) = some s ∧ (s.uid 3 = ['/', '4'] ∧ s.lastId = 4) :=
  ex_of_any (by decide +kernel)

/-! ## C03 -/

/-- specification: the id under which `attachItem` will try to store `o` is taken: a re-attached item has its own id,
an item asking for an automatic id never collides -/
def idTaken (s : Env) (o : Obj) : Prop :=
  if s.owner o = .free then
    ¬ (s.uid o = [] ∨ (s.uid o).getLast? = some '/') ∧ (s.getItem (requestedPrefix s.pfx (s.uid o))).isSome
  else (s.getItem (s.uid o)).isSome

theorem finalId_explicit {s : Env} (hw : WF s) {o : Obj} (ha : ¬ (s.uid o = [] ∨ (s.uid o).getLast? = some '/')) :
    s.finalId o = requestedPrefix s.pfx (s.uid o) := by
  rw [← absId_eq_requested hw]
  unfold finalId assignId
  dsimp only
  rw [if_neg]
  · exact upd_self _ _ _
  · rw [absId_eq_requested hw]
    unfold requestedPrefix
    cases h : s.uid o with
    | nil => exact absurd (Or.inl h) ha
    | cons c t =>
      have : (c :: t).getLast? ≠ some '/' := by rw [← h]; exact fun hx => ha (Or.inr hx)
      dsimp only
      split
      · exact this
      · rw [List.getLast?_append, List.getLast?_cons] at *
        simpa using this

/-- **C03** For a live item not attached to another environment: `attachItem` throws iff the final id is taken; if it
throws, the environment is unchanged: items, relations, root, prefix, counter, ownership and the event log (only
the not attached item itself may have had its relative id made absolute). If it does not throw it returns
normally. -/
theorem C03_attach_throws_iff_taken {r : Obj} {s : Env} (hr : Reach Legal r s) {o : Obj} (hl : s.owner o ≠ .dead)
    (he : s.owner o ≠ .elsewhere) :
    ((∃ s', s.attachItem o = .throw s') ↔ idTaken s o) ∧
    (∀ s', s.attachItem o = .throw s' →
      RelSame s s' ∧ s'.items = s.items ∧ s'.owner = s.owner ∧ s'.log = s.log ∧ s'.rootNode = s.rootNode ∧
      s'.pfx = s.pfx ∧ s'.lastId = s.lastId ∧ s'.held = s.held ∧ s'.kind = s.kind ∧
      (∀ x, x ≠ o → s'.uid x = s.uid x) ∧ (s.owner o = .here → s'.uid o = s.uid o) ∧
      (s.owner o = .free → s'.uid o = requestedPrefix s.pfx (s.uid o))) ∧
    (¬ idTaken s o → ∃ s', s.attachItem o = .ok s') := by
  have hw := hr.wf
  have hcase : s.owner o = .free ∨ s.owner o = .here := by
    cases h : s.owner o with
    | dead => exact absurd h hl
    | free => exact Or.inl rfl
    | here => exact Or.inr rfl
    | elsewhere => exact absurd h he
  rcases hcase with hf | hh
  · by_cases ha : s.uid o = [] ∨ (s.uid o).getLast? = some '/'
    · obtain ⟨n, s', hs, -⟩ := C02_automatic_id_is_fresh hr hf ha
      have hnt : ¬ idTaken s o := by unfold idTaken; rw [if_pos hf]; exact fun h => h.1 ha
      rw [hs]
      exact ⟨⟨(fun ⟨_, h⟩ => by cases h), fun h => absurd h hnt⟩, (fun _ h => by cases h), fun _ => ⟨_, rfl⟩⟩
    · have hx := attachItem_free hf
      rw [finalId_explicit hw ha] at hx
      have hid : (s.assignId o).lastId = s.lastId := by
        have h2 : (s.absId o).getLast? ≠ some '/' := by
          intro hx
          have := finalId_explicit hw ha
          rw [← absId_eq_requested hw] at this
          unfold finalId assignId at this
          dsimp only at this
          rw [if_pos hx] at this
          dsimp only at this
          rw [upd_self] at this
          have h3 := congrArg List.length this
          rw [List.length_append] at h3
          have : 0 < (Nat.toDigits 10 (freshNum (s.items.map (·.1)) (s.absId o) s.items.length (s.lastId + 1))).length := by
            exact Nat.length_toDigits_pos
          omega
        unfold assignId; dsimp only; rw [if_neg h2]
      by_cases ht : requestedPrefix s.pfx (s.uid o) ∈ s.items.map (·.1)
      · rw [if_pos ht, hid] at hx
        have hit : idTaken s o := by
          unfold idTaken; rw [if_pos hf]; exact ⟨ha, Option.isSome_iff_exists.2 (look_isSome_iff.2 ht)⟩
        rw [hx]
        refine ⟨⟨fun _ => hit, fun _ => ⟨_, rfl⟩⟩, ?_, fun h => absurd hit h⟩
        intro s' h
        cases h
        exact ⟨⟨rfl, rfl, rfl, rfl, rfl⟩, rfl, rfl, rfl, rfl, rfl, rfl, rfl, rfl, fun x hx => upd_ne _ _ hx,
          (fun h => by rw [hf] at h; cases h), fun _ => upd_self _ _ _⟩
      · rw [if_neg ht] at hx
        have hnt : ¬ idTaken s o := by
          unfold idTaken; rw [if_pos hf]; exact fun h => ht (look_isSome_iff.1 (Option.isSome_iff_exists.1 h.2))
        rw [hx]
        exact ⟨⟨(fun ⟨_, h⟩ => by cases h), fun h => absurd h hnt⟩, (fun _ h => by cases h), fun _ => ⟨_, rfl⟩⟩
  · have ht : idTaken s o := by
      unfold idTaken
      rw [if_neg (by rw [hh]; decide)]
      unfold getItem
      rw [hw.look_uid hh]; rfl
    rw [hw.attachItem_here hh]
    refine ⟨⟨fun _ => ht, fun _ => ⟨_, rfl⟩⟩, ?_, fun h => absurd ht h⟩
    intro s' h
    cases h
    exact ⟨RelSame.refl s, rfl, rfl, rfl, rfl, rfl, rfl, rfl, rfl, fun _ _ => rfl, fun _ => rfl,
      fun h => by rw [hh] at h; cases h⟩

/-- a relative id that collides after prefixing -/
example : ∃ s, run (init 0) [.alloc 1 .other ['/', 'a'] true 0 0, .attach 1, .alloc 2 .other ['a'] true 0 0] = some s ∧
    (s.owner 2 = .free ∧ (s.attachItem 2).thrown?.any
      (fun s' => s'.uid 2 = ['/', 'a'] ∧ s'.owner 2 = .free ∧ s'.getItem ['/', 'a'] = some 1) = true) :=
  ex_of_any (by decide +kernel)

end Envire

#print axioms Envire.C01_ids_index_items
#print axioms Envire.C01_detach_of_unattached_corrupts
#print axioms Envire.C02_automatic_id_is_fresh
#print axioms Envire.C03_attach_throws_iff_taken
