import Verif.Tools.DeleteModel
import Verif.Core.DetachProps
/-! Property C152: deleting the items named on the command line. -/
namespace Envire
namespace Delete
open Env

/-- what the words of the command line name, with what hangs below, in the environment as it was loaded -/
def Named (s : Env) (ids : List Uid) (x : Obj) : Prop := ∃ id ∈ ids, ∃ o, s.getItem id = some o ∧ Subtree s o x

theorem detach_step {s : Env} (hw : WF s) (hc : Closed s) (ha : Acyclic s) {o : Obj} (ho : s.owner o = .here) :
    ∃ s', s.step (.detach o true) = .ok s' ∧ (WF s' ∧ Closed s') ∧ Restrict s s' (Subtree s o) := by
  obtain ⟨s', he, hi, hr⟩ := detachDeep_total hw hc ha ho
  refine ⟨s', ?_, hi, hr⟩
  unfold Env.step
  rw [if_neg, if_neg]
  · exact he
  · exact Bool.noConfusion
  · rintro ⟨x, hx, hd⟩
    simp only [args, List.mem_singleton] at hx
    subst hx
    rw [ho] at hd; cases hd

theorem Restrict.getItem {s t : Env} {U : Obj → Prop} (hw : WF s) (hw' : WF t) (h : Restrict s t U) (id : Uid) (x : Obj) :
    t.getItem id = some x ↔ s.getItem id = some x ∧ ¬ U x := by
  unfold Env.getItem
  rw [look_eq_some_iff hw'.items_nodup, h.items, mem_dropIds, look_eq_some_iff hw.items_nodup]

theorem named_down {s : Env} (hc : Closed s) (ids : List Uid) : Down s (Named s ids) := by
  constructor
  · rintro x p h ⟨id, hid, o, ho, hs⟩
    exact ⟨id, hid, o, ho, (Subtree.down hc o).1 x p h hs⟩
  · rintro x p h ⟨id, hid, o, ho, hs⟩
    exact ⟨id, hid, o, ho, (Subtree.down hc o).2 x p h hs⟩

theorem above_named {s : Env} (hc : Closed s) {pre : List Uid} {x o : Obj} (h : Above s x o) (hn : Named s pre o) :
    Named s pre x := by
  induction h with
  | one h1 => exact (named_down hc pre).1 _ _ h1 hn
  | more h1 _ ih => exact (named_down hc pre).1 _ _ h1 (ih hn)

/-- the loop, started in a state from which `U` is gone -/
theorem deleteItems_from {s : Env} (hw : WF s) (hc : Closed s) (ha : Acyclic s) (ids : List Uid) :
    ∀ (pre : List Uid) (t : Env), WF t → Closed t → Restrict s t (Named s pre) →
    ∃ s' ms, deleteItems t ids = .ok (s', ms) ∧ (WF s' ∧ Closed s') ∧ Restrict s s' (Named s (pre ++ ids)) ∧
      ms.length = ids.length ∧
      ∀ (a : List Uid) (id : Uid) (b : List Uid), ids = a ++ id :: b →
        (ms[a.length]? = some true ↔ ∀ o, s.getItem id = some o → Named s (pre ++ a) o) := by
  induction ids with
  | nil =>
    intro pre t hwt hct hr
    refine ⟨t, [], rfl, ⟨hwt, hct⟩, by simpa using hr, rfl, ?_⟩
    intro a id b h
    simp at h
  | cons id ids ih =>
    intro pre t hwt hct hr
    have happ : ∀ l, (pre ++ [id]) ++ l = pre ++ id :: l := fun l => by simp
    cases hg : t.getItem id with
    | none =>
      have hnone : ∀ o, s.getItem id = some o → Named s pre o := by
        intro o ho
        refine Classical.byContradiction fun hn => ?_
        have := (Restrict.getItem hw hwt hr id o).2 ⟨ho, hn⟩
        rw [hg] at this; cases this
      have hr' : Restrict s t (Named s (pre ++ [id])) := by
        refine hr.congr fun x => ?_
        constructor
        · rintro ⟨i, hi, o, ho, hs⟩
          exact ⟨i, List.mem_append_left _ hi, o, ho, hs⟩
        · rintro ⟨i, hi, o, ho, hs⟩
          rcases List.mem_append.1 hi with hi | hi
          · exact ⟨i, hi, o, ho, hs⟩
          · rw [List.mem_singleton] at hi
            subst hi
            -- the item is named, so all that hangs below it is
            have hn := hnone o ho
            rcases hs with rfl | hs | ⟨f, hf, hs⟩
            · exact hn
            · exact above_named hc hs hn
            · rcases hs with rfl | hs
              · exact (named_down hc pre).2 _ _ hf hn
              · exact (named_down hc pre).2 _ _ hf (above_named hc hs hn)
      obtain ⟨s', ms, he, hi, hrr, hlen, hms⟩ := ih (pre ++ [id]) t hwt hct hr'
      refine ⟨s', true :: ms, ?_, hi, by rw [← happ]; exact hrr, by simp [hlen], ?_⟩
      · unfold deleteItems
        rw [hg]
        dsimp only
        rw [he]; rfl
      · intro a i b h
        cases a with
        | nil =>
          simp only [List.nil_append, List.cons.injEq] at h
          rw [← h.1]
          simpa using hnone
        | cons x a =>
          simp only [List.cons_append, List.cons.injEq] at h
          have := hms a i b h.2
          rw [happ, h.1] at this
          simpa using this
    | some o =>
      have hso := (Restrict.getItem hw hwt hr id o).1 hg
      have hto : t.owner o = .here := by
        unfold Env.getItem at hg
        exact ((hwt.items_iff _ _).1 ((look_eq_some_iff hwt.items_nodup).1 hg)).1
      have hat : Acyclic t := ha.sub fun e he => by
        rw [hr.ftree] at he; exact (mem_dropSet.1 he).1
      obtain ⟨t1, e1, ⟨hw1, hc1⟩, r1⟩ := detach_step hwt hct hat hto
      have hr' : Restrict s t1 (Named s (pre ++ [id])) := by
        refine (hr.trans r1).congr fun x => ?_
        rw [hr.subtree (named_down hc pre) o hso.2 x]
        constructor
        · rintro (⟨i, hi, o', ho', hs⟩ | hs)
          · exact ⟨i, List.mem_append_left _ hi, o', ho', hs⟩
          · exact ⟨id, by simp, o, hso.1, hs⟩
        · rintro ⟨i, hi, o', ho', hs⟩
          rcases List.mem_append.1 hi with hi | hi
          · exact Or.inl ⟨i, hi, o', ho', hs⟩
          · rw [List.mem_singleton] at hi
            subst hi
            rw [hso.1] at ho'
            cases ho'
            exact Or.inr hs
      obtain ⟨s', ms, he, hi, hrr, hlen, hms⟩ := ih (pre ++ [id]) t1 hw1 hc1 hr'
      refine ⟨s', false :: ms, ?_, hi, by rw [← happ]; exact hrr, by simp [hlen], ?_⟩
      · unfold deleteItems
        rw [hg]
        dsimp only
        rw [e1]
        dsimp only
        rw [he]; rfl
      · intro a i b h
        cases a with
        | nil =>
          simp only [List.nil_append, List.cons.injEq] at h
          rw [← h.1]
          simp only [List.length_nil, List.getElem?_cons_zero, Option.some.injEq, Bool.false_eq_true, false_iff,
            List.append_nil]
          intro hall
          exact hso.2 (hall o hso.1)
        | cons x a =>
          simp only [List.cons_append, List.cons.injEq] at h
          have := hms a i b h.2
          rw [happ, h.1] at this
          simpa using this

/-- **C152** For an environment reached by well-used calls with an acyclic frame tree, and any list of words (unknown ids,
an id twice, an id below another one): the tool does not fail. Afterwards exactly the items are there that no word names,
neither directly nor because they hang below a named item; they keep their ids and, in the old order, all relations among
themselves. Not found is reported for exactly the words that name nothing, or something a word before has deleted. -/
theorem C152_delete {r : Obj} {s : Env} (h : Reach Good r s) (ha : Acyclic s) (ids : List Uid) :
    ∃ s' ms, deleteItems s ids = .ok (s', ms) ∧
      (∀ id x, s'.getItem id = some x ↔ s.getItem id = some x ∧ ¬ Named s ids x) ∧
      (∀ x, s'.owner x = .here ↔ s.owner x = .here ∧ ¬ Named s ids x) ∧ s'.uid = s.uid ∧
      (open Classical in
        let keep := fun l : List (Obj × Obj) => l.filter (fun e => decide (¬ Named s ids e.1 ∧ ¬ Named s ids e.2))
        s'.ftree = keep s.ftree ∧ s'.ltree = keep s.ltree ∧ s'.opIn = keep s.opIn ∧ s'.opOut = keep s.opOut ∧
        s'.cmap = keep s.cmap) ∧
      ms.length = ids.length ∧
      ∀ a id b, ids = a ++ id :: b →
        (ms[a.length]? = some true ↔ ∀ o, s.getItem id = some o → Named s a o) := by
  obtain ⟨hw, hc⟩ := h.wf_closed
  have h0 : Restrict s s (Named s []) := (Restrict.empty s).congr fun x => by
    constructor
    · intro h; exact h.elim
    · rintro ⟨id, hid, _⟩; simp at hid
  obtain ⟨s', ms, he, ⟨hw', _⟩, hr, hl, hms⟩ := deleteItems_from hw hc ha ids [] s hw hc h0
  refine ⟨s', ms, he, Restrict.getItem hw hw' hr, ?_, hr.uid, ⟨hr.ftree, hr.ltree, hr.opIn, hr.opOut, hr.cmap⟩, hl, hms⟩
  intro x
  by_cases hx : Named s ids x
  · rw [hr.ownerIn x hx]
    exact ⟨fun h => absurd h (afterRelease_ne_here s x), fun h => absurd hx h.2⟩
  · rw [hr.ownerOut x hx]
    exact ⟨fun h => ⟨h, hx⟩, fun h => h.1⟩

/-- **C152** The order and the number of times the ids are given does not matter for what is left. -/
theorem C152_order {r : Obj} {s s1 s2 : Env} (h : Reach Good r s) (ha : Acyclic s) {ids ids' : List Uid} {m1 m2 : List Bool}
    (hs : ∀ id, id ∈ ids ↔ id ∈ ids') (h1 : deleteItems s ids = .ok (s1, m1)) (h2 : deleteItems s ids' = .ok (s2, m2)) :
    s1.items = s2.items ∧ s1.ftree = s2.ftree ∧ s1.ltree = s2.ltree ∧ s1.opIn = s2.opIn ∧ s1.opOut = s2.opOut ∧
    s1.cmap = s2.cmap ∧ s1.owner = s2.owner ∧ s1.uid = s2.uid := by
  obtain ⟨hw, hc⟩ := h.wf_closed
  have h0 : Restrict s s (Named s []) := (Restrict.empty s).congr fun x => by
    constructor
    · intro h; exact h.elim
    · rintro ⟨id, hid, _⟩; simp at hid
  obtain ⟨t1, k1, e1, _, r1, _⟩ := deleteItems_from hw hc ha ids [] s hw hc h0
  obtain ⟨t2, k2, e2, _, r2, _⟩ := deleteItems_from hw hc ha ids' [] s hw hc h0
  rw [h1] at e1; cases e1
  rw [h2] at e2; cases e2
  have hn : ∀ x, Named s ([] ++ ids') x ↔ Named s ([] ++ ids) x := by
    intro x
    unfold Named
    simp only [List.nil_append, hs]
  have r2 := r2.congr hn
  refine ⟨r1.items.trans r2.items.symm, r1.ftree.trans r2.ftree.symm, r1.ltree.trans r2.ltree.symm,
    r1.opIn.trans r2.opIn.symm, r1.opOut.trans r2.opOut.symm, r1.cmap.trans r2.cmap.symm, ?_, r1.uid.trans r2.uid.symm⟩
  funext x
  by_cases hx : Named s ([] ++ ids) x
  · rw [r1.ownerIn x hx, r2.ownerIn x hx]
  · rw [r1.ownerOut x hx, r2.ownerOut x hx]

/-- the tree of C07: naming an inner frame, a frame above it, and something unknown -/
def words : List Uid := [['/', '3'], ['/', 'x'], ['/', '2'], ['/', '3']]

def deletedTree : Option (List Obj × List (Obj × Obj) × List Bool) :=
  match run (init 0) treeHistory with
  | none => none
  | some s => match deleteItems s words with
    | .ok (s', ms) => some (s'.items.map (·.2), s'.cmap, ms)
    | _ => none

example : deletedTree = some ([0, 3, 5], [(5, 3)], [false, true, false, true]) := by decide +kernel

/-! the hypotheses of the theorems hold for that tree -/

def decGood (s : Env) (op : Op) : Decidable (Good s op) := by
  unfold Good rootOk
  split <;> first | infer_instance | (split <;> infer_instance)

def goodRun (s : Env) : List Op → Option Env
  | [] => some s
  | o :: os => match decGood s o with
    | .isTrue _ => (match Res.state? (s.step o) with
      | some s' => goodRun s' os
      | none => none)
    | .isFalse _ => none

theorem reach_goodRun {r : Obj} : ∀ (os : List Op) {s s' : Env}, Reach Good r s → goodRun s os = some s' → Reach Good r s' := by
  intro os
  induction os with
  | nil => intro s s' h he; cases he; exact h
  | cons o os ih =>
    intro s s' h he
    unfold goodRun at he
    split at he
    · next ht _ =>
      cases hs : Res.state? (s.step o) with
      | none => rw [hs] at he; cases he
      | some s1 => rw [hs] at he; exact ih (.step h ht hs) he
    · cases he

theorem acyclic_of_lt {s : Env} (h : ∀ e ∈ s.ftree, e.2 < e.1) : Acyclic s := by
  have : ∀ {x y}, Above s x y → y < x := by
    intro x y hxy
    induction hxy with
    | one h1 => exact h _ h1
    | more h1 _ ih => exact Nat.lt_trans ih (h _ h1)
  exact fun x hx => Nat.lt_irrefl _ (this hx)

example : ∃ s, Reach Good 0 s ∧ Acyclic s ∧ Named s words 4 ∧ ¬ Named s words 3 := by
  obtain ⟨s, hs, h1, h2, h3, h4, h5, h6⟩ := ex_of_any (o := goodRun (init 0) treeHistory)
    (P := fun s => (∀ e ∈ s.ftree, e.2 < e.1) ∧ ((4 : Obj), 2) ∈ s.cmap ∧
      (s.ftree.filter (fun e => e.1 = 3) = [(3, 0)]) ∧ (s.cmap.filter (fun e => e.1 = 3) = []) ∧
      (words.map s.getItem = [some 2, none, some 1, some 2]) ∧ s.getChildren 0 = [1, 3] ∧ look 0 s.ftree = none)
    (by decide +kernel)
  refine ⟨s, reach_goodRun _ .init hs, acyclic_of_lt h1, ⟨['/', '3'], by decide, 2, ?_, ?_⟩, ?_⟩
  · have := congrArg (fun l => l[0]?) h5; simpa [words] using this
  · exact Or.inr (Or.inr ⟨2, h2, Or.inl rfl⟩)
  · rintro ⟨id, hid, o, ho, hsub⟩
    have ho' : o = 2 ∨ o = 1 := by
      simp only [words, List.map_cons, List.map_nil, List.cons.injEq, and_true] at h5
      simp only [words, List.mem_cons, List.not_mem_nil, or_false] at hid
      rcases hid with rfl | rfl | rfl | rfl
      · rw [h5.1] at ho; cases ho; exact Or.inl rfl
      · rw [h5.2.1] at ho; cases ho
      · rw [h5.2.2.1] at ho; cases ho; exact Or.inr rfl
      · rw [h5.2.2.2] at ho; cases ho; exact Or.inl rfl
    have hpar : ∀ p, (3, p) ∈ s.ftree → p = 0 := by
      intro p hp
      have : ((3 : Obj), p) ∈ s.ftree.filter (fun e => e.1 = 3) := List.mem_filter.2 ⟨hp, by simp⟩
      rw [h3] at this
      simpa using this
    have h0 : ∀ q, ¬ Above s 0 q := by
      intro q hq
      obtain ⟨p, hp⟩ := hq.mem
      have := (look_none_iff.1 h6.2) (List.mem_map.2 ⟨_, hp, rfl⟩)
      exact this
    rcases hsub with rfl | hab | ⟨f, hf, _⟩
    · rcases ho' with h | h <;> cases h
    · cases hab with
      | one h => have := hpar _ h; subst this; rcases ho' with h | h <;> cases h
      | more h h' => have := hpar _ h; subst this; exact h0 _ h'
    · have : ((3 : Obj), f) ∈ s.cmap.filter (fun e => e.1 = 3) := List.mem_filter.2 ⟨hf, by simp⟩
      rw [h4] at this
      simp at this

#print axioms C152_delete
#print axioms C152_order

end Delete
end Envire
