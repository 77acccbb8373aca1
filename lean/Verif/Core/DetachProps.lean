import Verif.Core.Safe
import Verif.Core.FrameProps
/-! Properties C05, C06, C07, C46, C47: detaching; links join attached items; no undefined behaviour. -/
namespace Envire
open Env

/-- `x` takes part in no link of any of the five relations, as seen through the queries -/
def Unlinked (s : Env) (x : Obj) : Prop :=
  s.getParent x = none ∧ s.getChildren x = [] ∧ s.getLayerParents x = [] ∧ s.getLayerChildren x = [] ∧
  s.getFrameNode x = none ∧ s.getMaps x = [] ∧ s.getInputs x = [] ∧ s.getOutputs x = [] ∧ s.getGenerator x = none ∧
  (∀ y, s.getParent y ≠ some x ∧ x ∉ s.getChildren y ∧ x ∉ s.getLayerParents y ∧ x ∉ s.getLayerChildren y ∧
    s.getFrameNode y ≠ some x ∧ x ∉ s.getMaps y ∧ x ∉ s.getInputs y ∧ x ∉ s.getOutputs y ∧ s.getGenerator y ≠ some x)

theorem unlinked_of {s : Env} {x : Obj} (h1 : ∀ e ∈ s.ftree, e.1 ≠ x ∧ e.2 ≠ x) (h2 : ∀ e ∈ s.ltree, e.1 ≠ x ∧ e.2 ≠ x)
    (h3 : ∀ e ∈ s.opIn, e.1 ≠ x ∧ e.2 ≠ x) (h4 : ∀ e ∈ s.opOut, e.1 ≠ x ∧ e.2 ≠ x)
    (h5 : ∀ e ∈ s.cmap, e.1 ≠ x ∧ e.2 ≠ x) : Unlinked s x := by
  have k1 : ∀ {l : List (Obj × Obj)}, (∀ e ∈ l, e.1 ≠ x ∧ e.2 ≠ x) → look x l = none := by
    intro l h
    rw [look_none_iff]
    intro hm
    obtain ⟨e, he, hx⟩ := List.mem_map.1 hm
    exact (h e he).1 hx
  have k2 : ∀ {l : List (Obj × Obj)} y, (∀ e ∈ l, e.1 ≠ x ∧ e.2 ≠ x) → look y l ≠ some x :=
    fun y h hy => (h _ (look_some_mem hy)).2 rfl
  have k3 : ∀ {l : List (Obj × Obj)} (f : Obj × Obj → Obj), (∀ e ∈ l, e.1 ≠ x ∧ e.2 ≠ x) →
      (l.filter (fun e => decide (e.2 = x))).map f = [] := by
    intro l f h
    rw [List.map_eq_nil_iff, List.filter_eq_nil_iff]
    intro e he; simpa using (h e he).2
  have k4 : ∀ {l : List (Obj × Obj)} (f : Obj × Obj → Obj), (∀ e ∈ l, e.1 ≠ x ∧ e.2 ≠ x) →
      (l.filter (fun e => decide (e.1 = x))).map f = [] := by
    intro l f h
    rw [List.map_eq_nil_iff, List.filter_eq_nil_iff]
    intro e he; simpa using (h e he).1
  have k5 : ∀ {l : List (Obj × Obj)} (p : Obj × Obj → Bool), (∀ e ∈ l, e.1 ≠ x ∧ e.2 ≠ x) →
      x ∉ (l.filter p).map (·.1) := by
    intro l p h hm
    obtain ⟨e, he, hx⟩ := List.mem_map.1 hm
    exact (h e (List.mem_filter.1 he).1).1 hx
  have k6 : ∀ {l : List (Obj × Obj)} (p : Obj × Obj → Bool), (∀ e ∈ l, e.1 ≠ x ∧ e.2 ≠ x) →
      x ∉ (l.filter p).map (·.2) := by
    intro l p h hm
    obtain ⟨e, he, hx⟩ := List.mem_map.1 hm
    exact (h e (List.mem_filter.1 he).1).2 hx
  refine ⟨k1 h1, k3 _ h1, k4 _ h2, k3 _ h2, k1 h5, k3 _ h5, k4 _ h3, k4 _ h4, ?_, fun y =>
    ⟨k2 y h1, k5 _ h1, k6 _ h2, k5 _ h2, k2 y h5, k5 _ h5, k6 _ h3, k6 _ h4, ?_⟩⟩
  · unfold getGenerator
    rw [Option.map_eq_none_iff, List.find?_eq_none]
    intro e he; simpa using (h4 e he).2
  · unfold getGenerator
    intro h
    obtain ⟨e, he, hx⟩ := Option.map_eq_some_iff.1 h
    exact (h4 e (List.mem_of_find?_eq_some he)).1 hx

theorem without_ne {o : Obj} {l : List (Obj × Obj)} : ∀ e ∈ without o l, e.1 ≠ o ∧ e.2 ≠ o :=
  fun e he => (mem_without.1 he).2

/-- **C05** After detachItem(x) returns, x is in no relation of any kind, is not attached, and not found under its
id. Holds in every reachable state, also when links join unattached items. -/
theorem C05_detach_leaves_no_link {r : Obj} {s s' : Env} (h : Reach Legal r s) {x : Obj} (hx : s.owner x = .here)
    (hd : s.detachShallow x = .ok s') :
    Unlinked s' x ∧ s'.isAttached x = false ∧ s'.getItem (s.uid x) = none ∧ s'.uid x = s.uid x := by
  have he := detachShallow_eff h.wf hx
  rw [hd] at he
  have he : DetachEff s s' x := he
  obtain ⟨h1, h2, h3, h4, h5⟩ := he.rels
  refine ⟨unlinked_of (h1 ▸ without_ne) (h2 ▸ without_ne) (h3 ▸ without_ne) (h4 ▸ without_ne) (h5 ▸ without_ne), ?_, ?_,
    congrFun he.uid x⟩
  · unfold isAttached
    rw [he.ownerSelf]
    unfold afterRelease
    split <;> rename_i hq <;> revert hq <;> cases s.held x <;> simp
  · unfold getItem; rw [he.items]; exact look_eraseKey_self _ _

/-- **C05** detachItem never throws, and it returns whenever the links join attached items. -/
theorem C05_detach_returns {r : Obj} {s : Env} (h : Reach Good r s) {x : Obj} (hx : s.owner x = .here) :
    ∃ s', s.detachShallow x = .ok s' :=
  ⟨_, detachShallow_exact h.wf_closed.1 h.wf_closed.2 hx⟩

/-- a layer that is map of a frame, child of a layer, parent of a layer, input and output -/
def linkedHistory : List Op :=
  [.alloc 1 .cmap [] true 0 0, .alloc 2 .layer [] false 0 0, .alloc 3 .layer [] false 0 0, .alloc 4 .op [] false 0 0,
   .alloc 5 .frame [] false 0 0, .attachMap 1 none, .attach 2, .attach 3, .attach 4, .addChildL 2 1, .addChildL 1 3,
   .addChildL 2 3, .opAddInput 4 1, .opAddOutput 4 1, .opAddInput 4 2, .addChildF 0 5]

example : ∃ s, run (init 0) linkedHistory = some s ∧ (s.owner 1 = .here ∧ s.getLayerParents 1 = [2] ∧
      s.getLayerChildren 1 = [3] ∧ s.getFrameNode 1 = some 0 ∧ s.getInputs 4 = [1, 2] ∧ s.getGenerator 1 = some 4) :=
  ex_of_any (by decide +kernel)
example : ∃ s, run (init 0) (linkedHistory ++ [.detach 1 false]) = some s ∧
      (s.owner 1 = .free ∧ s.getLayerParents 3 = [2] ∧ s.getInputs 4 = [2] ∧ s.getMaps 0 = []) :=
  ex_of_any (by decide +kernel)

/-! ## C06 -/

/-- **C06** detachItem(x): the relations are exactly the old ones without the entries that mention x (same order);
every other item stays attached under the same id; ids and everything else are unchanged. -/
theorem C06_detach_keeps_the_rest {r : Obj} {s s' : Env} (h : Reach Legal r s) {x : Obj} (hx : s.owner x = .here)
    (hd : s.detachShallow x = .ok s') :
    let keep := fun l : List (Obj × Obj) => l.filter (fun e => decide (e.1 ≠ x ∧ e.2 ≠ x))
    s'.ftree = keep s.ftree ∧ s'.ltree = keep s.ltree ∧ s'.opIn = keep s.opIn ∧ s'.opOut = keep s.opOut ∧
    s'.cmap = keep s.cmap ∧ s'.uid = s.uid ∧ s'.rootNode = s.rootNode ∧ s'.pfx = s.pfx ∧
    (∀ y, y ≠ x → (s'.owner y = .here ↔ s.owner y = .here)) ∧
    (∀ id y, y ≠ x → (s'.getItem id = some y ↔ s.getItem id = some y)) := by
  have he := detachShallow_eff h.wf hx
  rw [hd] at he
  have he : DetachEff s s' x := he
  obtain ⟨h1, h2, h3, h4, h5⟩ := he.rels
  have e : ∀ l, without x l = l.filter (fun e => decide (e.1 ≠ x ∧ e.2 ≠ x)) := by
    intro l
    unfold without mentions
    apply List.filter_congr
    intro a _
    by_cases q1 : a.1 = x <;> by_cases q2 : a.2 = x <;> simp [q1, q2]
  refine ⟨h1.trans (e _), h2.trans (e _), h3.trans (e _), h4.trans (e _), h5.trans (e _), he.uid, he.stat.rootNode,
    he.stat.pfx, he.here, ?_⟩
  intro id y hy
  unfold getItem
  rw [he.items]
  by_cases hid : id = s.uid x
  · subst hid
    rw [look_eraseKey_self, h.wf.look_uid hx]
    exact ⟨fun h => (by cases h), fun h => absurd (Option.some.inj h).symm hy⟩
  · rw [look_eraseKey_ne hid]

/-! ## C07 -/

/-- **C07** In a state reached by well-used calls with an acyclic frame tree, deep detach of `o` returns; afterwards
exactly the items outside of the subtree (the item, its frame descendants, the maps on any of them) are attached,
and the relations are the old ones between the remaining items, in the old order. -/
theorem C07_deep_detach_exact {r : Obj} {s : Env} (h : Reach Good r s) (ha : Acyclic s) {o : Obj}
    (ho : s.owner o = .here) :
    ∃ s', s.step (.detach o true) = .ok s' ∧
      (∀ x, s'.owner x = .here ↔ s.owner x = .here ∧ ¬ Subtree s o x) ∧
      (∀ id x, s'.getItem id = some x ↔ s.getItem id = some x ∧ ¬ Subtree s o x) ∧
      s'.uid = s.uid ∧ s'.rootNode = s.rootNode ∧
      (open Classical in
        let keep := fun l : List (Obj × Obj) => l.filter (fun e => decide (¬ Subtree s o e.1 ∧ ¬ Subtree s o e.2))
        s'.ftree = keep s.ftree ∧ s'.ltree = keep s.ltree ∧ s'.opIn = keep s.opIn ∧ s'.opOut = keep s.opOut ∧
        s'.cmap = keep s.cmap) := by
  obtain ⟨hw, hc⟩ := h.wf_closed
  obtain ⟨s', he, ⟨hw', _⟩, hr⟩ := detachDeep_total hw hc ha ho
  refine ⟨s', ?_, ?_, ?_, hr.uid, hr.stat.rootNode, hr.ftree, hr.ltree, hr.opIn, hr.opOut, hr.cmap⟩
  · unfold Env.step
    rw [if_neg, if_neg]
    · exact he
    · exact Bool.noConfusion
    · rintro ⟨x, hx, hd⟩
      simp only [args, List.mem_singleton] at hx
      subst hx
      rw [ho] at hd; cases hd
  · intro x
    by_cases hx : Subtree s o x
    · rw [hr.ownerIn x hx]
      exact ⟨fun h => absurd h (afterRelease_ne_here s x), fun h => absurd hx h.2⟩
    · rw [hr.ownerOut x hx]
      exact ⟨fun h => ⟨h, hx⟩, fun h => h.1⟩
  · intro id x
    unfold getItem
    rw [look_eq_some_iff hw'.items_nodup, hr.items, mem_dropIds, look_eq_some_iff hw.items_nodup]

/-- a subtree of depth two with a map on the inner frame, next to a sibling with a map -/
def treeHistory : List Op :=
  [.alloc 1 .frame [] false 0 0, .alloc 2 .frame [] false 0 0, .alloc 3 .frame [] false 0 0, .alloc 4 .cmap [] false 0 0,
   .alloc 5 .cmap [] false 0 0, .addChildF 0 1, .addChildF 1 2, .addChildF 0 3, .attachMap 4 (some 2),
   .attachMap 5 (some 3), .addChildL 4 5]

example : ∃ s, run (init 0) treeHistory = some s ∧ Subtree s 1 4 ∧ s.owner 1 = .here :=
  let ⟨s, h, h1, h2, h3⟩ := ex_of_any (o := run (init 0) treeHistory)
    (P := fun s => ((4 : Obj), 2) ∈ s.cmap ∧ ((2 : Obj), 1) ∈ s.ftree ∧ s.owner 1 = .here) (by decide +kernel)
  ⟨s, h, Or.inr (Or.inr ⟨2, h1, Or.inr (.one h2)⟩), h3⟩

example : ((run (init 0) (treeHistory ++ [.detach 1 true])).map fun s => (s.items.map (·.2), s.ftree, s.cmap)) =
    some ([0, 3, 5], [(3, 0)], [(5, 3)]) := by decide +kernel

/-- on a cyclic frame tree the recursion of deep detach does not terminate (no number of steps suffices) -/
theorem C07_deep_detach_diverges_on_cycle :
    ∃ s, run (init 0) [.alloc 1 .frame [] true 0 0, .alloc 2 .frame [] true 0 0, .attach 1, .attach 2,
        .addChildF 1 2, .addChildF 2 1] = some s ∧ ∀ fuel, detachDeep fuel s 1 = .fault .diverge := by
  obtain ⟨s, hs, ⟨h1, h2⟩, o1, u1, k1⟩ := ex_of_any (o := run (init 0) [.alloc 1 .frame [] true 0 0,
      .alloc 2 .frame [] true 0 0, .attach 1, .attach 2, .addChildF 1 2, .addChildF 2 1])
    (P := fun s => (s.getChildren 1 = [2] ∧ s.getChildren 2 = [1]) ∧ (s.owner 1 = .here ∧ s.owner 2 = .here) ∧
      (s.uid 1 ∈ s.items.map (·.1) ∧ s.uid 2 ∈ s.items.map (·.1)) ∧ (s.kind 1 = .frame ∧ s.kind 2 = .frame))
    (by decide +kernel)
  refine ⟨s, hs, ?_⟩
  have both : ∀ fuel, detachDeep fuel s 1 = .fault .diverge ∧ detachDeep fuel s 2 = .fault .diverge := by
    intro fuel
    induction fuel with
    | zero => exact ⟨rfl, rfl⟩
    | succ n ih =>
      constructor
      · unfold detachDeep
        rw [if_neg (by rw [o1.1]; decide), if_neg (fun h => h u1.1), if_pos k1.1, h1]
        unfold foldRes
        rw [ih.2]; rfl
      · unfold detachDeep
        rw [if_neg (by rw [o1.2]; decide), if_neg (fun h => h u1.2), if_pos k1.2, h2]
        unfold foldRes
        rw [ih.1]; rfl
  exact fun fuel => (both fuel).1

/-! ## C46 -/

/-- **C46, the code violates the property**: addChild does not check that the parent is attached; after a detach a
link to a deleted object is left in the frame tree. -/
theorem C46_link_to_deleted_parent :
    ∃ s, run (init 0) [.alloc 1 .frame [] true 0 0, .alloc 2 .frame [] true 0 0, .addChildF 1 2, .release 1] = some s ∧
      s.getParent 2 = some 1 ∧ s.owner 1 = .dead := by
  exact ex_of_any (by decide +kernel)

/-- **C46, what holds**: in histories that follow the rules of use (`Good`: parents are attached here, no argument
belongs to another environment, takeover only of held items) every link of every relation joins two items that
are attached here and have the right kinds. (Missing: the code does not enforce the rules.) -/
theorem C46_links_join_attached_items_partial {r : Obj} {s : Env} (h : Reach Good r s) :
    (∀ c p, s.getParent c = some p → s.owner c = .here ∧ s.owner p = .here ∧ s.kind c = .frame ∧ s.kind p = .frame) ∧
    (∀ m f, s.getFrameNode m = some f → s.owner m = .here ∧ s.owner f = .here ∧ s.kind m = .cmap ∧ s.kind f = .frame) ∧
    (∀ c p, p ∈ s.getLayerParents c →
      s.owner c = .here ∧ s.owner p = .here ∧ (s.kind c).isLayer = true ∧ (s.kind p).isLayer = true) ∧
    (∀ op l, l ∈ s.getInputs op → s.owner op = .here ∧ s.owner l = .here ∧ s.kind op = .op ∧ (s.kind l).isLayer = true) ∧
    (∀ op l, l ∈ s.getOutputs op → s.owner op = .here ∧ s.owner l = .here ∧ s.kind op = .op ∧ (s.kind l).isLayer = true) := by
  have hc := h.wf_closed.2
  refine ⟨fun c p hp => ?_, fun c p hp => ?_, fun c p hp => ?_, fun c p hp => ?_, fun c p hp => ?_⟩
  · have := hc.ftree _ (look_some_mem hp)
    exact ⟨this.1.1, this.1.2, this.2.1, this.2.2⟩
  · have := hc.cmap _ (look_some_mem hp)
    exact ⟨this.1.1, this.1.2, this.2.1, this.2.2⟩
  · obtain ⟨e, he, rfl⟩ := List.mem_map.1 hp
    obtain ⟨h1, h2⟩ := List.mem_filter.1 he
    rw [decide_eq_true_eq] at h2; subst h2
    have := hc.ltree _ h1
    exact ⟨this.1.1, this.1.2, this.2.1, this.2.2⟩
  · obtain ⟨e, he, rfl⟩ := List.mem_map.1 hp
    obtain ⟨h1, h2⟩ := List.mem_filter.1 he
    rw [decide_eq_true_eq] at h2; subst h2
    have := hc.opIn _ h1
    exact ⟨this.1.1, this.1.2, this.2.1, this.2.2⟩
  · obtain ⟨e, he, rfl⟩ := List.mem_map.1 hp
    obtain ⟨h1, h2⟩ := List.mem_filter.1 he
    rw [decide_eq_true_eq] at h2; subst h2
    have := hc.opOut _ h1
    exact ⟨this.1.1, this.1.2, this.2.1, this.2.2⟩

/-! ## C47 -/

/-- **C47** A call that follows the rules of use has a defined outcome in every state reached by such calls: it returns
or throws; no deleted object is used, no assertion fails, deep detach terminates (on acyclic frame trees). -/
theorem C47_well_used_calls_are_defined {r : Obj} {s : Env} (h : Reach Good r s) {op : Op} (hg : Good s op)
    (hd : Defined s op) (hl : ∀ x ∈ args op, s.owner x ≠ .dead) (ht : s.typed op = true) :
    (∃ s', s.step op = .ok s') ∨ (∃ s', s.step op = .throw s') := by
  have := step_safe h.wf_closed.1 h.wf_closed.2 hg hd hl ht
  cases hx : s.step op with
  | ok s' => exact Or.inl ⟨s', rfl⟩
  | throw s' => exact Or.inr ⟨s', rfl⟩
  | fault f => rw [hx] at this; exact this.elim

/-- without the rules a call can use a deleted object: a new child is attached to a parent nobody holds; the temporary
reference in the event deletes the parent, and detaching the child afterwards touches it -/
theorem C47_unattached_parent_use_after_free :
    ∃ s, run (init 0) [.alloc 1 .frame [] false 0 0, .alloc 2 .frame [] true 0 0, .addChildF 1 2] = some s ∧
      s.owner 1 = .dead ∧ (Res.state? (s.step (.detach 2 false))).isNone := by
  exact ex_of_any (by decide +kernel)

/-- the rules are met in a state with many links -/
example : ∃ s, run (init 0) treeHistory = some s ∧ Good s (.addChildF 2 3) ∧ Defined s (.addChildF 2 3) ∧
    s.typed (.addChildF 2 3) = true := by
  obtain ⟨s, h, h1, h2, h3⟩ := ex_of_any (o := run (init 0) treeHistory)
    (P := fun s => s.owner 2 = .here ∧ s.owner 3 = .here ∧ s.typed (.addChildF 2 3) = true) (by decide +kernel)
  exact ⟨s, h, ⟨h1, by rw [h2]; decide, by decide⟩, trivial, h3⟩

end Envire

#print axioms Envire.C05_detach_leaves_no_link
#print axioms Envire.C05_detach_returns
#print axioms Envire.C06_detach_keeps_the_rest
#print axioms Envire.C07_deep_detach_exact
#print axioms Envire.C07_deep_detach_diverges_on_cycle
#print axioms Envire.C46_link_to_deleted_parent
#print axioms Envire.C46_links_join_attached_items_partial
#print axioms Envire.C47_well_used_calls_are_defined
#print axioms Envire.C47_unattached_parent_use_after_free
