import Verif.Core.Detach
import Verif.Core.Witness
/-! Properties C04, C08, C10: frame tree and map frames. -/
namespace Envire
open Env

/-! ## C04 -/

theorem count_children {l : List (Obj × Obj)} (hn : (l.map (·.1)).Nodup) (p c : Obj) :
    ((l.filter (fun e => decide (e.2 = p))).map (·.1)).count c = if look c l = some p then 1 else 0 := by
  have hn' : ((l.filter (fun e => decide (e.2 = p))).map (·.1)).Nodup :=
    nodup_keys_sublist List.filter_sublist hn
  rw [hn'.count]
  have : c ∈ (l.filter (fun e => decide (e.2 = p))).map (·.1) ↔ look c l = some p := by
    rw [look_eq_some_iff hn, List.mem_map]
    constructor
    · rintro ⟨e, he, rfl⟩
      obtain ⟨h1, h2⟩ := List.mem_filter.1 he
      rw [decide_eq_true_eq] at h2
      rw [← h2]; exact h1
    · intro h; exact ⟨(c, p), List.mem_filter.2 ⟨h, by simp⟩, rfl⟩
  simp only [this]

theorem look_setLink {l : List (Obj × Obj)} (hn : (l.map (·.1)).Nodup) (c p x : Obj) :
    look x (if look c l = some p then l else ins c p (eraseKey c l)) = if x = c then some p else look x l := by
  by_cases h : look c l = some p
  · rw [if_pos h]
    by_cases hx : x = c
    · rw [if_pos hx, hx, h]
    · rw [if_neg hx]
  · rw [if_neg h]
    by_cases hx : x = c
    · rw [if_pos hx, hx]
      exact look_ins_self (nodup_keys_sublist (eraseKey_sublist _ _) hn) (not_mem_keys_eraseKey _ _)
    · rw [if_neg hx, look_ins_ne hx, look_eraseKey_ne hx]

theorem look_dropLink {l : List (Obj × Obj)} (c p x : Obj) :
    look x (if look c l = some p then eraseKey c l else l) = if x = c ∧ look c l = some p then none else look x l := by
  by_cases h : look c l = some p
  · rw [if_pos h]
    by_cases hx : x = c
    · rw [if_pos ⟨hx, h⟩, hx]; exact look_eraseKey_self _ _
    · rw [if_neg (fun h => hx h.1), look_eraseKey_ne hx]
  · rw [if_neg h, if_neg (fun h' => h h'.2)]

/-- **C04 (queries agree)** In every reachable state `c` is listed exactly once among the children of `p` if `p` is
its parent, and not at all otherwise. -/
theorem C04_children_iff_parent {r : Obj} {s : Env} (h : Reach Legal r s) (p c : Obj) :
    (s.getChildren p).count c = if s.getParent c = some p then 1 else 0 :=
  count_children h.wf.ftree_nodup p c

/-- **C04 (addChild)** A call of addChild(p, c) that returns makes `p` the parent of `c` and changes no other node's
parent and no other relation; a call that throws changes no link at all. -/
theorem C04_addChild_sets_parent {r : Obj} {s : Env} (h : Reach Legal r s) (p c : Obj) :
    (∀ s', s.step (.addChildF p c) = .ok s' →
      (∀ x, s'.getParent x = if x = c then some p else s.getParent x) ∧
      s'.ltree = s.ltree ∧ s'.opIn = s.opIn ∧ s'.opOut = s.opOut ∧ s'.cmap = s.cmap) ∧
    (∀ s', s.step (.addChildF p c) = .throw s' → RelSame s s') := by
  have hr := addChildF_rel s p c
  have hs : ∀ q, s.step (.addChildF p c) = q → (∀ f, q ≠ .fault f) → s.addChildF p c = q := by
    intro q hq hf
    unfold Env.step at hq
    split at hq
    · exact absurd hq.symm (hf _)
    · split at hq
      · exact absurd hq.symm (hf _)
      · exact hq
  refine ⟨fun s' h' => ?_, fun s' h' => ?_⟩
  · rw [hs _ h' (by simp)] at hr
    obtain ⟨h1, h2, h3, h4, h5⟩ := hr
    refine ⟨fun x => ?_, h2, h3, h4, h5⟩
    unfold getParent at *
    rw [h1]
    exact look_setLink h.wf.ftree_nodup c p x
  · rw [hs _ h' (by simp)] at hr; exact hr

/-- **C04 (removeChild)** removeChild(p, c) removes the link iff it exists; nothing else changes. -/
theorem C04_removeChild {r : Obj} {s s' : Env} (_h : Reach Legal r s) (p c : Obj)
    (h' : s.step (.removeChildF p c) = .ok s') :
    (∀ x, s'.getParent x = if x = c ∧ s.getParent c = some p then none else s.getParent x) ∧
    s'.ltree = s.ltree ∧ s'.opIn = s.opIn ∧ s'.opOut = s.opOut ∧ s'.cmap = s.cmap := by
  have hr := removeChildF_rel s p c
  unfold Env.step at h'
  split at h'
  · cases h'
  · split at h'
    · cases h'
    · rw [show s.removeChildF p c = .ok s' from h'] at hr
      obtain ⟨h1, h2, h3, h4, h5⟩ := hr
      refine ⟨fun x => ?_, h2, h3, h4, h5⟩
      unfold getParent at *
      rw [h1]
      exact look_dropLink c p x

/-- a frame moved from one parent to another, below the root -/
def frameHistory : List Op :=
  [.alloc 1 .frame [] false 0 0, .alloc 2 .frame [] false 0 0, .alloc 3 .frame [] false 0 0,
   .addChildF 0 1, .addChildF 0 2, .addChildF 1 3, .addChildF 2 3]

example : ((run (init 0) frameHistory).map fun s =>
    (s.getParent 3, s.getChildren 1, s.getChildren 2, s.getChildren 0)) = some (some 2, [], [3], [1, 2]) := by decide +kernel

/-! ## C08 -/

/-- **C08, the code violates the property**: two legal calls make two frames ancestors of each other, and getRoot() /
relativeTransform() do not terminate on them. -/
theorem C08_cycle_possible :
    ∃ s, run (init 0) [.alloc 1 .frame [] true 0 0, .alloc 2 .frame [] true 0 0, .attach 1, .attach 2,
        .addChildF 1 2, .addChildF 2 1] = some s ∧ Above s 1 1 ∧ s.getParent 1 = some 2 ∧ s.getParent 2 = some 1 := by
  obtain ⟨s, h, h1, h2, h3, h4⟩ := ex_of_any (o := run (init 0) [.alloc 1 .frame [] true 0 0,
    .alloc 2 .frame [] true 0 0, .attach 1, .attach 2, .addChildF 1 2, .addChildF 2 1])
    (P := fun s => ((1 : Obj), 2) ∈ s.ftree ∧ ((2 : Obj), 1) ∈ s.ftree ∧ s.getParent 1 = some 2 ∧ s.getParent 2 = some 1)
    (by decide +kernel)
  exact ⟨s, h, .more h1 (.one h2), h3, h4⟩

/-- rule of use that the code does not check: the new parent is not below the child -/
def NoCycle (s : Env) : Op → Prop
  | .addChildF p c => ¬ Above s p c
  | _ => True

theorem Acyclic.ins {s s' : Env} (ha : Acyclic s) {p c : Obj} (hpc : p ≠ c) (hn : ¬ Above s p c)
    (hf : ∀ e ∈ s'.ftree, e = (c, p) ∨ e ∈ s.ftree) : Acyclic s' := by
  -- every new path either is an old one or runs through the new link
  have key : ∀ a b, Above s' a b → Above s a b ∨ ((a = c ∨ Above s a c) ∧ (b = p ∨ Above s p b)) := by
    intro a b h
    induction h with
    | one h1 =>
      rcases hf _ h1 with e | h1
      · cases e; exact Or.inr ⟨Or.inl rfl, Or.inl rfl⟩
      · exact Or.inl (.one h1)
    | more h1 _ ih =>
      rcases hf _ h1 with e | h1
      · cases e
        rcases ih with ih | ⟨_, ih⟩
        · exact Or.inr ⟨Or.inl rfl, Or.inr ih⟩
        · exact Or.inr ⟨Or.inl rfl, ih⟩
      · rcases ih with ih | ⟨h2 | h2, ih⟩
        · exact Or.inl (.more h1 ih)
        · subst h2; exact Or.inr ⟨Or.inr (.one h1), ih⟩
        · exact Or.inr ⟨Or.inr (.more h1 h2), ih⟩
  intro x hx
  rcases key x x hx with h | ⟨h1, h2⟩
  · exact ha x h
  · rcases h1 with rfl | h1 <;> rcases h2 with rfl | h2
    · exact hpc rfl
    · exact hn h2
    · exact hn h1
    · exact hn (h2.trans h1)

theorem ftree_exec_sub {s : Env} {op : Op} (hop : ∀ p c, op ≠ .addChildF p c) (hw : WF s) (hl : Legal s op) :
    (s.exec op).All (fun s' => ∀ e ∈ s'.ftree, e ∈ s.ftree) := by
  have eqs : ∀ {r : Res Env}, r.All (fun s' => s'.ftree = s.ftree) →
      r.All (fun s' => ∀ e ∈ s'.ftree, e ∈ s.ftree) := fun h => h.mono (fun _ h e he => h ▸ he)
  cases op with
  | alloc => apply eqs; unfold Env.exec; dsimp only; split <;> trivial
  | hold => exact eqs (r := .ok _) rfl
  | release => exact eqs (r := .ok _) rfl
  | setUid => apply eqs; unfold Env.exec; dsimp only; split <;> rfl
  | setPrefix p => apply eqs; show (s.setPrefix p).All _; unfold setPrefix; split <;> trivial
  | extAttach => apply eqs; unfold Env.exec; dsimp only; split <;> trivial
  | extDetach => apply eqs; unfold Env.exec; dsimp only; split <;> trivial
  | attach o => exact eqs ((attachItem_rel s o).mono (fun _ h => h.ftree))
  | attachMap m n => exact eqs ((attachMap_rel s m n).toAll (fun _ h => h.1) (fun _ h => h.ftree))
  | detach o deep =>
    cases deep with
    | false =>
      refine ((detachShallow_eff hw hl.1).toAll (fun s' h e he => ?_) (fun _ h => h.elim))
      rw [h.rels.1] at he
      exact (List.mem_filter.1 he).1
    | true =>
      exact (detachDeep_wf s hw (hl.2 rfl).1 (hl.2 rfl).2 _ s o hw (Shrunk.refl s) hl.1).mono (fun _ h => h.2.ftree)
  | modified o =>
    apply eqs; show (s.emit .item .update o none).All _
    exact emit_all (fun _ _ => rfl)
  | addChildF p c => exact absurd rfl (hop p c)
  | removeChildF p c =>
    refine (removeChildF_rel s p c).toAll (fun s' h e he => ?_) (fun _ h => h.elim)
    rw [h.1] at he
    split at he
    · exact (eraseKey_sublist _ _).subset he
    · exact he
  | addChildL p c => exact eqs ((addChildL_rel s p c).toAll (fun _ h => h.1) (fun _ h => h.ftree))
  | removeChildL p c => exact eqs ((removeChildL_rel s p c).toAll (fun _ h => h.1) (fun _ h => h.elim))
  | setFrame m f => exact eqs ((setFrameNode_rel s m f).toAll (fun _ h => h.1) (fun _ h => h.1))
  | detachFrame m f => exact eqs ((detachFrame_rel s m f).toAll (fun _ h => h.1) (fun _ h => h.elim))
  | addInput op l => exact eqs ((addInput_rel s op l).toAll (fun _ h => h.1) (fun _ h => h.ftree))
  | addOutput op l => exact eqs ((addOutput_rel s op l).toAll (fun _ h => h.1) (fun _ h => h.ftree))
  | removeInput => exact eqs (r := .ok _) rfl
  | removeOutput => exact eqs (r := .ok _) rfl
  | removeInputs => exact eqs (r := .ok _) rfl
  | removeOutputs => exact eqs (r := .ok _) rfl
  | opAddInput op l =>
    apply eqs; show (s.opAddInput op l).All _; unfold opAddInput
    split
    · trivial
    · split
      · rfl
      · exact (addInput_rel s op l).toAll (fun _ h => h.1) (fun _ h => h.ftree)
  | opSetInput op l =>
    apply eqs; show (s.opSetInput op l).All _; unfold opSetInput
    split
    · trivial
    · unfold opAddInput
      split
      · trivial
      · split
        · rfl
        · exact (addInput_rel _ op l).toAll (fun _ h => h.1) (fun _ h => h.ftree)
  | opAddOutput op l =>
    apply eqs; show (s.opAddOutput op l).All _; unfold opAddOutput
    split
    · trivial
    · split
      · rfl
      · exact (addOutput_rel s op l).toAll (fun _ h => h.1) (fun _ h => h.ftree)
  | opSetOutput op l =>
    apply eqs; show (s.opSetOutput op l).All _; unfold opSetOutput
    split
    · trivial
    · unfold opAddOutput
      split
      · trivial
      · split
        · rfl
        · exact (addOutput_rel _ op l).toAll (fun _ h => h.1) (fun _ h => h.ftree)
  | detachFromOperator l =>
    apply eqs; show (s.detachFromOperator l).All _; unfold detachFromOperator
    split
    · trivial
    · split <;> rfl

/-- **C08, what holds**: histories in which addChild(p, c) is never called with `p` below `c` keep the frame tree
acyclic. (Missing w.r.t. the full claim: the code does not enforce the condition.) -/
theorem C08_acyclic_partial {r : Obj} {s : Env} (h : Reach (fun s op => Legal s op ∧ NoCycle s op) r s) : Acyclic s := by
  have := Reach.invariant (G := fun s op => Legal s op ∧ NoCycle s op) (P := fun s => WF s ∧ Acyclic s) (r := r)
    ⟨WF.init r, fun x hx => by obtain ⟨p, hp⟩ := hx.mem; cases hp⟩
    (fun s op hp hg => by
      obtain ⟨hw, ha⟩ := hp
      refine (hw.exec op hg.1).and ?_
      by_cases hop : ∃ p c, op = .addChildF p c
      · obtain ⟨p, c, rfl⟩ := hop
        have hpc : p = c ∨ p ≠ c := Classical.em _
        rcases hpc with hpc | hpc
        · show (s.addChildF p c).All _
          unfold Env.addChildF; rw [if_pos hpc]; trivial
        refine (addChildF_rel s p c).toAll (fun s' h => ?_) (fun s' h => ha.sub (fun e he => h.ftree ▸ he))
        refine Acyclic.ins ha hpc hg.2 (fun e he => ?_)
        rw [h.1] at he
        split at he
        · exact Or.inr he
        · rcases mem_ins.1 he with rfl | he
          · exact Or.inl rfl
          · exact Or.inr ((eraseKey_sublist _ _).subset he)
      · exact (ftree_exec_sub (fun p c h => hop ⟨p, c, h⟩) hw hg.1).mono (fun s' h => ha.sub h)) h
  exact this.2

/-- the guard is met by re-parenting in a tree of depth two -/
example : ∃ s, run (init 0) frameHistory = some s ∧ Above s 3 0 := by
  obtain ⟨s, h, h1, h2⟩ := ex_of_any (o := run (init 0) frameHistory)
    (P := fun s => ((3 : Obj), 2) ∈ s.ftree ∧ ((2 : Obj), 0) ∈ s.ftree) (by decide +kernel)
  exact ⟨s, h, .more h1 (.one h2)⟩

/-! ## C10 -/

/-- **C10 (queries agree)** -/
theorem C10_maps_iff_frame {r : Obj} {s : Env} (h : Reach Legal r s) (m f : Obj) :
    (s.getMaps f).count m = if s.getFrameNode m = some f then 1 else 0 :=
  count_children h.wf.cmap_nodup f m

/-- **C10 (setFrameNode)** -/
theorem C10_setFrameNode {r : Obj} {s : Env} (h : Reach Legal r s) (m f : Obj) :
    (∀ s', s.setFrameNode m f = .ok s' →
      (∀ x, s'.getFrameNode x = if x = m then some f else s.getFrameNode x) ∧
      s'.ftree = s.ftree ∧ s'.ltree = s.ltree ∧ s'.opIn = s.opIn ∧ s'.opOut = s.opOut) ∧
    (∀ s', s.setFrameNode m f = .throw s' → ∀ x, s'.getFrameNode x = s.getFrameNode x) := by
  have hr := setFrameNode_rel s m f
  refine ⟨fun s' h' => ?_, fun s' h' => ?_⟩
  · rw [h'] at hr
    obtain ⟨h1, h2, h3, h4, h5⟩ := hr
    refine ⟨fun x => ?_, h1, h2, h3, h4⟩
    unfold getFrameNode
    rw [h5]
    exact look_setLink h.wf.cmap_nodup m f x
  · rw [h'] at hr
    intro x; unfold getFrameNode; rw [hr.2.2.2.2]

/-- **C10 (detachFrameNode)** -/
theorem C10_detachFrameNode (s s' : Env) (m f : Obj) (h' : s.detachFrame m f = .ok s') :
    (∀ x, s'.getFrameNode x = if x = m ∧ s.getFrameNode m = some f then none else s.getFrameNode x) ∧
    s'.ftree = s.ftree ∧ s'.ltree = s.ltree ∧ s'.opIn = s.opIn ∧ s'.opOut = s.opOut := by
  have hr := detachFrame_rel s m f
  rw [h'] at hr
  obtain ⟨h1, h2, h3, h4, h5⟩ := hr
  refine ⟨fun x => ?_, h1, h2, h3, h4⟩
  unfold getFrameNode at *
  rw [h5]
  exact look_dropLink m f x

/-- **C10 (attachItem of a map)** a map without frame gets the given node, or the root; a map with a frame keeps it -/
theorem C10_attachMap {r : Obj} {s s' : Env} (h : Reach Legal r s) (m : Obj) (n : Option Obj)
    (h' : s.attachMap m n = .ok s') :
    s'.owner m = .here ∧
    ∀ x, s'.getFrameNode x = if x = m ∧ s.getFrameNode m = none then some (n.getD s.rootNode) else s.getFrameNode x := by
  have hr := attachMap_rel s m n
  rw [h'] at hr
  obtain ⟨h1, h2, h3, h4, h5⟩ := hr
  refine ⟨?_, fun x => ?_⟩
  · unfold attachMap at h'
    have ha := attachItem_eff s m
    cases hx : s.attachItem m with
    | ok s1 =>
      rw [hx] at h' ha
      have hm : s1.owner m = .here := ha.2.1
      have hw1 : WF s1 := by have := h.wf.attachItem m; rw [hx] at this; exact this
      rw [Res.ok_bind] at h'
      split at h'
      · cases h'; exact hm
      · unfold setFrameAttached at h'
        have g1 := Grow.ensureAttached hw1 (n.getD s1.rootNode)
        cases hy : s1.ensureAttached (n.getD s1.rootNode) with
        | ok s2 =>
          rw [hy] at h' g1
          rw [Res.ok_bind] at h'
          have g2 := linkFrame_grow s2 m (n.getD s1.rootNode)
          rw [h'] at g2
          exact g2.here _ (g1.here _ hm)
        | throw => rw [hy] at h'; cases h'
        | fault => rw [hy] at h'; cases h'
    | throw => rw [hx] at h'; cases h'
    | fault => rw [hx] at h'; cases h'
  · unfold getFrameNode at *
    rw [h5]
    by_cases hn : look m s.cmap = none
    · rw [if_pos hn]
      unfold setFrameRel
      rw [look_setLink h.wf.cmap_nodup]
      by_cases hx : x = m
      · rw [if_pos hx, if_pos ⟨hx, hn⟩]
      · rw [if_neg hx, if_neg (fun h => hx h.1)]
    · rw [if_neg hn, if_neg (fun h => hn h.2)]

/-- a map attached to the root first, then moved to another frame -/
example : ((run (init 0) [.alloc 1 .frame [] false 0 0, .alloc 2 .cmap [] false 0 0, .attachMap 2 none,
      .setFrame 2 1, .alloc 3 .cmap [] false 0 0, .setFrame 3 1]).map fun s =>
    (s.getFrameNode 2, s.getMaps 0, s.getMaps 1, s.getFrameNode 3)) = some (some 1, [], [2, 3], some 1) := by decide +kernel

end Envire

#print axioms Envire.C04_children_iff_parent
#print axioms Envire.C04_addChild_sets_parent
#print axioms Envire.C04_removeChild
#print axioms Envire.C08_cycle_possible
#print axioms Envire.C08_acyclic_partial
#print axioms Envire.C10_maps_iff_frame
#print axioms Envire.C10_setFrameNode
#print axioms Envire.C10_detachFrameNode
#print axioms Envire.C10_attachMap
