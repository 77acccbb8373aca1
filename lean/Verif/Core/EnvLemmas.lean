import Verif.Core.ListLemmas
/-! Helper lemmas: well-formedness of environment states is preserved by every call. -/
namespace Envire
namespace Env

/-- the bookkeeping invariant of an environment -/
structure WF (s : Env) : Prop where
  items_nodup : (s.items.map (·.1)).Nodup
  items_iff : ∀ id o, (id, o) ∈ s.items ↔ s.owner o = .here ∧ s.uid o = id
  good : ∀ o, s.isAttached o = true → goodId (s.uid o) = true
  pfx_head : s.pfx.head? = some '/'
  pfx_last : s.pfx.getLast? = some '/'
  ftree_nodup : (s.ftree.map (·.1)).Nodup
  cmap_nodup : (s.cmap.map (·.1)).Nodup
  ftree_sorted : KeySorted s.ftree
  ltree_sorted : KeySorted s.ltree
  opIn_sorted : KeySorted s.opIn
  opOut_sorted : KeySorted s.opOut
  cmap_sorted : KeySorted s.cmap

/-- ownership changes a discarded temporary reference can cause -/
def OwnStep (s : Env) (ow : Obj → Owner) : Prop :=
  ∀ o, ow o = s.owner o ∨ (s.owner o = .free ∧ s.held o = false ∧ ow o = .dead)

theorem OwnStep.refl (s : Env) : OwnStep s s.owner := fun _ => Or.inl rfl

theorem isAttached_iff {s : Env} {o : Obj} :
    s.isAttached o = true ↔ s.owner o = .here ∨ s.owner o = .elsewhere := by
  unfold isAttached; split <;> simp_all

theorem OwnStep.attached {s : Env} {ow : Obj → Owner} (h : OwnStep s ow) {w : Owner}
    (hw : w = .here ∨ w = .elsewhere) (o : Obj) : ow o = w ↔ s.owner o = w := by
  rcases h o with h1 | ⟨h1, _, h2⟩
  · rw [h1]
  · rw [h1, h2]; rcases hw with rfl | rfl <;> simp

theorem WF.transfer {s s' : Env} (h : WF s) (hi : s'.items = s.items) (hu : s'.uid = s.uid)
    (hp : s'.pfx = s.pfx) (ho : OwnStep s s'.owner)
    (fn : (s'.ftree.map (·.1)).Nodup) (cn : (s'.cmap.map (·.1)).Nodup)
    (fs : KeySorted s'.ftree) (ls : KeySorted s'.ltree) (is : KeySorted s'.opIn) (os : KeySorted s'.opOut)
    (cs : KeySorted s'.cmap) : WF s' where
  items_nodup := hi ▸ h.items_nodup
  items_iff := by
    intro id o
    rw [hi, hu, h.items_iff, ho.attached (Or.inl rfl)]
  good := by
    intro o ha
    rw [hu]
    apply h.good
    rw [isAttached_iff] at *
    rcases ha with ha | ha
    · exact Or.inl ((ho.attached (Or.inl rfl) o).1 ha)
    · exact Or.inr ((ho.attached (Or.inr rfl) o).1 ha)
  pfx_head := hp ▸ h.pfx_head
  pfx_last := hp ▸ h.pfx_last
  ftree_nodup := fn
  cmap_nodup := cn
  ftree_sorted := fs
  ltree_sorted := ls
  opIn_sorted := is
  opOut_sorted := os
  cmap_sorted := cs

/-! ### emit -/

/-- the event as it is recorded -/
def mkEv (s : Env) (ty : EvType) (op : EvOp) (a : Obj) (b : Option Obj) : Ev :=
  ⟨ty, op, a, b, s.uid a, match b with | some b => s.uid b | none => []⟩

theorem dropTmp_spec (s : Env) (o : Obj) :
    ∃ ow, dropTmp s o = { s with owner := ow } ∧ OwnStep s ow := by
  unfold dropTmp
  split
  · rename_i h
    refine ⟨_, rfl, fun x => ?_⟩
    by_cases hx : x = o
    · subst hx; right; exact ⟨h.1, h.2, by simp⟩
    · left; simp [upd, hx]
  · exact ⟨s.owner, rfl, OwnStep.refl s⟩

theorem emit_spec (s : Env) (ty : EvType) (op : EvOp) (a : Obj) (b : Option Obj) :
    emit s ty op a b = .fault .useAfterFree ∨
    ∃ ow, emit s ty op a b = .ok { s with log := s.log ++ [mkEv s ty op a b], owner := ow } ∧ OwnStep s ow := by
  unfold emit
  cases b with
  | none =>
    dsimp only
    split
    · exact Or.inl rfl
    · right
      obtain ⟨ow, h, ho⟩ := dropTmp_spec { s with log := s.log ++ [⟨ty, op, a, none, s.uid a, []⟩] } a
      exact ⟨ow, by rw [h]; rfl, ho⟩
  | some b =>
    dsimp only
    split
    · exact Or.inl rfl
    · right
      obtain ⟨ow1, h1, ho1⟩ := dropTmp_spec { s with log := s.log ++ [⟨ty, op, a, some b, s.uid a, s.uid b⟩] } b
      obtain ⟨ow2, h2, ho2⟩ := dropTmp_spec
        (dropTmp { s with log := s.log ++ [⟨ty, op, a, some b, s.uid a, s.uid b⟩] } b) a
      refine ⟨ow2, by rw [h2, h1]; rfl, ?_⟩
      rw [h1] at ho2
      intro o
      rcases ho2 o with h | ⟨h, hh, h'⟩
      · rcases ho1 o with g | ⟨g, gg, g'⟩
        · left; rw [h]; exact g
        · right; exact ⟨g, gg, h.trans g'⟩
      · rcases ho1 o with g | ⟨g, gg, g'⟩
        · right; exact ⟨g ▸ h, hh, h'⟩
        · right; exact ⟨g, gg, h'⟩

/-- objects that are attached or held survive an event -/
theorem emit_all {s : Env} {ty : EvType} {op : EvOp} {a : Obj} {b : Option Obj} {P : Env → Prop}
    (h : ∀ ow, OwnStep s ow → P { s with log := s.log ++ [mkEv s ty op a b], owner := ow }) :
    (emit s ty op a b).All P := by
  rcases emit_spec s ty op a b with he | ⟨ow, he, ho⟩
  · rw [he]; trivial
  · rw [he]; exact h ow ho

theorem emit_bind_all {s : Env} {ty : EvType} {op : EvOp} {a : Obj} {b : Option Obj} {f : Env → Res Env}
    {P : Env → Prop}
    (h : ∀ ow, OwnStep s ow → (f { s with log := s.log ++ [mkEv s ty op a b], owner := ow }).All P) :
    ((emit s ty op a b).bind f).All P := by
  rcases emit_spec s ty op a b with he | ⟨ow, he, ho⟩
  · rw [he]; trivial
  · rw [he]; exact h ow ho

theorem WF.emit {s : Env} (h : WF s) (ty : EvType) (op : EvOp) (a : Obj) (b : Option Obj) :
    (s.emit ty op a b).All WF := by
  apply emit_all
  intro ow ho
  exact h.transfer rfl rfl rfl ho h.ftree_nodup h.cmap_nodup h.ftree_sorted h.ltree_sorted h.opIn_sorted
    h.opOut_sorted h.cmap_sorted

/-! ### attach -/

theorem goodId_absId {s : Env} (h : WF s) (o : Obj) : (s.absId o).head? = some '/' := by
  unfold absId
  dsimp only
  generalize (if s.uid o = [] then s.pfx else s.uid o) = id
  split
  · assumption
  · cases hp : s.pfx with
    | nil => have := h.pfx_head; rw [hp] at this; cases this
    | cons c t => have := h.pfx_head; rw [hp] at this; simpa using this

theorem assignId_goodId {s : Env} (h : WF s) (o : Obj) : goodId ((s.assignId o).uid o) = true := by
  have hh := goodId_absId h o
  unfold assignId goodId
  dsimp only
  split
  · simp only [upd_self, Bool.and_eq_true, decide_eq_true_eq, bne_iff_ne]
    refine ⟨?_, getLast?_append_toDigits _ _⟩
    cases hp : s.absId o with
    | nil => rw [hp] at hh; cases hh
    | cons c t => rw [hp] at hh; simpa using hh
  · rename_i hl
    simp only [upd_self, Bool.and_eq_true, decide_eq_true_eq, bne_iff_ne]
    exact ⟨hh, hl⟩

/-- assignId changes only the id of `o` and the counter -/
theorem assignId_eq (s : Env) (o : Obj) :
    ∃ n id, s.assignId o = { s with lastId := n, uid := upd s.uid o id } := by
  unfold assignId
  dsimp only
  split
  · exact ⟨_, _, rfl⟩
  · exact ⟨s.lastId, _, rfl⟩

theorem WF.setUidFree {s : Env} (h : WF s) {o : Obj} (ho : s.isAttached o = false) (id : Uid) (n : Nat) :
    WF { s with lastId := n, uid := upd s.uid o id } := by
  refine { h with items_iff := ?_, good := ?_ }
  · intro i x
    show (i, x) ∈ s.items ↔ s.owner x = .here ∧ upd s.uid o id x = i
    rw [h.items_iff]
    by_cases hx : x = o
    · subst hx
      have : s.owner x ≠ .here := by intro e; simp [isAttached, e] at ho
      simp [this]
    · rw [upd_ne _ _ hx]
  · intro x hx
    show goodId (upd s.uid o id x) = true
    by_cases hxo : x = o
    · subst hxo
      have : s.isAttached x = true := hx
      rw [ho] at this; cases this
    · rw [upd_ne _ _ hxo]; exact h.good x hx

theorem WF.setOwnerFree {s : Env} (h : WF s) {o : Obj} (ho : s.owner o ≠ .here) {w : Owner}
    (hw : w ≠ .here) (hw' : w = .elsewhere → goodId (s.uid o) = true) :
    WF { s with owner := upd s.owner o w } := by
  refine { h with items_iff := ?_, good := ?_ }
  · intro i x
    show (i, x) ∈ s.items ↔ upd s.owner o w x = .here ∧ s.uid x = i
    rw [h.items_iff]
    by_cases hx : x = o
    · subst hx; simp [ho, hw]
    · rw [upd_ne _ _ hx]
  · intro x hx
    show goodId (s.uid x) = true
    rw [isAttached_iff] at hx
    by_cases hxo : x = o
    · subst hxo
      simp only [upd_self] at hx
      rcases hx with hx | hx
      · exact absurd hx hw
      · exact hw' hx
    · simp only [upd_ne _ _ hxo] at hx
      exact h.good x (isAttached_iff.2 hx)

theorem WF.attachCore {s : Env} (h : WF s) {o : Obj} (hg : goodId (s.uid o) = true) :
    (s.attachCore o).All WF := by
  unfold Env.attachCore
  split
  · exact h
  · rename_i hn
    have hne : s.owner o ≠ .here := by
      intro e
      exact hn (List.mem_map.2 ⟨(s.uid o, o), (h.items_iff _ _).2 ⟨e, rfl⟩, rfl⟩)
    refine WF.emit ?_ _ _ _ _
    refine { h with items_nodup := nodup_keys_ins h.items_nodup hn, items_iff := ?_, good := ?_ }
    · intro i x
      show (i, x) ∈ ins (s.uid o) o s.items ↔ upd s.owner o .here x = .here ∧ s.uid x = i
      rw [mem_ins, h.items_iff]
      by_cases hx : x = o
      · subst hx
        simp only [upd_self, true_and, Prod.mk.injEq, and_true]
        constructor
        · rintro (e | ⟨e, _⟩)
          · exact e.symm
          · exact absurd e hne
        · intro e; exact Or.inl e.symm
      · rw [upd_ne _ _ hx]
        simp [hx]
    · intro x hx
      show goodId (s.uid x) = true
      by_cases hxo : x = o
      · subst hxo; exact hg
      · rw [isAttached_iff] at hx
        simp only [upd_ne _ _ hxo] at hx
        exact h.good x (isAttached_iff.2 hx)

theorem isAttached_false_of_free {s : Env} {o : Obj} (h : s.owner o = .free) : s.isAttached o = false := by
  unfold isAttached; rw [h]

theorem WF.attachItem {s : Env} (h : WF s) (o : Obj) : (s.attachItem o).All WF := by
  unfold Env.attachItem
  split
  · trivial
  · rename_i ho
    refine WF.attachCore ?_ (assignId_goodId h o)
    obtain ⟨n, id, he⟩ := assignId_eq s o
    rw [he]
    exact h.setUidFree (isAttached_false_of_free ho) id n
  · rename_i ho
    exact h.attachCore (h.good o (isAttached_iff.2 (Or.inl ho)))
  · rename_i ho
    split
    · refine WF.attachCore (h.setOwnerFree (by rw [ho]; decide) (by decide) (fun e => by cases e)) ?_
      exact h.good o (isAttached_iff.2 (Or.inr ho))
    · trivial

theorem WF.ensureAttached {s : Env} (h : WF s) (o : Obj) : (s.ensureAttached o).All WF := by
  unfold Env.ensureAttached
  split
  · trivial
  · exact h.attachItem o
  · exact h

/-! ### relations -/

theorem WF.ftree_erase {s : Env} (h : WF s) (c : Obj) : WF { s with ftree := eraseKey c s.ftree } :=
  { h with ftree_nodup := nodup_keys_sublist (eraseKey_sublist c s.ftree) h.ftree_nodup,
           ftree_sorted := h.ftree_sorted.sublist (eraseKey_sublist c s.ftree) }

theorem WF.cmap_erase {s : Env} (h : WF s) (c : Obj) : WF { s with cmap := eraseKey c s.cmap } :=
  { h with cmap_nodup := nodup_keys_sublist (eraseKey_sublist c s.cmap) h.cmap_nodup,
           cmap_sorted := h.cmap_sorted.sublist (eraseKey_sublist c s.cmap) }

theorem WF.removeChildF {s : Env} (h : WF s) (p c : Obj) : (s.removeChildF p c).All WF := by
  unfold Env.removeChildF
  split
  · exact (h.emit _ _ _ _).bind' (fun s' h' => h'.ftree_erase c)
  · exact h

theorem WF.removeChildL {s : Env} (h : WF s) (p c : Obj) : (s.removeChildL p c).All WF := by
  unfold Env.removeChildL
  refine (h.emit _ _ _ _).bind' (fun s' h' => ?_)
  exact { h' with ltree_sorted := h'.ltree_sorted.sublist List.erase_sublist }

theorem WF.detachFrame {s : Env} (h : WF s) (m f : Obj) : (s.detachFrame m f).All WF := by
  unfold Env.detachFrame
  split
  · exact (h.emit _ _ _ _).bind' (fun s' h' => h'.cmap_erase m)
  · exact h

/-- after removing the old link the child has no entry -/
theorem dropParent_none (s : Env) (c : Obj) : (s.dropParent c).Ok (fun s' => s'.getParent c = none) := by
  unfold Env.dropParent
  split
  · rename_i q hq
    unfold Env.removeChildF
    rw [if_pos hq]
    apply Res.All.toOk
    apply emit_bind_all
    intro ow ho
    exact look_eraseKey_self _ _
  · assumption

theorem WF.dropParent {s : Env} (h : WF s) (c : Obj) : (s.dropParent c).All WF := by
  unfold Env.dropParent
  split
  · exact h.removeChildF _ _
  · exact h

theorem WF.addChildF {s : Env} (h : WF s) (p c : Obj) : (s.addChildF p c).All WF := by
  unfold Env.addChildF
  split
  · trivial
  split
  · exact h
  refine (h.ensureAttached c).bind' (fun s1 h1 => ?_)
  refine (h1.dropParent c).bind2 (dropParent_none s1 c) (fun s2 h2 hn => ?_) (fun _ h => h)
  refine WF.emit ?_ _ _ _ _
  exact { h2 with ftree_nodup := nodup_keys_ins h2.ftree_nodup (look_none_iff.1 hn),
                  ftree_sorted := keySorted_ins h2.ftree_sorted }

theorem WF.addChildL {s : Env} (h : WF s) (p c : Obj) : (s.addChildL p c).All WF := by
  unfold Env.addChildL
  split
  · trivial
  split
  · exact h
  refine (h.ensureAttached c).bind' (fun s1 h1 => ?_)
  refine WF.emit ?_ _ _ _ _
  exact { h1 with ltree_sorted := keySorted_ins h1.ltree_sorted }

theorem dropFrame_none (s : Env) (m : Obj) : (s.dropFrame m).Ok (fun s' => s'.getFrameNode m = none) := by
  unfold Env.dropFrame
  split
  · rename_i q hq
    unfold Env.detachFrame
    rw [if_pos hq]
    apply Res.All.toOk
    apply emit_bind_all
    intro ow ho
    exact look_eraseKey_self _ _
  · assumption

theorem WF.dropFrame {s : Env} (h : WF s) (m : Obj) : (s.dropFrame m).All WF := by
  unfold Env.dropFrame
  split
  · exact h.detachFrame _ _
  · exact h

theorem WF.linkFrame {s : Env} (h1 : WF s) (m f : Obj) : (s.linkFrame m f).All WF := by
  unfold Env.linkFrame
  split
  · exact h1
  refine (h1.dropFrame m).bind2 (dropFrame_none s m) (fun s2 h2 hn => ?_) (fun _ h => h)
  refine WF.emit ?_ _ _ _ _
  exact { h2 with cmap_nodup := nodup_keys_ins h2.cmap_nodup (look_none_iff.1 hn),
                  cmap_sorted := keySorted_ins h2.cmap_sorted }

theorem WF.setFrameAttached {s : Env} (h : WF s) (m f : Obj) : (s.setFrameAttached m f).All WF :=
  (h.ensureAttached f).bind' (fun _ h1 => h1.linkFrame m f)

theorem WF.attachMap {s : Env} (h : WF s) (m : Obj) (n : Option Obj) : (s.attachMap m n).All WF := by
  unfold Env.attachMap
  refine (h.attachItem m).bind' (fun s1 h1 => ?_)
  split
  · exact h1
  · exact h1.setFrameAttached _ _

theorem WF.ensureMapAttached {s : Env} (h : WF s) (m : Obj) : (s.ensureMapAttached m).All WF := by
  unfold Env.ensureMapAttached
  split
  · trivial
  · exact h.attachMap m none
  · exact h

theorem WF.setFrameNode {s : Env} (h : WF s) (m f : Obj) : (s.setFrameNode m f).All WF :=
  (h.ensureAttached f).bind' (fun _ h1 => (h1.ensureMapAttached m).bind' (fun _ h2 => h2.linkFrame m f))

theorem WF.addInput {s : Env} (h : WF s) (op l : Obj) : (s.addInput op l).All WF := by
  unfold Env.addInput
  split
  · exact h
  exact (h.ensureAttached op).bind' (fun _ h1 => (h1.ensureAttached l).bind' (fun _ h2 =>
    { h2 with opIn_sorted := keySorted_ins h2.opIn_sorted }))

theorem WF.addOutput {s : Env} (h : WF s) (op l : Obj) : (s.addOutput op l).All WF := by
  unfold Env.addOutput
  split
  · exact h
  exact (h.ensureAttached op).bind' (fun _ h1 => (h1.ensureAttached l).bind' (fun _ h2 =>
    { h2 with opOut_sorted := keySorted_ins h2.opOut_sorted }))

theorem WF.removeInput {s : Env} (h : WF s) (op l : Obj) : WF (s.removeInput op l) :=
  { h with opIn_sorted := h.opIn_sorted.sublist List.filter_sublist }
theorem WF.removeOutput {s : Env} (h : WF s) (op l : Obj) : WF (s.removeOutput op l) :=
  { h with opOut_sorted := h.opOut_sorted.sublist List.filter_sublist }
theorem WF.removeInputs {s : Env} (h : WF s) (op : Obj) : WF (s.removeInputs op) :=
  { h with opIn_sorted := h.opIn_sorted.sublist (eraseKey_sublist _ _) }
theorem WF.removeOutputs {s : Env} (h : WF s) (op : Obj) : WF (s.removeOutputs op) :=
  { h with opOut_sorted := h.opOut_sorted.sublist (eraseKey_sublist _ _) }

theorem WF.opAddInput {s : Env} (h : WF s) (op l : Obj) : (s.opAddInput op l).All WF := by
  unfold Env.opAddInput
  split
  · trivial
  split
  · exact h
  · exact h.addInput op l

theorem WF.opSetInput {s : Env} (h : WF s) (op l : Obj) : (s.opSetInput op l).All WF := by
  unfold Env.opSetInput
  split
  · trivial
  · exact (h.removeInputs op).opAddInput op l

theorem WF.opAddOutput {s : Env} (h : WF s) (op l : Obj) : (s.opAddOutput op l).All WF := by
  unfold Env.opAddOutput
  split
  · trivial
  split
  · exact h
  · exact h.addOutput op l

theorem WF.opSetOutput {s : Env} (h : WF s) (op l : Obj) : (s.opSetOutput op l).All WF := by
  unfold Env.opSetOutput
  split
  · trivial
  · exact (h.removeOutputs op).opAddOutput op l

theorem WF.detachFromOperator {s : Env} (h : WF s) (l : Obj) : (s.detachFromOperator l).All WF := by
  unfold Env.detachFromOperator
  split
  · trivial
  split
  · exact h.removeInput _ _
  · exact h

/-! ### detach -/

theorem WF.unlinkAll {s : Env} (h : WF s) (o : Obj) : (s.unlinkAll o).All WF := by
  unfold Env.unlinkAll
  refine (foldRes_all _ (fun s x _ h => h.removeChildF _ _) s h).bind' (fun s1 h1 => ?_)
  refine (foldRes_all _ (fun s x _ h => h.removeChildL _ _) s1 h1).bind' (fun s2 h2 => ?_)
  refine (foldRes_all _ (fun s x _ h => h.removeInput _ _) s2 h2).bind' (fun s3 h3 => ?_)
  refine (foldRes_all _ (fun s x _ h => h.removeOutput _ _) s3 h3).bind' (fun s4 h4 => ?_)
  exact foldRes_all _ (fun s x _ h => h.detachFrame _ _) s4 h4

/-- what the unlinking of an attached item leaves alone -/
structure ItemsSame (s s' : Env) : Prop where
  items : s'.items = s.items
  uid : s'.uid = s.uid
  here : ∀ o, s'.owner o = .here ↔ s.owner o = .here
  kind : s'.kind = s.kind
  held : s'.held = s.held
  inArity : s'.inArity = s.inArity
  outArity : s'.outArity = s.outArity
  pfx : s'.pfx = s.pfx
  rootNode : s'.rootNode = s.rootNode
  lastId : s'.lastId = s.lastId

theorem ItemsSame.refl (s : Env) : ItemsSame s s := ⟨rfl, rfl, fun _ => Iff.rfl, rfl, rfl, rfl, rfl, rfl, rfl, rfl⟩

theorem ItemsSame.trans {s s' s'' : Env} (h : ItemsSame s s') (h' : ItemsSame s' s'') : ItemsSame s s'' :=
  ⟨h'.items.trans h.items, h'.uid.trans h.uid, fun o => (h'.here o).trans (h.here o), h'.kind.trans h.kind,
   h'.held.trans h.held, h'.inArity.trans h.inArity, h'.outArity.trans h.outArity, h'.pfx.trans h.pfx,
   h'.rootNode.trans h.rootNode, h'.lastId.trans h.lastId⟩

theorem ItemsSame.emit (s : Env) (ty : EvType) (op : EvOp) (a : Obj) (b : Option Obj) :
    (s.emit ty op a b).All (ItemsSame s) := by
  apply emit_all
  intro ow ho
  exact ⟨rfl, rfl, fun o => ho.attached (Or.inl rfl) o, rfl, rfl, rfl, rfl, rfl, rfl, rfl⟩

theorem ItemsSame.removeChildF (s : Env) (p c : Obj) : (s.removeChildF p c).All (ItemsSame s) := by
  unfold Env.removeChildF
  split
  · refine (ItemsSame.emit s _ _ _ _).bind' (fun s1 h1 => ?_)
    exact ⟨h1.items, h1.uid, h1.here, h1.kind, h1.held, h1.inArity, h1.outArity, h1.pfx, h1.rootNode, h1.lastId⟩
  · exact ItemsSame.refl s

theorem ItemsSame.removeChildL (s : Env) (p c : Obj) : (s.removeChildL p c).All (ItemsSame s) := by
  unfold Env.removeChildL
  refine (ItemsSame.emit s _ _ _ _).bind' (fun s1 h1 => ?_)
  exact ⟨h1.items, h1.uid, h1.here, h1.kind, h1.held, h1.inArity, h1.outArity, h1.pfx, h1.rootNode, h1.lastId⟩

theorem ItemsSame.detachFrame (s : Env) (m f : Obj) : (s.detachFrame m f).All (ItemsSame s) := by
  unfold Env.detachFrame
  split
  · refine (ItemsSame.emit s _ _ _ _).bind' (fun s1 h1 => ?_)
    exact ⟨h1.items, h1.uid, h1.here, h1.kind, h1.held, h1.inArity, h1.outArity, h1.pfx, h1.rootNode, h1.lastId⟩
  · exact ItemsSame.refl s

theorem foldRes_trans {σ α : Type} {f : σ → α → Res σ} {R : σ → σ → Prop} (hr : ∀ s, R s s)
    (ht : ∀ a b c, R a b → R b c → R a c) (l : List α) (hf : ∀ s x, x ∈ l → (f s x).All (R s)) (s : σ) :
    (foldRes f l s).All (R s) := by
  exact foldRes_all (P := R s) l
    (fun s1 x hx h1 => (hf s1 x hx).mono (fun s2 h2 => ht _ _ _ h1 h2)) s (hr s)

theorem ItemsSame.unlinkAll (s : Env) (o : Obj) : (s.unlinkAll o).All (ItemsSame s) := by
  unfold Env.unlinkAll
  have ht := @ItemsSame.trans
  refine (foldRes_trans ItemsSame.refl (fun _ _ _ => ht) _ (fun s x _ => ItemsSame.removeChildF s _ _) s).bind'
    (fun s1 h1 => ?_)
  refine ((foldRes_trans ItemsSame.refl (fun _ _ _ => ht) _ (fun s x _ => ItemsSame.removeChildL s _ _) s1).mono
    (fun _ h => h1.trans h)).bind' (fun s2 h2 => ?_)
  refine ((foldRes_trans (R := ItemsSame) ItemsSame.refl (fun _ _ _ => ht) _ (fun s x _ => ?_) s2).mono
    (fun _ h => h2.trans h)).bind' (fun s3 h3 => ?_)
  · exact ⟨rfl, rfl, fun _ => Iff.rfl, rfl, rfl, rfl, rfl, rfl, rfl, rfl⟩
  refine ((foldRes_trans (R := ItemsSame) ItemsSame.refl (fun _ _ _ => ht) _ (fun s x _ => ?_) s3).mono
    (fun _ h => h3.trans h)).bind' (fun s4 h4 => ?_)
  · exact ⟨rfl, rfl, fun _ => Iff.rfl, rfl, rfl, rfl, rfl, rfl, rfl, rfl⟩
  exact ((foldRes_trans ItemsSame.refl (fun _ _ _ => ht) _ (fun s x _ => ItemsSame.detachFrame s _ _) s4).mono
    (fun _ h => h4.trans h))

theorem afterRelease_ne_here (s : Env) (o : Obj) : s.afterRelease o ≠ .here := by
  unfold afterRelease; split <;> decide

theorem afterRelease_ne_elsewhere (s : Env) (o : Obj) : s.afterRelease o ≠ .elsewhere := by
  unfold afterRelease; split <;> decide

theorem WF.eraseItem {s : Env} (h : WF s) {o : Obj} {w : Owner} (ho : s.owner o = .here)
    (hw : w ≠ .here) (hw' : w ≠ .elsewhere) :
    WF { s with items := eraseKey (s.uid o) s.items, owner := upd s.owner o w } := by
  refine { h with items_nodup := nodup_keys_sublist (eraseKey_sublist _ _) h.items_nodup, items_iff := ?_, good := ?_ }
  · intro i x
    show (i, x) ∈ eraseKey (s.uid o) s.items ↔ upd s.owner o w x = .here ∧ s.uid x = i
    rw [mem_eraseKey, h.items_iff]
    by_cases hx : x = o
    · subst hx
      simp only [upd_self, hw, false_and, iff_false, not_and]
      rintro ⟨_, e⟩ hne
      exact hne e.symm
    · rw [upd_ne _ _ hx]
      constructor
      · exact fun h => h.1
      · rintro ⟨h1, h2⟩
        refine ⟨⟨h1, h2⟩, ?_⟩
        rintro (e : i = s.uid o)
        subst h2
        have m1 : (s.uid o, x) ∈ s.items := (h.items_iff _ _).2 ⟨h1, e⟩
        have m2 : (s.uid o, o) ∈ s.items := (h.items_iff _ _).2 ⟨ho, rfl⟩
        exact hx (keys_unique h.items_nodup m1 m2)
  · intro x hx
    show goodId (s.uid x) = true
    rw [isAttached_iff] at hx
    by_cases hxo : x = o
    · subst hxo
      simp only [upd_self] at hx
      rcases hx with hx | hx
      · exact absurd hx hw
      · exact absurd hx hw'
    · simp only [upd_ne _ _ hxo] at hx
      exact h.good x (isAttached_iff.2 hx)

theorem WF.look_uid {s : Env} (h : WF s) {o : Obj} (ho : s.owner o = .here) :
    look (s.uid o) s.items = some o :=
  (look_eq_some_iff h.items_nodup).2 ((h.items_iff _ _).2 ⟨ho, rfl⟩)

theorem WF.dropItem {s : Env} (h : WF s) {o : Obj} (ho : s.owner o = .here) : (s.dropItem o).All WF := by
  unfold Env.dropItem
  refine ((h.emit _ _ _ _).and (ItemsSame.emit s _ _ _ _)).bind (fun s1 h1 => ?_) (fun _ h => h.1)
  obtain ⟨h1, h2⟩ := h1
  have ho1 : s1.owner o = .here := (h2.here o).2 ho
  rw [h1.look_uid ho1]
  dsimp only
  rw [if_pos rfl]
  exact h1.eraseItem ho1 (afterRelease_ne_here _ _) (afterRelease_ne_elsewhere _ _)

theorem WF.detachShallow {s : Env} (h : WF s) {o : Obj} (ho : s.owner o = .here) :
    (s.detachShallow o).All WF := by
  unfold Env.detachShallow
  split
  · trivial
  split
  · trivial
  refine ((h.unlinkAll o).and (ItemsSame.unlinkAll s o)).bind (fun s1 h1 => ?_) (fun _ h => h.1)
  exact h1.1.dropItem ((h1.2.here o).2 ho)

end Env
end Envire
