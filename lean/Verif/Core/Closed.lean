import Verif.Core.Reach
/-! Links join attached items in histories that follow the rules of use. -/
namespace Envire
namespace Env

/-- every link joins two different items attached here, of the right kinds -/
structure Closed (s : Env) : Prop where
  ftree : ∀ e ∈ s.ftree, (s.owner e.1 = .here ∧ s.owner e.2 = .here) ∧ s.kind e.1 = .frame ∧ s.kind e.2 = .frame
  ltree : ∀ e ∈ s.ltree, (s.owner e.1 = .here ∧ s.owner e.2 = .here) ∧ (s.kind e.1).isLayer = true ∧ (s.kind e.2).isLayer = true
  opIn : ∀ e ∈ s.opIn, (s.owner e.1 = .here ∧ s.owner e.2 = .here) ∧ s.kind e.1 = .op ∧ (s.kind e.2).isLayer = true
  opOut : ∀ e ∈ s.opOut, (s.owner e.1 = .here ∧ s.owner e.2 = .here) ∧ s.kind e.1 = .op ∧ (s.kind e.2).isLayer = true
  cmap : ∀ e ∈ s.cmap, (s.owner e.1 = .here ∧ s.owner e.2 = .here) ∧ s.kind e.1 = .cmap ∧ s.kind e.2 = .frame

/-- the root node is attached here -/
def rootOk (s : Env) : Prop := s.owner s.rootNode = .here ∧ s.kind s.rootNode = .frame

/-- rules of use: the parent of a link is attached here, no argument belongs to another environment; the
root is attached when a map without frame is attached; a detached item is attached here; an item shared with
another environment is only taken over while somebody holds it -/
def Good (s : Env) : Op → Prop
  | .attach o => s.owner o = .elsewhere → s.held o = true
  | .attachMap m n => (s.owner m = .elsewhere → s.held m = true) ∧
      (match n with | some f => s.owner f ≠ .elsewhere ∧ f ≠ m | none => rootOk s)
  | .detach o _ => s.owner o = .here
  | .addChildF p c => s.owner p = .here ∧ s.owner c ≠ .elsewhere ∧ p ≠ c
  | .addChildL p c => s.owner p = .here ∧ s.owner c ≠ .elsewhere ∧ p ≠ c
  | .setFrame m f => s.owner m ≠ .elsewhere ∧ s.owner f ≠ .elsewhere ∧ (s.owner m = .free → rootOk s)
  | .addInput op l | .addOutput op l => s.owner op ≠ .elsewhere ∧ s.owner l ≠ .elsewhere
  | .opAddInput op l | .opSetInput op l | .opAddOutput op l | .opSetOutput op l =>
    s.owner op = .here ∧ s.owner l ≠ .elsewhere
  | .detachFromOperator l => s.owner l = .here
  | _ => True

/-- calls that only attach: what is attached stays attached -/
structure Grow (s s' : Env) : Prop where
  here : ∀ x, s.owner x = .here → s'.owner x = .here
  kind : s'.kind = s.kind
  root : s'.rootNode = s.rootNode

theorem Grow.refl (s : Env) : Grow s s := ⟨fun _ h => h, rfl, rfl⟩
theorem Grow.trans {s s' s'' : Env} (h : Grow s s') (h' : Grow s' s'') : Grow s s'' :=
  ⟨fun x hx => h'.here x (h.here x hx), h'.kind.trans h.kind, h'.root.trans h.root⟩
theorem ItemsSame.grow {s s' : Env} (h : ItemsSame s s') : Grow s s' :=
  ⟨fun x hx => (h.here x).2 hx, h.kind, h.rootNode⟩

theorem Grow.emit (s : Env) (ty : EvType) (op : EvOp) (a : Obj) (b : Option Obj) :
    (s.emit ty op a b).All (Grow s) := (ItemsSame.emit s ty op a b).mono (fun _ h => h.grow)

theorem Grow.ofEmit {s0 s : Env} (h : Grow s0 s) (ty : EvType) (op : EvOp) (a : Obj) (b : Option Obj) :
    (s.emit ty op a b).All (Grow s0) := (Grow.emit s ty op a b).mono (fun _ h' => h.trans h')

theorem Grow.ensureAttached {s : Env} (hw : WF s) (o : Obj) :
    (s.ensureAttached o).All (Grow s) := by
  have aux : ∀ s' : Env, s.owner o ≠ .here → AttachEff s s' o → Grow s s' := by
    intro s' hne h
    refine ⟨fun x hx => ?_, h.stat.kind, h.stat.rootNode⟩
    by_cases hxo : x = o
    · subst hxo; exact absurd hx hne
    · rw [h.owner x hxo]; exact hx
  by_cases ho : s.owner o = .here
  · unfold Env.ensureAttached; rw [ho]; exact Grow.refl s
  · exact (ensureAttached_eff s o).toAll (fun _ h => aux _ ho h.1) (fun _ h => aux _ ho h.1)

theorem Grow.attachItem {s : Env} (hw : WF s) (o : Obj) :
    (s.attachItem o).All (Grow s) := by
  have aux : ∀ s' : Env, s.owner o ≠ .here → AttachEff s s' o → Grow s s' := by
    intro s' hne h
    refine ⟨fun x hx => ?_, h.stat.kind, h.stat.rootNode⟩
    by_cases hxo : x = o
    · subst hxo; exact absurd hx hne
    · rw [h.owner x hxo]; exact hx
  by_cases ho : s.owner o = .here
  · rw [hw.attachItem_here ho]; exact Grow.refl s
  · exact (attachItem_eff s o).toAll (fun _ h => aux _ ho h.1) (fun _ h => aux _ ho h.1)

theorem Grow.dropParent (s : Env) (c : Obj) : (s.dropParent c).All (Grow s) := by
  unfold Env.dropParent
  split
  · exact (ItemsSame.removeChildF s _ _).mono (fun _ h => h.grow)
  · exact Grow.refl s

theorem Grow.dropFrame (s : Env) (c : Obj) : (s.dropFrame c).All (Grow s) := by
  unfold Env.dropFrame
  split
  · exact (ItemsSame.detachFrame s _ _).mono (fun _ h => h.grow)
  · exact Grow.refl s

theorem ensureAttached_here {s : Env} {o : Obj} (h : s.owner o ≠ .elsewhere) :
    (s.ensureAttached o).Ok (fun s' => s'.owner o = .here) :=
  (ensureAttached_eff s o).toOk.mono (fun _ h1 => h1.2.1.resolve_right (fun e => h e.2))

/-- attaching `o` makes nothing but `o` attached -/
theorem ensureAttached_others {s : Env} (o x : Obj) (hx : s.owner x ≠ .elsewhere) :
    (s.ensureAttached o).All (fun s' => s'.owner x ≠ .elsewhere) := by
  by_cases hxo : x = o
  · subst hxo
    unfold Env.ensureAttached
    split
    · trivial
    · rename_i hf
      rw [attachItem_free hf]
      split
      · show s.owner x ≠ .elsewhere; exact hx
      · show upd s.owner x .here x ≠ .elsewhere; simp
    · exact hx
  · exact (ensureAttached_eff s o).toAll (fun _ h => by rw [h.1.owner x hxo]; exact hx)
      (fun _ h => by rw [h.1.owner x hxo]; exact hx)

theorem addChildF_grow {s : Env} (hw : WF s) (p c : Obj) (hc : s.owner c ≠ .elsewhere) :
    (s.addChildF p c).Sat (fun s' => Grow s s' ∧ (s.getParent c ≠ some p → s'.owner c = .here)) (Grow s) := by
  unfold addChildF
  by_cases hpc : p = c
  · rw [if_pos hpc]; trivial
  rw [if_neg hpc]
  by_cases h : s.getParent c = some p
  · rw [if_pos h]; exact ⟨Grow.refl s, fun hn => absurd h hn⟩
  rw [if_neg h]
  have e1 := ensureAttached_here hc
  have e2 := Grow.ensureAttached hw c
  cases he : s.ensureAttached c with
  | throw s1 => rw [he] at e2; exact e2
  | fault => trivial
  | ok s1 =>
    rw [he] at e1 e2
    show ((s1.dropParent c).bind _).Sat _ _
    refine (Grow.dropParent s1 c).toSat.bind (fun s2 h2 => ?_) (fun _ h2 => e2.trans h2)
    refine ((Grow.emit { s2 with ftree := ins c p s2.ftree } .frameTree .add p (some c))).toSat.mono
      (fun s3 h3 => ?_) (fun s3 h3 => ?_)
    · have h3' : Grow s2 s3 := ⟨h3.here, h3.kind, h3.root⟩
      exact ⟨e2.trans (h2.trans h3'), fun _ => h3'.here _ (h2.here _ e1)⟩
    · have h3' : Grow s2 s3 := ⟨h3.here, h3.kind, h3.root⟩
      exact e2.trans (h2.trans h3')

theorem addChildL_grow {s : Env} (hw : WF s) (p c : Obj) (hc : s.owner c ≠ .elsewhere) :
    (s.addChildL p c).Sat (fun s' => Grow s s' ∧ (look c s.ltree ≠ some p → s'.owner c = .here)) (Grow s) := by
  unfold addChildL
  by_cases hpc : p = c
  · rw [if_pos hpc]; trivial
  rw [if_neg hpc]
  by_cases h : look c s.ltree = some p
  · rw [if_pos h]; exact ⟨Grow.refl s, fun hn => absurd h hn⟩
  rw [if_neg h]
  have e1 := ensureAttached_here hc
  have e2 := Grow.ensureAttached hw c
  cases he : s.ensureAttached c with
  | throw s1 => rw [he] at e2; exact e2
  | fault => trivial
  | ok s1 =>
    rw [he] at e1 e2
    refine ((Grow.emit { s1 with ltree := ins c p s1.ltree } .layerTree .add p (some c))).toSat.mono
      (fun s3 h3 => ?_) (fun s3 h3 => ?_)
    · have h3' : Grow s1 s3 := ⟨h3.here, h3.kind, h3.root⟩
      exact ⟨e2.trans h3', fun _ => h3'.here _ e1⟩
    · have h3' : Grow s1 s3 := ⟨h3.here, h3.kind, h3.root⟩
      exact e2.trans h3'

theorem linkFrame_grow (s : Env) (m f : Obj) : (s.linkFrame m f).All (Grow s) := by
  unfold linkFrame
  split
  · exact Grow.refl s
  · refine (Grow.dropFrame s m).bind' (fun s2 h2 => ?_)
    refine (Grow.emit { s2 with cmap := ins m f s2.cmap } .frameNode .add m (some f)).mono (fun s3 h3 => ?_)
    have h3' : Grow s2 s3 := ⟨h3.here, h3.kind, h3.root⟩
    exact h2.trans h3'

theorem setFrameAttached_grow {s : Env} (hw : WF s) (m f : Obj) (hf : s.owner f ≠ .elsewhere) :
    (s.setFrameAttached m f).Sat (fun s' => Grow s s' ∧ s'.owner f = .here) (Grow s) := by
  unfold setFrameAttached
  have e1 := ensureAttached_here hf
  have e2 := Grow.ensureAttached hw f
  cases he : s.ensureAttached f with
  | throw s1 => rw [he] at e2; exact e2
  | fault => trivial
  | ok s1 =>
    rw [he] at e1 e2
    exact (linkFrame_grow s1 m f).toSat.mono (fun s2 h2 => ⟨e2.trans h2, h2.here _ e1⟩) (fun s2 h2 => e2.trans h2)

theorem attachMap_grow {s : Env} (hw : WF s) (m : Obj) (n : Option Obj)
    (hn : s.owner (n.getD s.rootNode) ≠ .elsewhere) :
    (s.attachMap m n).Sat
      (fun s' => Grow s s' ∧ s'.owner m = .here ∧ (look m s.cmap = none → s'.owner (n.getD s.rootNode) = .here))
      (Grow s) := by
  unfold attachMap
  have e1 := attachItem_eff s m
  have e2 := Grow.attachItem hw m
  have e3 := hw.attachItem m
  cases he : s.attachItem m with
  | throw s1 => rw [he] at e2; exact e2
  | fault => trivial
  | ok s1 =>
    rw [he] at e1 e2 e3
    obtain ⟨a1, a2, a3⟩ := e1
    show Res.Sat _ _ (match s1.getFrameNode m with | some _ => _ | none => _)
    unfold getFrameNode
    rw [a1.rel.cmap]
    cases hl : look m s.cmap with
    | some g => exact ⟨e2, a2, fun h => by cases h⟩
    | none =>
      dsimp only
      rw [a1.stat.rootNode]
      have hn1 : s1.owner (n.getD s.rootNode) ≠ .elsewhere := by
        by_cases hm : n.getD s.rootNode = m
        · rw [hm, a2]; decide
        · rw [a1.owner _ hm]; exact hn
      exact (setFrameAttached_grow e3 m _ hn1).mono
        (fun s2 h2 => ⟨e2.trans h2.1, h2.1.here _ a2, fun _ => h2.2⟩) (fun s2 h2 => e2.trans h2)

theorem setFrameNode_grow {s : Env} (hw : WF s) (m f : Obj) (hm : s.owner m ≠ .elsewhere)
    (hf : s.owner f ≠ .elsewhere) (hr : s.owner m = .free → s.owner s.rootNode = .here) :
    (s.setFrameNode m f).Sat (fun s' => Grow s s' ∧ s'.owner m = .here ∧ s'.owner f = .here) (Grow s) := by
  unfold setFrameNode
  have e1 := ensureAttached_here hf
  have e2 := Grow.ensureAttached hw f
  have e3 := hw.ensureAttached f
  have e4 := ensureAttached_others (s := s) f m hm
  have e5 := ensureAttached_eff s f
  cases he : s.ensureAttached f with
  | throw s1 => rw [he] at e2; exact e2
  | fault => trivial
  | ok s1 =>
    rw [he] at e1 e2 e3 e4 e5
    show ((s1.ensureMapAttached m).bind _).Sat _ _
    have key : (s1.ensureMapAttached m).Sat (fun s' => Grow s1 s' ∧ s'.owner m = .here) (Grow s1) := by
      unfold ensureMapAttached
      split
      · trivial
      · rename_i hfree
        have hmf : s.owner m = .free := by
          by_cases hx : m = f
          · subst hx; exact absurd (hfree.symm.trans (show s1.owner m = .here from e1)) (by decide)
          · rw [← e5.1.owner m hx]; exact hfree
        have hroot : s1.owner ((none : Option Obj).getD s1.rootNode) ≠ .elsewhere := by
          show s1.owner s1.rootNode ≠ _
          rw [e2.root, e2.here _ (hr hmf)]; decide
        exact (attachMap_grow e3 m none hroot).mono (fun _ h => ⟨h.1, h.2.1⟩) (fun _ h => h)
      · rename_i h1 h2
        refine ⟨Grow.refl s1, ?_⟩
        cases hx : s1.owner m with
        | dead => exact absurd hx h1
        | free => exact absurd hx h2
        | here => rfl
        | elsewhere => exact absurd hx e4
    refine key.bind (fun s2 h2 => ?_) (fun s2 h2 => e2.trans h2)
    refine (linkFrame_grow s2 m f).toSat.mono (fun s3 h3 => ?_) (fun s3 h3 => e2.trans (h2.1.trans h3))
    exact ⟨e2.trans (h2.1.trans h3), h3.here _ h2.2, h3.here _ (h2.1.here _ e1)⟩

theorem addInput_grow {s : Env} (hw : WF s) (op l : Obj) (ho : s.owner op ≠ .elsewhere)
    (hl : s.owner l ≠ .elsewhere) :
    (s.addInput op l).Sat (fun s' => Grow s s' ∧ (look op s.opIn ≠ some l → s'.owner op = .here ∧ s'.owner l = .here))
      (Grow s) := by
  unfold addInput
  by_cases h : look op s.opIn = some l
  · rw [if_pos h]; exact ⟨Grow.refl s, fun hn => absurd h hn⟩
  rw [if_neg h]
  have e1 := ensureAttached_here ho
  have e2 := Grow.ensureAttached hw op
  have e3 := hw.ensureAttached op
  have e4 := ensureAttached_others (s := s) op l hl
  cases he : s.ensureAttached op with
  | throw s1 => rw [he] at e2; exact e2
  | fault => trivial
  | ok s1 =>
    rw [he] at e1 e2 e3 e4
    show ((s1.ensureAttached l).bind _).Sat _ _
    have f1 := ensureAttached_here e4
    have f2 := Grow.ensureAttached e3 l
    cases hf : s1.ensureAttached l with
    | throw s2 => rw [hf] at f2; exact e2.trans f2
    | fault => trivial
    | ok s2 =>
      rw [hf] at f1 f2
      have f2' : Grow s1 { s2 with opIn := ins op l s2.opIn } := ⟨f2.here, f2.kind, f2.root⟩
      exact ⟨e2.trans f2', fun _ => ⟨f2.here _ e1, f1⟩⟩

theorem addOutput_grow {s : Env} (hw : WF s) (op l : Obj) (ho : s.owner op ≠ .elsewhere)
    (hl : s.owner l ≠ .elsewhere) :
    (s.addOutput op l).Sat (fun s' => Grow s s' ∧ (look op s.opOut ≠ some l → s'.owner op = .here ∧ s'.owner l = .here))
      (Grow s) := by
  unfold addOutput
  by_cases h : look op s.opOut = some l
  · rw [if_pos h]; exact ⟨Grow.refl s, fun hn => absurd h hn⟩
  rw [if_neg h]
  have e1 := ensureAttached_here ho
  have e2 := Grow.ensureAttached hw op
  have e3 := hw.ensureAttached op
  have e4 := ensureAttached_others (s := s) op l hl
  cases he : s.ensureAttached op with
  | throw s1 => rw [he] at e2; exact e2
  | fault => trivial
  | ok s1 =>
    rw [he] at e1 e2 e3 e4
    show ((s1.ensureAttached l).bind _).Sat _ _
    have f1 := ensureAttached_here e4
    have f2 := Grow.ensureAttached e3 l
    cases hf : s1.ensureAttached l with
    | throw s2 => rw [hf] at f2; exact e2.trans f2
    | fault => trivial
    | ok s2 =>
      rw [hf] at f1 f2
      have f2' : Grow s1 { s2 with opOut := ins op l s2.opOut } := ⟨f2.here, f2.kind, f2.root⟩
      exact ⟨e2.trans f2', fun _ => ⟨f2.here _ e1, f1⟩⟩

/-- links survive calls that only attach -/
theorem Closed.grow {s s' : Env} (h : Closed s) (hg : Grow s s')
    (f : ∀ e ∈ s'.ftree, e ∈ s.ftree ∨ ((s'.owner e.1 = .here ∧ s'.owner e.2 = .here) ∧ s.kind e.1 = .frame ∧ s.kind e.2 = .frame))
    (l : ∀ e ∈ s'.ltree, e ∈ s.ltree ∨ ((s'.owner e.1 = .here ∧ s'.owner e.2 = .here) ∧ (s.kind e.1).isLayer = true ∧ (s.kind e.2).isLayer = true))
    (i : ∀ e ∈ s'.opIn, e ∈ s.opIn ∨ ((s'.owner e.1 = .here ∧ s'.owner e.2 = .here) ∧ s.kind e.1 = .op ∧ (s.kind e.2).isLayer = true))
    (o : ∀ e ∈ s'.opOut, e ∈ s.opOut ∨ ((s'.owner e.1 = .here ∧ s'.owner e.2 = .here) ∧ s.kind e.1 = .op ∧ (s.kind e.2).isLayer = true))
    (c : ∀ e ∈ s'.cmap, e ∈ s.cmap ∨ ((s'.owner e.1 = .here ∧ s'.owner e.2 = .here) ∧ s.kind e.1 = .cmap ∧ s.kind e.2 = .frame)) :
    Closed s' := by
  refine ⟨fun e he => ?_, fun e he => ?_, fun e he => ?_, fun e he => ?_, fun e he => ?_⟩
  · rw [hg.kind]; rcases f e he with h1 | h1
    · have := h.ftree e h1; exact ⟨⟨hg.here _ this.1.1, hg.here _ this.1.2⟩, this.2⟩
    · exact h1
  · rw [hg.kind]; rcases l e he with h1 | h1
    · have := h.ltree e h1; exact ⟨⟨hg.here _ this.1.1, hg.here _ this.1.2⟩, this.2⟩
    · exact h1
  · rw [hg.kind]; rcases i e he with h1 | h1
    · have := h.opIn e h1; exact ⟨⟨hg.here _ this.1.1, hg.here _ this.1.2⟩, this.2⟩
    · exact h1
  · rw [hg.kind]; rcases o e he with h1 | h1
    · have := h.opOut e h1; exact ⟨⟨hg.here _ this.1.1, hg.here _ this.1.2⟩, this.2⟩
    · exact h1
  · rw [hg.kind]; rcases c e he with h1 | h1
    · have := h.cmap e h1; exact ⟨⟨hg.here _ this.1.1, hg.here _ this.1.2⟩, this.2⟩
    · exact h1

/-- calls that remove links only -/
theorem Closed.sub {s s' : Env} (h : Closed s) (hg : Grow s s') (f : ∀ e ∈ s'.ftree, e ∈ s.ftree)
    (l : ∀ e ∈ s'.ltree, e ∈ s.ltree) (i : ∀ e ∈ s'.opIn, e ∈ s.opIn) (o : ∀ e ∈ s'.opOut, e ∈ s.opOut)
    (c : ∀ e ∈ s'.cmap, e ∈ s.cmap) : Closed s' :=
  h.grow hg (fun e he => Or.inl (f e he)) (fun e he => Or.inl (l e he)) (fun e he => Or.inl (i e he))
    (fun e he => Or.inl (o e he)) (fun e he => Or.inl (c e he))

theorem Closed.relSame {s s' : Env} (h : Closed s) (hg : Grow s s') (hr : RelSame s s') : Closed s' :=
  h.sub hg (fun e he => hr.ftree ▸ he) (fun e he => hr.ltree ▸ he) (fun e he => hr.opIn ▸ he)
    (fun e he => hr.opOut ▸ he) (fun e he => hr.cmap ▸ he)

theorem Closed.detachEff {s s' : Env} {o : Obj} (h : Closed s) (he : DetachEff s s' o) : Closed s' := by
  obtain ⟨⟨r1, r2, r3, r4, r5⟩, _, _, _, hh, hst⟩ := he
  refine ⟨fun e he => ?_, fun e he => ?_, fun e he => ?_, fun e he => ?_, fun e he => ?_⟩
  · rw [r1, mem_without] at he
    have := h.ftree e he.1
    rw [hst.kind]
    exact ⟨⟨(hh _ he.2.1).2 this.1.1, (hh _ he.2.2).2 this.1.2⟩, this.2⟩
  · rw [r2, mem_without] at he
    have := h.ltree e he.1
    rw [hst.kind]
    exact ⟨⟨(hh _ he.2.1).2 this.1.1, (hh _ he.2.2).2 this.1.2⟩, this.2⟩
  · rw [r3, mem_without] at he
    have := h.opIn e he.1
    rw [hst.kind]
    exact ⟨⟨(hh _ he.2.1).2 this.1.1, (hh _ he.2.2).2 this.1.2⟩, this.2⟩
  · rw [r4, mem_without] at he
    have := h.opOut e he.1
    rw [hst.kind]
    exact ⟨⟨(hh _ he.2.1).2 this.1.1, (hh _ he.2.2).2 this.1.2⟩, this.2⟩
  · rw [r5, mem_without] at he
    have := h.cmap e he.1
    rw [hst.kind]
    exact ⟨⟨(hh _ he.2.1).2 this.1.1, (hh _ he.2.2).2 this.1.2⟩, this.2⟩

theorem Closed.detachShallow {s : Env} (h : Closed s) (hw : WF s) {o : Obj} (ho : s.owner o = .here) :
    (s.detachShallow o).All Closed :=
  (detachShallow_eff hw ho).toAll (fun _ he => h.detachEff he) (fun _ h => h.elim)

theorem detachDeep_closed (fuel : Nat) : ∀ s0 s o, WF s0 → Closed s0 → WF s → Closed s → Shrunk s0 s →
    s0.owner o = .here → (detachDeep fuel s o).All (fun s' => (WF s' ∧ Closed s') ∧ Shrunk s0 s') := by
  induction fuel with
  | zero => intros; trivial
  | succ n ih =>
    intro s0 s o h0 hc0 hw hc hs ho
    unfold detachDeep
    split
    · trivial
    split
    · trivial
    have hlast : ∀ t, (WF t ∧ Closed t) ∧ Shrunk s0 t →
        (t.detachShallow o).All (fun s' => (WF s' ∧ Closed s') ∧ Shrunk s0 s') := by
      rintro t ⟨⟨hwt, hct⟩, hst⟩
      by_cases hm : t.uid o ∈ t.items.map (·.1)
      · have hot := hst.here_of_mem h0 hwt ho hm
        have h1 := (detachShallow_eff hwt hot).toAll (R := fun s' => Shrunk s0 s')
          (fun s' h => hst.trans h.shrunk) (fun _ h => h.elim)
        exact ((hwt.detachShallow hot).and (hct.detachShallow hwt hot)).and h1
      · unfold Env.detachShallow
        split
        · trivial
        · trivial
    refine Res.All.bind' ?_ hlast
    split
    · refine Res.All.bind' ?_ ?_
      · refine foldRes_all (P := fun s' => (WF s' ∧ Closed s') ∧ Shrunk s0 s') _ ?_ s ⟨⟨hw, hc⟩, hs⟩
        intro t x hx ht
        refine ih s0 t x h0 hc0 ht.1.1 ht.1.2 ht.2 ?_
        obtain ⟨e, he, hex⟩ := List.mem_map.1 hx
        have := hs.ftree e (List.mem_filter.1 he).1
        rw [← hex]; exact (hc0.ftree e this).1.1
      · intro t ht
        refine foldRes_all (P := fun s' => (WF s' ∧ Closed s') ∧ Shrunk s0 s') _ ?_ t ht
        intro u x hx hu
        refine ih s0 u x h0 hc0 hu.1.1 hu.1.2 hu.2 ?_
        obtain ⟨e, he, hex⟩ := List.mem_map.1 hx
        have := ht.2.cmap e (List.mem_filter.1 he).1
        rw [← hex]; exact (hc0.cmap e this).1.1
    · exact ⟨⟨hw, hc⟩, hs⟩

theorem Good.legal {s : Env} {op : Op} (hc : Closed s) (h : Good s op) : Legal s op := by
  cases op with
  | detach o deep => exact ⟨h, fun _ => ⟨fun e he => (hc.ftree e he).1.1, fun e he => (hc.cmap e he).1.1⟩⟩
  | _ => trivial

/-- ownership may change arbitrarily for items that are not attached here -/
theorem Closed.ownerFields {s s' : Env} (h : Closed s) (hh : ∀ o, s.owner o = .here → s'.owner o = .here)
    (hk : ∀ o, s.owner o = .here → s'.kind o = s.kind o) (hr : RelSame s s') : Closed s' := by
  refine ⟨fun e he => ?_, fun e he => ?_, fun e he => ?_, fun e he => ?_, fun e he => ?_⟩
  · have := h.ftree e (hr.ftree ▸ he)
    rw [hk _ this.1.1, hk _ this.1.2]; exact ⟨⟨hh _ this.1.1, hh _ this.1.2⟩, this.2⟩
  · have := h.ltree e (hr.ltree ▸ he)
    rw [hk _ this.1.1, hk _ this.1.2]; exact ⟨⟨hh _ this.1.1, hh _ this.1.2⟩, this.2⟩
  · have := h.opIn e (hr.opIn ▸ he)
    rw [hk _ this.1.1, hk _ this.1.2]; exact ⟨⟨hh _ this.1.1, hh _ this.1.2⟩, this.2⟩
  · have := h.opOut e (hr.opOut ▸ he)
    rw [hk _ this.1.1, hk _ this.1.2]; exact ⟨⟨hh _ this.1.1, hh _ this.1.2⟩, this.2⟩
  · have := h.cmap e (hr.cmap ▸ he)
    rw [hk _ this.1.1, hk _ this.1.2]; exact ⟨⟨hh _ this.1.1, hh _ this.1.2⟩, this.2⟩

theorem mem_setFrameRel {cm : List (Obj × Obj)} {m f : Obj} {e : Obj × Obj} (h : e ∈ setFrameRel cm m f) :
    e ∈ cm ∨ e = (m, f) := by
  unfold setFrameRel at h
  split at h
  · exact Or.inl h
  · rcases mem_ins.1 h with h | h
    · exact Or.inr h
    · exact Or.inl (mem_eraseKey.1 h).1

theorem Closed.addInput {s : Env} (hc : Closed s) (hw : WF s) (op l : Obj) (ho : s.owner op ≠ .elsewhere)
    (hl : s.owner l ≠ .elsewhere) (k1 : s.kind op = .op) (k2 : (s.kind l).isLayer = true) :
    (s.addInput op l).All Closed := by
  refine ((addInput_grow hw op l ho hl).and (addInput_rel s op l)).toAll (fun s' h => ?_)
    (fun s' h => hc.relSame h.1 h.2)
  obtain ⟨⟨hg, hn⟩, r1, r2, r3, r4, r5⟩ := h
  refine hc.grow hg (fun e he => Or.inl (r1 ▸ he)) (fun e he => Or.inl (r2 ▸ he)) (fun e he => ?_)
    (fun e he => Or.inl (r4 ▸ he)) (fun e he => Or.inl (r5 ▸ he))
  rw [r3] at he
  split at he
  · exact Or.inl he
  · rename_i hx
    rcases mem_ins.1 he with rfl | he
    · exact Or.inr ⟨hn hx, k1, k2⟩
    · exact Or.inl he

theorem Closed.addOutput {s : Env} (hc : Closed s) (hw : WF s) (op l : Obj) (ho : s.owner op ≠ .elsewhere)
    (hl : s.owner l ≠ .elsewhere) (k1 : s.kind op = .op) (k2 : (s.kind l).isLayer = true) :
    (s.addOutput op l).All Closed := by
  refine ((addOutput_grow hw op l ho hl).and (addOutput_rel s op l)).toAll (fun s' h => ?_)
    (fun s' h => hc.relSame h.1 h.2)
  obtain ⟨⟨hg, hn⟩, r1, r2, r3, r4, r5⟩ := h
  refine hc.grow hg (fun e he => Or.inl (r1 ▸ he)) (fun e he => Or.inl (r2 ▸ he)) (fun e he => Or.inl (r3 ▸ he))
    (fun e he => ?_) (fun e he => Or.inl (r5 ▸ he))
  rw [r4] at he
  split at he
  · exact Or.inl he
  · rename_i hx
    rcases mem_ins.1 he with rfl | he
    · exact Or.inr ⟨hn hx, k1, k2⟩
    · exact Or.inl he

theorem Closed.removeInputs {s : Env} (hc : Closed s) (op : Obj) : Closed (s.removeInputs op) :=
  hc.sub ⟨fun _ h => h, rfl, rfl⟩ (fun _ h => h) (fun _ h => h) (fun _ h => (mem_eraseKey.1 h).1)
    (fun _ h => h) (fun _ h => h)
theorem Closed.removeOutputs {s : Env} (hc : Closed s) (op : Obj) : Closed (s.removeOutputs op) :=
  hc.sub ⟨fun _ h => h, rfl, rfl⟩ (fun _ h => h) (fun _ h => h) (fun _ h => h)
    (fun _ h => (mem_eraseKey.1 h).1) (fun _ h => h)
theorem Closed.removeInput {s : Env} (hc : Closed s) (op l : Obj) : Closed (s.removeInput op l) :=
  hc.sub ⟨fun _ h => h, rfl, rfl⟩ (fun _ h => h) (fun _ h => h) (fun _ h => (List.mem_filter.1 h).1)
    (fun _ h => h) (fun _ h => h)
theorem Closed.removeOutput {s : Env} (hc : Closed s) (op l : Obj) : Closed (s.removeOutput op l) :=
  hc.sub ⟨fun _ h => h, rfl, rfl⟩ (fun _ h => h) (fun _ h => h) (fun _ h => h)
    (fun _ h => (List.mem_filter.1 h).1) (fun _ h => h)

theorem Closed.opAddInput {s : Env} (hc : Closed s) (hw : WF s) (op l : Obj) (ho : s.owner op ≠ .elsewhere)
    (hl : s.owner l ≠ .elsewhere) (k1 : s.kind op = .op) (k2 : (s.kind l).isLayer = true) :
    (s.opAddInput op l).All Closed := by
  unfold Env.opAddInput
  split
  · trivial
  split
  · exact hc
  · exact hc.addInput hw op l ho hl k1 k2

theorem Closed.opAddOutput {s : Env} (hc : Closed s) (hw : WF s) (op l : Obj) (ho : s.owner op ≠ .elsewhere)
    (hl : s.owner l ≠ .elsewhere) (k1 : s.kind op = .op) (k2 : (s.kind l).isLayer = true) :
    (s.opAddOutput op l).All Closed := by
  unfold Env.opAddOutput
  split
  · trivial
  split
  · exact hc
  · exact hc.addOutput hw op l ho hl k1 k2

theorem Closed.exec {s : Env} (hc : Closed s) (hw : WF s) (op : Op) (hl : Good s op) (ht : s.typed op = true) :
    (s.exec op).All Closed := by
  cases op with
  | alloc o k id hd ia oa =>
    unfold Env.exec
    dsimp only
    split
    · rename_i hd
      refine hc.ownerFields ?_ ?_ ⟨rfl, rfl, rfl, rfl, rfl⟩
      · intro x hx
        show upd s.owner o .free x = .here
        rw [upd_ne _ _ (by rintro rfl; rw [hd] at hx; cases hx)]; exact hx
      · intro x hx
        exact upd_ne _ _ (by rintro rfl; rw [hd] at hx; cases hx)
    · trivial
  | hold o => exact hc.ownerFields (fun _ h => h) (fun _ _ => rfl) ⟨rfl, rfl, rfl, rfl, rfl⟩
  | release o =>
    refine hc.ownerFields ?_ (fun _ _ => rfl) ⟨rfl, rfl, rfl, rfl, rfl⟩
    intro x hx
    show (if s.owner o = .free then upd s.owner o .dead else s.owner) x = .here
    split
    · rename_i hf
      rw [upd_ne _ _ (by rintro rfl; rw [hf] at hx; cases hx)]; exact hx
    · exact hx
  | setUid o id =>
    unfold Env.exec
    dsimp only
    split
    · exact hc
    · exact hc.ownerFields (fun _ h => h) (fun _ _ => rfl) ⟨rfl, rfl, rfl, rfl, rfl⟩
  | setPrefix p =>
    show (s.setPrefix p).All Closed
    unfold Env.setPrefix
    split
    · trivial
    · exact hc.ownerFields (fun _ h => h) (fun _ _ => rfl) ⟨rfl, rfl, rfl, rfl, rfl⟩
  | extAttach o id =>
    unfold Env.exec
    dsimp only
    split
    · rename_i hf
      refine hc.ownerFields ?_ (fun _ _ => rfl) ⟨rfl, rfl, rfl, rfl, rfl⟩
      intro x hx
      show upd s.owner o .elsewhere x = .here
      rw [upd_ne _ _ (by rintro rfl; rw [hf.1] at hx; cases hx)]; exact hx
    · trivial
  | extDetach o =>
    unfold Env.exec
    dsimp only
    split
    · rename_i hf
      refine hc.ownerFields ?_ (fun _ _ => rfl) ⟨rfl, rfl, rfl, rfl, rfl⟩
      intro x hx
      show upd s.owner o _ x = .here
      rw [upd_ne _ _ (by rintro rfl; rw [hf] at hx; cases hx)]; exact hx
    · trivial
  | attach o =>
    exact ((Grow.attachItem hw o).and (attachItem_rel s o)).mono (fun s' h => hc.relSame h.1 h.2)
  | attachMap m n =>
    simp only [typed, Bool.and_eq_true, decide_eq_true_eq] at ht
    have hn : s.owner (n.getD s.rootNode) ≠ .elsewhere := by
      cases n with
      | some f => exact hl.2.1
      | none =>
        have : rootOk s := hl.2
        show s.owner s.rootNode ≠ _
        rw [this.1]; decide
    have hk : s.kind (n.getD s.rootNode) = .frame := by
      cases n with
      | some f => exact by simpa using ht.2
      | none => exact (show rootOk s from hl.2).2
    refine ((attachMap_grow hw m n hn).and (attachMap_rel s m n)).toAll (fun s' h => ?_)
      (fun s' h => hc.relSame h.1 h.2)
    obtain ⟨⟨hg, hm, hf⟩, r1, r2, r3, r4, r5⟩ := h
    refine hc.grow hg (fun e he => Or.inl (r1 ▸ he)) (fun e he => Or.inl (r2 ▸ he)) (fun e he => Or.inl (r3 ▸ he))
      (fun e he => Or.inl (r4 ▸ he)) (fun e he => ?_)
    rw [r5] at he
    split at he
    · rename_i hx
      rcases mem_setFrameRel he with he | rfl
      · exact Or.inl he
      · exact Or.inr ⟨⟨hm, hf hx⟩, ht.1, hk⟩
    · exact Or.inl he
  | detach o deep =>
    unfold Env.exec
    dsimp only
    cases deep with
    | false => exact hc.detachShallow hw hl
    | true => exact (detachDeep_closed _ s s o hw hc hw hc (Shrunk.refl s) hl).mono (fun _ h => h.1.2)
  | modified o =>
    refine ((Grow.emit s .item .update o none)).and ?_ |>.mono (Q := Closed) (fun s' h => hc.relSame h.1 h.2)
    exact emit_all (fun ow _ => ⟨rfl, rfl, rfl, rfl, rfl⟩)
  | addChildF p c =>
    simp only [typed, Bool.and_eq_true, decide_eq_true_eq] at ht
    refine ((addChildF_grow hw p c hl.2.1).and (addChildF_rel s p c)).toAll (fun s' h => ?_)
      (fun s' h => hc.relSame h.1 h.2)
    obtain ⟨⟨hg, hn⟩, r1, r2, r3, r4, r5⟩ := h
    refine hc.grow hg (fun e he => ?_) (fun e he => Or.inl (r2 ▸ he)) (fun e he => Or.inl (r3 ▸ he))
      (fun e he => Or.inl (r4 ▸ he)) (fun e he => Or.inl (r5 ▸ he))
    rw [r1] at he
    split at he
    · exact Or.inl he
    · rename_i hx
      rcases mem_ins.1 he with rfl | he
      · exact Or.inr ⟨⟨hn hx, hg.here _ hl.1⟩, ht.2, ht.1⟩
      · exact Or.inl (mem_eraseKey.1 he).1
  | removeChildF p c =>
    refine ((ItemsSame.removeChildF s p c).toSat.and (removeChildF_rel s p c)).toAll (fun s' h => ?_)
      (fun s' h => h.2.elim)
    obtain ⟨hg, r1, r2, r3, r4, r5⟩ := h
    refine hc.sub hg.grow (fun e he => ?_) (fun e he => r2 ▸ he) (fun e he => r3 ▸ he) (fun e he => r4 ▸ he)
      (fun e he => r5 ▸ he)
    rw [r1] at he
    split at he
    · exact (mem_eraseKey.1 he).1
    · exact he
  | addChildL p c =>
    simp only [typed, Bool.and_eq_true] at ht
    refine ((addChildL_grow hw p c hl.2.1).and (addChildL_rel s p c)).toAll (fun s' h => ?_)
      (fun s' h => hc.relSame h.1 h.2)
    obtain ⟨⟨hg, hn⟩, r1, r2, r3, r4, r5⟩ := h
    refine hc.grow hg (fun e he => Or.inl (r1 ▸ he)) (fun e he => ?_) (fun e he => Or.inl (r3 ▸ he))
      (fun e he => Or.inl (r4 ▸ he)) (fun e he => Or.inl (r5 ▸ he))
    rw [r2] at he
    split at he
    · exact Or.inl he
    · rename_i hx
      rcases mem_ins.1 he with rfl | he
      · exact Or.inr ⟨⟨hn hx, hg.here _ hl.1⟩, ht.2, ht.1⟩
      · exact Or.inl he
  | removeChildL p c =>
    refine ((ItemsSame.removeChildL s p c).toSat.and (removeChildL_rel s p c)).toAll (fun s' h => ?_)
      (fun s' h => h.2.elim)
    obtain ⟨hg, r1, r2, r3, r4, r5⟩ := h
    exact hc.sub hg.grow (fun e he => r1 ▸ he) (fun e he => List.mem_of_mem_erase (r2 ▸ he)) (fun e he => r3 ▸ he)
      (fun e he => r4 ▸ he) (fun e he => r5 ▸ he)
  | setFrame m f =>
    simp only [typed, Bool.and_eq_true, decide_eq_true_eq] at ht
    refine ((setFrameNode_grow hw m f hl.1 hl.2.1 (fun h => (hl.2.2 h).1)).and (setFrameNode_rel s m f)).toAll
      (fun s' h => ?_) (fun s' h => ?_)
    · obtain ⟨⟨hg, hm, hf⟩, r1, r2, r3, r4, r5⟩ := h
      refine hc.grow hg (fun e he => Or.inl (r1 ▸ he)) (fun e he => Or.inl (r2 ▸ he)) (fun e he => Or.inl (r3 ▸ he))
        (fun e he => Or.inl (r4 ▸ he)) (fun e he => ?_)
      rw [r5] at he
      rcases mem_setFrameRel he with he | rfl
      · exact Or.inl he
      · exact Or.inr ⟨⟨hm, hf⟩, ht.1, ht.2⟩
    · obtain ⟨hg, r1, r2, r3, r4, r5⟩ := h
      exact hc.relSame hg ⟨r1, r2, r3, r4, r5⟩
  | detachFrame m f =>
    refine ((ItemsSame.detachFrame s m f).toSat.and (detachFrame_rel s m f)).toAll (fun s' h => ?_)
      (fun s' h => h.2.elim)
    obtain ⟨hg, r1, r2, r3, r4, r5⟩ := h
    refine hc.sub hg.grow (fun e he => r1 ▸ he) (fun e he => r2 ▸ he) (fun e he => r3 ▸ he) (fun e he => r4 ▸ he)
      (fun e he => ?_)
    rw [r5] at he
    split at he
    · exact (mem_eraseKey.1 he).1
    · exact he
  | addInput op l =>
    simp only [typed, Bool.and_eq_true, decide_eq_true_eq] at ht
    exact hc.addInput hw op l hl.1 hl.2 ht.1 ht.2
  | addOutput op l =>
    simp only [typed, Bool.and_eq_true, decide_eq_true_eq] at ht
    exact hc.addOutput hw op l hl.1 hl.2 ht.1 ht.2
  | removeInput op l => exact hc.removeInput op l
  | removeOutput op l => exact hc.removeOutput op l
  | removeInputs op => exact hc.removeInputs op
  | removeOutputs op => exact hc.removeOutputs op
  | opAddInput op l =>
    simp only [typed, Bool.and_eq_true, decide_eq_true_eq] at ht
    exact hc.opAddInput hw op l (by rw [hl.1]; decide) hl.2 ht.1 ht.2
  | opSetInput op l =>
    simp only [typed, Bool.and_eq_true, decide_eq_true_eq] at ht
    show (s.opSetInput op l).All Closed
    unfold Env.opSetInput
    split
    · trivial
    · exact (hc.removeInputs op).opAddInput (hw.removeInputs op) op l (by show s.owner op ≠ _; rw [hl.1]; decide)
        hl.2 ht.1 ht.2
  | opAddOutput op l =>
    simp only [typed, Bool.and_eq_true, decide_eq_true_eq] at ht
    exact hc.opAddOutput hw op l (by rw [hl.1]; decide) hl.2 ht.1 ht.2
  | opSetOutput op l =>
    simp only [typed, Bool.and_eq_true, decide_eq_true_eq] at ht
    show (s.opSetOutput op l).All Closed
    unfold Env.opSetOutput
    split
    · trivial
    · exact (hc.removeOutputs op).opAddOutput (hw.removeOutputs op) op l (by show s.owner op ≠ _; rw [hl.1]; decide)
        hl.2 ht.1 ht.2
  | detachFromOperator l =>
    show (s.detachFromOperator l).All Closed
    unfold Env.detachFromOperator
    split
    · trivial
    split
    · exact hc.removeInput _ _
    · exact hc

theorem Closed.init (r : Obj) : Closed (Env.init r) :=
  ⟨fun _ h => (by cases h), fun _ h => (by cases h), fun _ h => (by cases h), fun _ h => (by cases h),
    fun _ h => (by cases h)⟩

theorem Reach.wf_closed {r : Obj} {s : Env} (h : Reach Good r s) : WF s ∧ Closed s :=
  Reach.invariant' (P := fun s => WF s ∧ Closed s) ⟨WF.init r, Closed.init r⟩
    (fun _ op hw hl _ ht => (hw.1.exec op (hl.legal hw.2)).and (hw.2.exec hw.1 op hl ht)) h

end Env
end Envire
