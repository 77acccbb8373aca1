import Verif.Core.EnvLemmas
/-! Helper lemmas: exact effect of every call on the relations. -/
namespace Envire

/-- `P` after a normal return, `Q` after an exception -/
def Res.Sat {σ : Type} (P Q : σ → Prop) : Res σ → Prop
  | .ok s => P s
  | .throw s => Q s
  | .fault _ => True

@[simp] theorem Res.sat_ok {σ : Type} {P Q : σ → Prop} {s : σ} : Res.Sat P Q (.ok s) ↔ P s := Iff.rfl
@[simp] theorem Res.sat_throw {σ : Type} {P Q : σ → Prop} {s : σ} : Res.Sat P Q (.throw s) ↔ Q s := Iff.rfl
@[simp] theorem Res.sat_fault {σ : Type} {P Q : σ → Prop} {f : Fault} : Res.Sat P Q (.fault f) ↔ True := Iff.rfl

theorem Res.Sat.bind {σ : Type} {P Q P' Q' : σ → Prop} {r : Res σ} {f : σ → Res σ} (h : r.Sat P Q)
    (hf : ∀ s, P s → (f s).Sat P' Q') (ht : ∀ s, Q s → Q' s) : (r.bind f).Sat P' Q' := by
  cases r with
  | ok s => exact hf s h
  | throw s => exact ht s h
  | fault => trivial

theorem Res.Sat.mono {σ : Type} {P Q P' Q' : σ → Prop} {r : Res σ} (h : r.Sat P Q)
    (hf : ∀ s, P s → P' s) (ht : ∀ s, Q s → Q' s) : r.Sat P' Q' := by
  cases r <;> simp_all

theorem Res.All.toSat {σ : Type} {P : σ → Prop} {r : Res σ} (h : r.All P) : r.Sat P P := by
  cases r <;> simp_all

theorem Res.Sat.toOk {σ : Type} {P Q : σ → Prop} {r : Res σ} (h : r.Sat P Q) : r.Ok P := by
  cases r <;> simp_all

theorem Res.Sat.toAll {σ : Type} {P Q R : σ → Prop} {r : Res σ} (h : r.Sat P Q) (h1 : ∀ s, P s → R s)
    (h2 : ∀ s, Q s → R s) : r.All R := by
  cases r <;> simp_all

theorem Res.Sat.and {σ : Type} {P Q P' Q' : σ → Prop} {r : Res σ} (h : r.Sat P Q) (h' : r.Sat P' Q') :
    r.Sat (fun s => P s ∧ P' s) (fun s => Q s ∧ Q' s) := by
  cases r <;> simp_all

theorem foldRes_ok {σ α : Type} {f : σ → α → Res σ} {P : List α → σ → Prop} (l : List α)
    (hf : ∀ s x r, P (x :: r) s → (f s x).Ok (P r)) (s : σ) (h : P l s) : (foldRes f l s).Ok (P []) := by
  induction l generalizing s with
  | nil => exact h
  | cons x xs ih =>
    unfold foldRes
    exact (hf s x xs h).bind (fun s' h' => ih s' h')

namespace Env

/-- fields that attach / link calls never touch -/
structure Static (s s' : Env) : Prop where
  kind : s'.kind = s.kind
  held : s'.held = s.held
  inArity : s'.inArity = s.inArity
  outArity : s'.outArity = s.outArity
  pfx : s'.pfx = s.pfx
  rootNode : s'.rootNode = s.rootNode

theorem Static.refl (s : Env) : Static s s := ⟨rfl, rfl, rfl, rfl, rfl, rfl⟩
theorem Static.trans {s s' s'' : Env} (h : Static s s') (h' : Static s' s'') : Static s s'' :=
  ⟨h'.kind.trans h.kind, h'.held.trans h.held, h'.inArity.trans h.inArity, h'.outArity.trans h.outArity,
   h'.pfx.trans h.pfx, h'.rootNode.trans h.rootNode⟩

/-- the five relations are the same -/
structure RelSame (s s' : Env) : Prop where
  ftree : s'.ftree = s.ftree
  ltree : s'.ltree = s.ltree
  opIn : s'.opIn = s.opIn
  opOut : s'.opOut = s.opOut
  cmap : s'.cmap = s.cmap

theorem RelSame.refl (s : Env) : RelSame s s := ⟨rfl, rfl, rfl, rfl, rfl⟩
theorem RelSame.trans {s s' s'' : Env} (h : RelSame s s') (h' : RelSame s' s'') : RelSame s s'' :=
  ⟨h'.ftree.trans h.ftree, h'.ltree.trans h.ltree, h'.opIn.trans h.opIn, h'.opOut.trans h.opOut,
   h'.cmap.trans h.cmap⟩

/-! ### attachItem, exactly -/

theorem dropTmp_of_not_free {s : Env} {o : Obj} (h : s.owner o ≠ .free) : dropTmp s o = s := by
  unfold dropTmp; rw [if_neg (fun e => h e.1)]

theorem attachCore_eq (s : Env) (o : Obj) :
    s.attachCore o = if s.uid o ∈ s.items.map (·.1) then .throw s
      else .ok { s with items := ins (s.uid o) o s.items, owner := upd s.owner o .here,
                        log := s.log ++ [mkEv s .item .add o none] } := by
  unfold attachCore
  split
  · rfl
  · unfold emit
    dsimp only
    rw [if_neg (by simp), dropTmp_of_not_free (by simp)]
    rfl

/-- the id an unattached item gets when it is attached -/
def finalId (s : Env) (o : Obj) : Uid := (s.assignId o).uid o

theorem assignId_items (s : Env) (o : Obj) : (s.assignId o).items = s.items := by
  obtain ⟨n, id, h⟩ := assignId_eq s o; rw [h]

theorem assignId_eq' (s : Env) (o : Obj) :
    s.assignId o = { s with lastId := (s.assignId o).lastId, uid := upd s.uid o (s.finalId o) } := by
  obtain ⟨n, id, h⟩ := assignId_eq s o
  unfold finalId
  rw [h]
  simp

theorem attachItem_free {s : Env} {o : Obj} (h : s.owner o = .free) :
    s.attachItem o =
      if s.finalId o ∈ s.items.map (·.1) then
        .throw { s with lastId := (s.assignId o).lastId, uid := upd s.uid o (s.finalId o) }
      else .ok { s with lastId := (s.assignId o).lastId, uid := upd s.uid o (s.finalId o),
                        items := ins (s.finalId o) o s.items, owner := upd s.owner o .here,
                        log := s.log ++ [⟨.item, .add, o, none, s.finalId o, []⟩] } := by
  unfold attachItem
  rw [h]
  dsimp only
  rw [attachCore_eq]
  have he := assignId_eq' s o
  rw [show (s.assignId o).uid o = s.finalId o from rfl, assignId_items]
  split
  · exact congrArg Res.throw he
  · refine congrArg Res.ok ?_
    have hu : (s.assignId o).uid = upd s.uid o (s.finalId o) := by rw [he]
    unfold mkEv
    rw [hu]
    generalize hl : (s.assignId o).lastId = L at *
    rw [he]
    simp

theorem WF.attachItem_here {s : Env} (hw : WF s) {o : Obj} (h : s.owner o = .here) :
    s.attachItem o = .throw s := by
  unfold Env.attachItem
  rw [h]
  dsimp only
  rw [attachCore_eq, if_pos]
  exact List.mem_map.2 ⟨(s.uid o, o), (hw.items_iff _ _).2 ⟨h, rfl⟩, rfl⟩

/-- effect of attaching on everything but the relations -/
structure AttachEff (s s' : Env) (o : Obj) : Prop where
  rel : RelSame s s'
  stat : Static s s'
  uid : ∀ x, x ≠ o → s'.uid x = s.uid x
  owner : ∀ x, x ≠ o → s'.owner x = s.owner x

theorem attachItem_eff (s : Env) (o : Obj) :
    (s.attachItem o).Sat (fun s' => AttachEff s s' o ∧ s'.owner o = .here ∧ (∀ e ∈ s.items, e ∈ s'.items))
      (fun s' => AttachEff s s' o ∧ s'.items = s.items ∧ s'.log = s.log) := by
  unfold attachItem
  split
  · trivial
  · obtain ⟨n, id, he⟩ := assignId_eq s o
    rw [attachCore_eq, he]
    split
    · exact ⟨⟨⟨rfl, rfl, rfl, rfl, rfl⟩, ⟨rfl, rfl, rfl, rfl, rfl, rfl⟩, fun x hx => upd_ne _ _ hx, fun _ _ => rfl⟩,
        rfl, rfl⟩
    · refine ⟨⟨⟨rfl, rfl, rfl, rfl, rfl⟩, ⟨rfl, rfl, rfl, rfl, rfl, rfl⟩, fun x hx => upd_ne _ _ hx,
        fun x hx => upd_ne _ _ hx⟩, upd_self _ _ _, fun e he => mem_ins.2 (Or.inr he)⟩
  · rw [attachCore_eq]
    split
    · exact ⟨⟨⟨rfl, rfl, rfl, rfl, rfl⟩, ⟨rfl, rfl, rfl, rfl, rfl, rfl⟩, fun x hx => rfl, fun _ _ => rfl⟩,
        rfl, rfl⟩
    · refine ⟨⟨⟨rfl, rfl, rfl, rfl, rfl⟩, ⟨rfl, rfl, rfl, rfl, rfl, rfl⟩, fun x hx => rfl,
        fun x hx => upd_ne _ _ hx⟩, upd_self _ _ _, fun e he => mem_ins.2 (Or.inr he)⟩
  · split
    · rw [attachCore_eq]
      split
      · exact ⟨⟨⟨rfl, rfl, rfl, rfl, rfl⟩, ⟨rfl, rfl, rfl, rfl, rfl, rfl⟩, fun x hx => rfl,
          fun x hx => upd_ne _ _ hx⟩, rfl, rfl⟩
      · refine ⟨⟨⟨rfl, rfl, rfl, rfl, rfl⟩, ⟨rfl, rfl, rfl, rfl, rfl, rfl⟩, fun x hx => rfl,
          fun x hx => ?_⟩, upd_self _ _ _, fun e he => mem_ins.2 (Or.inr he)⟩
        show upd (upd s.owner o .free) o .here x = s.owner x
        rw [upd_ne _ _ hx, upd_ne _ _ hx]
    · trivial

theorem AttachEff.refl (s : Env) (o : Obj) : AttachEff s s o :=
  ⟨RelSame.refl s, Static.refl s, fun _ _ => rfl, fun _ _ => rfl⟩

theorem ensureAttached_eff (s : Env) (o : Obj) :
    (s.ensureAttached o).Sat
      (fun s' => AttachEff s s' o ∧ (s'.owner o = .here ∨ (s'.owner o = .elsewhere ∧ s.owner o = .elsewhere)) ∧
        (∀ e ∈ s.items, e ∈ s'.items))
      (fun s' => AttachEff s s' o ∧ s'.items = s.items ∧ s'.log = s.log) := by
  unfold ensureAttached
  split
  · trivial
  · exact (attachItem_eff s o).mono (fun s' h => ⟨h.1, Or.inl h.2.1, h.2.2⟩) (fun _ h => h)
  · rename_i h1 h2
    refine ⟨AttachEff.refl s o, ?_, fun _ h => h⟩
    cases h : s.owner o with
    | dead => exact absurd h h1
    | free => exact absurd h h2
    | here => exact Or.inl rfl
    | elsewhere => exact Or.inr ⟨rfl, rfl⟩

theorem ensureAttached_rel (s : Env) (o : Obj) : (s.ensureAttached o).All (RelSame s) :=
  (ensureAttached_eff s o).toAll (fun _ h => h.1.rel) (fun _ h => h.1.rel)

theorem attachItem_rel (s : Env) (o : Obj) : (s.attachItem o).All (RelSame s) :=
  (attachItem_eff s o).toAll (fun _ h => h.1.rel) (fun _ h => h.1.rel)

theorem ensureAttached_static (s : Env) (o : Obj) : (s.ensureAttached o).All (Static s) :=
  (ensureAttached_eff s o).toAll (fun _ h => h.1.stat) (fun _ h => h.1.stat)

/-! ### link calls -/

theorem emit_sat {s : Env} {ty : EvType} {op : EvOp} {a : Obj} {b : Option Obj} {P Q : Env → Prop}
    (h : ∀ ow, OwnStep s ow → P { s with log := s.log ++ [mkEv s ty op a b], owner := ow }) :
    (emit s ty op a b).Sat P Q := by
  rcases emit_spec s ty op a b with he | ⟨ow, he, ho⟩
  · rw [he]; trivial
  · rw [he]; exact h ow ho

theorem emit_bind_sat {s : Env} {ty : EvType} {op : EvOp} {a : Obj} {b : Option Obj} {f : Env → Res Env}
    {P Q : Env → Prop}
    (h : ∀ ow, OwnStep s ow → (f { s with log := s.log ++ [mkEv s ty op a b], owner := ow }).Sat P Q) :
    ((emit s ty op a b).bind f).Sat P Q := by
  rcases emit_spec s ty op a b with he | ⟨ow, he, ho⟩
  · rw [he]; trivial
  · rw [he]; exact h ow ho

/-- shorthand for the relations after a call -/
def Rels (f l i o c : List (Obj × Obj)) (s' : Env) : Prop :=
  s'.ftree = f ∧ s'.ltree = l ∧ s'.opIn = i ∧ s'.opOut = o ∧ s'.cmap = c

theorem removeChildF_rel (s : Env) (p c : Obj) :
    (s.removeChildF p c).Sat
      (Rels (if s.getParent c = some p then eraseKey c s.ftree else s.ftree) s.ltree s.opIn s.opOut s.cmap)
      (fun _ => False) := by
  unfold removeChildF
  by_cases h : s.getParent c = some p
  · rw [if_pos h, if_pos h]
    apply emit_bind_sat
    intro ow ho
    exact ⟨rfl, rfl, rfl, rfl, rfl⟩
  · rw [if_neg h, if_neg h]
    exact ⟨rfl, rfl, rfl, rfl, rfl⟩

theorem dropParent_rel (s : Env) (c : Obj) :
    (s.dropParent c).Sat (Rels (eraseKey c s.ftree) s.ltree s.opIn s.opOut s.cmap) (fun _ => False) := by
  unfold dropParent
  split
  · rename_i q hq
    have := removeChildF_rel s q c
    rw [if_pos hq] at this
    exact this
  · rename_i hq
    exact ⟨(eraseKey_of_not_mem (look_none_iff.1 hq)).symm, rfl, rfl, rfl, rfl⟩

theorem addChildF_rel (s : Env) (p c : Obj) :
    (s.addChildF p c).Sat
      (Rels (if s.getParent c = some p then s.ftree else ins c p (eraseKey c s.ftree))
        s.ltree s.opIn s.opOut s.cmap) (RelSame s) := by
  unfold addChildF
  by_cases hpc : p = c
  · rw [if_pos hpc]; trivial
  rw [if_neg hpc]
  by_cases h : s.getParent c = some p
  · rw [if_pos h, if_pos h]; exact ⟨rfl, rfl, rfl, rfl, rfl⟩
  rw [if_neg h, if_neg h]
  refine (ensureAttached_rel s c).toSat.bind (fun s1 h1 => ?_) (fun _ h => h)
  refine (dropParent_rel s1 c).bind (fun s2 h2 => ?_) (fun _ h => h.elim)
  apply emit_sat
  intro ow ho
  obtain ⟨d1, d2, d3, d4, d5⟩ := h2
  exact ⟨by show ins c p s2.ftree = _; rw [d1, h1.ftree], d2.trans h1.ltree, d3.trans h1.opIn,
    d4.trans h1.opOut, d5.trans h1.cmap⟩

theorem removeChildL_rel (s : Env) (p c : Obj) :
    (s.removeChildL p c).Sat (Rels s.ftree (s.ltree.erase (c, p)) s.opIn s.opOut s.cmap) (fun _ => False) := by
  unfold removeChildL
  apply emit_bind_sat
  intro ow ho
  exact ⟨rfl, rfl, rfl, rfl, rfl⟩

theorem addChildL_rel (s : Env) (p c : Obj) :
    (s.addChildL p c).Sat
      (Rels s.ftree (if look c s.ltree = some p then s.ltree else ins c p s.ltree) s.opIn s.opOut s.cmap)
      (RelSame s) := by
  unfold addChildL
  by_cases hpc : p = c
  · rw [if_pos hpc]; trivial
  rw [if_neg hpc]
  by_cases h : look c s.ltree = some p
  · rw [if_pos h, if_pos h]; exact ⟨rfl, rfl, rfl, rfl, rfl⟩
  rw [if_neg h, if_neg h]
  refine (ensureAttached_rel s c).toSat.bind (fun s1 h1 => ?_) (fun _ h => h)
  apply emit_sat
  intro ow ho
  exact ⟨h1.ftree, by show ins c p s1.ltree = _; rw [h1.ltree], h1.opIn, h1.opOut, h1.cmap⟩

theorem detachFrame_rel (s : Env) (m f : Obj) :
    (s.detachFrame m f).Sat
      (Rels s.ftree s.ltree s.opIn s.opOut (if s.getFrameNode m = some f then eraseKey m s.cmap else s.cmap))
      (fun _ => False) := by
  unfold detachFrame
  by_cases h : s.getFrameNode m = some f
  · rw [if_pos h, if_pos h]
    apply emit_bind_sat
    intro ow ho
    exact ⟨rfl, rfl, rfl, rfl, rfl⟩
  · rw [if_neg h, if_neg h]
    exact ⟨rfl, rfl, rfl, rfl, rfl⟩

theorem dropFrame_rel (s : Env) (m : Obj) :
    (s.dropFrame m).Sat (Rels s.ftree s.ltree s.opIn s.opOut (eraseKey m s.cmap)) (fun _ => False) := by
  unfold dropFrame
  split
  · rename_i q hq
    have := detachFrame_rel s m q
    rw [if_pos hq] at this
    exact this
  · rename_i hq
    exact ⟨rfl, rfl, rfl, rfl, (eraseKey_of_not_mem (look_none_iff.1 hq)).symm⟩

theorem linkFrame_rel (s : Env) (m f : Obj) :
    (s.linkFrame m f).Sat
      (Rels s.ftree s.ltree s.opIn s.opOut
        (if s.getFrameNode m = some f then s.cmap else ins m f (eraseKey m s.cmap))) (fun _ => False) := by
  unfold linkFrame
  by_cases h : s.getFrameNode m = some f
  · rw [if_pos h, if_pos h]; exact ⟨rfl, rfl, rfl, rfl, rfl⟩
  rw [if_neg h, if_neg h]
  refine (dropFrame_rel s m).bind (fun s2 h2 => ?_) (fun _ h => h.elim)
  apply emit_sat
  intro ow ho
  obtain ⟨d1, d2, d3, d4, d5⟩ := h2
  exact ⟨d1, d2, d3, d4, by show ins m f s2.cmap = _; rw [d5]⟩

/-- the link made by setFrameNode, as a function of the relation before -/
def setFrameRel (cm : List (Obj × Obj)) (m f : Obj) : List (Obj × Obj) :=
  if look m cm = some f then cm else ins m f (eraseKey m cm)

theorem setFrameAttached_rel (s : Env) (m f : Obj) :
    (s.setFrameAttached m f).Sat (Rels s.ftree s.ltree s.opIn s.opOut (setFrameRel s.cmap m f)) (RelSame s) := by
  unfold setFrameAttached
  refine (ensureAttached_rel s f).toSat.bind (fun s1 h1 => ?_) (fun _ h => h)
  refine (linkFrame_rel s1 m f).mono (fun s2 h2 => ?_) (fun _ h => h.elim)
  obtain ⟨d1, d2, d3, d4, d5⟩ := h2
  unfold getFrameNode at d5
  rw [h1.cmap] at d5
  exact ⟨d1.trans h1.ftree, d2.trans h1.ltree, d3.trans h1.opIn, d4.trans h1.opOut, d5⟩

theorem attachMap_rel (s : Env) (m : Obj) (n : Option Obj) :
    (s.attachMap m n).Sat
      (Rels s.ftree s.ltree s.opIn s.opOut
        (if look m s.cmap = none then setFrameRel s.cmap m (n.getD s.rootNode) else s.cmap)) (RelSame s) := by
  unfold attachMap
  refine (attachItem_eff s m).bind (fun s1 h1 => ?_) (fun _ h => h.1.rel)
  have hr := h1.1.rel
  unfold getFrameNode
  rw [hr.cmap]
  cases hl : look m s.cmap with
  | some g =>
    exact ⟨hr.ftree, hr.ltree, hr.opIn, hr.opOut, hr.cmap⟩
  | none =>
    dsimp only
    rw [if_pos rfl, h1.1.stat.rootNode]
    refine (setFrameAttached_rel s1 m _).mono (fun s2 h2 => ?_) (fun s2 h2 => hr.trans h2)
    obtain ⟨d1, d2, d3, d4, d5⟩ := h2
    rw [hr.cmap] at d5
    exact ⟨d1.trans hr.ftree, d2.trans hr.ltree, d3.trans hr.opIn, d4.trans hr.opOut, d5⟩

theorem eraseKey_ins {m f : Obj} {l : List (Obj × Obj)} : eraseKey m (ins m f l) = eraseKey m l := by
  induction l with
  | nil => simp [ins, eraseKey]
  | cons p t ih =>
    unfold ins
    split
    · simp [eraseKey]
    · simp only [eraseKey, List.filter_cons] at *
      rw [ih]

theorem eraseKey_idem {m : Obj} {l : List (Obj × Obj)} : eraseKey m (eraseKey m l) = eraseKey m l :=
  eraseKey_of_not_mem (not_mem_keys_eraseKey m l)

/-- linking first to the root and then to `f` is the same as linking to `f` -/
theorem setFrameRel_twice {cm : List (Obj × Obj)} {m r f : Obj} (hn : look m cm = none) :
    setFrameRel (setFrameRel cm m r) m f = setFrameRel cm m f := by
  have hm : m ∉ cm.map (·.1) := look_none_iff.1 hn
  have he : eraseKey m cm = cm := eraseKey_of_not_mem hm
  have h1 : setFrameRel cm m r = ins m r cm := by
    unfold setFrameRel; rw [hn, if_neg (by simp), he]
  have h2 : setFrameRel cm m f = ins m f cm := by
    unfold setFrameRel; rw [hn, if_neg (by simp), he]
  rw [h1, h2]
  have hl : look m (ins m r cm) = some r := by
    clear h1 h2 he hn
    induction cm with
    | nil => simp [ins, look]
    | cons p t ih =>
      simp only [List.map_cons, List.mem_cons, not_or] at hm
      unfold ins
      split
      · simp [look]
      · show (if p.1 = m then some p.2 else look m (ins m r t)) = some r
        rw [if_neg (fun e => hm.1 e.symm)]
        exact ih hm.2
  unfold setFrameRel
  rw [hl, eraseKey_ins, he]
  split
  · rename_i h; cases h; rfl
  · rfl

theorem setFrameNode_rel (s : Env) (m f : Obj) :
    (s.setFrameNode m f).Sat (Rels s.ftree s.ltree s.opIn s.opOut (setFrameRel s.cmap m f))
      (fun s' => s'.ftree = s.ftree ∧ s'.ltree = s.ltree ∧ s'.opIn = s.opIn ∧ s'.opOut = s.opOut ∧
        s'.cmap = s.cmap) := by
  unfold setFrameNode
  refine (ensureAttached_rel s f).toSat.bind (fun s1 h1 => ?_) (fun _ h => ⟨h.ftree, h.ltree, h.opIn, h.opOut, h.cmap⟩)
  unfold ensureMapAttached
  have key : ∀ s2 : Env, Rels s1.ftree s1.ltree s1.opIn s1.opOut s1.cmap s2 →
      (s2.linkFrame m f).Sat (Rels s.ftree s.ltree s.opIn s.opOut (setFrameRel s.cmap m f)) (fun _ => False) := by
    intro s2 h2
    refine (linkFrame_rel s2 m f).mono (fun s3 h3 => ?_) (fun _ h => h)
    obtain ⟨c1, c2, c3, c4, c5⟩ := h2
    obtain ⟨d1, d2, d3, d4, d5⟩ := h3
    unfold getFrameNode at d5
    rw [c5, h1.cmap] at d5
    exact ⟨d1.trans (c1.trans h1.ftree), d2.trans (c2.trans h1.ltree), d3.trans (c3.trans h1.opIn),
      d4.trans (c4.trans h1.opOut), d5⟩
  split
  · trivial
  · refine (attachMap_rel s1 m none).bind (fun s2 h2 => ?_)
      (fun s2 h2 => ⟨h2.ftree.trans h1.ftree, h2.ltree.trans h1.ltree, h2.opIn.trans h1.opIn,
        h2.opOut.trans h1.opOut, h2.cmap.trans h1.cmap⟩)
    obtain ⟨c1, c2, c3, c4, c5⟩ := h2
    by_cases hn : look m s1.cmap = none
    · rw [if_pos hn] at c5
      refine (linkFrame_rel s2 m f).mono (fun s3 h3 => ?_) (fun _ h => h.elim)
      obtain ⟨d1, d2, d3, d4, d5⟩ := h3
      have d5' : s3.cmap = setFrameRel s2.cmap m f := d5
      rw [c5, setFrameRel_twice hn, h1.cmap] at d5'
      exact ⟨d1.trans (c1.trans h1.ftree), d2.trans (c2.trans h1.ltree), d3.trans (c3.trans h1.opIn),
        d4.trans (c4.trans h1.opOut), d5'⟩
    · rw [if_neg hn] at c5
      exact (key s2 ⟨c1, c2, c3, c4, c5⟩).mono (fun _ h => h) (fun _ h => h.elim)
  · exact (key s1 ⟨rfl, rfl, rfl, rfl, rfl⟩).mono (fun _ h => h) (fun _ h => h.elim)

theorem addInput_rel (s : Env) (op l : Obj) :
    (s.addInput op l).Sat
      (Rels s.ftree s.ltree (if look op s.opIn = some l then s.opIn else ins op l s.opIn) s.opOut s.cmap)
      (RelSame s) := by
  unfold addInput
  by_cases h : look op s.opIn = some l
  · rw [if_pos h, if_pos h]; exact ⟨rfl, rfl, rfl, rfl, rfl⟩
  rw [if_neg h, if_neg h]
  refine (ensureAttached_rel s op).toSat.bind (fun s1 h1 => ?_) (fun _ h => h)
  refine (ensureAttached_rel s1 l).toSat.bind (fun s2 h2 => ?_) (fun _ h => h1.trans h)
  have h3 := h1.trans h2
  exact ⟨h3.ftree, h3.ltree, by show ins op l s2.opIn = _; rw [h3.opIn], h3.opOut, h3.cmap⟩

theorem addOutput_rel (s : Env) (op l : Obj) :
    (s.addOutput op l).Sat
      (Rels s.ftree s.ltree s.opIn (if look op s.opOut = some l then s.opOut else ins op l s.opOut) s.cmap)
      (RelSame s) := by
  unfold addOutput
  by_cases h : look op s.opOut = some l
  · rw [if_pos h, if_pos h]; exact ⟨rfl, rfl, rfl, rfl, rfl⟩
  rw [if_neg h, if_neg h]
  refine (ensureAttached_rel s op).toSat.bind (fun s1 h1 => ?_) (fun _ h => h)
  refine (ensureAttached_rel s1 l).toSat.bind (fun s2 h2 => ?_) (fun _ h => h1.trans h)
  have h3 := h1.trans h2
  exact ⟨h3.ftree, h3.ltree, h3.opIn, by show ins op l s2.opOut = _; rw [h3.opOut], h3.cmap⟩

/-! ### detach -/

/-- entries not joining `o` -/
def without (o : Obj) (l : List (Obj × Obj)) : List (Obj × Obj) := l.filter (fun e => !mentions o e)

@[simp] theorem mem_without {o : Obj} {l : List (Obj × Obj)} {e : Obj × Obj} :
    e ∈ without o l ↔ e ∈ l ∧ e.1 ≠ o ∧ e.2 ≠ o := by
  simp [without, mentions]

theorem eraseKeys_filter {l : List (Obj × Obj)} (o : Obj) (hn : (l.map (·.1)).Nodup) :
    l.filter (fun e => decide (e.1 ∉ (l.filter (mentions o)).map (·.1))) = without o l := by
  unfold without
  apply List.filter_congr
  intro e he
  rw [Bool.eq_iff_iff]
  simp only [decide_eq_true_eq, List.mem_map, List.mem_filter, not_exists, not_and, Bool.not_eq_true',
    and_imp]
  constructor
  · intro h
    cases hm : mentions o e with
    | false => rfl
    | true => exact absurd rfl (h e he hm)
  · intro h x hx hm hxe
    have : x = e := by
      have h1 : (e.1, x.2) ∈ l := by rw [← hxe]; exact hx
      have := keys_unique hn h1 (show (e.1, e.2) ∈ l from he)
      exact Prod.ext hxe this
    rw [this, h] at hm; cases hm

/-- invariant of the loop that removes the frame links of `o` -/
theorem unlinkF (s : Env) (h : WF s) (L : List (Obj × Obj)) (hL : L.Sublist s.ftree) :
    (foldRes (fun s (e : Obj × Obj) => removeChildF s e.2 e.1) L s).Sat
      (Rels (s.ftree.filter (fun e => decide (e.1 ∉ L.map (·.1)))) s.ltree s.opIn s.opOut s.cmap)
      (fun _ => False) := by
  induction L generalizing s with
  | nil =>
    refine ⟨?_, rfl, rfl, rfl, rfl⟩
    show s.ftree = _
    rw [List.filter_eq_self.2]; intro a _; simp
  | cons e r ih =>
    unfold foldRes
    have hmem : e ∈ s.ftree := hL.subset (by simp)
    have hp : s.getParent e.1 = some e.2 := (look_eq_some_iff h.ftree_nodup).2 hmem
    have hn : ((e :: r).map (·.1)).Nodup := nodup_keys_sublist hL h.ftree_nodup
    rw [List.map_cons, List.nodup_cons] at hn
    have hr := removeChildF_rel s e.2 e.1
    have hw := h.removeChildF e.2 e.1
    rw [if_pos hp] at hr
    cases hx : s.removeChildF e.2 e.1 with
    | throw s1 => rw [hx] at hr; exact hr.elim
    | fault => trivial
    | ok s1 =>
      rw [hx] at hr hw
      obtain ⟨d1, d2, d3, d4, d5⟩ := hr
      have hsub : r.Sublist s1.ftree := by
        rw [d1]
        have := List.Sublist.filter (fun p : Obj × Obj => decide (p.1 ≠ e.1)) hL
        rw [List.filter_cons_of_neg (by simp)] at this
        have hr' : r.filter (fun p : Obj × Obj => decide (p.1 ≠ e.1)) = r := by
          rw [List.filter_eq_self]
          intro x hx
          simp only [decide_eq_true_eq]
          intro he; exact hn.1 (List.mem_map.2 ⟨x, hx, he⟩)
        rw [hr'] at this
        exact this
      refine (ih s1 hw hsub).mono (fun s2 h2 => ?_) (fun _ h => h)
      obtain ⟨c1, c2, c3, c4, c5⟩ := h2
      refine ⟨?_, c2.trans d2, c3.trans d3, c4.trans d4, c5.trans d5⟩
      rw [c1, d1]
      unfold eraseKey
      rw [List.filter_filter]
      apply List.filter_congr
      intro x hx
      by_cases h1 : x.1 = e.1 <;> simp [h1]

theorem unlinkC (s : Env) (h : WF s) (L : List (Obj × Obj)) (hL : L.Sublist s.cmap) :
    (foldRes (fun s (e : Obj × Obj) => detachFrame s e.1 e.2) L s).Sat
      (Rels s.ftree s.ltree s.opIn s.opOut (s.cmap.filter (fun e => decide (e.1 ∉ L.map (·.1)))))
      (fun _ => False) := by
  induction L generalizing s with
  | nil =>
    refine ⟨rfl, rfl, rfl, rfl, ?_⟩
    show s.cmap = _
    rw [List.filter_eq_self.2]; intro a _; simp
  | cons e r ih =>
    unfold foldRes
    have hmem : e ∈ s.cmap := hL.subset (by simp)
    have hp : s.getFrameNode e.1 = some e.2 := (look_eq_some_iff h.cmap_nodup).2 hmem
    have hn : ((e :: r).map (·.1)).Nodup := nodup_keys_sublist hL h.cmap_nodup
    rw [List.map_cons, List.nodup_cons] at hn
    have hr := detachFrame_rel s e.1 e.2
    have hw := h.detachFrame e.1 e.2
    rw [if_pos hp] at hr
    cases hx : s.detachFrame e.1 e.2 with
    | throw s1 => rw [hx] at hr; exact hr.elim
    | fault => trivial
    | ok s1 =>
      rw [hx] at hr hw
      obtain ⟨d1, d2, d3, d4, d5⟩ := hr
      have hsub : r.Sublist s1.cmap := by
        rw [d5]
        have := List.Sublist.filter (fun p : Obj × Obj => decide (p.1 ≠ e.1)) hL
        rw [List.filter_cons_of_neg (by simp)] at this
        have hr' : r.filter (fun p : Obj × Obj => decide (p.1 ≠ e.1)) = r := by
          rw [List.filter_eq_self]
          intro x hx
          simp only [decide_eq_true_eq]
          intro he; exact hn.1 (List.mem_map.2 ⟨x, hx, he⟩)
        rw [hr'] at this
        exact this
      refine (ih s1 hw hsub).mono (fun s2 h2 => ?_) (fun _ h => h)
      obtain ⟨c1, c2, c3, c4, c5⟩ := h2
      refine ⟨c1.trans d1, c2.trans d2, c3.trans d3, c4.trans d4, ?_⟩
      rw [c5, d5]
      unfold eraseKey
      rw [List.filter_filter]
      apply List.filter_congr
      intro x hx
      by_cases h1 : x.1 = e.1 <;> simp [h1]

theorem foldl_erase_filter (p : Obj × Obj → Bool) (l : List (Obj × Obj)) :
    (l.filter p).foldl List.erase l = l.filter (fun e => !p e) := by
  have aux : ∀ (L : List (Obj × Obj)) (x : Obj × Obj) (t : List (Obj × Obj)), x ∉ L →
      L.foldl List.erase (x :: t) = x :: L.foldl List.erase t := by
    intro L
    induction L with
    | nil => intros; rfl
    | cons y ys ih =>
      intro x t hx
      simp only [List.mem_cons, not_or] at hx
      show ys.foldl List.erase ((x :: t).erase y) = _
      rw [List.erase_cons_tail (by simpa using hx.1), ih _ _ hx.2]
      rfl
  induction l with
  | nil => rfl
  | cons x t ih =>
    cases hp : p x with
    | true =>
      rw [List.filter_cons_of_pos hp, List.filter_cons_of_neg (by simp [hp])]
      show (t.filter p).foldl List.erase ((x :: t).erase x) = _
      rw [List.erase_cons_head, ih]
    | false =>
      rw [List.filter_cons_of_neg (by simp [hp]), List.filter_cons_of_pos (by simp [hp])]
      rw [aux _ _ _ (by simp [hp]), ih]

theorem unlinkL (s : Env) (L : List (Obj × Obj)) :
    (foldRes (fun s (e : Obj × Obj) => removeChildL s e.2 e.1) L s).Sat
      (Rels s.ftree (L.foldl List.erase s.ltree) s.opIn s.opOut s.cmap) (fun _ => False) := by
  induction L generalizing s with
  | nil => exact ⟨rfl, rfl, rfl, rfl, rfl⟩
  | cons e r ih =>
    unfold foldRes
    refine (removeChildL_rel s e.2 e.1).bind (fun s1 h1 => ?_) (fun _ h => h)
    refine (ih s1).mono (fun s2 h2 => ?_) (fun _ h => h)
    obtain ⟨c1, c2, c3, c4, c5⟩ := h2
    obtain ⟨d1, d2, d3, d4, d5⟩ := h1
    refine ⟨c1.trans d1, ?_, c3.trans d3, c4.trans d4, c5.trans d5⟩
    rw [c2, d2]; rfl

theorem unlinkI (s : Env) (L : List (Obj × Obj)) :
    (foldRes (fun s (e : Obj × Obj) => .ok (removeInput s e.1 e.2)) L s).Sat
      (Rels s.ftree s.ltree (s.opIn.filter (fun e => decide (e ∉ L))) s.opOut s.cmap) (fun _ => False) := by
  induction L generalizing s with
  | nil =>
    refine ⟨rfl, rfl, ?_, rfl, rfl⟩
    show s.opIn = _
    rw [List.filter_eq_self.2]; intro a _; simp
  | cons e r ih =>
    unfold foldRes
    rw [Res.ok_bind]
    refine (ih _).mono (fun s2 h2 => ?_) (fun _ h => h)
    obtain ⟨c1, c2, c3, c4, c5⟩ := h2
    refine ⟨c1, c2, ?_, c4, c5⟩
    rw [c3]
    show (s.opIn.filter (fun x => decide (x ≠ (e.1, e.2)))).filter _ = _
    rw [List.filter_filter]
    apply List.filter_congr
    intro x hx
    by_cases h1 : x = e <;> simp [h1]

theorem unlinkO (s : Env) (L : List (Obj × Obj)) :
    (foldRes (fun s (e : Obj × Obj) => .ok (removeOutput s e.1 e.2)) L s).Sat
      (Rels s.ftree s.ltree s.opIn (s.opOut.filter (fun e => decide (e ∉ L))) s.cmap) (fun _ => False) := by
  induction L generalizing s with
  | nil =>
    refine ⟨rfl, rfl, rfl, ?_, rfl⟩
    show s.opOut = _
    rw [List.filter_eq_self.2]; intro a _; simp
  | cons e r ih =>
    unfold foldRes
    rw [Res.ok_bind]
    refine (ih _).mono (fun s2 h2 => ?_) (fun _ h => h)
    obtain ⟨c1, c2, c3, c4, c5⟩ := h2
    refine ⟨c1, c2, c3, ?_, c5⟩
    rw [c4]
    show (s.opOut.filter (fun x => decide (x ≠ (e.1, e.2)))).filter _ = _
    rw [List.filter_filter]
    apply List.filter_congr
    intro x hx
    by_cases h1 : x = e <;> simp [h1]

theorem filter_not_mem_filter (o : Obj) (l : List (Obj × Obj)) :
    l.filter (fun e => decide (e ∉ l.filter (mentions o))) = without o l := by
  unfold without
  apply List.filter_congr
  intro e he
  cases hm : mentions o e <;> simp [he, hm]

theorem unlinkAll_rel {s : Env} (h : WF s) (o : Obj) :
    (s.unlinkAll o).Sat
      (Rels (without o s.ftree) (without o s.ltree) (without o s.opIn) (without o s.opOut) (without o s.cmap))
      (fun _ => False) := by
  unfold unlinkAll
  have hw1 := foldRes_all (f := fun s (e : Obj × Obj) => removeChildF s e.2 e.1) (P := WF)
    (s.ftree.filter (mentions o)) (fun s x _ h => h.removeChildF _ _) s h
  refine ((unlinkF s h _ List.filter_sublist).and hw1.toSat).bind (fun s1 h1 => ?_) (fun _ h => h.1)
  obtain ⟨⟨a1, a2, a3, a4, a5⟩, w1⟩ := h1
  rw [eraseKeys_filter o h.ftree_nodup] at a1
  have hw2 := foldRes_all (f := fun s (e : Obj × Obj) => removeChildL s e.2 e.1) (P := WF)
    (s.ltree.filter (mentions o)) (fun s x _ h => h.removeChildL _ _) s1 w1
  refine ((unlinkL s1 _).and hw2.toSat).bind (fun s2 h2 => ?_) (fun _ h => h.1)
  obtain ⟨⟨b1, b2, b3, b4, b5⟩, w2⟩ := h2
  rw [a2, foldl_erase_filter] at b2
  have hw3 := foldRes_all (f := fun s (e : Obj × Obj) => .ok (removeInput s e.1 e.2)) (P := WF)
    (s.opIn.filter (mentions o)) (fun s x _ h => h.removeInput _ _) s2 w2
  refine ((unlinkI s2 _).and hw3.toSat).bind (fun s3 h3 => ?_) (fun _ h => h.1)
  obtain ⟨⟨c1, c2, c3, c4, c5⟩, w3⟩ := h3
  have hw4 := foldRes_all (f := fun s (e : Obj × Obj) => .ok (removeOutput s e.1 e.2)) (P := WF)
    (s.opOut.filter (mentions o)) (fun s x _ h => h.removeOutput _ _) s3 w3
  refine ((unlinkO s3 _).and hw4.toSat).bind (fun s4 h4 => ?_) (fun _ h => h.1)
  obtain ⟨⟨d1, d2, d3, d4, d5⟩, w4⟩ := h4
  have e5 : s4.cmap = s.cmap := d5.trans (c5.trans (b5.trans a5))
  refine (unlinkC s4 w4 _ (by rw [e5]; exact List.filter_sublist)).mono (fun s5 h5 => ?_) (fun _ h => h)
  obtain ⟨f1, f2, f3, f4, f5⟩ := h5
  refine ⟨?_, ?_, ?_, ?_, ?_⟩
  · rw [f1, d1, c1, b1, a1]
  · rw [f2, d2, c2, b2]; rfl
  · rw [f3, d3, c3, b3, a3, filter_not_mem_filter]
  · rw [f4, d4, c4, b4, a4, filter_not_mem_filter]
  · rw [f5, e5, eraseKeys_filter o h.cmap_nodup]

/-- what detachItem (not deep) does -/
structure DetachEff (s s' : Env) (o : Obj) : Prop where
  rels : Rels (without o s.ftree) (without o s.ltree) (without o s.opIn) (without o s.opOut) (without o s.cmap) s'
  items : s'.items = eraseKey (s.uid o) s.items
  uid : s'.uid = s.uid
  ownerSelf : s'.owner o = s.afterRelease o
  here : ∀ x, x ≠ o → (s'.owner x = .here ↔ s.owner x = .here)
  stat : Static s s'

theorem afterRelease_congr {s s' : Env} (h : s'.held = s.held) (o : Obj) : s'.afterRelease o = s.afterRelease o := by
  unfold afterRelease; rw [h]

theorem detachShallow_eff {s : Env} (h : WF s) {o : Obj} (ho : s.owner o = .here) :
    (s.detachShallow o).Sat (fun s' => DetachEff s s' o) (fun _ => False) := by
  unfold detachShallow
  rw [if_neg (by rw [ho]; decide)]
  rw [if_neg (by
    intro hn; exact hn (List.mem_map.2 ⟨(s.uid o, o), (h.items_iff _ _).2 ⟨ho, rfl⟩, rfl⟩))]
  refine ((unlinkAll_rel h o).and ((ItemsSame.unlinkAll s o).and (h.unlinkAll o)).toSat).bind (fun s1 h1 => ?_)
    (fun _ h => h.1)
  obtain ⟨r1, i1, w1⟩ := h1
  unfold dropItem
  apply emit_bind_sat
  intro ow how
  have ho1 : s1.owner o = .here := (i1.here o).2 ho
  have hl := w1.look_uid ho1
  dsimp only
  rw [hl]
  dsimp only
  rw [if_pos rfl]
  refine ⟨r1, ?_, i1.uid, ?_, ?_, ?_⟩
  · show eraseKey (s1.uid o) s1.items = _; rw [i1.uid, i1.items]
  · show upd ow o (afterRelease _ o) o = _
    rw [upd_self]
    exact afterRelease_congr i1.held o
  · intro x hx
    show upd ow o _ x = .here ↔ _
    rw [upd_ne _ _ hx, how.attached (Or.inl rfl), i1.here]
  · exact ⟨i1.kind, i1.held, i1.inArity, i1.outArity, i1.pfx, i1.rootNode⟩

end Env
end Envire
