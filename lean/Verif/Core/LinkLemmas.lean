import Verif.Core.Detach
/-! Helper lemmas: which calls can add to the layer tree and the operator links; arities never change. -/
namespace Envire
namespace Env

theorem ItemsSame.static {s s' : Env} (h : ItemsSame s s') : Static s s' :=
  ⟨h.kind, h.held, h.inArity, h.outArity, h.pfx, h.rootNode⟩

theorem Static.emit (s : Env) (ty : EvType) (op : EvOp) (a : Obj) (b : Option Obj) :
    (s.emit ty op a b).All (Static s) := (ItemsSame.emit s ty op a b).mono (fun _ h => h.static)

theorem Static.attachItem (s : Env) (o : Obj) : (s.attachItem o).All (Static s) :=
  (attachItem_eff s o).toAll (fun _ h => h.1.stat) (fun _ h => h.1.stat)

theorem Static.dropParent (s : Env) (c : Obj) : (s.dropParent c).All (Static s) := by
  unfold Env.dropParent
  split
  · exact (ItemsSame.removeChildF s _ _).mono (fun _ h => h.static)
  · exact Static.refl s

theorem Static.dropFrame (s : Env) (c : Obj) : (s.dropFrame c).All (Static s) := by
  unfold Env.dropFrame
  split
  · exact (ItemsSame.detachFrame s _ _).mono (fun _ h => h.static)
  · exact Static.refl s

theorem Static.addChildF (s : Env) (p c : Obj) : (s.addChildF p c).All (Static s) := by
  unfold Env.addChildF
  split
  · trivial
  split
  · exact Static.refl s
  refine (ensureAttached_static s c).bind (fun s1 h1 => ?_) (fun _ h => h)
  refine ((Static.dropParent s1 c).mono (fun _ h => h1.trans h)).bind (fun s2 h2 => ?_) (fun _ h => h)
  refine (Static.emit _ _ _ _ _).mono (fun s3 h3 => h2.trans ?_)
  exact ⟨h3.kind, h3.held, h3.inArity, h3.outArity, h3.pfx, h3.rootNode⟩

theorem Static.addChildL (s : Env) (p c : Obj) : (s.addChildL p c).All (Static s) := by
  unfold Env.addChildL
  split
  · trivial
  split
  · exact Static.refl s
  refine (ensureAttached_static s c).bind (fun s1 h1 => ?_) (fun _ h => h)
  refine (Static.emit _ _ _ _ _).mono (fun s3 h3 => h1.trans ?_)
  exact ⟨h3.kind, h3.held, h3.inArity, h3.outArity, h3.pfx, h3.rootNode⟩

theorem Static.linkFrame (s : Env) (m f : Obj) : (s.linkFrame m f).All (Static s) := by
  unfold Env.linkFrame
  split
  · exact Static.refl s
  refine (Static.dropFrame s m).bind (fun s2 h2 => ?_) (fun _ h => h)
  refine (Static.emit _ _ _ _ _).mono (fun s3 h3 => h2.trans ?_)
  exact ⟨h3.kind, h3.held, h3.inArity, h3.outArity, h3.pfx, h3.rootNode⟩

theorem Static.attachMap (s : Env) (m : Obj) (n : Option Obj) : (s.attachMap m n).All (Static s) := by
  unfold Env.attachMap
  refine (Static.attachItem s m).bind (fun s1 h1 => ?_) (fun _ h => h)
  split
  · exact h1
  · unfold setFrameAttached
    refine ((ensureAttached_static s1 _).mono (fun _ h => h1.trans h)).bind (fun s2 h2 => ?_) (fun _ h => h)
    exact (Static.linkFrame s2 _ _).mono (fun _ h => h2.trans h)

theorem Static.setFrameNode (s : Env) (m f : Obj) : (s.setFrameNode m f).All (Static s) := by
  unfold Env.setFrameNode
  refine (ensureAttached_static s f).bind (fun s1 h1 => ?_) (fun _ h => h)
  have : (s1.ensureMapAttached m).All (Static s) := by
    unfold ensureMapAttached
    split
    · trivial
    · exact (Static.attachMap s1 m none).mono (fun _ h => h1.trans h)
    · exact h1
  refine this.bind (fun s2 h2 => ?_) (fun _ h => h)
  exact (Static.linkFrame s2 _ _).mono (fun _ h => h2.trans h)

theorem Static.addInput (s : Env) (op l : Obj) : (s.addInput op l).All (Static s) := by
  unfold Env.addInput
  split
  · exact Static.refl s
  refine (ensureAttached_static s op).bind (fun s1 h1 => ?_) (fun _ h => h)
  refine ((ensureAttached_static s1 l).mono (fun _ h => h1.trans h)).bind (fun s2 h2 => ?_) (fun _ h => h)
  exact ⟨h2.kind, h2.held, h2.inArity, h2.outArity, h2.pfx, h2.rootNode⟩

theorem Static.addOutput (s : Env) (op l : Obj) : (s.addOutput op l).All (Static s) := by
  unfold Env.addOutput
  split
  · exact Static.refl s
  refine (ensureAttached_static s op).bind (fun s1 h1 => ?_) (fun _ h => h)
  refine ((ensureAttached_static s1 l).mono (fun _ h => h1.trans h)).bind (fun s2 h2 => ?_) (fun _ h => h)
  exact ⟨h2.kind, h2.held, h2.inArity, h2.outArity, h2.pfx, h2.rootNode⟩

/-- calls that can add layer links / operator inputs / operator outputs; creating objects -/
def addsL : Op → Bool
  | .addChildL .. => true
  | _ => false
def addsI : Op → Bool
  | .addInput .. | .opAddInput .. | .opSetInput .. => true
  | _ => false
def addsO : Op → Bool
  | .addOutput .. | .opAddOutput .. | .opSetOutput .. => true
  | _ => false
def allocs : Op → Bool
  | .alloc .. => true
  | _ => false

/-- what a call cannot do -/
structure NoMore (s : Env) (op : Op) (s' : Env) : Prop where
  ltree : addsL op = false → s'.ltree.Sublist s.ltree
  opIn : addsI op = false → s'.opIn.Sublist s.opIn
  opOut : addsO op = false → s'.opOut.Sublist s.opOut
  arity : allocs op = false → s'.inArity = s.inArity ∧ s'.outArity = s.outArity

theorem NoMore.same {s s' : Env} (op : Op) (h2 : s'.ltree = s.ltree) (h3 : s'.opIn = s.opIn) (h4 : s'.opOut = s.opOut)
    (h5 : Static s s') : NoMore s op s' :=
  ⟨fun _ => h2 ▸ List.Sublist.refl _, fun _ => h3 ▸ List.Sublist.refl _, fun _ => h4 ▸ List.Sublist.refl _,
   fun _ => ⟨h5.inArity, h5.outArity⟩⟩

theorem NoMore.refl (s : Env) (op : Op) : NoMore s op s := .same op rfl rfl rfl (Static.refl s)

theorem exec_noMore {s : Env} {op : Op} (hw : WF s) (hl : Legal s op) : (s.exec op).All (NoMore s op) := by
  have sl : ∀ {α : Type} (l : List α), l.Sublist l := fun l => List.Sublist.refl l
  cases op with
  | alloc =>
    unfold Env.exec; dsimp only; split
    · exact ⟨fun _ => sl _, fun _ => sl _, fun _ => sl _, (fun h => by cases h)⟩
    · trivial
  | hold => exact ⟨fun _ => sl _, fun _ => sl _, fun _ => sl _, fun _ => ⟨rfl, rfl⟩⟩
  | release => exact ⟨fun _ => sl _, fun _ => sl _, fun _ => sl _, fun _ => ⟨rfl, rfl⟩⟩
  | setUid =>
    unfold Env.exec; dsimp only
    split <;> exact ⟨fun _ => sl _, fun _ => sl _, fun _ => sl _, fun _ => ⟨rfl, rfl⟩⟩
  | setPrefix p =>
    show (s.setPrefix p).All _; unfold Env.setPrefix; split
    · trivial
    · exact ⟨fun _ => sl _, fun _ => sl _, fun _ => sl _, fun _ => ⟨rfl, rfl⟩⟩
  | extAttach =>
    unfold Env.exec; dsimp only; split
    · exact ⟨fun _ => sl _, fun _ => sl _, fun _ => sl _, fun _ => ⟨rfl, rfl⟩⟩
    · trivial
  | extDetach =>
    unfold Env.exec; dsimp only; split
    · exact ⟨fun _ => sl _, fun _ => sl _, fun _ => sl _, fun _ => ⟨rfl, rfl⟩⟩
    · trivial
  | attach o =>
    exact ((attachItem_rel s o).and (Static.attachItem s o)).mono (fun _ h => .same _ h.1.ltree h.1.opIn h.1.opOut h.2)
  | attachMap m n =>
    refine ((attachMap_rel s m n).and (Static.attachMap s m n).toSat).toAll
      (fun _ h => .same _ h.1.2.1 h.1.2.2.1 h.1.2.2.2.1 h.2) (fun _ h => .same _ h.1.ltree h.1.opIn h.1.opOut h.2)
  | detach o deep =>
    cases deep with
    | false =>
      refine (detachShallow_eff hw hl.1).toAll (fun s' h => ?_) (fun _ h => h.elim)
      have := h.shrunk
      exact ⟨fun _ => this.ltree, fun _ => this.opIn, fun _ => this.opOut,
        fun _ => ⟨this.stat.inArity, this.stat.outArity⟩⟩
    | true =>
      refine (detachDeep_wf s hw (hl.2 rfl).1 (hl.2 rfl).2 _ s o hw (Shrunk.refl s) hl.1).mono (fun _ h => ?_)
      have := h.2
      exact ⟨fun _ => this.ltree, fun _ => this.opIn, fun _ => this.opOut,
        fun _ => ⟨this.stat.inArity, this.stat.outArity⟩⟩
  | modified o =>
    show (s.emit .item .update o none).All _
    exact emit_all (fun _ _ => ⟨fun _ => sl _, fun _ => sl _, fun _ => sl _, fun _ => ⟨rfl, rfl⟩⟩)
  | addChildF p c =>
    exact ((addChildF_rel s p c).and (Static.addChildF s p c).toSat).toAll
      (fun _ h => .same _ h.1.2.1 h.1.2.2.1 h.1.2.2.2.1 h.2) (fun _ h => .same _ h.1.ltree h.1.opIn h.1.opOut h.2)
  | removeChildF p c =>
    exact ((removeChildF_rel s p c).and ((ItemsSame.removeChildF s p c).mono (fun _ h => h.static)).toSat).toAll
      (fun _ h => .same _ h.1.2.1 h.1.2.2.1 h.1.2.2.2.1 h.2) (fun _ h => h.1.elim)
  | addChildL p c =>
    refine ((addChildL_rel s p c).and (Static.addChildL s p c).toSat).toAll (fun _ h => ?_)
      (fun _ h => .same _ h.1.ltree h.1.opIn h.1.opOut h.2)
    exact ⟨(fun h => by cases h), fun _ => h.1.2.2.1 ▸ sl _, fun _ => h.1.2.2.2.1 ▸ sl _,
      fun _ => ⟨h.2.inArity, h.2.outArity⟩⟩
  | removeChildL p c =>
    refine ((removeChildL_rel s p c).and ((ItemsSame.removeChildL s p c).mono (fun _ h => h.static)).toSat).toAll
      (fun _ h => ?_) (fun _ h => h.1.elim)
    exact ⟨fun _ => h.1.2.1 ▸ List.erase_sublist, fun _ => h.1.2.2.1 ▸ sl _, fun _ => h.1.2.2.2.1 ▸ sl _,
      fun _ => ⟨h.2.inArity, h.2.outArity⟩⟩
  | setFrame m f =>
    exact ((setFrameNode_rel s m f).and (Static.setFrameNode s m f).toSat).toAll
      (fun _ h => .same _ h.1.2.1 h.1.2.2.1 h.1.2.2.2.1 h.2) (fun _ h => .same _ h.1.2.1 h.1.2.2.1 h.1.2.2.2.1 h.2)
  | detachFrame m f =>
    exact ((detachFrame_rel s m f).and ((ItemsSame.detachFrame s m f).mono (fun _ h => h.static)).toSat).toAll
      (fun _ h => .same _ h.1.2.1 h.1.2.2.1 h.1.2.2.2.1 h.2) (fun _ h => h.1.elim)
  | addInput op l =>
    refine ((addInput_rel s op l).and (Static.addInput s op l).toSat).toAll (fun _ h => ?_)
      (fun _ h => .same _ h.1.ltree h.1.opIn h.1.opOut h.2)
    exact ⟨fun _ => h.1.2.1 ▸ sl _, (fun h => by cases h), fun _ => h.1.2.2.2.1 ▸ sl _,
      fun _ => ⟨h.2.inArity, h.2.outArity⟩⟩
  | addOutput op l =>
    refine ((addOutput_rel s op l).and (Static.addOutput s op l).toSat).toAll (fun _ h => ?_)
      (fun _ h => .same _ h.1.ltree h.1.opIn h.1.opOut h.2)
    exact ⟨fun _ => h.1.2.1 ▸ sl _, fun _ => h.1.2.2.1 ▸ sl _, (fun h => by cases h),
      fun _ => ⟨h.2.inArity, h.2.outArity⟩⟩
  | removeInput op l =>
    exact ⟨fun _ => sl _, fun _ => List.filter_sublist, fun _ => sl _, fun _ => ⟨rfl, rfl⟩⟩
  | removeOutput op l =>
    exact ⟨fun _ => sl _, fun _ => sl _, fun _ => List.filter_sublist, fun _ => ⟨rfl, rfl⟩⟩
  | removeInputs op =>
    exact ⟨fun _ => sl _, fun _ => eraseKey_sublist _ _, fun _ => sl _, fun _ => ⟨rfl, rfl⟩⟩
  | removeOutputs op =>
    exact ⟨fun _ => sl _, fun _ => sl _, fun _ => eraseKey_sublist _ _, fun _ => ⟨rfl, rfl⟩⟩
  | opAddInput op l =>
    show (s.opAddInput op l).All _
    unfold Env.opAddInput
    split
    · trivial
    split
    · exact NoMore.refl s _
    refine ((addInput_rel s op l).and (Static.addInput s op l).toSat).toAll (fun _ h => ?_)
      (fun _ h => .same _ h.1.ltree h.1.opIn h.1.opOut h.2)
    exact ⟨fun _ => h.1.2.1 ▸ sl _, (fun h => by cases h), fun _ => h.1.2.2.2.1 ▸ sl _,
      fun _ => ⟨h.2.inArity, h.2.outArity⟩⟩
  | opSetInput op l =>
    show (s.opSetInput op l).All _
    unfold Env.opSetInput
    split
    · trivial
    unfold Env.opAddInput
    split
    · trivial
    split
    · exact ⟨fun _ => sl _, (fun h => by cases h), fun _ => sl _, fun _ => ⟨rfl, rfl⟩⟩
    refine ((addInput_rel _ op l).and (Static.addInput _ op l).toSat).toAll (fun _ h => ?_) (fun _ h => ?_)
    · exact ⟨fun _ => h.1.2.1 ▸ sl _, (fun h => by cases h), fun _ => h.1.2.2.2.1 ▸ sl _,
        fun _ => ⟨h.2.inArity, h.2.outArity⟩⟩
    · exact ⟨fun _ => h.1.ltree ▸ sl _, (fun h => by cases h), fun _ => h.1.opOut ▸ sl _,
        fun _ => ⟨h.2.inArity, h.2.outArity⟩⟩
  | opAddOutput op l =>
    show (s.opAddOutput op l).All _
    unfold Env.opAddOutput
    split
    · trivial
    split
    · exact NoMore.refl s _
    refine ((addOutput_rel s op l).and (Static.addOutput s op l).toSat).toAll (fun _ h => ?_)
      (fun _ h => .same _ h.1.ltree h.1.opIn h.1.opOut h.2)
    exact ⟨fun _ => h.1.2.1 ▸ sl _, fun _ => h.1.2.2.1 ▸ sl _, (fun h => by cases h),
      fun _ => ⟨h.2.inArity, h.2.outArity⟩⟩
  | opSetOutput op l =>
    show (s.opSetOutput op l).All _
    unfold Env.opSetOutput
    split
    · trivial
    unfold Env.opAddOutput
    split
    · trivial
    split
    · exact ⟨fun _ => sl _, fun _ => sl _, (fun h => by cases h), fun _ => ⟨rfl, rfl⟩⟩
    refine ((addOutput_rel _ op l).and (Static.addOutput _ op l).toSat).toAll (fun _ h => ?_) (fun _ h => ?_)
    · exact ⟨fun _ => h.1.2.1 ▸ sl _, fun _ => h.1.2.2.1 ▸ sl _, (fun h => by cases h),
        fun _ => ⟨h.2.inArity, h.2.outArity⟩⟩
    · exact ⟨fun _ => h.1.ltree ▸ sl _, fun _ => h.1.opIn ▸ sl _, (fun h => by cases h),
        fun _ => ⟨h.2.inArity, h.2.outArity⟩⟩
  | detachFromOperator l =>
    show (s.detachFromOperator l).All _
    unfold Env.detachFromOperator
    split
    · trivial
    split
    · exact ⟨fun _ => sl _, fun _ => List.filter_sublist, fun _ => sl _, fun _ => ⟨rfl, rfl⟩⟩
    · exact NoMore.refl s _

end Env
end Envire
