import Verif.Core.Detach
/-! Helper lemmas: calls that follow the rules of use have a defined outcome. -/
namespace Envire

/-- the outcome is defined: normal return or exception -/
def Res.Safe {σ : Type} : Res σ → Prop
  | .fault _ => False
  | _ => True

@[simp] theorem Res.safe_ok {σ : Type} {s : σ} : (Res.ok s).Safe ↔ True := Iff.rfl
@[simp] theorem Res.safe_throw {σ : Type} {s : σ} : (Res.throw s).Safe ↔ True := Iff.rfl
@[simp] theorem Res.safe_fault {σ : Type} {f : Fault} : (Res.fault f : Res σ).Safe ↔ False := Iff.rfl

theorem Res.Safe.bind {σ : Type} {P : σ → Prop} {r : Res σ} {f : σ → Res σ} (h : r.Safe) (hp : r.Ok P)
    (hf : ∀ s, P s → (f s).Safe) : (r.bind f).Safe := by
  cases r with
  | ok s => exact hf s hp
  | throw s => trivial
  | fault => exact h.elim

namespace Env

theorem emit_safe1 {s : Env} {ty : EvType} {op : EvOp} {a : Obj} (ha : s.owner a ≠ .dead) :
    (emit s ty op a none).Safe := by
  unfold emit; dsimp only; rw [if_neg ha]; trivial

theorem emit_safe2 {s : Env} {ty : EvType} {op : EvOp} {a b : Obj} (ha : s.owner a ≠ .dead)
    (hb : s.owner b ≠ .dead) : (emit s ty op a (some b)).Safe := by
  unfold emit; dsimp only; rw [if_neg (not_or.2 ⟨ha, hb⟩)]; trivial

theorem attachCore_safe (s : Env) (o : Obj) : (s.attachCore o).Safe := by
  rw [attachCore_eq]; split <;> trivial

theorem attachItem_safe {s : Env} {o : Obj} (h : s.owner o ≠ .dead) (h' : s.owner o = .elsewhere → s.held o = true) :
    (s.attachItem o).Safe := by
  unfold attachItem
  split
  · rename_i hd; exact absurd hd h
  · exact attachCore_safe _ _
  · exact attachCore_safe _ _
  · rename_i he
    rw [if_pos (h' he)]; exact attachCore_safe _ _

theorem ensureAttached_safe {s : Env} {o : Obj} (h : s.owner o ≠ .dead) : (s.ensureAttached o).Safe := by
  unfold ensureAttached
  split
  · rename_i hd; exact absurd hd h
  · rename_i hf; exact attachItem_safe h (fun he => by rw [hf] at he; cases he)
  · trivial

theorem removeChildF_safe {s : Env} {p c : Obj} (hp : s.owner p ≠ .dead) (hc : s.owner c ≠ .dead) :
    (s.removeChildF p c).Safe := by
  unfold removeChildF
  split
  · exact (emit_safe2 hp hc).bind (P := fun _ => True) (by cases emit s .frameTree .remove p (some c) <;> trivial)
      (fun _ _ => trivial)
  · trivial

theorem removeChildL_safe {s : Env} {p c : Obj} (hp : s.owner p ≠ .dead) (hc : s.owner c ≠ .dead) :
    (s.removeChildL p c).Safe := by
  unfold removeChildL
  exact (emit_safe2 hp hc).bind (P := fun _ => True) (by cases emit s .layerTree .remove p (some c) <;> trivial)
      (fun _ _ => trivial)

theorem detachFrame_safe {s : Env} {p c : Obj} (hp : s.owner p ≠ .dead) (hc : s.owner c ≠ .dead) :
    (s.detachFrame p c).Safe := by
  unfold detachFrame
  split
  · exact (emit_safe2 hp hc).bind (P := fun _ => True) (by cases emit s .frameNode .remove p (some c) <;> trivial)
      (fun _ _ => trivial)
  · trivial

theorem here_ne_dead {s : Env} {o : Obj} (h : s.owner o = .here) : s.owner o ≠ .dead := by rw [h]; decide

/-- state after attaching one item: what the following steps need -/
theorem ensureAttached_next {s : Env} (hw : WF s) (o : Obj) (ho : s.owner o ≠ .elsewhere) :
    (s.ensureAttached o).Ok (fun s1 => Grow s s1 ∧ RelSame s s1 ∧ s1.owner o = .here ∧ WF s1 ∧
      (∀ x, x ≠ o → s1.owner x = s.owner x) ∧ s1.held = s.held) := by
  refine ((((Grow.ensureAttached hw o).and (ensureAttached_rel s o)).toOk.and
    ((ensureAttached_here ho).and ((hw.ensureAttached o).toOk.and (ensureAttached_eff s o).toOk)))).mono ?_
  rintro s1 ⟨⟨h1, h2⟩, h3, h4, h5⟩
  exact ⟨h1, h2, h3, h4, h5.1.owner, h5.1.stat.held⟩

theorem addChildF_safe {s : Env} (hw : WF s) (hc : Closed s) {p c : Obj} (hp : s.owner p = .here)
    (h1 : s.owner c ≠ .dead) (h2 : s.owner c ≠ .elsewhere) (hne : p ≠ c) : (s.addChildF p c).Safe := by
  unfold addChildF
  rw [if_neg hne]
  split
  · trivial
  refine (ensureAttached_safe h1).bind (ensureAttached_next hw c h2) ?_
  rintro s1 ⟨g1, r1, c1, w1, _, _⟩
  have hd : (s1.dropParent c).Safe := by
    unfold dropParent
    split
    · rename_i q hq
      have hm : (c, q) ∈ s.ftree := by rw [← r1.ftree]; exact look_some_mem hq
      exact removeChildF_safe (here_ne_dead (g1.here _ (hc.ftree _ hm).1.2)) (here_ne_dead c1)
    · trivial
  refine hd.bind (Grow.dropParent s1 c).toOk ?_
  intro s2 g2
  exact emit_safe2 (here_ne_dead (g2.here _ (g1.here _ hp))) (here_ne_dead (g2.here _ c1))

theorem addChildL_safe {s : Env} (hw : WF s) {p c : Obj} (hp : s.owner p = .here)
    (h1 : s.owner c ≠ .dead) (h2 : s.owner c ≠ .elsewhere) (hne : p ≠ c) : (s.addChildL p c).Safe := by
  unfold addChildL
  rw [if_neg hne]
  split
  · trivial
  refine (ensureAttached_safe h1).bind (ensureAttached_next hw c h2) ?_
  rintro s1 ⟨g1, r1, c1, w1, _, _⟩
  exact emit_safe2 (here_ne_dead (g1.here _ hp)) (here_ne_dead c1)

/-- `m` and `f` are attached, and so is the old frame of `m` -/
theorem linkFrame_safe {s : Env} {m f : Obj} (hm : s.owner m = .here) (hf : s.owner f = .here)
    (ho : ∀ g, (m, g) ∈ s.cmap → s.owner g = .here) : (s.linkFrame m f).Safe := by
  unfold linkFrame
  split
  · trivial
  have hd : (s.dropFrame m).Safe := by
    unfold dropFrame
    split
    · rename_i q hq
      exact detachFrame_safe (here_ne_dead hm) (here_ne_dead (ho _ (look_some_mem hq)))
    · trivial
  refine hd.bind (Grow.dropFrame s m).toOk ?_
  intro s2 g2
  exact emit_safe2 (here_ne_dead (g2.here _ hm)) (here_ne_dead (g2.here _ hf))

theorem setFrameAttached_safe {s : Env} (hw : WF s) (hc : Closed s) {m f : Obj} (hm : s.owner m = .here)
    (h1 : s.owner f ≠ .dead) (h2 : s.owner f ≠ .elsewhere) : (s.setFrameAttached m f).Safe := by
  unfold setFrameAttached
  refine (ensureAttached_safe h1).bind (ensureAttached_next hw f h2) ?_
  rintro s1 ⟨g1, r1, c1, w1, _, _⟩
  refine linkFrame_safe (g1.here _ hm) c1 (fun g hg => ?_)
  rw [r1.cmap] at hg
  exact g1.here _ (hc.cmap _ hg).1.2

theorem attachMap_safe {s : Env} (hw : WF s) (hc : Closed s) {m : Obj} {n : Option Obj} (hm : s.owner m ≠ .dead)
    (hh : s.owner m = .elsewhere → s.held m = true)
    (h1 : s.owner (n.getD s.rootNode) ≠ .dead) (h2 : s.owner (n.getD s.rootNode) ≠ .elsewhere) :
    (s.attachMap m n).Safe := by
  unfold attachMap
  refine (attachItem_safe hm hh).bind
    ((((Grow.attachItem hw m).and (hw.attachItem m)).toOk.and (attachItem_eff s m).toOk)) ?_
  rintro s1 ⟨⟨g1, w1⟩, a1, a2, _⟩
  split
  · trivial
  · have hc1 : Closed s1 := hc.relSame g1 a1.rel
    have e : ∀ w, w ≠ .here → s.owner (n.getD s.rootNode) ≠ w → s1.owner (n.getD s1.rootNode) ≠ w := by
      intro w hw' hx
      rw [g1.root]
      by_cases hxm : n.getD s.rootNode = m
      · rw [hxm, a2]; exact hw'.symm
      · rw [a1.owner _ hxm]; exact hx
    exact setFrameAttached_safe w1 hc1 a2 (e _ (by decide) h1) (e _ (by decide) h2)

theorem setFrameNode_safe {s : Env} (hw : WF s) (hc : Closed s) {m f : Obj} (hm : s.owner m ≠ .dead)
    (hm2 : s.owner m ≠ .elsewhere) (hf : s.owner f ≠ .dead) (hf2 : s.owner f ≠ .elsewhere)
    (hr : s.owner m = .free → s.owner s.rootNode = .here) : (s.setFrameNode m f).Safe := by
  unfold setFrameNode
  refine (ensureAttached_safe hf).bind (ensureAttached_next hw f hf2) ?_
  rintro s1 ⟨g1, r1, c1, w1, o1, hd1⟩
  have hc1 : Closed s1 := hc.relSame g1 r1
  have hm1 : s1.owner m ≠ .dead := by
    by_cases hx : m = f
    · subst hx; exact here_ne_dead c1
    · rw [o1 _ hx]; exact hm
  have hm3 : s1.owner m ≠ .elsewhere := by
    by_cases hx : m = f
    · subst hx; rw [c1]; decide
    · rw [o1 _ hx]; exact hm2
  have hfree : s1.owner m = .free → s.owner m = .free := by
    intro h
    by_cases hx : m = f
    · subst hx; rw [h] at c1; cases c1
    · rw [← o1 _ hx]; exact h
  have hroot : s1.owner m = .free → s1.owner s1.rootNode = .here := by
    intro h; rw [g1.root]; exact g1.here _ (hr (hfree h))
  have key : (s1.ensureMapAttached m).Safe ∧ (s1.ensureMapAttached m).Ok (fun s2 => Grow s1 s2 ∧ s2.owner m = .here ∧
      (∀ g, (m, g) ∈ s2.cmap → s2.owner g = .here)) := by
    unfold ensureMapAttached
    split
    · rename_i hd; exact absurd hd hm1
    · rename_i hf1
      have hro := hroot hf1
      refine ⟨attachMap_safe w1 hc1 hm1 (fun h => absurd h hm3) (here_ne_dead hro) (by
        show s1.owner s1.rootNode ≠ _; rw [hro]; decide), ?_⟩
      have a := attachMap_grow w1 m none (by show s1.owner s1.rootNode ≠ _; rw [hro]; decide)
      have b := attachMap_rel s1 m none
      refine (a.toOk.and b.toOk).mono ?_
      rintro s2 ⟨⟨g2, m2, f2⟩, _, _, _, _, q5⟩
      refine ⟨g2, m2, fun g hg => ?_⟩
      rw [q5] at hg
      split at hg
      · rename_i hn
        rcases mem_setFrameRel hg with hg | hg
        · exact g2.here _ (hc1.cmap _ hg).1.2
        · cases hg; exact f2 hn
      · exact g2.here _ (hc1.cmap _ hg).1.2
    · rename_i h1 h2
      refine ⟨trivial, Grow.refl s1, ?_, fun g hg => (hc1.cmap _ hg).1.2⟩
      cases hx : s1.owner m with
      | dead => exact absurd hx h1
      | free => exact absurd hx h2
      | here => rfl
      | elsewhere => exact absurd hx hm3
  refine key.1.bind key.2 ?_
  rintro s2 ⟨g2, m2, k2⟩
  exact linkFrame_safe m2 (g2.here _ c1) k2

theorem addInput_safe {s : Env} (hw : WF s) {op l : Obj} (h1 : s.owner op ≠ .dead) (h2 : s.owner op ≠ .elsewhere)
    (h3 : s.owner l ≠ .dead) : (s.addInput op l).Safe := by
  unfold addInput
  split
  · trivial
  refine (ensureAttached_safe h1).bind (ensureAttached_next hw op h2) ?_
  rintro s1 ⟨g1, r1, c1, w1, o1, hd1⟩
  refine (ensureAttached_safe ?_).bind (P := fun _ => True) ?_ (fun _ _ => trivial)
  · by_cases hx : l = op
    · subst hx; exact here_ne_dead c1
    · rw [o1 _ hx]; exact h3
  · cases s1.ensureAttached l <;> trivial

theorem addOutput_safe {s : Env} (hw : WF s) {op l : Obj} (h1 : s.owner op ≠ .dead) (h2 : s.owner op ≠ .elsewhere)
    (h3 : s.owner l ≠ .dead) : (s.addOutput op l).Safe := by
  unfold addOutput
  split
  · trivial
  refine (ensureAttached_safe h1).bind (ensureAttached_next hw op h2) ?_
  rintro s1 ⟨g1, r1, c1, w1, o1, hd1⟩
  refine (ensureAttached_safe ?_).bind (P := fun _ => True) ?_ (fun _ _ => trivial)
  · by_cases hx : l = op
    · subst hx; exact here_ne_dead c1
    · rw [o1 _ hx]; exact h3
  · cases s1.ensureAttached l <;> trivial

theorem opAddInput_safe {s : Env} (hw : WF s) {op l : Obj} (h1 : s.owner op = .here) (h3 : s.owner l ≠ .dead) :
    (s.opAddInput op l).Safe := by
  unfold opAddInput
  rw [if_neg (fun h => h h1)]
  split
  · trivial
  · exact addInput_safe hw (here_ne_dead h1) (by rw [h1]; decide) h3

theorem opAddOutput_safe {s : Env} (hw : WF s) {op l : Obj} (h1 : s.owner op = .here) (h3 : s.owner l ≠ .dead) :
    (s.opAddOutput op l).Safe := by
  unfold opAddOutput
  rw [if_neg (fun h => h h1)]
  split
  · trivial
  · exact addOutput_safe hw (here_ne_dead h1) (by rw [h1]; decide) h3

/-- rules of use that concern the outcome of the call only -/
def Defined (s : Env) : Op → Prop
  | .alloc o .. => s.owner o = .dead
  | .extAttach o id => s.owner o = .free ∧ goodId id = true
  | .extDetach o => s.owner o = .elsewhere
  | .setPrefix p => p ≠ []
  | .detach _ deep => deep = true → Acyclic s
  | _ => True

theorem exec_safe {s : Env} (hw : WF s) (hc : Closed s) {op : Op} (hg : Good s op) (hd : Defined s op)
    (ha : ∀ x ∈ args op, s.owner x ≠ .dead) : (s.exec op).Safe := by
  cases op with
  | alloc o k id hd' ia oa =>
    unfold Env.exec; dsimp only; rw [if_pos (show s.owner o = .dead from hd)]; trivial
  | hold o => trivial
  | release o => trivial
  | setUid o id => unfold Env.exec; dsimp only; split <;> trivial
  | setPrefix p =>
    show (s.setPrefix p).Safe
    unfold setPrefix; rw [if_neg hd]; trivial
  | extAttach o id => unfold Env.exec; dsimp only; rw [if_pos (show s.owner o = .free ∧ goodId id = true from hd)]; trivial
  | extDetach o => unfold Env.exec; dsimp only; rw [if_pos (show s.owner o = .elsewhere from hd)]; trivial
  | attach o => exact attachItem_safe (ha o (by simp [args])) hg
  | attachMap m n =>
    have hm := ha m (by simp [args])
    cases n with
    | some f =>
      exact attachMap_safe hw hc hm hg.1 (ha f (by simp [args])) hg.2.1
    | none =>
      have hr : rootOk s := hg.2
      exact attachMap_safe hw hc hm hg.1 (here_ne_dead hr.1) (by show s.owner s.rootNode ≠ _; rw [hr.1]; decide)
  | detach o deep =>
    cases deep with
    | false =>
      show (s.detachShallow o).Safe
      rw [detachShallow_exact hw hc hg]; trivial
    | true =>
      obtain ⟨s', h, _⟩ := detachDeep_total hw hc (hd rfl) hg
      rw [h]; trivial
  | modified o => exact emit_safe1 (ha o (by simp [args]))
  | addChildF p c => exact addChildF_safe hw hc hg.1 (ha c (by simp [args])) hg.2.1 hg.2.2
  | removeChildF p c => exact removeChildF_safe (ha p (by simp [args])) (ha c (by simp [args]))
  | addChildL p c => exact addChildL_safe hw hg.1 (ha c (by simp [args])) hg.2.1 hg.2.2
  | removeChildL p c => exact removeChildL_safe (ha p (by simp [args])) (ha c (by simp [args]))
  | setFrame m f =>
    exact setFrameNode_safe hw hc (ha m (by simp [args])) hg.1 (ha f (by simp [args])) hg.2.1 (fun h => (hg.2.2 h).1)
  | detachFrame m f => exact detachFrame_safe (ha m (by simp [args])) (ha f (by simp [args]))
  | addInput op l => exact addInput_safe hw (ha op (by simp [args])) hg.1 (ha l (by simp [args]))
  | addOutput op l => exact addOutput_safe hw (ha op (by simp [args])) hg.1 (ha l (by simp [args]))
  | removeInput op l => trivial
  | removeOutput op l => trivial
  | removeInputs op => trivial
  | removeOutputs op => trivial
  | opAddInput op l => exact opAddInput_safe hw hg.1 (ha l (by simp [args]))
  | opSetInput op l =>
    show (s.opSetInput op l).Safe
    unfold opSetInput
    rw [if_neg (fun h => h hg.1)]
    exact opAddInput_safe (hw.removeInputs op) hg.1 (ha l (by simp [args]))
  | opAddOutput op l => exact opAddOutput_safe hw hg.1 (ha l (by simp [args]))
  | opSetOutput op l =>
    show (s.opSetOutput op l).Safe
    unfold opSetOutput
    rw [if_neg (fun h => h hg.1)]
    exact opAddOutput_safe (hw.removeOutputs op) hg.1 (ha l (by simp [args]))
  | detachFromOperator l =>
    show (s.detachFromOperator l).Safe
    unfold detachFromOperator
    rw [if_neg (fun h => h (show s.owner l = .here from hg))]
    split <;> trivial

theorem step_safe {s : Env} (hw : WF s) (hc : Closed s) {op : Op} (hg : Good s op) (hd : Defined s op)
    (ha : ∀ x ∈ args op, s.owner x ≠ .dead) (ht : s.typed op = true) : (s.step op).Safe := by
  unfold step
  rw [if_neg (by rintro ⟨x, hx, he⟩; exact ha x hx he), if_neg (by rw [ht]; decide)]
  exact exec_safe hw hc hg hd ha

end Env
end Envire
