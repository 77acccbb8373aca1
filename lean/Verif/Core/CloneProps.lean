import Verif.Core.CloneModel
import Verif.Core.IdProps
import Verif.Core.Safe
import Verif.Core.TransformProps

/-! C102: copies of maps in other environments. -/

namespace Envire.Clone

open Envire Envire.Env

/-! ## specification -/

/-- the frames from f up to r, without r -/
inductive Chain (s : Env) (r : Obj) : Obj → List Obj → Prop
  | done : Chain s r r []
  | up {f p : Obj} {l : List Obj} : f ≠ r → s.getParent f = some p → Chain s r p l → Chain s r f (f :: l)

/-- nothing but the objects of `new` has changed, which were not in use -/
structure Kept {T : Type} (s s' : Env) (tf tf' : Obj → T) (new : List Obj) : Prop where
  fresh : ∀ a ∈ new, s.owner a = .dead ∧ s'.owner a = .here
  root : s'.rootNode = s.rootNode
  owner : ∀ x, x ∉ new → s'.owner x = s.owner x
  uid : ∀ x, x ∉ new → s'.uid x = s.uid x
  kind : ∀ x, x ∉ new → s'.kind x = s.kind x
  tf : ∀ x, x ∉ new → tf' x = tf x
  item : ∀ id x, s.getItem id = some x → s'.getItem id = some x
  parent : ∀ x, x ∉ new → s'.getParent x = s.getParent x
  frame : ∀ x, x ∉ new → s'.getFrameNode x = s.getFrameNode x
  ltree : s'.ltree = s.ltree
  opIn : s'.opIn = s.opIn
  opOut : s'.opOut = s.opOut

/-! ## chains -/

theorem Chain.unique {s : Env} {r f : Obj} {l l' : List Obj} (h : Chain s r f l) (h' : Chain s r f l') : l = l' := by
  induction h generalizing l' with
  | done => cases h' with
    | done => rfl
    | up h1 => exact absurd rfl h1
  | up h1 h2 _ ih => cases h' with
    | done => exact absurd rfl h1
    | up h3 h4 h5 => rw [h2] at h4; cases h4; rw [ih h5]

theorem Chain.suffix {s : Env} {r f x : Obj} {l : List Obj} (h : Chain s r f l) (hx : x ∈ l) : ∃ l', Chain s r x l' ∧ l'.length ≤ l.length := by
  induction h with
  | done => cases hx
  | up h1 h2 h3 ih =>
    rcases List.mem_cons.1 hx with rfl | hx
    · exact ⟨_, .up h1 h2 h3, le_refl _⟩
    · obtain ⟨l', a, b⟩ := ih hx
      exact ⟨l', a, b.trans (Nat.le_succ _)⟩

theorem Chain.nodup {s : Env} {r f : Obj} {l : List Obj} (h : Chain s r f l) : l.Nodup := by
  induction h with
  | done => exact List.nodup_nil
  | up h1 h2 h3 ih =>
    refine List.nodup_cons.2 ⟨fun hm => ?_, ih⟩
    obtain ⟨l', a, b⟩ := h3.suffix hm
    have := a.unique (.up h1 h2 h3)
    rw [this, List.length_cons] at b
    omega

theorem Chain.keys {s : Env} {r f : Obj} {l : List Obj} (h : Chain s r f l) : ∀ x ∈ l, x ∈ s.ftree.map (·.1) := by
  induction h with
  | done => simp
  | up h1 h2 h3 ih =>
    intro x hx
    rcases List.mem_cons.1 hx with rfl | hx
    · exact look_isSome_iff.1 ⟨_, h2⟩
    · exact ih x hx

theorem Chain.length {s : Env} {r f : Obj} {l : List Obj} (h : Chain s r f l) : l.length ≤ s.ftree.length := by
  rw [← List.length_map (f := (·.1)) (as := s.ftree)]
  exact (List.subperm_of_subset h.nodup (fun x hx => h.keys x hx)).length_le

theorem stack_chain {s : Env} {f : Obj} {l : List Obj} (h : Chain s s.rootNode f l) : ∀ fuel, l.length < fuel → stack s fuel (some f) = .ok l := by
  generalize hr : s.rootNode = r at h
  induction h with
  | done =>
    intro fuel hf
    obtain ⟨n, rfl⟩ : ∃ n, fuel = n + 1 := ⟨fuel - 1, by simp at hf; omega⟩
    unfold stack
    rw [hr, if_pos rfl]
  | up h1 h2 h3 ih =>
    intro fuel hf
    obtain ⟨n, rfl⟩ : ∃ n, fuel = n + 1 := ⟨fuel - 1, by simp at hf; omega⟩
    unfold stack
    rw [if_neg (by rw [hr]; simpa using h1)]
    dsimp only
    rw [h2, ih n (by simp at hf; omega)]

/-! ## single steps -/

theorem alloc_eq {s : Env} {o : Obj} (h : s.owner o = .dead) (k : Kind) : s.exec (.alloc o k [] false 0 0) = .ok (alloc s o k) := by
  simp only [Env.exec]
  rw [if_pos h]
  rfl

theorem alloc_wf {s : Env} {o : Obj} (hw : WF s) (h : s.owner o = .dead) (k : Kind) : WF (alloc s o k) := by
  have := hw.exec (.alloc o k [] false 0 0) trivial
  rwa [alloc_eq h] at this

theorem alloc_closed {s : Env} {o : Obj} (hw : WF s) (hc : Closed s) (h : s.owner o = .dead) (k : Kind) : Closed (alloc s o k) := by
  have := hc.exec hw (.alloc o k [] false 0 0) trivial rfl
  rwa [alloc_eq h] at this

theorem emit_here {s : Env} {ty : EvType} {op : EvOp} {a b : Obj} (ha : s.owner a = .here) (hb : s.owner b = .here) :
    emit s ty op a (some b) = .ok { s with log := s.log ++ [⟨ty, op, a, some b, s.uid a, s.uid b⟩] } := by
  unfold emit
  dsimp only
  rw [if_neg (by rw [ha, hb]; decide)]
  rw [dropTmp_of_not_free (o := b) (by show s.owner b ≠ _; rw [hb]; decide), dropTmp_of_not_free (o := a) (by show s.owner a ≠ _; rw [ha]; decide)]

theorem dead_not_parent {s : Env} (hc : Closed s) {a : Obj} (h : s.owner a = .dead) : s.getParent a = none := by
  cases hp : s.getParent a with
  | none => rfl
  | some p =>
    have := (hc.ftree _ (look_some_mem hp)).1.1
    rw [h] at this; cases this

theorem dead_not_framed {s : Env} (hc : Closed s) {a : Obj} (h : s.owner a = .dead) : s.getFrameNode a = none := by
  cases hp : s.getFrameNode a with
  | none => rfl
  | some p =>
    have := (hc.cmap _ (look_some_mem hp)).1.1
    rw [h] at this; cases this

/-- a new frame -/
theorem add_fresh {T : Type} {s : Env} (hw : WF s) (hc : Closed s) {p a : Obj} (hp : s.owner p = .here) (hk : s.kind p = .frame) (ha : s.owner a = .dead) (tf : Obj → T) (v : T) :
    ∃ s', (alloc s a .frame).addChildF p a = .ok s' ∧ WF s' ∧ Closed s' ∧ Kept s s' tf (upd tf a v) [a] ∧ s'.getParent a = some p ∧ s'.kind a = .frame ∧ s'.cmap = s.cmap := by
  have hpa : p ≠ a := by rintro rfl; rw [hp] at ha; cases ha
  have hw0 := alloc_wf hw ha .frame
  have hc0 := alloc_closed hw hc ha .frame
  have hfree : (alloc s a .frame).owner a = .free := upd_self _ _ _
  have hp0 : (alloc s a .frame).owner p = .here := by show upd s.owner a .free p = _; rw [upd_ne _ _ hpa]; exact hp
  have hpar : (alloc s a .frame).getParent a = none := dead_not_parent hc ha
  obtain ⟨n, s1, e1, _, _, _, _, _, i1, o1, u1, i2, r1⟩ := automatic_id_fresh hw0 hfree (.inl (upd_self _ _ _))
  have est : Static (alloc s a .frame) s1 := by
    have := attachItem_eff (alloc s a .frame) a
    rw [e1] at this
    exact this.1.stat
  have hp1 : s1.owner p = .here := by rw [(u1 p hpa).2]; exact hp0
  have e : (alloc s a .frame).addChildF p a = .ok { s1 with ftree := ins a p s1.ftree, log := s1.log ++ [⟨.frameTree, .add, p, some a, s1.uid p, s1.uid a⟩] } := by
    unfold addChildF
    rw [if_neg hpa, if_neg (by rw [hpar]; simp)]
    unfold ensureAttached
    rw [hfree]
    dsimp only
    rw [e1]
    show (s1.dropParent a).bind _ = _
    have : s1.getParent a = none := by unfold getParent at *; rw [r1.ftree]; exact hpar
    unfold dropParent
    rw [this]
    simp only [Res.bind]
    rw [emit_here (by exact hp1) (by exact o1)]
  have hwf := hw0.exec (.addChildF p a) trivial
  have hcl := hc0.exec hw0 (.addChildF p a) ⟨hp0, by rw [hfree]; decide, hpa⟩ (by
    simp only [Env.typed]
    have h1 : (alloc s a .frame).kind p = .frame := by show upd s.kind a .frame p = _; rw [upd_ne _ _ hpa]; exact hk
    have h2 : (alloc s a .frame).kind a = .frame := upd_self _ _ _
    rw [h1, h2]; rfl)
  have ex : (alloc s a .frame).exec (.addChildF p a) = (alloc s a .frame).addChildF p a := rfl
  rw [ex, e] at hwf hcl
  have hmem : a ∉ s.ftree.map (·.1) := look_none_iff.1 (dead_not_parent hc ha)
  refine ⟨_, e, hwf, hcl, ⟨?_, ?_, ?_, ?_, ?_, ?_, ?_, ?_, ?_, ?_, ?_, ?_⟩, ?_, ?_, r1.cmap⟩
  · intro x hx
    rw [List.mem_singleton.1 hx]
    exact ⟨ha, o1⟩
  · exact est.rootNode
  · intro x hx
    have hx : x ≠ a := fun h => hx (List.mem_singleton.2 h)
    show s1.owner x = _
    rw [(u1 x hx).2]
    exact upd_ne _ _ hx
  · intro x hx
    have hx : x ≠ a := fun h => hx (List.mem_singleton.2 h)
    show s1.uid x = _
    rw [(u1 x hx).1]
    exact upd_ne _ _ hx
  · intro x hx
    have hx : x ≠ a := fun h => hx (List.mem_singleton.2 h)
    show s1.kind x = _
    rw [est.kind]
    exact upd_ne _ _ hx
  · intro x hx
    exact upd_ne _ _ (fun h => hx (List.mem_singleton.2 h))
  · exact i2
  · intro x hx
    have hx : x ≠ a := fun h => hx (List.mem_singleton.2 h)
    show look x (ins a p s1.ftree) = _
    rw [look_ins_ne hx, r1.ftree]
    rfl
  · intro x hx
    show look x s1.cmap = _
    rw [r1.cmap]
    rfl
  · exact r1.ltree
  · exact r1.opIn
  · exact r1.opOut
  · show look a (ins a p s1.ftree) = _
    rw [r1.ftree]
    exact look_ins_self hw.ftree_nodup hmem
  · show s1.kind a = _
    rw [est.kind]
    exact upd_self _ _ _

/-- the copy of the map -/
theorem attach_fresh {T : Type} {s : Env} (hw : WF s) (hc : Closed s) {a : Obj} (hr : rootOk s) (ha : s.owner a = .dead) (tf : Obj → T) :
    ∃ s', (alloc s a .cmap).attachMap a none = .ok s' ∧ WF s' ∧ Closed s' ∧ Kept s s' tf tf [a] ∧ s'.getFrameNode a = some s.rootNode ∧ s'.kind a = .cmap ∧ s'.ftree = s.ftree := by
  have hpa : s.rootNode ≠ a := by rintro h; rw [← h, hr.1] at ha; cases ha
  have hw0 := alloc_wf hw ha .cmap
  have hc0 := alloc_closed hw hc ha .cmap
  have hfree : (alloc s a .cmap).owner a = .free := upd_self _ _ _
  have hp0 : (alloc s a .cmap).owner s.rootNode = .here := by show upd s.owner a .free _ = _; rw [upd_ne _ _ hpa]; exact hr.1
  have hpar : (alloc s a .cmap).getFrameNode a = none := dead_not_framed hc ha
  obtain ⟨n, s1, e1, _, _, _, _, _, i1, o1, u1, i2, r1⟩ := automatic_id_fresh hw0 hfree (.inl (upd_self _ _ _))
  have est : Static (alloc s a .cmap) s1 := by
    have := attachItem_eff (alloc s a .cmap) a
    rw [e1] at this
    exact this.1.stat
  have hroot : s1.rootNode = s.rootNode := est.rootNode
  have hp1 : s1.owner s.rootNode = .here := by rw [(u1 _ hpa).2]; exact hp0
  have hf1 : s1.getFrameNode a = none := by unfold getFrameNode at *; rw [r1.cmap]; exact hpar
  have e : (alloc s a .cmap).attachMap a none = .ok { s1 with cmap := ins a s.rootNode s1.cmap, log := s1.log ++ [⟨.frameNode, .add, a, some s.rootNode, s1.uid a, s1.uid s.rootNode⟩] } := by
    unfold Env.attachMap
    rw [e1]
    show (match s1.getFrameNode a with | some _ => Res.ok s1 | none => s1.setFrameAttached a s1.rootNode) = _
    rw [hf1, hroot]
    dsimp only
    unfold setFrameAttached ensureAttached
    rw [hp1]
    show s1.linkFrame a s.rootNode = _
    unfold linkFrame
    rw [hf1, if_neg (by simp)]
    unfold dropFrame
    rw [hf1]
    simp only [Res.bind]
    rw [emit_here (by exact o1) (by exact hp1)]
    simp only [hroot]
  have hwf := hw0.exec (.attachMap a none) trivial
  have hcl := hc0.exec hw0 (.attachMap a none) ⟨fun h => absurd (hfree.symm.trans h) (by decide), hp0, (upd_ne _ _ hpa).trans hr.2⟩ (by
    simp only [Env.typed]
    have h2 : (alloc s a .cmap).kind a = .cmap := upd_self _ _ _
    rw [h2]; rfl)
  have ex : (alloc s a .cmap).exec (.attachMap a none) = (alloc s a .cmap).attachMap a none := rfl
  rw [ex, e] at hwf hcl
  have hmem : a ∉ s.cmap.map (·.1) := look_none_iff.1 (dead_not_framed hc ha)
  refine ⟨_, e, hwf, hcl, ⟨?_, ?_, ?_, ?_, ?_, ?_, ?_, ?_, ?_, ?_, ?_, ?_⟩, ?_, ?_, r1.ftree⟩
  · intro x hx
    rw [List.mem_singleton.1 hx]
    exact ⟨ha, o1⟩
  · exact est.rootNode
  · intro x hx
    have hx : x ≠ a := fun h => hx (List.mem_singleton.2 h)
    show s1.owner x = _
    rw [(u1 x hx).2]
    exact upd_ne _ _ hx
  · intro x hx
    have hx : x ≠ a := fun h => hx (List.mem_singleton.2 h)
    show s1.uid x = _
    rw [(u1 x hx).1]
    exact upd_ne _ _ hx
  · intro x hx
    have hx : x ≠ a := fun h => hx (List.mem_singleton.2 h)
    show s1.kind x = _
    rw [est.kind]
    exact upd_ne _ _ hx
  · intro x _
    rfl
  · exact i2
  · intro x hx
    show look x s1.ftree = _
    rw [r1.ftree]
    rfl
  · intro x hx
    have hx : x ≠ a := fun h => hx (List.mem_singleton.2 h)
    show look x (ins a s.rootNode s1.cmap) = _
    rw [look_ins_ne hx, r1.cmap]
    rfl
  · exact r1.ltree
  · exact r1.opIn
  · exact r1.opOut
  · show look a (ins a s.rootNode s1.cmap) = _
    rw [r1.cmap]
    exact look_ins_self hw.cmap_nodup hmem
  · show s1.kind a = _
    rw [est.kind]
    exact upd_self _ _ _

theorem Kept.trans {T : Type} {s s' s'' : Env} {tf tf' tf'' : Obj → T} {A B : List Obj} (h : Kept s s' tf tf' A) (h' : Kept s' s'' tf' tf'' B) : Kept s s'' tf tf'' (A ++ B) where
  fresh a ha := by
    by_cases hA : a ∈ A
    · refine ⟨(h.fresh a hA).1, ?_⟩
      by_cases hB : a ∈ B
      · exact (h'.fresh a hB).2
      · rw [h'.owner a hB]; exact (h.fresh a hA).2
    · have hB : a ∈ B := (List.mem_append.1 ha).resolve_left hA
      exact ⟨by rw [← h.owner a hA]; exact (h'.fresh a hB).1, (h'.fresh a hB).2⟩
  root := h'.root.trans h.root
  owner x hx := by rw [List.mem_append, not_or] at hx; rw [h'.owner x hx.2, h.owner x hx.1]
  uid x hx := by rw [List.mem_append, not_or] at hx; rw [h'.uid x hx.2, h.uid x hx.1]
  kind x hx := by rw [List.mem_append, not_or] at hx; rw [h'.kind x hx.2, h.kind x hx.1]
  tf x hx := by rw [List.mem_append, not_or] at hx; rw [h'.tf x hx.2, h.tf x hx.1]
  item id x hx := h'.item id x (h.item id x hx)
  parent x hx := by rw [List.mem_append, not_or] at hx; rw [h'.parent x hx.2, h.parent x hx.1]
  frame x hx := by rw [List.mem_append, not_or] at hx; rw [h'.frame x hx.2, h.frame x hx.1]
  ltree := h'.ltree.trans h.ltree
  opIn := h'.opIn.trans h.opIn
  opOut := h'.opOut.trans h.opOut

theorem Kept.refl {T : Type} (s : Env) (tf : Obj → T) : Kept s s tf tf [] :=
  ⟨by simp, rfl, fun _ _ => rfl, fun _ _ => rfl, fun _ _ => rfl, fun _ _ => rfl, fun _ _ h => h, fun _ _ => rfl, fun _ _ => rfl, rfl, rfl, rfl⟩

theorem Chain.kept {T : Type} {s s' : Env} {tf tf' : Obj → T} {A : List Obj} (h : Kept s s' tf tf' A) {r f : Obj} {l : List Obj} (hl : Chain s r f l) (hA : ∀ x ∈ l, x ∉ A) : Chain s' r f l := by
  induction hl with
  | done => exact .done
  | up h1 h2 h3 ih =>
    exact .up h1 (by rw [h.parent _ (hA _ (List.mem_cons_self ..))]; exact h2) (ih fun x hx => hA x (List.mem_cons_of_mem _ hx))

theorem Chain.congr {s s' : Env} (h : s'.ftree = s.ftree) {r f : Obj} {l : List Obj} (hl : Chain s r f l) : Chain s' r f l := by
  induction hl with
  | done => exact .done
  | up h1 h2 _ ih => exact .up h1 (by unfold getParent at *; rw [h]; exact h2) ih

/-! ## the loop -/

theorem build_ok {T : Type} (pairs : List (Obj × Obj)) : ∀ (s : Env) (tf : Obj → T) (p r : Obj) (l : List Obj), WF s → Closed s → s.owner p = .here → s.kind p = .frame → s.owner r = .here →
    (pairs.map (·.2)).Nodup → (∀ e ∈ pairs, s.owner e.2 = .dead) → (∀ e ∈ pairs, e.1 ∉ pairs.map (·.2)) → Chain s r p l → (∀ x ∈ l, s.owner x = .here) →
    ∃ s' tf', build s tf p pairs = .ok (s', tf') ∧ WF s' ∧ Closed s' ∧ Kept s s' tf tf' (pairs.map (·.2)) ∧ Chain s' r (last p pairs) ((pairs.map (·.2)).reverse ++ l) ∧
      (∀ e ∈ pairs, tf' e.2 = tf e.1) ∧ s'.owner (last p pairs) = .here ∧ s'.kind (last p pairs) = .frame ∧ s'.cmap = s.cmap := by
  induction pairs with
  | nil =>
    intro s tf p r l hw hc hp hk _ _ _ _ hl _
    exact ⟨s, tf, rfl, hw, hc, Kept.refl s tf, hl, by simp, hp, hk, rfl⟩
  | cons e pairs ih =>
    obtain ⟨o, a⟩ := e
    intro s tf p r l hw hc hp hk hr hn hd ho hl hh
    rw [List.map_cons, List.nodup_cons] at hn
    have ha : s.owner a = .dead := hd (o, a) (List.mem_cons_self ..)
    obtain ⟨s1, e1, w1, c1, k1, p1, kd1, cm1⟩ := add_fresh hw hc hp hk ha tf (tf o)
    have hra : r ≠ a := by rintro rfl; rw [hr] at ha; cases ha
    have hne : ∀ e ∈ pairs, e.2 ≠ a := fun e he h => hn.1 (List.mem_map.2 ⟨e, he, h⟩)
    have hone : ∀ x, s.owner x = .here → x ∉ [a] := by
      intro x hx hm
      rw [List.mem_singleton.1 hm, ha] at hx
      cases hx
    obtain ⟨s2, tf2, e2, w2, c2, k2, ch2, t2, o2, kd2, cm2⟩ := ih s1 (upd tf a (tf o)) a r (a :: l) w1 c1 (k1.fresh a (List.mem_singleton.2 rfl)).2 kd1
      (by rw [k1.owner r (hone r hr)]; exact hr) hn.2
      (fun e he => by rw [k1.owner e.2 (fun h => hne e he (List.mem_singleton.1 h))]; exact hd e (List.mem_cons_of_mem _ he))
      (fun e he h => ho e (List.mem_cons_of_mem _ he) (List.mem_cons_of_mem _ h))
      (.up (Ne.symm hra) p1 (hl.kept k1 (fun x hx => hone x (hh x hx))))
      (fun x hx => by
        rcases List.mem_cons.1 hx with rfl | hx
        · exact (k1.fresh x (List.mem_singleton.2 rfl)).2
        · rw [k1.owner x (hone x (hh x hx))]; exact hh x hx)
    refine ⟨s2, tf2, ?_, w2, c2, k1.trans k2, ?_, ?_, o2, kd2, cm2.trans cm1⟩
    · rw [build, e1]
      exact e2
    · rw [List.map_cons, List.reverse_cons, List.append_assoc]
      exact ch2
    · intro e he
      rcases List.mem_cons.1 he with rfl | he
      · rw [k2.tf a (by exact hn.1)]
        exact upd_self _ _ _
      · rw [t2 e he]
        refine upd_ne _ _ ?_
        intro h
        exact ho e (List.mem_cons_of_mem _ he) (by rw [h]; exact List.mem_cons_self ..)

/-- the last step -/
theorem set_frame {T : Type} {s : Env} (hw : WF s) {m f q : Obj} (hm : s.owner m = .here) (hf : s.owner f = .here) (hq : s.getFrameNode m = some q) (hqh : s.owner q = .here) (tf : Obj → T) :
    ∃ s', s.setFrameNode m f = .ok s' ∧ s'.getFrameNode m = some f ∧ s'.owner = s.owner ∧ s'.uid = s.uid ∧ s'.kind = s.kind ∧ s'.items = s.items ∧ s'.ftree = s.ftree ∧ s'.ltree = s.ltree ∧
      s'.opIn = s.opIn ∧ s'.opOut = s.opOut ∧ s'.rootNode = s.rootNode ∧ ∀ x, x ≠ m → s'.getFrameNode x = s.getFrameNode x := by
  have e0 : s.setFrameNode m f = s.linkFrame m f := by
    unfold setFrameNode ensureAttached
    rw [hf]
    show (s.ensureMapAttached m).bind _ = _
    unfold ensureMapAttached
    rw [hm]
    rfl
  rw [e0]
  unfold linkFrame
  by_cases h : s.getFrameNode m = some f
  · rw [if_pos h]
    exact ⟨s, rfl, h, rfl, rfl, rfl, rfl, rfl, rfl, rfl, rfl, rfl, fun _ _ => rfl⟩
  rw [if_neg h]
  unfold dropFrame
  rw [hq]
  dsimp only
  unfold detachFrame
  rw [if_pos hq, emit_here hm hqh]
  simp only [Res.bind]
  rw [emit_here (by exact hm) (by exact hf)]
  refine ⟨_, rfl, ?_, rfl, rfl, rfl, rfl, rfl, rfl, rfl, rfl, rfl, ?_⟩
  · exact look_ins_self (nodup_keys_sublist (eraseKey_sublist _ _) hw.cmap_nodup) (not_mem_keys_eraseKey _ _)
  · intro x hx
    show look x (ins m f (eraseKey m s.cmap)) = _
    rw [look_ins_ne hx, look_eraseKey_ne hx]
    rfl

/-! ## C102 -/

/-- C102. Full claim: cloneTo puts a copy of an attached map into the given environment (possibly its own) such that the frames of the copy up to the root node have the transforms of those of the map; nothing
that was there before changes.
Proved for every map with a frame below the root node, in particular then all frame transforms up to the root are the same.
Missing: maps without a frame (`C102_no_frame`) or with a frame that is not below the root node (`C102_outside`): undefined behaviour. -/
theorem C102_clone_partial {T : Type} {r : Obj} {t : Env} (ht : Reach Good r t) (hroot : rootOk t) (source : Option Env) (tf : Obj → T) (m f copy : Obj) (new : Nat → Obj) (l : List Obj)
    (hcopy : t.owner copy = .dead) (hnew : ∀ i, t.owner (new i) = .dead) (hinj : Function.Injective new) (hne : ∀ i, new i ≠ copy)
    (hm : (source.getD t).getFrameNode m = some f) (hl : Chain (source.getD t) (source.getD t).rootNode f l)
    (hold : ∀ x ∈ l, ∀ i, new i ≠ x) :
    ∃ t' tf' f', cloneTo source t tf m copy new = .ok (t', tf') ∧ Kept t t' tf tf' (copy :: (List.range l.length).map new) ∧ t'.getFrameNode copy = some f' ∧
      ∃ l', Chain t' t'.rootNode f' l' ∧ l'.map tf' = l.map tf := by
  obtain ⟨hw, hc⟩ := ht.wf_closed
  obtain ⟨t1, e1, w1, c1, k1, f1, kd1, ft1⟩ := attach_fresh hw hc hroot hcopy tf
  -- the frames of the map, before and after the copy has been attached
  have hs : stack (source.getD t1) ((source.getD t1).ftree.length + 2) ((source.getD t1).getFrameNode m) = .ok l := by
    cases source with
    | some s =>
      simp only [Option.getD_some] at hm hl ⊢
      rw [hm]
      exact stack_chain hl _ (Nat.lt_succ_of_le (Nat.le_succ_of_le hl.length))
    | none =>
      simp only [Option.getD_none] at hm hl ⊢
      have hmc : m ≠ copy := by
        rintro rfl
        rw [dead_not_framed hc hcopy] at hm; cases hm
      rw [k1.frame m (by simpa using hmc), hm]
      have hl1 : Chain t1 t1.rootNode f l := by
        rw [k1.root]
        refine hl.kept k1 (fun x hx h => ?_)
        rw [List.mem_singleton.1 h] at hx
        obtain ⟨p, hp⟩ := look_isSome_iff.2 (hl.keys _ hx)
        have : t.getParent copy = some p := hp
        rw [dead_not_parent hc hcopy] at this; cases this
      exact stack_chain hl1 _ (Nat.lt_succ_of_le (Nat.le_succ_of_le hl1.length))
  set pairs := l.reverse.zip ((List.range l.length).map new) with hpairs
  have hp2 : pairs.map (·.2) = (List.range l.length).map new := by
    rw [hpairs]
    exact List.map_snd_zip (by simp)
  have hp1 : pairs.map (·.1) = l.reverse := by
    rw [hpairs]
    exact List.map_fst_zip (by simp)
  have hr1 : t1.owner t1.rootNode = .here := by
    rw [k1.root, k1.owner _ (by
      intro h
      have := hroot.1
      rw [List.mem_singleton.1 h, hcopy] at this; cases this)]
    exact hroot.1
  have hrk : t1.kind t1.rootNode = .frame := by
    rw [k1.root, k1.kind _ (by
      intro h
      have := hroot.1
      rw [List.mem_singleton.1 h, hcopy] at this; cases this)]
    exact hroot.2
  obtain ⟨t2, tf2, e2, w2, c2, k2, ch2, tr2, o2, kd2, cm2⟩ := build_ok pairs t1 tf t1.rootNode t1.rootNode [] w1 c1 hr1 hrk hr1
    (by rw [hp2]; exact List.nodup_range.map hinj)
    (by
      intro e he
      have : e.2 ∈ pairs.map (·.2) := List.mem_map_of_mem he
      rw [hp2] at this
      obtain ⟨i, _, hi⟩ := List.mem_map.1 this
      rw [← hi, k1.owner _ (by simpa using hne i)]
      exact hnew i)
    (by
      intro e he h
      have h1 : e.1 ∈ pairs.map (·.1) := List.mem_map_of_mem he
      rw [hp1, List.mem_reverse] at h1
      rw [hp2] at h
      obtain ⟨i, _, hi⟩ := List.mem_map.1 h
      exact hold _ h1 i hi)
    .done (by simp)
  rw [hp2] at k2 ch2
  have hcn : copy ∉ (List.range l.length).map new := by
    intro h
    obtain ⟨i, _, hi⟩ := List.mem_map.1 h
    exact hne i hi
  have hrn : t1.rootNode ∉ (List.range l.length).map new := by
    intro h
    obtain ⟨i, _, hi⟩ := List.mem_map.1 h
    have := (k2.fresh _ h).1
    rw [hr1] at this; cases this
  have ho2 : t2.owner copy = .here := by
    rw [k2.owner copy hcn]
    exact (k1.fresh copy (List.mem_singleton.2 rfl)).2
  have hf2 : t2.getFrameNode copy = some t.rootNode := by rw [k2.frame copy hcn]; exact f1
  have hro2 : t2.owner t.rootNode = .here := by
    rw [← k1.root, k2.owner _ hrn]
    exact hr1
  obtain ⟨t3, e3, f3, s1, s2, s3, s4, s5, s6, s7, s8, s9, s10⟩ := set_frame (T := T) w2 ho2 o2 hf2 hro2 tf
  have k3 := k1.trans k2
  rw [List.singleton_append] at k3
  refine ⟨t3, tf2, last t1.rootNode pairs, ?_, ⟨?_, ?_, ?_, ?_, ?_, k3.tf, ?_, ?_, ?_, ?_, ?_, ?_⟩, f3, ?_⟩
  · unfold cloneTo
    rw [e1]
    dsimp only
    rw [hs]
    dsimp only
    rw [← hpairs, e2]
    dsimp only
    rw [e3]
  · intro a ha; rw [s1]; exact k3.fresh a ha
  · rw [s9]; exact k3.root
  · intro x hx; rw [s1]; exact k3.owner x hx
  · intro x hx; rw [s2]; exact k3.uid x hx
  · intro x hx; rw [s3]; exact k3.kind x hx
  · intro id x hx
    have := k3.item id x hx
    unfold getItem at *
    rw [s4]; exact this
  · intro x hx
    have := k3.parent x hx
    unfold getParent at *
    rw [s5]; exact this
  · intro x hx
    rw [s10 x (fun h => hx (by rw [h]; exact List.mem_cons_self ..))]
    exact k3.frame x hx
  · rw [s6]; exact k3.ltree
  · rw [s7]; exact k3.opIn
  · rw [s8]; exact k3.opOut
  · rw [List.append_nil] at ch2
    refine ⟨((List.range l.length).map new).reverse, ?_, ?_⟩
    · rw [s9, k2.root]
      exact ch2.congr s5
    · have : (pairs.map (·.2)).map tf2 = (pairs.map (·.1)).map tf := by
        rw [List.map_map, List.map_map]
        exact List.map_congr_left tr2
      rw [hp2, hp1] at this
      rw [List.map_reverse, this, ← List.map_reverse, List.reverse_reverse]

theorem Chain.toRoot {T : Type} {s : Env} {r f : Obj} {l : List Obj} (h : Chain s r f l) (hr : s.getParent r = none) (m : TOps T) (tf : Obj → T) :
    ∀ fuel acc, l.length < fuel → s.toRoot m tf fuel acc f = some ((l.map tf).foldl (fun a x => m.mul x a) acc, r) := by
  induction h with
  | done =>
    intro fuel acc hf
    obtain ⟨n, rfl⟩ : ∃ n, fuel = n + 1 := ⟨fuel - 1, by simp at hf; omega⟩
    unfold Env.toRoot
    rw [hr]
    rfl
  | up h1 h2 h3 ih =>
    intro fuel acc hf
    obtain ⟨n, rfl⟩ : ∃ n, fuel = n + 1 := ⟨fuel - 1, by simp at hf; omega⟩
    unfold Env.toRoot
    rw [h2]
    dsimp only
    rw [ih n _ (by simp at hf; omega)]
    rfl

theorem Chain.nil_iff {s : Env} {r f : Obj} {l : List Obj} (h : Chain s r f l) : f = r ↔ l = [] := by
  cases h with
  | done => simp
  | up h1 => simp [h1]

/-- the pose relative to the root node depends on the transforms of the frames only -/
theorem Chain.pose {T : Type} {s s' : Env} {r r' f f' : Obj} {l l' : List Obj} (h : Chain s r f l) (h' : Chain s' r' f' l') (hr : s.getParent r = none) (hr' : s'.getParent r' = none) (m : TOps T)
    (tf tf' : Obj → T) (he : l'.map tf' = l.map tf) : s'.relativeTransform m tf' f' r' = s.relativeTransform m tf f r := by
  have hnil : f' = r' ↔ f = r := by
    rw [h.nil_iff, h'.nil_iff, ← List.length_eq_zero_iff, ← List.length_eq_zero_iff, ← List.length_map (f := tf'), he, List.length_map]
  unfold Env.relativeTransform
  by_cases hf : f = r
  · rw [if_pos hf, if_pos (hnil.2 hf)]
  · rw [if_neg hf, if_neg (fun h => hf (hnil.1 h)), h.toRoot hr m tf _ _ (Nat.lt_succ_of_le h.length), h'.toRoot hr' m tf' _ _ (Nat.lt_succ_of_le h'.length),
      (Chain.done (s := s)).toRoot hr m tf _ _ (Nat.succ_pos _), (Chain.done (s := s')).toRoot hr' m tf' _ _ (Nat.succ_pos _), he]
    simp

/-- C102, for the poses: if the root nodes have no parents then the pose of the copy relative to the root node, with or without uncertainty, is that of the map -/
theorem C102_pose_partial {T : Type} {r : Obj} {t : Env} (ht : Reach Good r t) (hroot : rootOk t) (source : Option Env) (ops : TOps T) (tf : Obj → T) (m f copy : Obj) (new : Nat → Obj) (l : List Obj)
    (hcopy : t.owner copy = .dead) (hnew : ∀ i, t.owner (new i) = .dead) (hinj : Function.Injective new) (hne : ∀ i, new i ≠ copy)
    (hm : (source.getD t).getFrameNode m = some f) (hl : Chain (source.getD t) (source.getD t).rootNode f l) (hold : ∀ x ∈ l, ∀ i, new i ≠ x)
    (hr : t.getParent t.rootNode = none) (hr' : (source.getD t).getParent (source.getD t).rootNode = none) :
    ∃ t' tf' f', cloneTo source t tf m copy new = .ok (t', tf') ∧ t'.getFrameNode copy = some f' ∧
      t'.relativeTransform ops tf' f' t'.rootNode = (source.getD t).relativeTransform ops tf f (source.getD t).rootNode := by
  obtain ⟨t', tf', f', e, k, hf, l', hl', he⟩ := C102_clone_partial ht hroot source tf m f copy new l hcopy hnew hinj hne hm hl hold
  refine ⟨t', tf', f', e, hf, hl.pose hl' hr' ?_ ops tf tf' he⟩
  rw [k.root, k.parent _ ?_]
  · exact hr
  · intro h
    have h1 := (k.fresh _ h).1
    rw [hroot.1] at h1
    cases h1

/-- two frames above a map -/
def cloneHistory : List Op :=
  [.alloc 1 .frame [] false 0 0, .alloc 2 .frame [] false 0 0, .alloc 3 .cmap [] false 0 0, .addChildF 0 1, .addChildF 1 2, .setFrame 3 2]

/-- the hypotheses can be met, with a chain of two frames: a copy within the environment -/
example : ((run (init 0) cloneHistory).map fun s => (s.getFrameNode 3, s.getParent 2, s.getParent 1, [s.owner 9, s.owner 10, s.owner 11])) =
    some (some 2, some 1, some 0, [.dead, .dead, .dead]) := by decide +kernel

example : ((run (init 0) cloneHistory).map fun s => match cloneTo none s (fun o => o) 3 9 (fun i => 10 + i) with
    | .ok (s', tf') => some ([s'.getFrameNode 9, s'.getParent 11, s'.getParent 10, s'.getFrameNode 3], [tf' 10, tf' 11])
    | _ => none) = some (some ([some 11, some 10, some 0, some 2], [1, 2])) := by decide +kernel

/-- and a copy to a fresh environment -/
example : ((run (init 0) cloneHistory).map fun s => match cloneTo (some s) (init 7) (fun o => o) 3 9 (fun i => 10 + i) with
    | .ok (s', tf') => some (s'.getFrameNode 9, s'.getParent 11, s'.getParent 10, tf' 10, tf' 11)
    | _ => none) = some (some (some 11, some 10, some 7, 1, 2)) := by decide +kernel

/-- C102 is violated: cloneTo of a map that has no frame dereferences NULL -/
theorem C102_no_frame {T : Type} {r : Obj} {t : Env} (ht : Reach Good r t) (hroot : rootOk t) (source : Option Env) (tf : Obj → T) (m copy : Obj) (new : Nat → Obj)
    (hcopy : t.owner copy = .dead) (hm : m ≠ copy) (hn : (source.getD t).getFrameNode m = none) :
    cloneTo source t tf m copy new = .fault .useAfterFree := by
  obtain ⟨hw, hc⟩ := ht.wf_closed
  obtain ⟨t1, e1, w1, c1, k1, f1, kd1, ft1⟩ := attach_fresh hw hc hroot hcopy tf
  have h1 : (source.getD t1).getFrameNode m = none := by
    cases source with
    | some s => exact hn
    | none => exact (k1.frame m (by simpa using hm)).trans hn
  unfold cloneTo
  rw [e1]
  dsimp only
  rw [h1]
  unfold stack
  rw [if_neg (by simp)]

/-- a map that has been attached as an item has no frame -/
example : ((run (init 0) [.alloc 3 .cmap [] false 0 0, .attach 3]).map fun s => (s.owner 3, s.getFrameNode 3)) = some (.here, none) := by decide +kernel

/-- C102 is violated: cloneTo of a map whose frame is not below the root node dereferences NULL -/
theorem C102_outside {T : Type} {r : Obj} {t : Env} (ht : Reach Good r t) (hroot : rootOk t) (source : Option Env) (tf : Obj → T) (m f copy : Obj) (new : Nat → Obj)
    (hcopy : t.owner copy = .dead) (hm : m ≠ copy) (hn : (source.getD t).getFrameNode m = some f) (hf : f ≠ (source.getD t).rootNode) (hp : (source.getD t).getParent f = none) :
    cloneTo source t tf m copy new = .fault .useAfterFree := by
  obtain ⟨hw, hc⟩ := ht.wf_closed
  obtain ⟨t1, e1, w1, c1, k1, f1, kd1, ft1⟩ := attach_fresh hw hc hroot hcopy tf
  have h1 : (source.getD t1).getFrameNode m = some f ∧ f ≠ (source.getD t1).rootNode ∧ (source.getD t1).getParent f = none := by
    cases source with
    | some s => exact ⟨hn, hf, hp⟩
    | none =>
      refine ⟨(k1.frame m (by simpa using hm)).trans hn, by simpa [k1.root] using hf, ?_⟩
      simp only [Option.getD_none, getParent] at hp ⊢
      rw [ft1]; exact hp
  obtain ⟨h1, h2, h3⟩ := h1
  unfold cloneTo
  rw [e1]
  dsimp only
  rw [h1]
  unfold stack
  rw [if_neg (by simpa using h2)]
  dsimp only
  rw [h3]
  unfold stack
  rw [if_neg (by simp)]

#print axioms C102_clone_partial
#print axioms C102_pose_partial
#print axioms C102_no_frame
#print axioms C102_outside

end Envire.Clone
