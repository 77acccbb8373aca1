import Verif.Maps.DeepModel
import Verif.Core.CloneProps
import Verif.Core.LinkProps

/-! C182: copies of MLSMaps. -/

namespace Envire.Deep

open Envire Envire.Env

/-! ## specification -/

/-- two states that differ at most in the links between layers -/
structure ButLinks (s s' : Env) : Prop where
  owner : s'.owner = s.owner
  uid : s'.uid = s.uid
  kind : s'.kind = s.kind
  items : s'.items = s.items
  root : s'.rootNode = s.rootNode
  ftree : s'.ftree = s.ftree
  cmap : s'.cmap = s.cmap
  opIn : s'.opIn = s.opIn
  opOut : s'.opOut = s.opOut

/-- nothing changes but the objects of `new`, which were not in use and are in the environment now; links between layers apart -/
structure Added (s s' : Env) (new : List Obj) : Prop where
  fresh : ∀ a ∈ new, s.owner a = .dead ∧ s'.owner a = .here
  root : s'.rootNode = s.rootNode
  owner : ∀ x, x ∉ new → s'.owner x = s.owner x
  uid : ∀ x, x ∉ new → s'.uid x = s.uid x
  kind : ∀ x, x ∉ new → s'.kind x = s.kind x
  item : ∀ id x, s.getItem id = some x → s'.getItem id = some x
  ftree : s'.ftree = s.ftree
  frame : ∀ x, x ∉ new → s'.getFrameNode x = s.getFrameNode x
  opIn : s'.opIn = s.opIn
  opOut : s'.opOut = s.opOut

/-! ## links -/

theorem ButLinks.refl (s : Env) : ButLinks s s := ⟨rfl, rfl, rfl, rfl, rfl, rfl, rfl, rfl, rfl⟩

theorem ButLinks.trans {s s' s'' : Env} (h : ButLinks s s') (h' : ButLinks s' s'') : ButLinks s s'' :=
  ⟨h'.owner.trans h.owner, h'.uid.trans h.uid, h'.kind.trans h.kind, h'.items.trans h.items, h'.root.trans h.root, h'.ftree.trans h.ftree, h'.cmap.trans h.cmap, h'.opIn.trans h.opIn, h'.opOut.trans h.opOut⟩

theorem add_link {s : Env} {p c : Obj} (hp : s.owner p = .here) (hc : s.owner c = .here) (hne : p ≠ c) (hn : c ∉ s.getLayerChildren p) :
    ∃ s', s.addChildL p c = .ok s' ∧ ButLinks s s' ∧ ∀ x y, (s'.getLayerChildren y).count x = (s.getLayerChildren y).count x + if x = c ∧ y = p then 1 else 0 := by
  have hh : (s.getLayerParents c).head? ≠ some p := by
    intro h
    have h1 : p ∈ s.getLayerParents c := List.mem_of_mem_head? h
    have h2 := List.count_pos_iff.2 h1
    rw [← (C11_layer_links_exact s p c).1 c p] at h2
    exact hn (List.count_pos_iff.1 h2)
  have hl : look c s.ltree ≠ some p := by
    rw [look_eq_head]
    exact hh
  have e : s.addChildL p c = .ok { s with ltree := ins c p s.ltree, log := s.log ++ [⟨.layerTree, .add, p, some c, s.uid p, s.uid c⟩] } := by
    unfold addChildL
    rw [if_neg hne, if_neg hl]
    unfold ensureAttached
    rw [hc]
    exact Clone.emit_here (s := { s with ltree := ins c p s.ltree }) hp hc
  refine ⟨_, e, ⟨rfl, rfl, rfl, rfl, rfl, rfl, rfl, rfl, rfl⟩, fun x y => ?_⟩
  rw [(C11_layer_links_exact s p c).2.1 _ e x y]
  by_cases h : x = c ∧ y = p
  · rw [if_pos h, if_pos ⟨h.1, h.2, hh⟩]
  · rw [if_neg h, if_neg (fun h' => h ⟨h'.1, h'.2.1⟩)]

theorem remove_link {s : Env} {p c : Obj} (hp : s.owner p = .here) (hc : s.owner c = .here) :
    ∃ s', s.removeChildL p c = .ok s' ∧ ButLinks s s' ∧ ∀ x y, (s'.getLayerChildren y).count x = (s.getLayerChildren y).count x - if x = c ∧ y = p then 1 else 0 := by
  have e : s.removeChildL p c = .ok { s with ltree := s.ltree.erase (c, p), log := s.log ++ [⟨.layerTree, .remove, p, some c, s.uid p, s.uid c⟩] } := by
    unfold removeChildL
    rw [Clone.emit_here hp hc]
    rfl
  exact ⟨_, e, ⟨rfl, rfl, rfl, rfl, rfl, rfl, rfl, rfl, rfl⟩, fun x y => (C11_layer_links_exact s p c).2.2.2 _ e x y⟩

theorem add_links {p : Obj} (gs : List Obj) : ∀ {s : Env}, s.owner p = .here → (∀ g ∈ gs, s.owner g = .here ∧ p ≠ g ∧ g ∉ s.getLayerChildren p) → gs.Nodup →
    ∃ s', foldRes (fun s g => s.addChildL p g) gs s = .ok s' ∧ ButLinks s s' ∧ ∀ x y, (s'.getLayerChildren y).count x = (s.getLayerChildren y).count x + if y = p then gs.count x else 0 := by
  induction gs with
  | nil => exact fun {s} _ _ _ => ⟨s, rfl, .refl s, fun x y => by simp⟩
  | cons g gs ih =>
    intro s hp hg hn
    obtain ⟨h1, h2, h3⟩ := hg g (List.mem_cons_self ..)
    obtain ⟨s1, e1, b1, c1⟩ := add_link hp h1 h2 h3
    rw [List.nodup_cons] at hn
    obtain ⟨s2, e2, b2, c2⟩ := ih (s := s1) (by rw [b1.owner]; exact hp) (fun x hx => by
      obtain ⟨a1, a2, a3⟩ := hg x (List.mem_cons_of_mem _ hx)
      refine ⟨by rw [b1.owner]; exact a1, a2, fun h => ?_⟩
      have := List.count_pos_iff.2 h
      rw [c1, List.count_eq_zero_of_not_mem a3, if_neg (fun e : x = g ∧ p = p => hn.1 (e.1 ▸ hx))] at this
      simp at this) hn.2
    refine ⟨s2, ?_, b1.trans b2, fun x y => ?_⟩
    · unfold foldRes
      rw [e1]
      exact e2
    · rw [c2, c1]
      by_cases hy : y = p
      · subst hy
        by_cases hx : x = g
        · subst hx; simp; omega
        · simp [hx, List.count_cons, Ne.symm hx]
      · simp [hy]

theorem remove_links {p : Obj} (gs : List Obj) : ∀ {s : Env}, s.owner p = .here → (∀ g ∈ gs, s.owner g = .here) →
    ∃ s', foldRes (fun s g => s.removeChildL p g) gs s = .ok s' ∧ ButLinks s s' ∧ ∀ x y, (s'.getLayerChildren y).count x = (s.getLayerChildren y).count x - if y = p then gs.count x else 0 := by
  induction gs with
  | nil => exact fun {s} _ _ => ⟨s, rfl, .refl s, fun x y => by simp⟩
  | cons g gs ih =>
    intro s hp hg
    obtain ⟨s1, e1, b1, c1⟩ := remove_link (c := g) hp (hg g (List.mem_cons_self ..))
    obtain ⟨s2, e2, b2, c2⟩ := ih (s := s1) (by rw [b1.owner]; exact hp) (fun x hx => by rw [b1.owner]; exact hg x (List.mem_cons_of_mem _ hx))
    refine ⟨s2, ?_, b1.trans b2, fun x y => ?_⟩
    · unfold foldRes
      rw [e1]
      exact e2
    · rw [c2, c1]
      by_cases hy : y = p
      · subst hy
        by_cases hx : x = g
        · subst hx; simp; omega
        · simp [hx, List.count_cons, Ne.symm hx]
      · simp [hy]

/-! ## new items -/

theorem fresh_eq {s : Env} {o : Obj} (h : s.owner o = .dead) (id : Uid) (b : Bool) : s.exec (.alloc o .cmap id b 0 0) = .ok (fresh s o id b) := by
  simp only [Env.exec]
  rw [if_pos h]
  rfl

theorem fresh_wf {s : Env} {o : Obj} (hw : WF s) (h : s.owner o = .dead) (id : Uid) (b : Bool) : WF (fresh s o id b) := by
  have := hw.exec (.alloc o .cmap id b 0 0) trivial
  rwa [fresh_eq h] at this

theorem fresh_closed {s : Env} {o : Obj} (hw : WF s) (hc : Closed s) (h : s.owner o = .dead) (id : Uid) (b : Bool) : Closed (fresh s o id b) := by
  have := hc.exec hw (.alloc o .cmap id b 0 0) trivial rfl
  rwa [fresh_eq h] at this

/-- a new map with an automatic id is attached at the root node -/
theorem attach_auto {s : Env} (hw : WF s) (hc : Closed s) {a : Obj} (hr : rootOk s) (ha : s.owner a = .free) (hk : s.kind a = .cmap) (hid : s.uid a = [] ∨ (s.uid a).getLast? = some '/') :
    ∃ s', s.attachMap a none = .ok s' ∧ WF s' ∧ Closed s' ∧ s'.owner a = .here ∧ s'.getFrameNode a = some s.rootNode ∧ s'.rootNode = s.rootNode ∧ s'.kind = s.kind ∧
      (∀ x, x ≠ a → s'.owner x = s.owner x ∧ s'.uid x = s.uid x ∧ s'.getFrameNode x = s.getFrameNode x) ∧ (∀ id x, s.getItem id = some x → s'.getItem id = some x) ∧
      s'.ftree = s.ftree ∧ s'.ltree = s.ltree ∧ s'.opIn = s.opIn ∧ s'.opOut = s.opOut := by
  have hpa : s.rootNode ≠ a := by rintro h; rw [← h, hr.1] at ha; cases ha
  have hpar : s.getFrameNode a = none := by
    cases hp : s.getFrameNode a with
    | none => rfl
    | some p =>
      have := (hc.cmap _ (look_some_mem hp)).1.1
      rw [ha] at this; cases this
  obtain ⟨n, s1, e1, _, _, _, _, _, i1, o1, u1, i2, r1⟩ := automatic_id_fresh hw ha hid
  have est : Static s s1 := by
    have := attachItem_eff s a
    rw [e1] at this
    exact this.1.stat
  have hroot : s1.rootNode = s.rootNode := est.rootNode
  have hp1 : s1.owner s.rootNode = .here := by rw [(u1 _ hpa).2]; exact hr.1
  have hf1 : s1.getFrameNode a = none := by unfold getFrameNode at *; rw [r1.cmap]; exact hpar
  have e : s.attachMap a none = .ok { s1 with cmap := ins a s.rootNode s1.cmap, log := s1.log ++ [⟨.frameNode, .add, a, some s.rootNode, s1.uid a, s1.uid s.rootNode⟩] } := by
    unfold Env.attachMap
    rw [e1]
    show (match s1.getFrameNode a with | some _ => Res.ok s1 | none => s1.setFrameAttached a s1.rootNode) = _
    rw [hf1, hroot]
    dsimp only
    unfold setFrameAttached ensureAttached
    rw [hp1]
    show s1.linkFrame a s.rootNode = _
    unfold linkFrame
    rw [hf1, if_neg (by simp)]
    unfold dropFrame
    rw [hf1]
    simp only [Res.bind]
    rw [Clone.emit_here (by exact o1) (by exact hp1)]
    simp only [hroot]
  have hwf := hw.exec (.attachMap a none) trivial
  have hcl := hc.exec hw (.attachMap a none) ⟨fun h => absurd (ha.symm.trans h) (by decide), hr⟩ (by
    simp only [Env.typed]
    rw [hk]; rfl)
  have ex : s.exec (.attachMap a none) = s.attachMap a none := rfl
  rw [ex, e] at hwf hcl
  have hmem : a ∉ s.cmap.map (·.1) := look_none_iff.1 hpar
  refine ⟨_, e, hwf, hcl, o1, ?_, est.rootNode, est.kind, fun x hx => ⟨(u1 x hx).2, (u1 x hx).1, ?_⟩, i2, r1.ftree, r1.ltree, r1.opIn, r1.opOut⟩
  · show look a (ins a s.rootNode s1.cmap) = _
    rw [r1.cmap]
    exact look_ins_self hw.cmap_nodup hmem
  · show look x (ins a s.rootNode s1.cmap) = _
    rw [look_ins_ne hx, r1.cmap]
    rfl

theorem attach_new {s : Env} (hw : WF s) (hc : Closed s) {a : Obj} (hr : rootOk s) (ha : s.owner a = .free) (hk : s.kind a = .cmap) (hid : (s.uid a).getLast? = some '/') :
    ∃ s', s.attachMap a none = .ok s' ∧ WF s' ∧ Closed s' ∧ s'.owner a = .here ∧ s'.getFrameNode a = some s.rootNode ∧ s'.rootNode = s.rootNode ∧ s'.kind = s.kind ∧
      (∀ x, x ≠ a → s'.owner x = s.owner x ∧ s'.uid x = s.uid x ∧ s'.getFrameNode x = s.getFrameNode x) ∧ (∀ id x, s.getItem id = some x → s'.getItem id = some x) ∧
      s'.ftree = s.ftree ∧ s'.ltree = s.ltree ∧ s'.opIn = s.opIn ∧ s'.opOut = s.opOut :=
  attach_auto hw hc hr ha hk (.inr hid)

/-! ## lists -/

theorem replace_perm {a b : Obj} : ∀ {l : List Obj}, a ∈ l → (replace a b l).Perm (b :: l.erase a)
  | [], h => absurd h (by simp)
  | g :: gs, h => by
    unfold replace
    by_cases e : g = a
    · rw [if_pos e, e, List.erase_cons_head]
    · rw [if_neg e, List.erase_cons_tail (by simpa using e)]
      exact ((replace_perm ((List.mem_cons.1 h).resolve_left (Ne.symm e))).cons g).trans (List.Perm.swap ..)

theorem replace_map {a b : Obj} : ∀ {l : List Obj}, l.Nodup → replace a b l = l.map fun g => if g = a then b else g
  | [], _ => rfl
  | g :: gs, h => by
    rw [List.nodup_cons] at h
    unfold replace
    by_cases e : g = a
    · rw [if_pos e, List.map_cons, if_pos e]
      congr 1
      symm
      conv_rhs => rw [← List.map_id gs]
      exact List.map_congr_left fun x hx => if_neg fun e' => h.1 (by rw [e, ← e']; exact hx)
    · rw [if_neg e, List.map_cons, if_neg e, replace_map h.2]

theorem last_slash (p : Uid) : (p ++ ['/']).getLast? = some '/' := by simp

/-! ## C182 -/

/-- **C182** (partial) cloneDeep of an attached map whose grids are attached and which has an active grid among them, with a frame: the result is attached, its members are the same grids but for the active one, which is a new item in
the frame of the active grid, and active in the copy; its children are these grids. All other items keep their ids, frames and children.
Missing: the copy is not in the frame of the map (C182_frame_deviation); maps without an active grid, or with one that was not added (C182_active_deviation). -/
theorem C182_clone_partial {r : Obj} {s : Env} (hs : Reach Good r s) (hroot : rootOk s) (m copy grid a f : Obj) (mm : Members) (hm : s.owner m = .here)
    (hg : ∀ g ∈ mm.grids, s.owner g = .here) (hn : mm.grids.Nodup) (ha : mm.active = some a) (hag : a ∈ mm.grids) (hf : s.getFrameNode a = some f)
    (hcopy : s.owner copy = .dead) (hgrid : s.owner grid = .dead) (hne : copy ≠ grid) :
    ∃ s', cloneDeep s m mm copy grid = .ok (s', ⟨mm.grids.map fun g => if g = a then grid else g, some grid⟩) ∧ Added s s' [copy, grid] ∧ s'.getFrameNode grid = some f ∧
      (s'.getLayerChildren copy).Perm (mm.grids.map fun g => if g = a then grid else g) ∧ (∀ y, y ≠ copy → (s'.getLayerChildren y).Perm (s.getLayerChildren y)) ∧
      s'.getFrameNode copy = some s.rootNode := by
  obtain ⟨hw, hc⟩ := hs.wf_closed
  have ff := (hc.cmap _ (look_some_mem hf)).1.2
  have fk := (hc.cmap _ (look_some_mem hf)).2.2
  have ne : ∀ x, s.owner x = .here → x ≠ copy ∧ x ≠ grid := by
    intro x hx
    refine ⟨?_, ?_⟩ <;> rintro rfl <;> simp_all
  obtain ⟨mc, mg⟩ := ne m hm
  obtain ⟨ac, ag⟩ := ne a (hg a hag)
  obtain ⟨fc, fg⟩ := ne f ff
  obtain ⟨rc, rg⟩ := ne _ hroot.1
  have hchild : ∀ y, y ∉ s.getLayerChildren copy := by
    intro y hy
    unfold getLayerChildren at hy
    obtain ⟨e, he, _⟩ := List.mem_map.1 hy
    obtain ⟨h1, h2⟩ := List.mem_filter.1 he
    have := (hc.ltree _ h1).1.2
    rw [of_decide_eq_true h2, hcopy] at this
    cases this
  set id := idPrefix (s.uid m) ++ ['/'] with hid
  have w0 := fresh_wf (fresh_wf hw hcopy id false) (o := grid) (by show upd s.owner copy .free grid = _; rw [upd_ne _ _ hne.symm]; exact hgrid) id true
  have c0 := fresh_closed (fresh_wf hw hcopy id false) (fresh_closed hw hc hcopy id false) (o := grid) (by show upd s.owner copy .free grid = _; rw [upd_ne _ _ hne.symm]; exact hgrid) id true
  have own0 : ∀ x, x ≠ copy → x ≠ grid → (fresh (fresh s copy id false) grid id true).owner x = s.owner x := fun x h1 h2 => by
    show upd (upd s.owner copy .free) grid .free x = _; rw [upd_ne _ _ h2, upd_ne _ _ h1]
  have uid0 : ∀ x, x ≠ copy → x ≠ grid → (fresh (fresh s copy id false) grid id true).uid x = s.uid x := fun x h1 h2 => by
    show upd (upd s.uid copy id) grid id x = _; rw [upd_ne _ _ h2, upd_ne _ _ h1]
  have kind0 : ∀ x, x ≠ copy → x ≠ grid → (fresh (fresh s copy id false) grid id true).kind x = s.kind x := fun x h1 h2 => by
    show upd (upd s.kind copy .cmap) grid .cmap x = _; rw [upd_ne _ _ h2, upd_ne _ _ h1]
  have cf0 : (fresh (fresh s copy id false) grid id true).owner copy = .free := by
    show upd (upd s.owner copy .free) grid .free copy = _; rw [upd_ne _ _ hne, upd_self]
  have ck0 : (fresh (fresh s copy id false) grid id true).kind copy = .cmap := by
    show upd (upd s.kind copy .cmap) grid .cmap copy = _; rw [upd_ne _ _ hne, upd_self]
  have cu0 : (fresh (fresh s copy id false) grid id true).uid copy = id := by
    show upd (upd s.uid copy id) grid id copy = _; rw [upd_ne _ _ hne, upd_self]
  have gf0 : (fresh (fresh s copy id false) grid id true).owner grid = .free := upd_self _ _ _
  have gk0 : (fresh (fresh s copy id false) grid id true).kind grid = .cmap := upd_self _ _ _
  have gu0 : (fresh (fresh s copy id false) grid id true).uid grid = id := upd_self _ _ _
  have ho0 : (fresh s copy id false).owner m = .here := by show upd s.owner copy .free m = _; rw [upd_ne _ _ mc]; exact hm
  have item0 : (fresh (fresh s copy id false) grid id true).items = s.items := rfl
  have root0 : (fresh (fresh s copy id false) grid id true).rootNode = s.rootNode := rfl
  have ftree0 : (fresh (fresh s copy id false) grid id true).ftree = s.ftree := rfl
  have ltree0 : (fresh (fresh s copy id false) grid id true).ltree = s.ltree := rfl
  have cmap0 : (fresh (fresh s copy id false) grid id true).cmap = s.cmap := rfl
  have opIn0 : (fresh (fresh s copy id false) grid id true).opIn = s.opIn := rfl
  have opOut0 : (fresh (fresh s copy id false) grid id true).opOut = s.opOut := rfl
  unfold cloneDeep
  dsimp only
  rw [← hid, if_neg (by rw [ho0]; simp), ha]
  dsimp only
  rw [if_neg (by simpa using hag)]
  generalize fresh (fresh s copy id false) grid id true = s0 at *
  have hf0 : s0.getFrameNode a = some f := by unfold getFrameNode at *; rw [cmap0]; exact hf
  rw [if_neg (by rw [own0 a ac ag, hg a hag]; simp), hf0]
  dsimp only
  have hr0 : rootOk s0 := ⟨by rw [root0, own0 _ rc rg]; exact hroot.1, by rw [root0, kind0 _ rc rg]; exact hroot.2⟩
  -- the grid
  obtain ⟨s1, e1, w1, c1, o1, f1, r1, k1, x1, i1, ft1, lt1, oi1, oo1⟩ := attach_new w0 c0 hr0 gf0 gk0 (by rw [gu0]; exact last_slash _)
  have hf1 : s1.owner f = .here := by rw [(x1 f fg).1, own0 f fc fg]; exact ff
  have hrt1 : s1.owner s0.rootNode = .here := by rw [root0, (x1 _ rg).1, own0 _ rc rg]; exact hroot.1
  have e1' : s0.setFrameNode grid f = s1.setFrameNode grid f := by
    unfold setFrameNode ensureAttached
    rw [own0 f fc fg, ff, hf1]
    show (s0.ensureMapAttached grid).bind _ = (s1.ensureMapAttached grid).bind _
    unfold ensureMapAttached
    rw [gf0, o1]
    dsimp only
    rw [e1]
  obtain ⟨s2, e2, f2, o2, u2, k2, i2, ft2, lt2, oi2, oo2, r2, x2⟩ := Clone.set_frame (T := Unit) w1 o1 hf1 f1 hrt1 (fun _ => ())
  have w2 : WF s2 := by
    have := w1.exec (.setFrame grid f) trivial
    have ex : s1.exec (.setFrame grid f) = s1.setFrameNode grid f := rfl
    rw [ex, e2] at this
    exact this
  have c2 : Closed s2 := by
    have := c1.exec w1 (.setFrame grid f) ⟨by rw [o1]; decide, by rw [hf1]; decide, fun h => absurd (o1.symm.trans h) (by decide)⟩ (by
      simp only [Env.typed]
      rw [k1, gk0, kind0 f fc fg, fk]; rfl)
    have ex : s1.exec (.setFrame grid f) = s1.setFrameNode grid f := rfl
    rw [ex, e2] at this
    exact this
  have hr2 : rootOk s2 := ⟨by rw [r2, o2, r1]; exact hrt1, by rw [r2, k2, k1, r1]; exact hr0.2⟩
  -- the map
  obtain ⟨s3, e3, w3, c3, o3, f3, r3, k3, x3, i3, ft3, lt3, oi3, oo3⟩ := attach_new w2 c2 hr2 (a := copy) (by rw [o2, (x1 copy hne).1]; exact cf0) (by rw [k2, k1]; exact ck0)
    (by rw [u2, (x1 copy hne).2.1, cu0]; exact last_slash _)
  have lt : s3.ltree = s.ltree := by rw [lt3, lt2, lt1, ltree0]
  have ch3 : ∀ y, s3.getLayerChildren y = s.getLayerChildren y := fun y => by unfold getLayerChildren; rw [lt]
  have own3 : ∀ x, x ≠ copy → x ≠ grid → s3.owner x = s.owner x := fun x h1 h2 => by rw [(x3 x h1).1, o2, (x1 x h2).1, own0 x h1 h2]
  have gh : s3.owner grid = .here := by rw [(x3 grid hne.symm).1, o2]; exact o1
  have hrep : ∀ g ∈ replace a grid mm.grids, g = grid ∨ g ∈ mm.grids := fun g h => by
    rcases List.mem_cons.1 ((replace_perm hag).subset h) with h | h
    · exact .inl h
    · exact .inr (List.mem_of_mem_erase h)
  -- the links
  obtain ⟨s4, e4, b4, l4⟩ := add_links (replace a grid mm.grids) o3 (fun g h => by
      rw [ch3]
      rcases hrep g h with rfl | h
      · exact ⟨gh, hne, hchild _⟩
      · obtain ⟨h1, h2⟩ := ne g (hg g h)
        exact ⟨by rw [own3 g h1 h2]; exact hg g h, h1.symm, hchild _⟩)
    ((replace_perm hag).nodup_iff.2 (List.nodup_cons.2 ⟨fun h => (ne _ (hg _ (List.mem_of_mem_erase h))).2 rfl, hn.erase _⟩))
  rw [e1', e2]
  simp only [Res.bind]
  rw [e3]
  simp only [Res.bind]
  rw [e4, ← replace_map hn]
  dsimp only
  have hne2 : ∀ x, x ∉ [copy, grid] → x ≠ copy ∧ x ≠ grid := fun x h => by simpa using h
  refine ⟨s4, rfl, ⟨?_, ?_, ?_, ?_, ?_, ?_, ?_, ?_, ?_, ?_⟩, ?_, ?_, ?_, ?_⟩
  · intro x hx
    rw [b4.owner]
    rcases List.mem_cons.1 hx with rfl | hx
    · exact ⟨hcopy, o3⟩
    · rw [List.mem_singleton.1 hx]; exact ⟨hgrid, gh⟩
  · rw [b4.root, r3, r2, r1, root0]
  · intro x hx
    rw [b4.owner, own3 x (hne2 x hx).1 (hne2 x hx).2]
  · intro x hx
    rw [b4.uid, (x3 x (hne2 x hx).1).2.1, u2, (x1 x (hne2 x hx).2).2.1, uid0 x (hne2 x hx).1 (hne2 x hx).2]
  · intro x hx
    rw [b4.kind, k3, k2, k1, kind0 x (hne2 x hx).1 (hne2 x hx).2]
  · intro id x hx
    have h1 := i1 id x (by unfold getItem at *; rw [item0]; exact hx)
    have h3 := i3 id x (by unfold getItem at *; rw [i2]; exact h1)
    unfold getItem at *
    rw [b4.items]; exact h3
  · rw [b4.ftree, ft3, ft2, ft1, ftree0]
  · intro x hx
    have : s4.getFrameNode x = s3.getFrameNode x := by unfold getFrameNode; rw [b4.cmap]
    rw [this, (x3 x (hne2 x hx).1).2.2, x2 x (hne2 x hx).2, (x1 x (hne2 x hx).2).2.2]
    unfold getFrameNode; rw [cmap0]
  · rw [b4.opIn, oi3, oi2, oi1, opIn0]
  · rw [b4.opOut, oo3, oo2, oo1, opOut0]
  · have : s4.getFrameNode grid = s3.getFrameNode grid := by unfold getFrameNode; rw [b4.cmap]
    rw [this, (x3 grid hne.symm).2.2, f2]
  · refine List.perm_iff_count.2 fun x => ?_
    rw [l4, if_pos rfl, ch3, List.count_eq_zero_of_not_mem (hchild x), Nat.zero_add]
  · intro y hy
    refine List.perm_iff_count.2 fun x => ?_
    rw [l4, if_neg hy, ch3, Nat.add_zero]
  · have : s4.getFrameNode copy = s3.getFrameNode copy := by unfold getFrameNode; rw [b4.cmap]
    rw [this, f3, r2, r1, root0]

/-- Violation: the copy is at the root node, whatever the frame of the map is; the map and its copy are at different places if the frame of the map is another. -/
theorem C182_frame_deviation {r : Obj} {s : Env} (hs : Reach Good r s) (hroot : rootOk s) (m copy grid a f : Obj) (mm : Members) (hm : s.owner m = .here)
    (hg : ∀ g ∈ mm.grids, s.owner g = .here) (hn : mm.grids.Nodup) (ha : mm.active = some a) (hag : a ∈ mm.grids) (hf : s.getFrameNode a = some f)
    (hcopy : s.owner copy = .dead) (hgrid : s.owner grid = .dead) (hne : copy ≠ grid) (hfm : s.getFrameNode m ≠ some s.rootNode) :
    ∃ s' mm', cloneDeep s m mm copy grid = .ok (s', mm') ∧ s'.getFrameNode copy ≠ s'.getFrameNode m := by
  obtain ⟨s', e, h, _, _, _, h6⟩ := C182_clone_partial hs hroot m copy grid a f mm hm hg hn ha hag hf hcopy hgrid hne
  refine ⟨s', _, e, ?_⟩
  rw [h6, h.frame m (by
    intro h
    rcases List.mem_cons.1 h with rfl | h
    · rw [hm] at hcopy; cases hcopy
    · rw [List.mem_singleton.1 h, hgrid] at hm; cases hm)]
  exact hfm.symm

/-- Violation: cloneDeep of an attached map without an active grid, as a new one is, uses a null pointer; if the active grid is not one of the grids an assertion fails. -/
theorem C182_active_deviation (s : Env) (m copy grid : Obj) (mm : Members) (hm : s.owner m = .here) (hcopy : m ≠ copy) :
    (mm.active = none → cloneDeep s m mm copy grid = .fault .useAfterFree) ∧ (∀ a, mm.active = some a → a ∉ mm.grids → cloneDeep s m mm copy grid = .fault .assertion) := by
  have ho0 : (fresh s copy (idPrefix (s.uid m) ++ ['/']) false).owner m = .here := by show upd s.owner copy .free m = _; rw [upd_ne _ _ hcopy]; exact hm
  refine ⟨fun h => ?_, fun a h ha => ?_⟩ <;> unfold cloneDeep <;> dsimp only <;> rw [if_neg (by rw [ho0]; simp), h] <;> dsimp only
  rw [if_pos ha]

/-- **C182** (partial) Assigning a map to an attached one whose grids are attached: it has the members of the other, its children are exactly the grids of the other, each once, and nothing else changes.
Missing: grids of other environments (C182_foreign_deviation). -/
theorem C182_assign_partial {r : Obj} {s : Env} (hs : Reach Good r s) (m : Obj) (other : Members) (hm : s.owner m = .here) (hg : ∀ g ∈ other.grids, s.owner g = .here ∧ g ≠ m) (hn : other.grids.Nodup) :
    ∃ s', assign s m other = .ok (s', other) ∧ ButLinks s s' ∧ (s'.getLayerChildren m).Perm other.grids ∧ ∀ y, y ≠ m → (s'.getLayerChildren y).Perm (s.getLayerChildren y) := by
  obtain ⟨hw, hc⟩ := hs.wf_closed
  obtain ⟨s1, e1, b1, l1⟩ := remove_links (s.getLayerChildren m) hm (fun g h => by
    unfold getLayerChildren at h
    obtain ⟨e, he, rfl⟩ := List.mem_map.1 h
    exact (hc.ltree _ (List.mem_filter.1 he).1).1.1)
  have h0 : ∀ x, (s1.getLayerChildren m).count x = 0 := fun x => by rw [l1, if_pos rfl, Nat.sub_self]
  obtain ⟨s2, e2, b2, l2⟩ := add_links other.grids (s := s1) (p := m) (by rw [b1.owner]; exact hm) (fun g h => ⟨by rw [b1.owner]; exact (hg g h).1, (hg g h).2.symm, List.count_eq_zero.1 (h0 g)⟩) hn
  refine ⟨s2, ?_, b1.trans b2, List.perm_iff_count.2 fun x => ?_, fun y hy => List.perm_iff_count.2 fun x => ?_⟩
  · unfold assign
    rw [if_neg (by rw [hm]; simp), e1]
    simp only [Res.bind]
    rw [e2]
  · rw [l2, if_pos rfl, h0, Nat.zero_add]
  · rw [l2, if_neg hy, l1, if_neg hy, Nat.add_zero, Nat.sub_zero]

/-- Violation: with a map of another environment the grids of that environment become children here, without being items of the environment. -/
theorem C182_foreign_deviation : ((run (init 0) [.alloc 1 .cmap [] true 0 0, .attachMap 1 none, .alloc 2 .cmap [] true 0 0, .extAttach 2 "/g".toList]).map fun s =>
    match assign s 1 ⟨[2], some 2⟩ with
    | .ok (s', _) => some (s'.getLayerChildren 1, s'.owner 2, s'.items.map (·.2))
    | _ => none) = some (some ([2], .elsewhere, [0, 1])) := by decide +kernel

/-- a map with two grids in the frame 1, as in the theorems above; the frame of the map is 1 -/
def exHistory : List Op := [.alloc 1 .frame [] false 0 0, .addChildF 0 1, .alloc 2 .cmap [] false 0 0, .setFrame 2 1, .alloc 3 .cmap [] true 0 0, .setFrame 3 1, .alloc 4 .cmap [] true 0 0, .setFrame 4 1,
  .addChildL 2 3, .addChildL 2 4]

example : ((run (init 0) exHistory).map fun s => match cloneDeep s 2 ⟨[3, 4], some 4⟩ 5 6 with
    | .ok (s', mm) => some ([mm.grids, s'.getLayerChildren 5, s'.getLayerChildren 2], [mm.active, s'.getFrameNode 6, s'.getFrameNode 5, s'.getFrameNode 2])
    | _ => none) = some (some ([[3, 6], [3, 6], [3, 4]], [some 6, some 1, some 0, some 1])) := by decide +kernel

example : ((run (init 0) exHistory).map fun s => match assign s 2 ⟨[4], some 4⟩ with
    | .ok (s', _) => some (s'.getLayerChildren 2)
    | _ => none) = some (some [4]) := by decide +kernel

#print axioms C182_clone_partial
#print axioms C182_frame_deviation
#print axioms C182_active_deviation
#print axioms C182_assign_partial
#print axioms C182_foreign_deviation

end Envire.Deep
