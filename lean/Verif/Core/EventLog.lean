import Verif.Core.Closed
import Verif.Core.LinkProps
/-! The events an Environment emits, seen by a handler that only looks at the events: `Pic` is what such a
handler can know, `Pic.apply` is how it follows the stream. Specification of C16, C20, C22. -/
namespace Envire
open Env

/-- the picture of an Environment a handler keeps: items by id, frame links (child, parent), layer links
(child, parent), map links (map, frame) -/
structure Pic where
  items : List (Uid × Obj)
  f : List (Obj × Obj)
  l : List (Obj × Obj)
  c : List (Obj × Obj)
  deriving DecidableEq, Repr

/-- the picture before the first event -/
def Pic.empty : Pic := ⟨[], [], [], []⟩

/-- what an event tells -/
def Pic.apply (A : Pic) (e : Ev) : Pic :=
  match e.ty, e.op, e.b with
  | .item, .add, none => { A with items := (e.ida, e.a) :: A.items }
  | .item, .remove, none => { A with items := A.items.erase (e.ida, e.a) }
  | .frameTree, .add, some b => { A with f := (b, e.a) :: A.f }
  | .frameTree, .remove, some b => { A with f := A.f.erase (b, e.a) }
  | .layerTree, .add, some b => { A with l := A.l ++ [(b, e.a)] }
  | .layerTree, .remove, some b => { A with l := A.l.erase (b, e.a) }
  | .frameNode, .add, some b => { A with c := (e.a, b) :: A.c }
  | .frameNode, .remove, some b => { A with c := A.c.erase (e.a, b) }
  | _, _, _ => A

/-- both ends of the event are known items -/
def Pic.knows (A : Pic) (e : Ev) (b : Obj) : Prop := (e.ida, e.a) ∈ A.items ∧ (e.idb, b) ∈ A.items

/-- no link of the picture joins `o` -/
def Pic.bare (A : Pic) (o : Obj) : Prop :=
  (∀ x ∈ A.f, x.1 ≠ o ∧ x.2 ≠ o) ∧ (∀ x ∈ A.l, x.1 ≠ o ∧ x.2 ≠ o) ∧ (∀ x ∈ A.c, x.1 ≠ o ∧ x.2 ≠ o)

/-- an event that makes sense in the picture: adds something that is not there, removes something that is
there, nothing is linked when it goes. `g`: both ends of links are known items; `d`: layer links are neither
added twice nor removed without being there -/
def Adm (g d : Prop) (A : Pic) (e : Ev) : Prop :=
  match e.ty, e.op, e.b with
  | .item, .add, none => e.ida ∉ A.items.map (·.1) ∧ e.a ∉ A.items.map (·.2) ∧ e.idb = [] ∧ goodId e.ida = true
  | .item, .remove, none => (e.ida, e.a) ∈ A.items ∧ A.bare e.a ∧ e.idb = []
  | .item, .update, none => (g → (e.ida, e.a) ∈ A.items) ∧ e.idb = []
  | .frameTree, .add, some b => b ∉ A.f.map (·.1) ∧ e.a ≠ b ∧ (g → A.knows e b)
  | .frameTree, .remove, some b => (b, e.a) ∈ A.f ∧ (g → A.knows e b)
  | .layerTree, .add, some b => look b A.l ≠ some e.a ∧ e.a ≠ b ∧ (g → A.knows e b) ∧ (d → (b, e.a) ∉ A.l)
  | .layerTree, .remove, some b => (g → A.knows e b) ∧ (d → (b, e.a) ∈ A.l)
  | .frameNode, .add, some b => e.a ∉ A.c.map (·.1) ∧ (g → A.knows e b)
  | .frameNode, .remove, some b => (e.a, b) ∈ A.c ∧ (g → A.knows e b)
  | _, _, _ => False

/-- every event of the stream makes sense when it arrives -/
def Adms (g d : Prop) : Pic → List Ev → Prop
  | _, [] => True
  | A, e :: es => Adm g d A e ∧ Adms g d (A.apply e) es

def Pic.follow (A : Pic) (es : List Ev) : Pic := es.foldl Pic.apply A

/-- the picture is right -/
structure Rep (s : Env) (A : Pic) : Prop where
  items : A.items.Perm s.items
  f : A.f.Perm s.ftree
  c : A.c.Perm s.cmap
  l : ∀ x, A.l.filter (fun e => decide (e.1 = x)) = s.ltree.filter (fun e => decide (e.1 = x))

theorem Adms.append {g d : Prop} {A : Pic} {es es' : List Ev} (h : Adms g d A es) (h' : Adms g d (A.follow es) es') :
    Adms g d A (es ++ es') := by
  induction es generalizing A with
  | nil => exact h'
  | cons e es ih => exact ⟨h.1, ih h.2 h'⟩

/-- from `s` to `s'` the log grows by events that make sense and keep a right picture right -/
def Ext (g d : Prop) (s s' : Env) : Prop :=
  ∀ A, Rep s A → ∃ es, s'.log = s.log ++ es ∧ Adms g d A es ∧ Rep s' (A.follow es)


theorem Ext.of_same {g d : Prop} {s s' : Env} (hl : s'.log = s.log) (hi : s'.items = s.items) (hf : s'.ftree = s.ftree)
    (hlt : s'.ltree = s.ltree) (hc : s'.cmap = s.cmap) : Ext g d s s' := by
  intro A hA
  exact ⟨[], by simp [hl], trivial, ⟨hi ▸ hA.items, hf ▸ hA.f, hc ▸ hA.c, hlt ▸ hA.l⟩⟩

theorem Ext.refl {g d : Prop} (s : Env) : Ext g d s s := Ext.of_same rfl rfl rfl rfl rfl

theorem Ext.trans {g d : Prop} {s s' s'' : Env} (h : Ext g d s s') (h' : Ext g d s' s'') : Ext g d s s'' := by
  intro A hA
  obtain ⟨e1, l1, a1, r1⟩ := h A hA
  obtain ⟨e2, l2, a2, r2⟩ := h' _ r1
  refine ⟨e1 ++ e2, by rw [l2, l1, List.append_assoc], a1.append a2, ?_⟩
  unfold Pic.follow at *
  rwa [List.foldl_append]

/-- one event -/
theorem Ext.one {g d : Prop} {s s' : Env} (e : Ev) (hl : s'.log = s.log ++ [e])
    (h : ∀ A, Rep s A → Adm g d A e ∧ Rep s' (A.apply e)) : Ext g d s s' :=
  fun A hA => ⟨[e], hl, ⟨(h A hA).1, trivial⟩, (h A hA).2⟩

theorem known {s : Env} (hw : WF s) {A : Pic} (hA : Rep s A) {o : Obj} (ho : s.owner o = .here) :
    (s.uid o, o) ∈ A.items := hA.items.mem_iff.2 ((hw.items_iff _ _).2 ⟨ho, rfl⟩)

theorem eraseKey_eq_erase {l : List (Obj × Obj)} (hn : (l.map (·.1)).Nodup) {k v : Obj} (h : (k, v) ∈ l) :
    eraseKey k l = l.erase (k, v) := by
  induction l with
  | nil => cases h
  | cons e t ih =>
    rw [List.map_cons, List.nodup_cons] at hn
    rcases List.mem_cons.1 h with rfl | h
    · rw [List.erase_cons_head]
      have := eraseKey_of_not_mem hn.1
      unfold eraseKey at *
      rw [List.filter_cons_of_neg (by simp), this]
    · have hne : e.1 ≠ k := by rintro rfl; exact hn.1 (List.mem_map.2 ⟨_, h, rfl⟩)
      rw [List.erase_cons_tail (by
        intro he
        exact hne (by rw [eq_of_beq he])), ← ih hn.2 h]
      unfold eraseKey
      rw [List.filter_cons_of_pos (by simpa using hne)]

theorem eraseKey_eq_erase_items {l : List (Uid × Obj)} (hn : (l.map (·.1)).Nodup) {k : Uid} {v : Obj} (h : (k, v) ∈ l) :
    eraseKey k l = l.erase (k, v) := by
  induction l with
  | nil => cases h
  | cons e t ih =>
    rw [List.map_cons, List.nodup_cons] at hn
    rcases List.mem_cons.1 h with rfl | h
    · rw [List.erase_cons_head]
      have := eraseKey_of_not_mem hn.1
      unfold eraseKey at *
      rw [List.filter_cons_of_neg (by simp), this]
    · have hne : e.1 ≠ k := by rintro rfl; exact hn.1 (List.mem_map.2 ⟨_, h, rfl⟩)
      rw [List.erase_cons_tail (by
        intro he
        exact hne (by rw [eq_of_beq he])), ← ih hn.2 h]
      unfold eraseKey
      rw [List.filter_cons_of_pos (by simpa using hne)]

theorem filter_erase_pair (q : Obj × Obj → Bool) (l : List (Obj × Obj)) (a : Obj × Obj) :
    (l.erase a).filter q = if q a then (l.filter q).erase a else l.filter q := by
  induction l with
  | nil => simp
  | cons e t ih =>
    by_cases he : e = a
    · subst he
      rw [List.erase_cons_head]
      cases hq : q e <;> simp [hq]
    · rw [List.erase_cons_tail (by simpa using he)]
      cases hq : q e with
      | true =>
        rw [List.filter_cons_of_pos hq, List.filter_cons_of_pos hq, ih]
        split
        · rw [List.erase_cons_tail (by simpa using he)]
        · rfl
      | false =>
        rw [List.filter_cons_of_neg (by simp [hq]), List.filter_cons_of_neg (by simp [hq]), ih]

theorem Rep.l_perm {s : Env} {A : Pic} (h : Rep s A) : A.l.Perm s.ltree := by
  rw [List.perm_iff_count]
  rintro ⟨c, p⟩
  rw [← count_vals, ← count_vals, h.l]

theorem Rep.look_l {s : Env} {A : Pic} (h : Rep s A) (k : Obj) : look k A.l = look k s.ltree := by
  rw [look_eq_head, look_eq_head, h.l]

/-! ### one lemma per primitive -/

theorem attachCore_ext {g d : Prop} (s : Env) (o : Obj) (hu : ∀ id, (id, o) ∈ s.items → s.uid o = id)
    (hgood : goodId (s.uid o) = true) :
    (s.attachCore o).All (Ext g d s) := by
  rw [attachCore_eq]
  split
  · exact Ext.refl s
  · rename_i hn
    refine Ext.one (mkEv s .item .add o none) rfl (fun A hA => ⟨⟨?_, ?_, rfl, hgood⟩, ?_⟩)
    · show s.uid o ∉ _
      rwa [(hA.items.map (·.1)).mem_iff]
    · show o ∉ _
      rw [(hA.items.map (·.2)).mem_iff]
      intro h
      obtain ⟨⟨i, x⟩, hx, rfl⟩ := List.mem_map.1 h
      exact hn (List.mem_map.2 ⟨(i, x), hx, (hu i hx).symm⟩)
    · exact ⟨(hA.items.cons _).trans (ins_perm _ _ _).symm, hA.f, hA.c, hA.l⟩

theorem attachItem_ext {g d : Prop} {s : Env} (hw : WF s) (o : Obj) : (s.attachItem o).All (Ext g d s) := by
  unfold attachItem
  split
  · trivial
  · rename_i ho
    refine (attachCore_ext (g := g) (d := d) (s.assignId o) o ?_ (assignId_goodId hw o)).mono (fun s' h => Ext.trans ?_ h)
    · rw [assignId_eq']
      intro id h
      exact absurd ((hw.items_iff _ _).1 h).1 (by rw [ho]; simp)
    · rw [assignId_eq']
      exact Ext.of_same rfl rfl rfl rfl rfl
  · rename_i ho
    exact attachCore_ext s o (fun id h => ((hw.items_iff _ _).1 h).2) (hw.good o (isAttached_iff.2 (Or.inl ho)))
  · rename_i ho
    split
    · exact (attachCore_ext (g := g) (d := d) { s with owner := upd s.owner o .free } o
        (fun id h => ((hw.items_iff _ _).1 h).2) (hw.good o (isAttached_iff.2 (Or.inr ho)))).mono
        (fun s' h => Ext.trans (s' := { s with owner := upd s.owner o .free }) (Ext.of_same rfl rfl rfl rfl rfl) h)
    · trivial

theorem ensureAttached_ext {g d : Prop} {s : Env} (hw : WF s) (o : Obj) : (s.ensureAttached o).All (Ext g d s) := by
  unfold ensureAttached
  split
  · trivial
  · exact attachItem_ext hw o
  · exact Ext.refl s

theorem removeChildF_ext {g d : Prop} {s : Env} (hw : WF s) (p c : Obj)
    (hg : g → (c, p) ∈ s.ftree → s.owner p = .here ∧ s.owner c = .here) : (s.removeChildF p c).All (Ext g d s) := by
  unfold removeChildF
  split
  · rename_i h
    have hm : (c, p) ∈ s.ftree := look_some_mem h
    apply emit_bind_all
    intro ow _
    refine Ext.one (mkEv s .frameTree .remove p (some c)) rfl (fun A hA => ⟨⟨?_, ?_⟩, ?_⟩)
    · exact hA.f.mem_iff.2 hm
    · exact fun hg' => ⟨known hw hA (hg hg' hm).1, known hw hA (hg hg' hm).2⟩
    · refine ⟨hA.items, ?_, hA.c, hA.l⟩
      show (A.f.erase (c, p)).Perm (eraseKey c s.ftree)
      rw [eraseKey_eq_erase hw.ftree_nodup hm]
      exact hA.f.erase _
  · exact Ext.refl s

theorem dropParent_ext {g d : Prop} {s : Env} (hw : WF s) (c : Obj)
    (hg : g → ∀ p, (c, p) ∈ s.ftree → s.owner p = .here ∧ s.owner c = .here) : (s.dropParent c).All (Ext g d s) := by
  unfold dropParent
  split
  · exact removeChildF_ext hw _ _ (fun h => hg h _)
  · exact Ext.refl s

/-- adding a link to a state where the child has no parent -/
theorem linkF_ext {g d : Prop} {s : Env} (hw : WF s) {p c : Obj} (hn : s.getParent c = none) (hpc : p ≠ c)
    (hg : g → s.owner p = .here ∧ s.owner c = .here) :
    (emit { s with ftree := ins c p s.ftree } .frameTree .add p (some c)).All (Ext g d s) := by
  apply emit_all
  intro ow _
  refine Ext.one (mkEv s .frameTree .add p (some c)) rfl (fun A hA => ⟨⟨?_, hpc, ?_⟩, ?_⟩)
  · rw [(hA.f.map (·.1)).mem_iff]; exact look_none_iff.1 hn
  · exact fun hg' => ⟨known hw hA (hg hg').1, known hw hA (hg hg').2⟩
  · exact ⟨hA.items, (hA.f.cons _).trans (ins_perm _ _ _).symm, hA.c, hA.l⟩

theorem addChildF_ext {g d : Prop} {s : Env} (hw : WF s) (p c : Obj)
    (hcl : g → Closed s) (hg : g → s.owner p = .here ∧ s.owner c ≠ .elsewhere) :
    (s.addChildF p c).All (Ext g d s) := by
  unfold addChildF
  split
  · trivial
  rename_i hpc
  split
  · exact Ext.refl s
  have h1 := ((hw.ensureAttached c).and (ensureAttached_ext (g := g) (d := d) hw c)).and
    ((ensureAttached_rel s c).and (Grow.ensureAttached hw c))
  have h1' : (s.ensureAttached c).Ok (fun s' => g → s'.owner c = .here) := by
    by_cases hgg : g
    · exact (ensureAttached_here (hg hgg).2).mono (fun _ h _ => h)
    · exact h1.toOk.mono (fun _ _ h => absurd h hgg)
  refine h1.bind2 h1' (fun s1 k1 k1' => ?_) (fun _ h => h.1.2)
  obtain ⟨⟨w1, e1⟩, r1, gr1⟩ := k1
  have hcl1 : g → Closed s1 := fun h => (hcl h).relSame gr1 r1
  have h2 := ((w1.dropParent c).and (dropParent_ext (g := g) (d := d) w1 c
    (fun h p' hp' => ⟨((hcl1 h).ftree _ hp').1.2, ((hcl1 h).ftree _ hp').1.1⟩))).and (Grow.dropParent s1 c)
  refine h2.bind2 (dropParent_none s1 c) (fun s2 k2 hn => ?_) (fun _ h => e1.trans h.1.2)
  obtain ⟨⟨w2, e2⟩, gr2⟩ := k2
  exact (linkF_ext (g := g) (d := d) w2 hn hpc (fun h => ⟨gr2.here _ (gr1.here _ (hg h).1), gr2.here _ (k1' h)⟩)).mono
    (fun s3 h3 => e1.trans (e2.trans h3))

theorem removeChildL_ext {g d : Prop} {s : Env} (hw : WF s) (p c : Obj)
    (hg : g → s.owner p = .here ∧ s.owner c = .here) (hd : d → (c, p) ∈ s.ltree) :
    (s.removeChildL p c).All (Ext g d s) := by
  unfold removeChildL
  apply emit_bind_all
  intro ow _
  refine Ext.one (mkEv s .layerTree .remove p (some c)) rfl (fun A hA => ⟨⟨?_, ?_⟩, ?_⟩)
  · exact fun hg' => ⟨known hw hA (hg hg').1, known hw hA (hg hg').2⟩
  · exact fun h => hA.l_perm.mem_iff.2 (hd h)
  · refine ⟨hA.items, hA.f, hA.c, fun x => ?_⟩
    show (A.l.erase (c, p)).filter _ = (s.ltree.erase (c, p)).filter _
    rw [filter_erase_pair, filter_erase_pair, hA.l]

theorem addChildL_ext {g d : Prop} {s : Env} (hw : WF s) (p c : Obj)
    (hg : g → s.owner p = .here ∧ s.owner c ≠ .elsewhere)
    (hd : d → look c s.ltree ≠ some p → (c, p) ∉ s.ltree) : (s.addChildL p c).All (Ext g d s) := by
  unfold addChildL
  split
  · trivial
  rename_i hpc
  split
  · exact Ext.refl s
  rename_i hlk
  have h1 := ((hw.ensureAttached c).and (ensureAttached_ext (g := g) (d := d) hw c)).and
    ((ensureAttached_rel s c).and (Grow.ensureAttached hw c))
  have h1' : (s.ensureAttached c).Ok (fun s' => g → s'.owner c = .here) := by
    by_cases hgg : g
    · exact (ensureAttached_here (hg hgg).2).mono (fun _ h _ => h)
    · exact h1.toOk.mono (fun _ _ h => absurd h hgg)
  refine h1.bind2 h1' (fun s1 k1 k1' => ?_) (fun _ h => h.1.2)
  obtain ⟨⟨w1, e1⟩, r1, gr1⟩ := k1
  apply emit_all
  intro ow _
  refine e1.trans (Ext.one (mkEv s1 .layerTree .add p (some c)) rfl (fun A hA => ⟨⟨?_, hpc, ?_, ?_⟩, ?_⟩))
  · rw [hA.look_l, r1.ltree]; exact hlk
  · exact fun h => ⟨known w1 hA (gr1.here _ (hg h).1), known w1 hA (k1' h)⟩
  · intro h hm
    rw [hA.l_perm.mem_iff, r1.ltree] at hm
    exact hd h hlk hm
  · refine ⟨hA.items, hA.f, hA.c, fun x => ?_⟩
    show (A.l ++ [(c, p)]).filter _ = (ins c p s1.ltree).filter _
    rw [List.filter_append, hA.l]
    by_cases hx : c = x
    · subst hx; rw [filter_key_ins_self w1.ltree_sorted]; simp
    · rw [filter_key_ins_ne hx]; simp [hx]

theorem detachFrame_ext {g d : Prop} {s : Env} (hw : WF s) (m f : Obj)
    (hg : g → (m, f) ∈ s.cmap → s.owner m = .here ∧ s.owner f = .here) : (s.detachFrame m f).All (Ext g d s) := by
  unfold detachFrame
  split
  · rename_i h
    have hm : (m, f) ∈ s.cmap := look_some_mem h
    apply emit_bind_all
    intro ow _
    refine Ext.one (mkEv s .frameNode .remove m (some f)) rfl (fun A hA => ⟨⟨?_, ?_⟩, ?_⟩)
    · exact hA.c.mem_iff.2 hm
    · exact fun hg' => ⟨known hw hA (hg hg' hm).1, known hw hA (hg hg' hm).2⟩
    · refine ⟨hA.items, hA.f, ?_, hA.l⟩
      show (A.c.erase (m, f)).Perm (eraseKey m s.cmap)
      rw [eraseKey_eq_erase hw.cmap_nodup hm]
      exact hA.c.erase _
  · exact Ext.refl s

theorem dropFrame_ext {g d : Prop} {s : Env} (hw : WF s) (m : Obj)
    (hg : g → ∀ f, (m, f) ∈ s.cmap → s.owner m = .here ∧ s.owner f = .here) : (s.dropFrame m).All (Ext g d s) := by
  unfold dropFrame
  split
  · exact detachFrame_ext hw _ _ (fun h => hg h _)
  · exact Ext.refl s

theorem linkFrame_ext {g d : Prop} {s : Env} (hw : WF s) (m f : Obj)
    (hcl : g → ∀ e ∈ s.cmap, s.owner e.1 = .here ∧ s.owner e.2 = .here)
    (hg : g → s.owner m = .here ∧ s.owner f = .here) : (s.linkFrame m f).All (Ext g d s) := by
  unfold linkFrame
  split
  · exact Ext.refl s
  have h2 := ((hw.dropFrame m).and (dropFrame_ext (g := g) (d := d) hw m (fun h f' hf' => hcl h _ hf'))).and
    (Grow.dropFrame s m)
  refine h2.bind2 (dropFrame_none s m) (fun s2 k2 hn => ?_) (fun _ h => h.1.2)
  obtain ⟨⟨w2, e2⟩, gr2⟩ := k2
  apply emit_all
  intro ow _
  refine e2.trans (Ext.one (mkEv s2 .frameNode .add m (some f)) rfl (fun A hA => ⟨⟨?_, ?_⟩, ?_⟩))
  · rw [(hA.c.map (·.1)).mem_iff]; exact look_none_iff.1 hn
  · exact fun h => ⟨known w2 hA (gr2.here _ (hg h).1), known w2 hA (gr2.here _ (hg h).2)⟩
  · exact ⟨hA.items, hA.f, (hA.c.cons _).trans (ins_perm _ _ _).symm, hA.l⟩

/-- the links of maps join attached items -/
def CmapHere (s : Env) : Prop := ∀ e ∈ s.cmap, s.owner e.1 = .here ∧ s.owner e.2 = .here

theorem CmapHere.grow {s s' : Env} (h : CmapHere s) (hg : Grow s s') (hc : s'.cmap = s.cmap) : CmapHere s' := by
  intro e he
  rw [hc] at he
  exact ⟨hg.here _ (h e he).1, hg.here _ (h e he).2⟩

theorem setFrameAttached_ext {g d : Prop} {s : Env} (hw : WF s) (m f : Obj) (hcl : g → CmapHere s)
    (hg : g → s.owner m = .here ∧ s.owner f ≠ .elsewhere) : (s.setFrameAttached m f).All (Ext g d s) := by
  unfold setFrameAttached
  have h1 := ((hw.ensureAttached f).and (ensureAttached_ext (g := g) (d := d) hw f)).and
    ((ensureAttached_rel s f).and (Grow.ensureAttached hw f))
  have h1' : (s.ensureAttached f).Ok (fun s' => g → s'.owner f = .here) := by
    by_cases hgg : g
    · exact (ensureAttached_here (hg hgg).2).mono (fun _ h _ => h)
    · exact h1.toOk.mono (fun _ _ h => absurd h hgg)
  refine h1.bind2 h1' (fun s1 k1 k1' => ?_) (fun _ h => h.1.2)
  obtain ⟨⟨w1, e1⟩, r1, gr1⟩ := k1
  exact (linkFrame_ext (g := g) (d := d) w1 m f (fun h => (hcl h).grow gr1 r1.cmap)
    (fun h => ⟨gr1.here _ (hg h).1, k1' h⟩)).mono (fun _ h => e1.trans h)

theorem attachMap_ext {g d : Prop} {s : Env} (hw : WF s) (m : Obj) (n : Option Obj) (hcl : g → CmapHere s)
    (hg : g → s.owner (n.getD s.rootNode) ≠ .elsewhere ∧ n.getD s.rootNode ≠ m) :
    (s.attachMap m n).All (Ext g d s) := by
  unfold attachMap
  have h1 := ((hw.attachItem m).and (attachItem_ext (g := g) (d := d) hw m)).and
    (((attachItem_rel s m)).and (Grow.attachItem hw m))
  have h1' := (attachItem_eff s m).toOk
  refine h1.bind2 h1' (fun s1 k1 k1' => ?_) (fun _ h => h.1.2)
  obtain ⟨⟨w1, e1⟩, r1, gr1⟩ := k1
  split
  · exact e1
  · refine (setFrameAttached_ext (g := g) (d := d) w1 m _ (fun h => (hcl h).grow gr1 r1.cmap) (fun h => ⟨k1'.2.1, ?_⟩)).mono
      (fun _ h => e1.trans h)
    rw [gr1.root, k1'.1.owner _ (hg h).2]
    exact (hg h).1

theorem ensureMapAttached_ext {g d : Prop} {s : Env} (hw : WF s) (m : Obj) (hcl : g → CmapHere s)
    (hg : g → s.owner m = .free → s.owner s.rootNode = .here) : (s.ensureMapAttached m).All (Ext g d s) := by
  unfold ensureMapAttached
  split
  · trivial
  · rename_i hf
    refine attachMap_ext hw m none hcl (fun h => ?_)
    have := hg h hf
    refine ⟨?_, ?_⟩
    · show s.owner s.rootNode ≠ _; rw [this]; decide
    · show s.rootNode ≠ m; intro e; rw [e, hf] at this; cases this
  · exact Ext.refl s

theorem setFrameNode_ext {g d : Prop} {s : Env} (hw : WF s) (m f : Obj) (hcl : g → CmapHere s)
    (hg : g → s.owner m ≠ .elsewhere ∧ s.owner f ≠ .elsewhere ∧ (s.owner m = .free → s.owner s.rootNode = .here)) :
    (s.setFrameNode m f).All (Ext g d s) := by
  unfold setFrameNode
  have h1 := (((hw.ensureAttached f).and (ensureAttached_ext (g := g) (d := d) hw f)).and
    ((ensureAttached_rel s f).and (Grow.ensureAttached hw f))).and
    ((ensureAttached_eff s f).toAll (R := fun s' => AttachEff s s' f) (fun _ h => h.1) (fun _ h => h.1))
  have h1' : (s.ensureAttached f).Ok (fun s' => g → s'.owner f = .here) := by
    by_cases hgg : g
    · exact (ensureAttached_here (hg hgg).2.1).mono (fun _ h _ => h)
    · exact h1.toOk.mono (fun _ _ h => absurd h hgg)
  refine h1.bind2 h1' (fun s1 k1 k1' => ?_) (fun _ h => h.1.1.2)
  obtain ⟨⟨⟨w1, e1⟩, r1, gr1⟩, a1⟩ := k1
  have hcl1 : g → CmapHere s1 := fun h => (hcl h).grow gr1 r1.cmap
  have hm1 : g → s1.owner m ≠ .elsewhere := by
    intro h
    by_cases hmf : m = f
    · rw [hmf, k1' h]; decide
    · rw [a1.owner _ hmf]; exact (hg h).1
  have hr1 : g → s1.owner m = .free → s1.owner s1.rootNode = .here := by
    intro h hm
    by_cases hmf : m = f
    · rw [hmf, k1' h] at hm; cases hm
    · rw [a1.owner _ hmf] at hm
      rw [gr1.root]; exact gr1.here _ ((hg h).2.2 hm)
  have h2 := (w1.ensureMapAttached m).and (ensureMapAttached_ext (g := g) (d := d) w1 m hcl1 hr1)
  have h2' : (s1.ensureMapAttached m).Ok (fun s' => g → CmapHere s' ∧ s'.owner m = .here ∧ s'.owner f = .here) := by
    by_cases hgg : g
    · unfold ensureMapAttached
      split
      · trivial
      · rename_i hf
        have hr := hr1 hgg hf
        have q1 := (attachMap_grow w1 m none (show s1.owner s1.rootNode ≠ _ by rw [hr]; decide)).toOk
        have q2 := (attachMap_rel s1 m none).toOk
        refine (q1.and q2).mono (fun s' h _ => ?_)
        obtain ⟨⟨gr, hm', hn⟩, rels⟩ := h
        refine ⟨?_, hm', gr.here _ (k1' hgg)⟩
        intro e he
        rw [rels.2.2.2.2] at he
        have old : e ∈ s1.cmap → s'.owner e.1 = .here ∧ s'.owner e.2 = .here :=
          fun h => ⟨gr.here _ (hcl1 hgg e h).1, gr.here _ (hcl1 hgg e h).2⟩
        split at he
        · unfold setFrameRel at he
          split at he
          · exact old he
          · rw [mem_ins, mem_eraseKey] at he
            rcases he with rfl | he
            · exact ⟨hm', gr.here _ hr⟩
            · exact old he.1
        · exact old he
      · rename_i hd hf
        refine fun _ => ⟨hcl1 hgg, ?_, k1' hgg⟩
        cases hx : s1.owner m with
        | here => rfl
        | elsewhere => exact absurd hx (hm1 hgg)
        | dead => exact absurd hx hd
        | free => exact absurd hx hf
    · exact h2.toOk.mono (fun _ _ h => absurd h hgg)
  refine h2.bind2 h2' (fun s2 k2 k2' => ?_) (fun _ h => e1.trans h.2)
  exact (linkFrame_ext (g := g) (d := d) k2.1 m f (fun h => (k2' h).1) (fun h => (k2' h).2)).mono
    (fun _ h => e1.trans (k2.2.trans h))

theorem addInput_ext {g d : Prop} {s : Env} (hw : WF s) (op l : Obj) : (s.addInput op l).All (Ext g d s) := by
  unfold addInput
  split
  · exact Ext.refl s
  refine ((hw.ensureAttached op).and (ensureAttached_ext (g := g) (d := d) hw op)).bind (fun s1 h1 => ?_) (fun _ h => h.2)
  obtain ⟨w1, h1⟩ := h1
  refine (ensureAttached_ext (g := g) (d := d) w1 l).bind (fun s2 h2 => ?_) (fun _ h => h1.trans h)
  exact h1.trans (h2.trans (Ext.of_same rfl rfl rfl rfl rfl))

theorem addOutput_ext {g d : Prop} {s : Env} (hw : WF s) (op l : Obj) : (s.addOutput op l).All (Ext g d s) := by
  unfold addOutput
  split
  · exact Ext.refl s
  refine ((hw.ensureAttached op).and (ensureAttached_ext (g := g) (d := d) hw op)).bind (fun s1 h1 => ?_) (fun _ h => h.2)
  obtain ⟨w1, h1⟩ := h1
  refine (ensureAttached_ext (g := g) (d := d) w1 l).bind (fun s2 h2 => ?_) (fun _ h => h1.trans h)
  exact h1.trans (h2.trans (Ext.of_same rfl rfl rfl rfl rfl))

theorem opAddInput_ext {g d : Prop} {s : Env} (hw : WF s) (op l : Obj) : (s.opAddInput op l).All (Ext g d s) := by
  unfold opAddInput
  split
  · trivial
  split
  · exact Ext.refl s
  · exact addInput_ext hw op l

theorem opAddOutput_ext {g d : Prop} {s : Env} (hw : WF s) (op l : Obj) : (s.opAddOutput op l).All (Ext g d s) := by
  unfold opAddOutput
  split
  · trivial
  split
  · exact Ext.refl s
  · exact addOutput_ext hw op l

theorem opSetInput_ext {g d : Prop} {s : Env} (hw : WF s) (op l : Obj) : (s.opSetInput op l).All (Ext g d s) := by
  unfold opSetInput
  split
  · trivial
  · exact (opAddInput_ext (hw.removeInputs op) op l).mono
      (fun _ h => Ext.trans (s' := s.removeInputs op) (Ext.of_same rfl rfl rfl rfl rfl) h)

theorem opSetOutput_ext {g d : Prop} {s : Env} (hw : WF s) (op l : Obj) : (s.opSetOutput op l).All (Ext g d s) := by
  unfold opSetOutput
  split
  · trivial
  · exact (opAddOutput_ext (hw.removeOutputs op) op l).mono
      (fun _ h => Ext.trans (s' := s.removeOutputs op) (Ext.of_same rfl rfl rfl rfl rfl) h)

/-! ### detaching -/

theorem unlinkF_ext {g d : Prop} {s : Env} (hw : WF s) (L : List (Obj × Obj))
    (hg : g → ∀ e ∈ L, s.owner e.2 = .here ∧ s.owner e.1 = .here) :
    (foldRes (fun s (e : Obj × Obj) => removeChildF s e.2 e.1) L s).All (Ext g d s) := by
  refine (foldRes_all (P := fun s' => (WF s' ∧ ItemsSame s s') ∧ Ext g d s s') L ?_ s
    ⟨⟨hw, ItemsSame.refl s⟩, Ext.refl s⟩).mono (fun _ h => h.2)
  rintro s1 x hx ⟨⟨w1, i1⟩, e1⟩
  refine ((w1.removeChildF _ _).and (ItemsSame.removeChildF s1 _ _)).and
    (removeChildF_ext (g := g) (d := d) w1 _ _ (fun h _ => ?_)) |>.mono
    (fun s2 h2 => ⟨⟨h2.1.1, i1.trans h2.1.2⟩, e1.trans h2.2⟩)
  exact ⟨(i1.here _).2 (hg h x hx).1, (i1.here _).2 (hg h x hx).2⟩

theorem unlinkC_ext {g d : Prop} {s : Env} (hw : WF s) (L : List (Obj × Obj))
    (hg : g → ∀ e ∈ L, s.owner e.1 = .here ∧ s.owner e.2 = .here) :
    (foldRes (fun s (e : Obj × Obj) => detachFrame s e.1 e.2) L s).All (Ext g d s) := by
  refine (foldRes_all (P := fun s' => (WF s' ∧ ItemsSame s s') ∧ Ext g d s s') L ?_ s
    ⟨⟨hw, ItemsSame.refl s⟩, Ext.refl s⟩).mono (fun _ h => h.2)
  rintro s1 x hx ⟨⟨w1, i1⟩, e1⟩
  refine ((w1.detachFrame _ _).and (ItemsSame.detachFrame s1 _ _)).and
    (detachFrame_ext (g := g) (d := d) w1 _ _ (fun h _ => ?_)) |>.mono
    (fun s2 h2 => ⟨⟨h2.1.1, i1.trans h2.1.2⟩, e1.trans h2.2⟩)
  exact ⟨(i1.here _).2 (hg h x hx).1, (i1.here _).2 (hg h x hx).2⟩

theorem unlinkL_ext {g d : Prop} (L : List (Obj × Obj)) : ∀ {s : Env}, WF s →
    (g → ∀ e ∈ L, s.owner e.2 = .here ∧ s.owner e.1 = .here) → (∀ e, L.count e ≤ s.ltree.count e) →
    (foldRes (fun s (e : Obj × Obj) => removeChildL s e.2 e.1) L s).All (Ext g d s) := by
  induction L with
  | nil => intro s _ _ _; exact Ext.refl s
  | cons x xs ih =>
    intro s hw hg hc
    unfold foldRes
    have hx : (x.1, x.2) ∈ s.ltree := by
      have := hc x
      rw [List.count_cons_self] at this
      have hp : 0 < s.ltree.count x := by omega
      exact List.count_pos_iff.1 hp
    have h1 := ((hw.removeChildL x.2 x.1).and (ItemsSame.removeChildL s x.2 x.1)).and
      ((removeChildL_ext (g := g) (d := d) hw x.2 x.1 (fun h => hg h x (by simp)) (fun _ => hx)).and
        ((removeChildL_rel s x.2 x.1).toAll (R := fun s' => s'.ltree = s.ltree.erase x) (fun _ h => h.2.1)
          (fun _ h => h.elim)))
    refine h1.bind (fun s1 k1 => ?_) (fun _ h => h.2.1)
    obtain ⟨⟨w1, i1⟩, e1, l1⟩ := k1
    refine (ih w1 (fun h e he => ?_) (fun e => ?_)).mono (fun _ h => e1.trans h)
    · have := hg h e (List.mem_cons_of_mem _ he)
      exact ⟨(i1.here _).2 this.1, (i1.here _).2 this.2⟩
    · rw [l1]
      have := hc e
      by_cases hex : x = e
      · subst hex
        rw [List.count_cons_self] at this
        rw [List.count_erase_self]; omega
      · rw [List.count_cons_of_ne hex] at this
        rw [List.count_erase_of_ne (fun h => hex h.symm)]; exact this

theorem unlinkAll_ext {g d : Prop} {s : Env} (hw : WF s) (o : Obj) (hcl : g → Closed s) :
    (s.unlinkAll o).All (Ext g d s) := by
  unfold unlinkAll
  have hsub : ∀ {l : List (Obj × Obj)} {e}, e ∈ l.filter (mentions o) → e ∈ l := fun h => (List.mem_filter.1 h).1
  have hw1 := foldRes_all (f := fun s (e : Obj × Obj) => removeChildF s e.2 e.1) (P := fun s' => WF s' ∧ ItemsSame s s')
    (s.ftree.filter (mentions o)) (fun s1 x _ h => ((h.1.removeChildF _ _).and (ItemsSame.removeChildF s1 _ _)).mono
      (fun _ k => ⟨k.1, h.2.trans k.2⟩)) s ⟨hw, ItemsSame.refl s⟩
  have r1 := unlinkF s hw _ (List.filter_sublist (l := s.ftree) (p := mentions o))
  refine (hw1.and (unlinkF_ext (g := g) (d := d) hw _ (fun h e he =>
    ⟨((hcl h).ftree e (hsub he)).1.2, ((hcl h).ftree e (hsub he)).1.1⟩))).bind2 r1.toOk
    (fun s1 h1 h1' => ?_) (fun _ h => h.2)
  obtain ⟨⟨w1, i1⟩, e1⟩ := h1
  have hl1 : s1.ltree = s.ltree := h1'.2.1
  have hw2 := foldRes_all (f := fun s (e : Obj × Obj) => removeChildL s e.2 e.1) (P := fun s' => WF s' ∧ ItemsSame s s')
    (s.ltree.filter (mentions o)) (fun s1 x _ h => ((h.1.removeChildL _ _).and (ItemsSame.removeChildL s1 _ _)).mono
      (fun _ k => ⟨k.1, h.2.trans k.2⟩)) s1 ⟨w1, i1⟩
  refine (hw2.and (unlinkL_ext (g := g) (d := d) _ w1 (fun h e he =>
    ⟨(i1.here _).2 ((hcl h).ltree e (hsub he)).1.2, (i1.here _).2 ((hcl h).ltree e (hsub he)).1.1⟩)
    (fun e => by rw [hl1]; exact List.Sublist.count_le _ List.filter_sublist))).bind
    (fun s2 h2 => ?_) (fun _ h => e1.trans h.2)
  obtain ⟨⟨w2, i2⟩, e2⟩ := h2
  replace e2 := e1.trans e2
  refine (foldRes_all (f := fun s (e : Obj × Obj) => .ok (removeInput s e.1 e.2))
    (P := fun s' => (WF s' ∧ ItemsSame s s') ∧ Ext g d s s')
    (s.opIn.filter (mentions o)) (fun s1 x _ h => ⟨⟨h.1.1.removeInput _ _, ?_⟩, h.2.trans (Ext.of_same rfl rfl rfl rfl rfl)⟩)
    s2 ⟨⟨w2, i2⟩, e2⟩).bind (fun s3 h3 => ?_) (fun _ h => h.2)
  · exact h.1.2.trans ⟨rfl, rfl, fun _ => Iff.rfl, rfl, rfl, rfl, rfl, rfl, rfl, rfl⟩
  refine (foldRes_all (f := fun s (e : Obj × Obj) => .ok (removeOutput s e.1 e.2))
    (P := fun s' => (WF s' ∧ ItemsSame s s') ∧ Ext g d s s')
    (s.opOut.filter (mentions o)) (fun s1 x _ h => ⟨⟨h.1.1.removeOutput _ _, ?_⟩, h.2.trans (Ext.of_same rfl rfl rfl rfl rfl)⟩)
    s3 h3).bind (fun s4 h4 => ?_) (fun _ h => h.2)
  · exact h.1.2.trans ⟨rfl, rfl, fun _ => Iff.rfl, rfl, rfl, rfl, rfl, rfl, rfl, rfl⟩
  obtain ⟨⟨w4, i4⟩, e4⟩ := h4
  exact (unlinkC_ext (g := g) (d := d) w4 _ (fun h e he =>
    ⟨(i4.here _).2 ((hcl h).cmap e (hsub he)).1.1, (i4.here _).2 ((hcl h).cmap e (hsub he)).1.2⟩)).mono
    (fun _ h => e4.trans h)

theorem dropItem_ext {g d : Prop} {s : Env} (hw : WF s) {o : Obj} (ho : s.owner o = .here)
    (hf : ∀ e ∈ s.ftree, e.1 ≠ o ∧ e.2 ≠ o) (hl : ∀ e ∈ s.ltree, e.1 ≠ o ∧ e.2 ≠ o)
    (hc : ∀ e ∈ s.cmap, e.1 ≠ o ∧ e.2 ≠ o) : (s.dropItem o).All (Ext g d s) := by
  unfold dropItem
  apply emit_bind_all
  intro ow _
  dsimp only
  rw [hw.look_uid ho]
  dsimp only
  rw [if_pos rfl]
  have hm : (s.uid o, o) ∈ s.items := (hw.items_iff _ _).2 ⟨ho, rfl⟩
  refine Ext.one (mkEv s .item .remove o none) rfl (fun A hA => ⟨⟨hA.items.mem_iff.2 hm, ?_, rfl⟩, ?_⟩)
  · exact ⟨fun x hx => hf x (hA.f.mem_iff.1 hx), fun x hx => hl x (hA.l_perm.mem_iff.1 hx),
      fun x hx => hc x (hA.c.mem_iff.1 hx)⟩
  · refine ⟨?_, hA.f, hA.c, hA.l⟩
    show (A.items.erase (s.uid o, o)).Perm (eraseKey (s.uid o) s.items)
    rw [eraseKey_eq_erase_items hw.items_nodup hm]
    exact hA.items.erase _

theorem detachShallow_ext {g d : Prop} {s : Env} (hw : WF s) {o : Obj} (ho : s.owner o = .here) (hcl : g → Closed s) :
    (s.detachShallow o).All (Ext g d s) := by
  unfold detachShallow
  split
  · trivial
  split
  · trivial
  refine ((hw.unlinkAll o).and ((unlinkAll_ext (g := g) (d := d) hw o hcl).and (ItemsSame.unlinkAll s o))).bind2
    (unlinkAll_rel hw o).toOk (fun s1 h1 h1' => ?_) (fun _ h => h.2.1)
  obtain ⟨w1, e1, i1⟩ := h1
  obtain ⟨r1, r2, _, _, r5⟩ := h1'
  refine (dropItem_ext (g := g) (d := d) w1 ((i1.here o).2 ho) ?_ ?_ ?_).mono (fun _ h => e1.trans h)
  · intro e he; rw [r1, mem_without] at he; exact he.2
  · intro e he; rw [r2, mem_without] at he; exact he.2
  · intro e he; rw [r5, mem_without] at he; exact he.2

theorem detachDeep_ext {g d : Prop} (s0 : Env) (h0 : WF s0) (hf : ∀ e ∈ s0.ftree, s0.owner e.1 = .here)
    (hc : ∀ e ∈ s0.cmap, s0.owner e.1 = .here) (fuel : Nat) :
    ∀ s o, WF s → (g → Closed s) → Shrunk s0 s → s0.owner o = .here →
      (detachDeep fuel s o).All (fun s' => (WF s' ∧ (g → Closed s')) ∧ Shrunk s0 s' ∧ Ext g d s s') := by
  induction fuel with
  | zero => intro s o _ _ _ _; trivial
  | succ n ih =>
    intro s o hw hcl hs ho
    unfold detachDeep
    split
    · trivial
    split
    · trivial
    have hlast : ∀ t, ((WF t ∧ (g → Closed t)) ∧ Shrunk s0 t ∧ Ext g d s t) →
        (t.detachShallow o).All (fun s' => (WF s' ∧ (g → Closed s')) ∧ Shrunk s0 s' ∧ Ext g d s s') := by
      rintro t ⟨⟨hwt, hct⟩, hst, het⟩
      by_cases hm : t.uid o ∈ t.items.map (·.1)
      · have hot := hst.here_of_mem h0 hwt ho hm
        have h1 := (detachShallow_eff hwt hot).toAll (R := fun s' => Shrunk s0 s' ∧ (g → Closed s'))
          (fun s' h => ⟨hst.trans h.shrunk, fun hg => (hct hg).detachEff h⟩) (fun _ h => h.elim)
        refine ((hwt.detachShallow hot).and (h1.and (detachShallow_ext (g := g) (d := d) hwt hot hct))).mono ?_
        rintro u ⟨k1, ⟨k2, k3⟩, k4⟩
        exact ⟨⟨k1, k3⟩, k2, het.trans k4⟩
      · unfold detachShallow
        split
        · trivial
        · trivial
    refine Res.All.bind' ?_ hlast
    have step : ∀ t x, ((WF t ∧ (g → Closed t)) ∧ Shrunk s0 t ∧ Ext g d s t) → s0.owner x = .here →
        (detachDeep n t x).All (fun s' => (WF s' ∧ (g → Closed s')) ∧ Shrunk s0 s' ∧ Ext g d s s') := by
      rintro t x ⟨⟨k1, k2⟩, k3, k4⟩ hx
      exact (ih t x k1 k2 k3 hx).mono (fun u h => ⟨h.1, h.2.1, k4.trans h.2.2⟩)
    split
    · refine Res.All.bind' ?_ ?_
      · refine foldRes_all (P := fun s' => (WF s' ∧ (g → Closed s')) ∧ Shrunk s0 s' ∧ Ext g d s s') _ ?_ s
          ⟨⟨hw, hcl⟩, hs, Ext.refl s⟩
        intro t x hx ht
        refine step t x ht ?_
        obtain ⟨e, he, hex⟩ := List.mem_map.1 hx
        have := hs.ftree e (List.mem_filter.1 he).1
        rw [← hex]; exact hf e this
      · intro t ht
        refine foldRes_all (P := fun s' => (WF s' ∧ (g → Closed s')) ∧ Shrunk s0 s' ∧ Ext g d s s') _ ?_ t ht
        intro u x hx hu
        refine step u x hu ?_
        obtain ⟨e, he, hex⟩ := List.mem_map.1 hx
        have := ht.2.1.cmap e (List.mem_filter.1 he).1
        rw [← hex]; exact hc e this
    · exact ⟨⟨hw, hcl⟩, hs, Ext.refl s⟩

/-- the arguments of a call whose event is emitted unconditionally are attached here -/
def EvGood (s : Env) : Op → Prop
  | .modified o => s.owner o = .here
  | .removeChildL p c => s.owner p = .here ∧ s.owner c = .here
  | _ => True

/-- layer links are only removed when they exist, and not added a second time -/
def LayerDisc (s : Env) : Op → Prop
  | .addChildL p c => look c s.ltree ≠ some p → (c, p) ∉ s.ltree
  | .removeChildL p c => (c, p) ∈ s.ltree
  | _ => True

theorem exec_ext {g d : Prop} {s : Env} (hw : WF s) (op : Op) (hl : Legal s op)
    (hg : g → Closed s ∧ Good s op ∧ EvGood s op) (hd : d → LayerDisc s op) : (s.exec op).All (Ext g d s) := by
  have hcl : g → CmapHere s := fun h e he => ((hg h).1.cmap e he).1
  cases op with
  | alloc o k id hd ia oa =>
    unfold exec
    dsimp only
    split
    · exact Ext.of_same rfl rfl rfl rfl rfl
    · trivial
  | hold o => exact Ext.of_same rfl rfl rfl rfl rfl
  | release o => exact Ext.of_same rfl rfl rfl rfl rfl
  | setUid o id =>
    unfold exec
    dsimp only
    split
    · exact Ext.refl s
    · exact Ext.of_same rfl rfl rfl rfl rfl
  | setPrefix p =>
    show (s.setPrefix p).All _
    unfold setPrefix
    split
    · trivial
    · exact Ext.of_same rfl rfl rfl rfl rfl
  | extAttach o id =>
    unfold exec
    dsimp only
    split
    · exact Ext.of_same rfl rfl rfl rfl rfl
    · trivial
  | extDetach o =>
    unfold exec
    dsimp only
    split
    · exact Ext.of_same rfl rfl rfl rfl rfl
    · trivial
  | attach o => exact attachItem_ext hw o
  | attachMap m n =>
    by_cases hx : g → s.owner (n.getD s.rootNode) ≠ .elsewhere ∧ n.getD s.rootNode ≠ m
    · exact attachMap_ext hw m n hcl hx
    · -- attaching the root node itself as a map: it is attached already
      cases n with
      | some f => exact absurd (fun h => (hg h).2.1.2) hx
      | none =>
        have hgg : g := Decidable.byContradiction (dec := Classical.propDecidable _) (fun h => hx (fun h' => absurd h' h))
        have hr : s.owner s.rootNode = .here := (hg hgg).2.1.2.1
        have hm : s.rootNode = m := Decidable.byContradiction (fun h => hx (fun _ => ⟨by
          show s.owner s.rootNode ≠ _; rw [hr]; decide, h⟩))
        show (s.attachMap m none).All _
        unfold attachMap
        rw [hw.attachItem_here (hm ▸ hr)]
        exact Ext.refl s
  | detach o deep =>
    unfold exec
    dsimp only
    cases deep with
    | false => exact detachShallow_ext hw hl.1 (fun h => (hg h).1)
    | true =>
      exact (detachDeep_ext (g := g) (d := d) s hw (hl.2 rfl).1 (hl.2 rfl).2 _ s o hw (fun h => (hg h).1)
        (Shrunk.refl s) hl.1).mono (fun _ h => h.2.2)
  | modified o =>
    show (s.emit .item .update o none).All _
    apply emit_all
    intro ow _
    exact Ext.one (mkEv s .item .update o none) rfl (fun A hA =>
      ⟨⟨fun h => known hw hA (hg h).2.2, rfl⟩, ⟨hA.items, hA.f, hA.c, hA.l⟩⟩)
  | addChildF p c => exact addChildF_ext hw p c (fun h => (hg h).1) (fun h => ⟨(hg h).2.1.1, (hg h).2.1.2.1⟩)
  | removeChildF p c =>
    exact removeChildF_ext hw p c (fun h hm => ⟨((hg h).1.ftree _ hm).1.2, ((hg h).1.ftree _ hm).1.1⟩)
  | addChildL p c => exact addChildL_ext hw p c (fun h => ⟨(hg h).2.1.1, (hg h).2.1.2.1⟩) (fun h => hd h)
  | removeChildL p c => exact removeChildL_ext hw p c (fun h => (hg h).2.2) (fun h => hd h)
  | setFrame m f =>
    exact setFrameNode_ext hw m f hcl (fun h => ⟨(hg h).2.1.1, (hg h).2.1.2.1, fun hm => ((hg h).2.1.2.2 hm).1⟩)
  | detachFrame m f =>
    exact detachFrame_ext hw m f (fun h hm => ((hg h).1.cmap _ hm).1)
  | addInput op l => exact addInput_ext hw op l
  | addOutput op l => exact addOutput_ext hw op l
  | removeInput op l => exact Ext.of_same rfl rfl rfl rfl rfl
  | removeOutput op l => exact Ext.of_same rfl rfl rfl rfl rfl
  | removeInputs op => exact Ext.of_same rfl rfl rfl rfl rfl
  | removeOutputs op => exact Ext.of_same rfl rfl rfl rfl rfl
  | opAddInput op l => exact opAddInput_ext hw op l
  | opSetInput op l => exact opSetInput_ext hw op l
  | opAddOutput op l => exact opAddOutput_ext hw op l
  | opSetOutput op l => exact opSetOutput_ext hw op l
  | detachFromOperator l =>
    show (s.detachFromOperator l).All _
    unfold detachFromOperator
    split
    · trivial
    split
    · exact Ext.of_same rfl rfl rfl rfl rfl
    · exact Ext.refl s

end Envire
