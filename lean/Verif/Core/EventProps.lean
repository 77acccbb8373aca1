import Verif.Core.EventLog
import Verif.Core.EventModel
import Verif.Core.Detach
import Verif.Core.FrameProps
import Verif.Core.DetachProps
import Verif.Core.Witness
/-! Properties C16 - C19: event stream, late subscribers, unsubscribing, event source. -/
namespace Envire
open Env

/-- the picture shows what the queries of the environment answer -/
structure Pic.Shows (A : Pic) (s : Env) : Prop where
  items : ∀ id o, (id, o) ∈ A.items ↔ s.getItem id = some o
  once : A.items.Nodup
  parent : ∀ c p, (c, p) ∈ A.f ↔ s.getParent c = some p
  parentOnce : A.f.Nodup
  layers : ∀ c, (A.l.filter (fun e => decide (e.1 = c))).map (·.2) = s.getLayerParents c
  frame : ∀ m f, (m, f) ∈ A.c ↔ s.getFrameNode m = some f
  frameOnce : A.c.Nodup

theorem nodup_of_keys {κ ν : Type} {l : List (κ × ν)} (h : (l.map (·.1)).Nodup) : l.Nodup := by
  induction l with
  | nil => exact List.nodup_nil
  | cons x t ih =>
    rw [List.map_cons, List.nodup_cons] at h
    exact List.nodup_cons.2 ⟨fun hx => h.1 (List.mem_map.2 ⟨x, hx, rfl⟩), ih h.2⟩

theorem Rep.shows {s : Env} {A : Pic} (hw : WF s) (h : Rep s A) : A.Shows s where
  items := fun id o => by
    rw [h.items.mem_iff]; exact (look_eq_some_iff hw.items_nodup).symm
  once := (h.items.nodup_iff).2 (nodup_of_keys hw.items_nodup)
  parent := fun c p => by
    rw [h.f.mem_iff]; exact (look_eq_some_iff hw.ftree_nodup).symm
  parentOnce := (h.f.nodup_iff).2 (nodup_of_keys hw.ftree_nodup)
  layers := fun c => by rw [h.l]; rfl
  frame := fun c p => by
    rw [h.c.mem_iff]; exact (look_eq_some_iff hw.cmap_nodup).symm
  frameOnce := (h.c.nodup_iff).2 (nodup_of_keys hw.cmap_nodup)

theorem Reach.exec_invariant {G : Env → Op → Prop} {r : Obj} {P : Env → Prop} (h0 : P (Env.init r))
    (hs : ∀ s op, Reach G r s → P s → G s op → (s.exec op).All P) : ∀ {s}, Reach G r s → P s := by
  intro s h
  have : Reach G r s ∧ P s := by
    induction h with
    | init => exact ⟨.init, h0⟩
    | step h0 h1 h2 ih =>
      rename_i s1 s2 op
      have := hs s1 op h0 ih.2 h1
      refine ⟨.step h0 h1 h2, ?_⟩
      unfold Env.step at h2
      split at h2
      · cases h2
      · split at h2
        · cases h2
        · cases hx : s1.exec op with
          | ok t => rw [hx] at h2 this; cases h2; exact this
          | throw t => rw [hx] at h2 this; cases h2; exact this
          | fault => rw [hx] at h2; cases h2
  exact this.2

/-- a handler registered on the fresh environment receives this -/
theorem announce_init (r : Obj) : (init r).announce =
    some [⟨.item, .add, r, none, ['/', '0'], []⟩, ⟨.root, .add, r, none, ['/', '0'], []⟩] := by
  simp [announce, collect, tell, seqEv, publish, getChildren, init]

def startPic (r : Obj) : Pic := ⟨[(['/', '0'], r)], [], [], []⟩

theorem rep_init (r : Obj) : Rep (init r) (startPic r) :=
  ⟨List.Perm.refl _, List.Perm.refl _, List.Perm.refl _, fun _ => rfl⟩

/-- all histories of calls satisfying `G` extend the log by admissible events -/
theorem reach_stream {G : Env → Op → Prop} {g d : Prop} (hG : ∀ s op, Closed s → G s op → Legal s op)
    (hW : ∀ {r s}, Reach G r s → WF s ∧ Closed s)
    (hg : g → ∀ s op, G s op → Good s op ∧ EvGood s op) (hd : d → ∀ s op, G s op → LayerDisc s op) {r : Obj} {s : Env}
    (h : Reach G r s) :
    ∃ es, s.log = (init r).log ++ es ∧ Adms g d (startPic r) es ∧ Rep s ((startPic r).follow es) := by
  have : Ext g d (init r) s := by
    refine Reach.exec_invariant (G := G) (P := Ext g d (init r)) (Ext.refl _) ?_ h
    intro s1 op hr he hop
    obtain ⟨w, c⟩ := hW hr
    exact (exec_ext (g := g) (d := d) w op (hG _ _ c hop) (fun h => ⟨c, hg h _ _ hop⟩) (fun h => hd h _ _ hop)).mono
      (fun _ h => he.trans h)
  exact this _ (rep_init r)

/-- **C16** Whatever calls are made (detach only of attached items), a handler registered on the fresh
environment can follow the stream: at every moment its picture answers every query about items, frame links,
layer links (with order and multiplicity) and map links exactly as the environment does; and no structural
event of the items, frame and map relations is redundant. -/
theorem C16_stream_complete {r : Obj} {s : Env} (h : Reach Legal r s) :
    ∃ first es, (init r).announce = some first ∧ s.log = (init r).log ++ es ∧
      Adms False False (Pic.empty.follow first) es ∧ (Pic.empty.follow (first ++ es)).Shows s := by
  have : Ext False False (init r) s := by
    refine Reach.exec_invariant (G := Legal) (P := Ext False False (init r)) (Ext.refl _) ?_ h
    intro s1 op hr he hop
    exact (exec_ext (g := False) (d := False) hr.wf op hop (fun h => h.elim) (fun h => h.elim)).mono
      (fun _ h => he.trans h)
  obtain ⟨es, h1, h2, h3⟩ := this _ (rep_init r)
  refine ⟨_, es, announce_init r, h1, h2, ?_⟩
  unfold Pic.follow
  rw [List.foldl_append]
  exact h3.shows h.wf

/-- the hypothesis of C16 is met by a history with frames, maps, layers and a detach; the stream is not trivial -/
example : ∃ s, run (init 0) (linkedHistory ++ [.detach 1 false]) = some s ∧
    (10 < s.log.length ∧ s.ftree ≠ []) :=
  ex_of_any (by decide +kernel)

/-! ## C17 -/

theorem tell_here1 {s : Env} {ty : EvType} {op : EvOp} {a : Obj} (ha : s.owner a = .here) :
    s.tell ty op a none = some [mkEv s ty op a none] := by
  unfold tell mkEv; simp [ha]

theorem tell_here2 {s : Env} {ty : EvType} {op : EvOp} {a b : Obj} (ha : s.owner a = .here) (hb : s.owner b = .here) :
    s.tell ty op a (some b) = some [mkEv s ty op a (some b)] := by
  unfold tell mkEv; simp [ha, hb]

theorem collect_single {α : Type} {f : α → Option (List Ev)} {g : α → Ev} {l : List α}
    (h : ∀ x ∈ l, f x = some [g x]) : collect f l = some (l.map g) := by
  induction l with
  | nil => rfl
  | cons x t ih =>
    unfold collect
    rw [h x (by simp), ih (fun y hy => h y (by simp [hy]))]
    rfl

theorem collect_mem {α : Type} {f : α → Option (List Ev)} {l : List α} (h : ∀ x ∈ l, ∃ ev, f x = some ev) :
    ∃ evs, collect f l = some evs ∧ ∀ e, e ∈ evs ↔ ∃ x ∈ l, ∃ ev, f x = some ev ∧ e ∈ ev := by
  induction l with
  | nil => exact ⟨[], rfl, by simp⟩
  | cons x t ih =>
    obtain ⟨ev, hx⟩ := h x (by simp)
    obtain ⟨evs, ht, hm⟩ := ih (fun y hy => h y (by simp [hy]))
    refine ⟨ev ++ evs, by unfold collect; rw [hx, ht], fun e => ?_⟩
    rw [List.mem_append, hm]
    constructor
    · rintro (h1 | ⟨y, hy, ev', h2, h3⟩)
      · exact ⟨x, by simp, ev, hx, h1⟩
      · exact ⟨y, by simp [hy], ev', h2, h3⟩
    · rintro ⟨y, hy, ev', h2, h3⟩
      rcases List.mem_cons.1 hy with rfl | hy
      · rw [hx] at h2; cases h2; exact Or.inl h3
      · exact Or.inr ⟨y, hy, ev', h2, h3⟩

theorem mem_getChildren {s : Env} {c p : Obj} : c ∈ s.getChildren p ↔ (c, p) ∈ s.ftree := by
  unfold getChildren
  simp only [List.mem_map, List.mem_filter, decide_eq_true_eq]
  constructor
  · rintro ⟨⟨a, b⟩, ⟨h1, h2⟩, h3⟩; dsimp only at h2 h3; subst h2; subst h3; exact h1
  · intro h; exact ⟨(c, p), ⟨h, rfl⟩, rfl⟩

theorem mem_getMaps {s : Env} {m f : Obj} : m ∈ s.getMaps f ↔ (m, f) ∈ s.cmap := by
  unfold getMaps
  simp only [List.mem_map, List.mem_filter, decide_eq_true_eq]
  constructor
  · rintro ⟨⟨a, b⟩, ⟨h1, h2⟩, h3⟩; dsimp only at h2 h3; subst h2; subst h3; exact h1
  · intro h; exact ⟨(m, f), ⟨h, rfl⟩, rfl⟩

theorem getChildren_nodup {s : Env} (hw : WF s) (p : Obj) : (s.getChildren p).Nodup :=
  hw.ftree_nodup.sublist (List.filter_sublist.map _)

/-- ancestors of one frame are ordered -/
theorem above_linear {s : Env} (hw : WF s) {x a b : Obj} (h : x = a ∨ Above s x a) (h' : x = b ∨ Above s x b) :
    a = b ∨ Above s a b ∨ Above s b a := by
  rcases h with rfl | h
  · rcases h' with rfl | h'
    · exact Or.inl rfl
    · exact Or.inr (Or.inl h')
  rcases h' with rfl | h'
  · exact Or.inr (Or.inr h)
  induction h with
  | one h1 =>
    cases h' with
    | one h2 => exact Or.inl (keys_unique hw.ftree_nodup h1 h2)
    | more h2 h3 => rw [keys_unique hw.ftree_nodup h1 h2]; exact Or.inr (Or.inl h3)
  | more h1 h4 ih =>
    cases h' with
    | one h2 => rw [← keys_unique hw.ftree_nodup h1 h2]; exact Or.inr (Or.inr h4)
    | more h2 h3 => rw [← keys_unique hw.ftree_nodup h1 h2] at h3; exact ih h3

theorem above_child {s : Env} {x p : Obj} (hx : Above s x p) : ∃ ch, (ch, p) ∈ s.ftree ∧ (x = ch ∨ Above s x ch) := by
  induction hx with
  | one h => exact ⟨_, h, Or.inl rfl⟩
  | more h _ ih =>
    obtain ⟨ch, k1, k2⟩ := ih
    refine ⟨ch, k1, Or.inr ?_⟩
    rcases k2 with rfl | k2
    · exact .one h
    · exact .more h k2

/-- the frame link joins frames at or below `p` -/
def LinkBelow (s : Env) (p : Obj) (e : Obj × Obj) : Prop := e ∈ s.ftree ∧ (e.2 = p ∨ Above s e.2 p)

theorem publish_spec {s : Env} (hw : WF s) (hc : Closed s) (ha : Acyclic s) : ∀ n p, s.height p < n →
    ∃ L : List (Obj × Obj), s.publish n p = some (L.map (fun e => mkEv s .frameTree .add e.2 (some e.1))) ∧
      L.Nodup ∧ ∀ e, e ∈ L ↔ LinkBelow s p e := by
  intro n
  induction n with
  | zero => intro p h; omega
  | succ n ih =>
    intro p hp
    have loop : ∀ cs : List Obj, cs.Nodup → (∀ c ∈ cs, (c, p) ∈ s.ftree) →
        ∃ L : List (Obj × Obj),
          collect (fun c => seqEv (s.tell .frameTree .add p (some c)) (s.publish n c)) cs =
            some (L.map (fun e => mkEv s .frameTree .add e.2 (some e.1))) ∧ L.Nodup ∧
          ∀ e, e ∈ L ↔ ∃ ch ∈ cs, e = (ch, p) ∨ LinkBelow s ch e := by
      intro cs
      induction cs with
      | nil => intro _ _; exact ⟨[], rfl, List.nodup_nil, by simp⟩
      | cons c cs ihc =>
        intro hn hcs
        rw [List.nodup_cons] at hn
        obtain ⟨L2, e2, n2, m2⟩ := ihc hn.2 (fun x hx => hcs x (by simp [hx]))
        have hcp := hcs c (by simp)
        obtain ⟨L1, e1, n1, m1⟩ := ih c (by have := height_lt ha hcp; omega)
        have cyc : ∀ y, (y, p) ∈ s.ftree → ¬ (p = y ∨ Above s p y) := by
          rintro y hy (rfl | h)
          · exact ha _ (.one hy)
          · exact ha _ (.more hy h)
        refine ⟨(c, p) :: L1 ++ L2, ?_, ?_, ?_⟩
        · unfold collect
          rw [tell_here2 (hc.ftree _ hcp).1.2 (hc.ftree _ hcp).1.1, e1, e2]
          simp [seqEv]
        · rw [List.nodup_append]
          refine ⟨List.nodup_cons.2 ⟨fun hm => ?_, n1⟩, n2, ?_⟩
          · exact cyc c hcp ((m1 _).1 hm).2
          · rintro e he e' he' rfl
            obtain ⟨ch, hch, hor⟩ := (m2 _).1 he'
            have hne : c ≠ ch := fun h => hn.1 (h ▸ hch)
            have hchp := hcs ch (by simp [hch])
            rcases List.mem_cons.1 he with rfl | he
            · rcases hor with h | h
              · exact hne (congrArg Prod.fst h)
              · exact cyc ch hchp h.2
            · have h1 := ((m1 _).1 he).2
              rcases hor with h | h
              · rw [h] at h1; exact cyc c hcp h1
              · have := above_linear hw h1 h.2
                have key : ∀ a b, (a, p) ∈ s.ftree → (b, p) ∈ s.ftree → ¬ Above s a b := by
                  intro a b hap hbp hab
                  cases hab with
                  | one h => have e := keys_unique hw.ftree_nodup h hap; rw [e] at hbp; exact ha _ (.one hbp)
                  | more h h' => rw [keys_unique hw.ftree_nodup h hap] at h'; exact ha _ (.more hbp h')
                rcases this with h | h | h
                · exact hne h
                · exact key _ _ hcp hchp h
                · exact key _ _ hchp hcp h
        · intro e
          rw [List.mem_append, List.mem_cons, m1, m2]
          constructor
          · rintro ((h | h) | ⟨ch, hch, h⟩)
            · exact ⟨c, by simp, Or.inl h⟩
            · exact ⟨c, by simp, Or.inr h⟩
            · exact ⟨ch, by simp [hch], h⟩
          · rintro ⟨ch, hch, h⟩
            rcases List.mem_cons.1 hch with rfl | hch
            · exact Or.inl h
            · exact Or.inr ⟨ch, hch, h⟩
    obtain ⟨L, e, hn, hm⟩ := loop (s.getChildren p) (getChildren_nodup hw p) (fun c => mem_getChildren.1)
    refine ⟨L, by unfold publish; exact e, hn, fun e => ?_⟩
    rw [hm]
    constructor
    · rintro ⟨ch, hch, rfl | h⟩
      · exact ⟨mem_getChildren.1 hch, Or.inl rfl⟩
      · refine ⟨h.1, Or.inr ?_⟩
        rcases h.2 with h2 | h2
        · rw [h2]; exact .one (mem_getChildren.1 hch)
        · exact h2.trans (.one (mem_getChildren.1 hch))
    · rintro ⟨h1, h2⟩
      rcases h2 with h2 | h2
      · exact ⟨e.1, mem_getChildren.2 (h2 ▸ h1), Or.inl (by rw [← h2])⟩
      · obtain ⟨ch, k1, k2⟩ := above_child h2
        exact ⟨ch, mem_getChildren.2 k1, Or.inr ⟨h1, k2⟩⟩

theorem follow_items (s : Env) (l : List (Uid × Obj)) (hl : ∀ e ∈ l, s.uid e.2 = e.1) (A : Pic) :
    A.follow (l.map (fun e => mkEv s .item .add e.2 none)) = { A with items := l.reverse ++ A.items } := by
  induction l generalizing A with
  | nil => rfl
  | cons x t ih =>
    have h1 : A.follow ((x :: t).map (fun e => mkEv s .item .add e.2 none)) =
      (A.apply (mkEv s .item .add x.2 none)).follow (t.map (fun e => mkEv s .item .add e.2 none)) := rfl
    rw [h1, ih (fun e he => hl e (by simp [he]))]
    have h2 : A.apply (mkEv s .item .add x.2 none) = { A with items := (s.uid x.2, x.2) :: A.items } := rfl
    rw [h2, hl x (by simp)]
    simp

theorem follow_frames (s : Env) (l : List (Obj × Obj)) (A : Pic) :
    A.follow (l.map (fun e => mkEv s .frameTree .add e.2 (some e.1))) = { A with f := l.reverse ++ A.f } := by
  induction l generalizing A with
  | nil => rfl
  | cons x t ih =>
    have h1 : A.follow ((x :: t).map (fun e => mkEv s .frameTree .add e.2 (some e.1))) =
      (A.apply (mkEv s .frameTree .add x.2 (some x.1))).follow (t.map (fun e => mkEv s .frameTree .add e.2 (some e.1))) := rfl
    rw [h1, ih]
    have h2 : A.apply (mkEv s .frameTree .add x.2 (some x.1)) = { A with f := x :: A.f } := rfl
    rw [h2]
    simp

theorem follow_maps (s : Env) (l : List (Obj × Obj)) (A : Pic) :
    A.follow (l.map (fun e => mkEv s .frameNode .add e.1 (some e.2))) = { A with c := l.reverse ++ A.c } := by
  induction l generalizing A with
  | nil => rfl
  | cons x t ih =>
    have h1 : A.follow ((x :: t).map (fun e => mkEv s .frameNode .add e.1 (some e.2))) =
      (A.apply (mkEv s .frameNode .add x.1 (some x.2))).follow (t.map (fun e => mkEv s .frameNode .add e.1 (some e.2))) := rfl
    rw [h1, ih]
    have h2 : A.apply (mkEv s .frameNode .add x.1 (some x.2)) = { A with c := x :: A.c } := rfl
    rw [h2]
    simp

theorem follow_append (A : Pic) (es es' : List Ev) : A.follow (es ++ es') = (A.follow es).follow es' :=
  List.foldl_append ..

theorem height_le_links (s : Env) (o : Obj) : s.height o < s.ftree.length + 1 := by
  unfold height
  have := List.length_filter_le (fun x => @decide (Above s x o) (Classical.propDecidable _)) (s.ftree.map (·.1))
  rw [List.length_map] at this
  omega

theorem announce_eq {s : Env} (hw : WF s) (hc : Closed s) (ha : Acyclic s) (hr : s.owner s.rootNode = .here) :
    ∃ L : List (Obj × Obj), L.Nodup ∧ (∀ e, e ∈ L ↔ LinkBelow s s.rootNode e) ∧
      s.announce = some (s.items.map (fun e => mkEv s .item .add e.2 none) ++ ([mkEv s .root .add s.rootNode none] ++
        (L.map (fun e => mkEv s .frameTree .add e.2 (some e.1)) ++
          s.cmap.map (fun e => mkEv s .frameNode .add e.1 (some e.2))))) := by
  obtain ⟨L, h1, h2, h3⟩ := publish_spec hw hc ha (s.ftree.length + 1) s.rootNode (height_le_links s _)
  refine ⟨L, h2, h3, ?_⟩
  unfold announce
  rw [h1, tell_here1 hr, collect_single (f := fun (e : Uid × Obj) => s.tell .item .add e.2 none) (g := fun e => mkEv s .item .add e.2 none)
    (fun e he => tell_here1 ((hw.items_iff e.1 e.2).1 he).1),
    collect_single (f := fun (e : Obj × Obj) => s.tell .frameNode .add e.1 (some e.2)) (g := fun e => mkEv s .frameNode .add e.1 (some e.2))
      (fun e he => tell_here2 (hc.cmap e he).1.1 (hc.cmap e he).1.2)]
  rfl

/-- **C17 (what a late subscriber learns, exactly)** for every state reached by well-used calls, with an acyclic
frame forest and the root attached: all items, all map links, the frame links below the root; no layer links. -/
theorem C17_snapshot_exact {r : Obj} {s : Env} (h : Reach Good r s) (ha : Acyclic s) (hr : s.owner s.rootNode = .here) :
    ∃ es, s.announce = some es ∧ (Pic.empty.follow es).items.Perm s.items ∧ (Pic.empty.follow es).c.Perm s.cmap ∧
      (Pic.empty.follow es).f.Nodup ∧ (∀ e, e ∈ (Pic.empty.follow es).f ↔ LinkBelow s s.rootNode e) ∧
      (Pic.empty.follow es).l = [] := by
  obtain ⟨hw, hc⟩ := h.wf_closed
  obtain ⟨L, h1, h2, h3⟩ := announce_eq hw hc ha hr
  refine ⟨_, h3, ?_⟩
  rw [follow_append, follow_append, follow_append, follow_items s _ (fun e he => ((hw.items_iff e.1 e.2).1 he).2)]
  have hroot : ∀ A : Pic, A.follow [mkEv s .root .add s.rootNode none] = A := fun A => rfl
  rw [hroot, follow_frames, follow_maps]
  refine ⟨?_, ?_, ?_, ?_, rfl⟩
  · simp only [Pic.empty, List.append_nil]; exact List.reverse_perm _
  · simp only [Pic.empty, List.append_nil]; exact List.reverse_perm _
  · simp only [Pic.empty, List.append_nil]; exact (List.reverse_perm L).nodup_iff.2 h1
  · intro e; simp only [Pic.empty, List.append_nil, List.mem_reverse]; exact h2 e

/-- **C17** the picture of a late subscriber is right if there are no layer links and all frame links are below the
root. Missing for the full claim: layer links and frame links outside the tree of the root are not announced. -/
theorem C17_late_subscriber_partial {r : Obj} {s : Env} (h : Reach Good r s) (ha : Acyclic s)
    (hr : s.owner s.rootNode = .here) (hl : s.ltree = [])
    (hf : ∀ e ∈ s.ftree, LinkBelow s s.rootNode e) :
    ∃ es, s.announce = some es ∧ (Pic.empty.follow es).Shows s := by
  obtain ⟨es, h1, h2, h3, h4, h5, h6⟩ := C17_snapshot_exact h ha hr
  refine ⟨es, h1, Rep.shows h.wf_closed.1 ⟨h2, ?_, h3, fun x => by rw [h6, hl]⟩⟩
  rw [List.perm_ext_iff_of_nodup h4 (nodup_of_keys h.wf_closed.1.ftree_nodup)]
  intro e
  rw [h5]
  exact ⟨fun h => h.1, fun h => hf e h⟩

/-- two layers linked, and a frame with a child that is not below the root -/
def orphanHistory : List Op :=
  [.alloc 1 .layer [] false 0 0, .alloc 2 .layer [] false 0 0, .alloc 3 .frame [] false 0 0, .alloc 4 .frame [] false 0 0,
   .alloc 5 .frame [] false 0 0, .attach 1, .addChildL 1 2, .attach 3, .addChildF 3 4, .addChildF 0 5]

/-- **C17, the code violates the property**: the late subscriber learns neither the layer link 1-2 nor the frame link
3-4, although both are in the environment. -/
theorem C17_snapshot_incomplete :
    ∃ s, run (init 0) orphanHistory = some s ∧ (s.getLayerParents 2 = [1] ∧ s.getParent 4 = some 3 ∧
      s.getParent 5 = some 0 ∧
      s.announce.map (fun es => ((Pic.empty.follow es).l, (Pic.empty.follow es).f)) = some ([], [(5, 0)])) :=
  ex_of_any (by decide +kernel)

/-- the hypotheses of C17 are met by a state with two levels of frames below the root and maps on them -/
def pubHistory : List Op :=
  [.alloc 1 .frame [] false 0 0, .alloc 2 .frame [] false 0 0, .alloc 3 .frame [] false 0 0, .alloc 4 .cmap [] false 0 0,
   .alloc 5 .cmap [] false 0 0, .addChildF 0 1, .addChildF 1 2, .addChildF 1 3, .attachMap 4 (some 2), .attachMap 5 none]

example : ∃ s, run (init 0) pubHistory = some s ∧ (s.getChildren 1 = [2, 3] ∧ s.ltree = [] ∧ s.getMaps 2 = [4] ∧
    s.getMaps 0 = [5] ∧ s.announce.map (fun es => (Pic.empty.follow es).f) = some [(3, 1), (2, 1), (1, 0)]) :=
  ex_of_any (by decide +kernel)

/-! ## C18 -/

theorem seqEv_some {a b : List Ev} : seqEv (some a) (some b) = some (a ++ b) := rfl

theorem unpublish_spec {s : Env} (hc : Closed s) (ha : Acyclic s) : ∀ n p, s.height p < n →
    ∃ evs, s.unpublish n p = some evs ∧ ∀ e, e ∈ evs ↔
      (∃ l, LinkBelow s p l ∧ e = mkEv s .frameTree .remove l.2 (some l.1)) ∨
      (∃ m f, (m, f) ∈ s.cmap ∧ Above s f p ∧ e = mkEv s .frameNode .remove m (some f)) := by
  intro n
  induction n with
  | zero => intro p h; omega
  | succ n ih =>
    intro p hp
    have hch : ∀ c, (c, p) ∈ s.ftree → ∃ evs,
        seqEv (if (s.getChildren c).length > 0 then s.unpublish n c else some [])
          (seqEv (collect (fun m => s.tell .frameNode .remove m (some c)) (s.getMaps c))
            (s.tell .frameTree .remove p (some c))) = some evs ∧ ∀ e, e ∈ evs ↔
          ((∃ l, LinkBelow s c l ∧ e = mkEv s .frameTree .remove l.2 (some l.1)) ∨
            (∃ m f, (m, f) ∈ s.cmap ∧ Above s f c ∧ e = mkEv s .frameNode .remove m (some f))) ∨
          (∃ m, (m, c) ∈ s.cmap ∧ e = mkEv s .frameNode .remove m (some c)) ∨
          e = mkEv s .frameTree .remove p (some c) := by
      intro c hcp
      have h1 : ∃ evs, (if (s.getChildren c).length > 0 then s.unpublish n c else some []) = some evs ∧ ∀ e, e ∈ evs ↔
          (∃ l, LinkBelow s c l ∧ e = mkEv s .frameTree .remove l.2 (some l.1)) ∨
          (∃ m f, (m, f) ∈ s.cmap ∧ Above s f c ∧ e = mkEv s .frameNode .remove m (some f)) := by
        split
        · exact ih c (by have := height_lt ha hcp; omega)
        · rename_i hz
          have hz : s.getChildren c = [] := List.length_eq_zero_iff.1 (by omega)
          have hno : ∀ x, ¬ Above s x c := by
            intro x hx
            obtain ⟨ch, h1, _⟩ := above_child hx
            have := mem_getChildren.2 h1
            rw [hz] at this; cases this
          refine ⟨[], rfl, fun e => ⟨(fun h => by cases h), ?_⟩⟩
          rintro (⟨l, ⟨h1, h2⟩, _⟩ | ⟨m, f, _, h2, _⟩)
          · rcases h2 with h2 | h2
            · have := mem_getChildren.2 (show (l.1, c) ∈ s.ftree from h2 ▸ h1)
              rw [hz] at this; cases this
            · exact absurd h2 (hno _)
          · exact absurd h2 (hno _)
      obtain ⟨e1, h1, m1⟩ := h1
      rw [h1, collect_single (f := fun m => s.tell .frameNode .remove m (some c))
        (g := fun m => mkEv s .frameNode .remove m (some c))
        (fun m hm => tell_here2 (hc.cmap _ (mem_getMaps.1 hm)).1.1 (hc.cmap _ (mem_getMaps.1 hm)).1.2),
        tell_here2 (hc.ftree _ hcp).1.2 (hc.ftree _ hcp).1.1, seqEv_some, seqEv_some]
      refine ⟨_, rfl, fun e => ?_⟩
      rw [List.mem_append, List.mem_append, m1, List.mem_map, List.mem_singleton]
      constructor
      · rintro (h | ⟨m, hm, rfl⟩ | h)
        · exact Or.inl h
        · exact Or.inr (Or.inl ⟨m, mem_getMaps.1 hm, rfl⟩)
        · exact Or.inr (Or.inr h)
      · rintro (h | ⟨m, hm, rfl⟩ | h)
        · exact Or.inl h
        · exact Or.inr (Or.inl ⟨m, mem_getMaps.2 hm, rfl⟩)
        · exact Or.inr (Or.inr h)
    obtain ⟨evs, he, hm⟩ := collect_mem (l := s.getChildren p) (fun c hc => by
      obtain ⟨ev, h, _⟩ := hch c (mem_getChildren.1 hc); exact ⟨ev, h⟩)
    refine ⟨evs, by unfold unpublish; exact he, fun e => ?_⟩
    rw [hm]
    constructor
    · rintro ⟨c, hcm, ev, hev, hee⟩
      have hcp := mem_getChildren.1 hcm
      obtain ⟨ev', h1, h2⟩ := hch c hcp
      rw [h1] at hev; cases hev
      rcases (h2 e).1 hee with (⟨l, ⟨k1, k2⟩, k3⟩ | ⟨m, f, k1, k2, k3⟩) | ⟨m, k1, k2⟩ | k
      · refine Or.inl ⟨l, ⟨k1, Or.inr ?_⟩, k3⟩
        rcases k2 with k2 | k2
        · rw [k2]; exact .one hcp
        · exact k2.trans (.one hcp)
      · exact Or.inr ⟨m, f, k1, k2.trans (.one hcp), k3⟩
      · exact Or.inr ⟨m, c, k1, .one hcp, k2⟩
      · exact Or.inl ⟨(c, p), ⟨hcp, Or.inl rfl⟩, k⟩
    · intro h
      have fin : ∀ c, (c, p) ∈ s.ftree →
          (((∃ l, LinkBelow s c l ∧ e = mkEv s .frameTree .remove l.2 (some l.1)) ∨
            (∃ m f, (m, f) ∈ s.cmap ∧ Above s f c ∧ e = mkEv s .frameNode .remove m (some f))) ∨
          (∃ m, (m, c) ∈ s.cmap ∧ e = mkEv s .frameNode .remove m (some c)) ∨
          e = mkEv s .frameTree .remove p (some c)) → ∃ x ∈ s.getChildren p, ∃ ev,
            seqEv (if (s.getChildren x).length > 0 then s.unpublish n x else some [])
          (seqEv (collect (fun m => s.tell .frameNode .remove m (some x)) (s.getMaps x))
            (s.tell .frameTree .remove p (some x))) = some ev ∧ e ∈ ev := by
        intro c hcp hx
        obtain ⟨ev, h1, h2⟩ := hch c hcp
        exact ⟨c, mem_getChildren.2 hcp, ev, h1, (h2 e).2 hx⟩
      rcases h with ⟨l, ⟨k1, k2⟩, k3⟩ | ⟨m, f, k1, k2, k3⟩
      · rcases k2 with k2 | k2
        · exact fin l.1 (k2 ▸ k1) (Or.inr (Or.inr (k2 ▸ k3)))
        · obtain ⟨c, hcp, hx⟩ := above_child k2
          exact fin c hcp (Or.inl (Or.inl ⟨l, ⟨k1, hx⟩, k3⟩))
      · obtain ⟨c, hcp, hx⟩ := above_child k2
        rcases hx with rfl | hx
        · exact fin f hcp (Or.inr (Or.inl ⟨m, k1, k3⟩))
        · exact fin c hcp (Or.inl (Or.inr ⟨m, f, k1, hx, k3⟩))

theorem mem_erase_pair1 {l : List (Obj × Obj)} (h : l.Nodup) {x : Obj × Obj} {a b : Obj} :
    x ∈ l.erase (b, a) ↔ x ∈ l ∧ (b = x.1 → ¬ x.2 = a) := by
  rw [h.mem_erase_iff, and_comm]
  refine and_congr_right fun _ => ⟨fun h1 h2 h3 => h1 (Prod.ext h2.symm h3), fun h1 h2 => ?_⟩
  subst h2; exact h1 rfl rfl

theorem mem_erase_pair2 {l : List (Obj × Obj)} (h : l.Nodup) {x : Obj × Obj} {a b : Obj} :
    x ∈ l.erase (a, b) ↔ x ∈ l ∧ (b = x.2 → ¬ x.1 = a) := by
  rw [h.mem_erase_iff, and_comm]
  refine and_congr_right fun _ => ⟨fun h1 h2 h3 => h1 (Prod.ext h3 h2.symm), fun h1 h2 => ?_⟩
  subst h2; exact h1 rfl rfl

/-- following events none of which adds anything: an entry survives iff it was there and is not retracted -/
theorem follow_removes (es : List Ev) (hes : ∀ e ∈ es, e.op = .remove) : ∀ A : Pic, A.items.Nodup → A.f.Nodup → A.c.Nodup →
    (∀ x, x ∈ (A.follow es).items ↔ x ∈ A.items ∧ ∀ e ∈ es, ¬ (e.ty = .item ∧ e.b = none ∧ x = (e.ida, e.a))) ∧
    (∀ x, x ∈ (A.follow es).f ↔ x ∈ A.f ∧ ∀ e ∈ es, ¬ (e.ty = .frameTree ∧ e.b = some x.1 ∧ x.2 = e.a)) ∧
    (∀ x, x ∈ (A.follow es).c ↔ x ∈ A.c ∧ ∀ e ∈ es, ¬ (e.ty = .frameNode ∧ e.b = some x.2 ∧ x.1 = e.a)) ∧
    ((∀ e ∈ es, e.ty ≠ .layerTree) → (A.follow es).l = A.l) := by
  induction es with
  | nil =>
    intro A _ _ _
    refine ⟨?_, ?_, ?_, fun _ => rfl⟩ <;> intro x <;> simp [Pic.follow]
  | cons e es ih =>
    intro A h1 h2 h3
    have hop := hes e (by simp)
    obtain ⟨ty, op, a, b, ida, idb⟩ := e
    dsimp only at hop
    subst hop
    let B := A.apply ⟨ty, .remove, a, b, ida, idb⟩
    have hB : A.follow (⟨ty, .remove, a, b, ida, idb⟩ :: es) = B.follow es := rfl
    have n1 : B.items.Nodup := by
      cases ty <;> cases b <;> first | exact h1 | exact h1.erase _
    have n2 : B.f.Nodup := by
      cases ty <;> cases b <;> first | exact h2 | exact h2.erase _
    have n3 : B.c.Nodup := by
      cases ty <;> cases b <;> first | exact h3 | exact h3.erase _
    obtain ⟨i1, i2, i3, i4⟩ := ih (fun e he => hes e (by simp [he])) B n1 n2 n3
    rw [hB]
    refine ⟨fun x => ?_, fun x => ?_, fun x => ?_, fun hl => ?_⟩
    · rw [i1]
      simp only [List.forall_mem_cons]
      rw [← and_assoc]
      refine and_congr_left fun _ => ?_
      cases ty <;> cases b <;> simp [B, Pic.apply, h1.mem_erase_iff, and_comm]
    · rw [i2]
      simp only [List.forall_mem_cons]
      rw [← and_assoc]
      refine and_congr_left fun _ => ?_
      cases ty <;> cases b <;> simp [B, Pic.apply, mem_erase_pair1 h2]
    · rw [i3]
      simp only [List.forall_mem_cons]
      rw [← and_assoc]
      refine and_congr_left fun _ => ?_
      cases ty <;> cases b <;> simp [B, Pic.apply, mem_erase_pair2 h3]
    · rw [i4 (fun e he => hl e (by simp [he]))]
      have : ty ≠ .layerTree := hl _ (List.mem_cons_self ..)
      cases ty <;> cases b <;> first | rfl | exact absurd rfl this

/-- **C18 (what unsubscribing retracts, exactly)** for every state reached by well-used calls, with an acyclic frame
forest and the root attached, and a handler whose picture is right: all items and the frame links below the root
are retracted; the links of maps on frames *strictly* below the root; no layer link. -/
theorem C18_retract_exact {r : Obj} {s : Env} (h : Reach Good r s) (ha : Acyclic s) (hr : s.owner s.rootNode = .here)
    {A : Pic} (hA : Rep s A) :
    ∃ es, s.retract = some es ∧ (A.follow es).items = [] ∧
      (∀ e, e ∈ (A.follow es).f ↔ e ∈ s.ftree ∧ ¬ LinkBelow s s.rootNode e) ∧
      (∀ e, e ∈ (A.follow es).c ↔ e ∈ s.cmap ∧ ¬ Above s e.2 s.rootNode) ∧ (A.follow es).l = A.l := by
  obtain ⟨hw, hc⟩ := h.wf_closed
  obtain ⟨evs, h1, h2⟩ := unpublish_spec hc ha (s.ftree.length + 1) s.rootNode (height_le_links s _)
  have hsh := hA.shows hw
  refine ⟨evs ++ ([mkEv s .root .remove s.rootNode none] ++ s.items.map (fun e => mkEv s .item .remove e.2 none)), ?_, ?_⟩
  · unfold retract
    rw [h1, tell_here1 hr, collect_single (f := fun (e : Uid × Obj) => s.tell .item .remove e.2 none)
      (g := fun e => mkEv s .item .remove e.2 none) (fun e he => tell_here1 ((hw.items_iff e.1 e.2).1 he).1)]
    rfl
  have hmem : ∀ e, e ∈ evs ++ ([mkEv s .root .remove s.rootNode none] ++
      s.items.map (fun e => mkEv s .item .remove e.2 none)) ↔
      ((∃ l, LinkBelow s s.rootNode l ∧ e = mkEv s .frameTree .remove l.2 (some l.1)) ∨
      (∃ m f, (m, f) ∈ s.cmap ∧ Above s f s.rootNode ∧ e = mkEv s .frameNode .remove m (some f))) ∨
      e = mkEv s .root .remove s.rootNode none ∨ ∃ x ∈ s.items, e = mkEv s .item .remove x.2 none := by
    intro e
    rw [List.mem_append, List.mem_append, h2, List.mem_singleton, List.mem_map]
    simp only [eq_comm]
  obtain ⟨i1, i2, i3, i4⟩ := follow_removes (evs ++ ([mkEv s .root .remove s.rootNode none] ++
      s.items.map (fun e => mkEv s .item .remove e.2 none))) (by
    intro e he
    rcases (hmem e).1 he with (⟨l, _, rfl⟩ | ⟨m, f, _, _, rfl⟩) | rfl | ⟨x, _, rfl⟩ <;> rfl) A hsh.once hsh.parentOnce
    hsh.frameOnce
  refine ⟨?_, ?_, ?_, ?_⟩
  · rw [List.eq_nil_iff_forall_not_mem]
    intro x hx
    obtain ⟨k1, k2⟩ := (i1 x).1 hx
    have hxs := hA.items.mem_iff.1 k1
    refine k2 (mkEv s .item .remove x.2 none) ((hmem _).2 (Or.inr (Or.inr ⟨x, hxs, rfl⟩))) ⟨rfl, rfl, ?_⟩
    show x = (s.uid x.2, x.2)
    rw [((hw.items_iff x.1 x.2).1 hxs).2]
  · intro e
    rw [i2, hA.f.mem_iff]
    refine and_congr_right fun _ => ⟨fun k hb => ?_, fun k e' he' hx => ?_⟩
    · exact k (mkEv s .frameTree .remove e.2 (some e.1)) ((hmem _).2 (Or.inl (Or.inl ⟨e, hb, rfl⟩))) ⟨rfl, rfl, rfl⟩
    · rcases (hmem _).1 he' with (⟨l, hl, rfl⟩ | ⟨m, f, _, _, rfl⟩) | rfl | ⟨x, _, rfl⟩
      · have h1 : some l.1 = some e.1 := hx.2.1
        have h2 : e.2 = l.2 := hx.2.2
        have : e = l := Prod.ext (Option.some.inj h1).symm h2
        exact k (this ▸ hl)
      · exact absurd hx.1 (by simp [mkEv])
      · exact absurd hx.1 (by simp [mkEv])
      · exact absurd hx.1 (by simp [mkEv])
  · intro e
    rw [i3, hA.c.mem_iff]
    refine and_congr_right fun hes => ⟨fun k hb => ?_, fun k e' he' hx => ?_⟩
    · exact k (mkEv s .frameNode .remove e.1 (some e.2)) ((hmem _).2 (Or.inl (Or.inr ⟨e.1, e.2, hes, hb, rfl⟩)))
        ⟨rfl, rfl, rfl⟩
    · rcases (hmem _).1 he' with (⟨l, hl, rfl⟩ | ⟨m, f, h1, h2, rfl⟩) | rfl | ⟨x, _, rfl⟩
      · exact absurd hx.1 (by simp [mkEv])
      · have h3 : some f = some e.2 := hx.2.1
        exact k (Option.some.inj h3 ▸ h2)
      · exact absurd hx.1 (by simp [mkEv])
      · exact absurd hx.1 (by simp [mkEv])
  · apply i4
    intro e he
    rcases (hmem e).1 he with (⟨l, _, rfl⟩ | ⟨m, f, _, _, rfl⟩) | rfl | ⟨x, _, rfl⟩ <;> simp [mkEv]

/-- **C18** after unsubscribing the picture is empty if all frame links are below the root, no map is on the root
itself and there are no layer links. Missing for the full claim: exactly these three cases. -/
theorem C18_unsubscribe_partial {r : Obj} {s : Env} (h : Reach Good r s) (ha : Acyclic s)
    (hr : s.owner s.rootNode = .here) {A : Pic} (hA : Rep s A) (hf : ∀ e ∈ s.ftree, LinkBelow s s.rootNode e)
    (hm : ∀ e ∈ s.cmap, Above s e.2 s.rootNode) (hl : A.l = []) :
    ∃ es, s.retract = some es ∧ A.follow es = Pic.empty := by
  obtain ⟨es, h1, h2, h3, h4, h5⟩ := C18_retract_exact h ha hr hA
  refine ⟨es, h1, ?_⟩
  have e1 : (A.follow es).f = [] := by
    rw [List.eq_nil_iff_forall_not_mem]
    intro x hx; have := (h3 x).1 hx; exact this.2 (hf x this.1)
  have e2 : (A.follow es).c = [] := by
    rw [List.eq_nil_iff_forall_not_mem]
    intro x hx; have := (h4 x).1 hx; exact this.2 (hm x this.1)
  cases hB : A.follow es with
  | mk i f l c =>
    rw [hB] at h2 e1 e2 h5
    dsimp only at h2 e1 e2 h5
    rw [h2, e1, e2, h5, hl]; rfl

/-- **C18, the code violates the property**: map 5 is on the root; a handler that knew everything still believes in
the link of map 5 after it was removed. -/
theorem C18_root_maps_not_retracted :
    ∃ s, run (init 0) pubHistory = some s ∧
      (s.announce.bind (fun es => s.retract.map (fun es' => Pic.empty.follow (es ++ es'))) =
        some ⟨[], [], [], [(5, 0)]⟩) :=
  ex_of_any (by decide +kernel)

/-! ## C19 -/

theorem deliver_not_mem {pass : Nat → Ev → Bool} {hs : List Nat} {h : Nat} (hn : h ∉ hs) (got : Nat → List Ev) (e : Ev) :
    deliver pass hs got e h = got h := by
  unfold deliver
  induction hs generalizing got with
  | nil => rfl
  | cons x xs ih =>
    simp only [List.mem_cons, not_or] at hn
    rw [List.foldl_cons, ih hn.2]
    split
    · exact if_neg hn.1
    · rfl

theorem deliver_once {pass : Nat → Ev → Bool} {hs : List Nat} {h : Nat} (hn : hs.count h = 1) (got : Nat → List Ev) (e : Ev) :
    deliver pass hs got e h = got h ++ [e].filter (pass h) := by
  induction hs generalizing got with
  | nil => cases hn
  | cons x xs ih =>
    by_cases hx : x = h
    · subst hx
      rw [List.count_cons_self] at hn
      have hn' : x ∉ xs := List.count_eq_zero.1 (by omega)
      have := deliver_not_mem (pass := pass) hn' (if pass x e then (fun y => if y = x then got y ++ [e] else got y) else got) e
      unfold deliver at *
      rw [List.foldl_cons, this]
      by_cases hp : pass x e = true
      · rw [if_pos hp]; simp [hp]
      · rw [if_neg hp]; simp [hp]
    · rw [List.count_cons_of_ne hx] at hn
      have := ih hn (if pass x e then (fun y => if y = x then got y ++ [e] else got y) else got)
      unfold deliver at *
      rw [List.foldl_cons, this]
      split
      · dsimp only; rw [if_neg (fun h => hx h.symm)]
      · rfl

theorem deliver_list_once {pass : Nat → Ev → Bool} {hs : List Nat} {h : Nat} (hn : hs.count h = 1) (es : List Ev) :
    ∀ got : Nat → List Ev, es.foldl (deliver pass hs) got h = got h ++ es.filter (pass h) := by
  induction es with
  | nil => intro got; simp
  | cons e es ih =>
    intro got
    rw [List.foldl_cons, ih, deliver_once hn, List.append_assoc, ← List.filter_append]
    rfl

theorem deliver_list_not_mem {pass : Nat → Ev → Bool} {hs : List Nat} {h : Nat} (hn : h ∉ hs) (es : List Ev) :
    ∀ got : Nat → List Ev, es.foldl (deliver pass hs) got h = got h := by
  induction es with
  | nil => intro got; rfl
  | cons e es ih => intro got; rw [List.foldl_cons, ih, deliver_not_mem hn]

/-- the calls of the history follow the rules of use -/
def HubLegal (pass : Nat → Ev → Bool) : Hub → List HOp → Prop
  | _, [] => True
  | H, o :: os => (match o with | .call op => Legal H.env op | _ => True) ∧
      ∀ H', H.step pass o = some H' → HubLegal pass H' os

theorem step_log_prefix {s s' : Env} (hw : WF s) {op : Op} (hl : Legal s op) (h : Env.Res.state? (s.step op) = some s') :
    WF s' ∧ ∃ es, s'.log = s.log ++ es := by
  have h1 := (hw.exec op hl).and (exec_ext (g := False) (d := False) hw op hl (fun h => h.elim) (fun h => h.elim))
  unfold Env.step at h
  split at h
  · cases h
  split at h
  · cases h
  have h2 : ∀ {t : Env}, WF t ∧ Ext False False s t → WF t ∧ ∃ es, t.log = s.log ++ es := by
    rintro t ⟨w, e⟩
    obtain ⟨es, he, _⟩ := e ⟨s.items, s.ftree, s.ltree, s.cmap⟩
      ⟨List.Perm.refl _, List.Perm.refl _, List.Perm.refl _, fun _ => rfl⟩
    exact ⟨w, es, he⟩
  cases hx : s.exec op with
  | ok t => rw [hx] at h h1; cases h; exact h2 h1
  | throw t => rw [hx] at h h1; cases h; exact h2 h1
  | fault => rw [hx] at h; cases h

/-- while a handler is registered once it gets every event exactly once, in order -/
theorem hub_registered {pass : Nat → Ev → Bool} {h : Nat} (os : List HOp) (ho : ∀ o ∈ os, o ≠ .sub h ∧ o ≠ .unsub h) :
    ∀ {H H' : Hub}, WF H.env → H.hs.count h = 1 → HubLegal pass H os → H.run pass os = some H' →
      WF H'.env ∧ H'.hs.count h = 1 ∧
      ∃ es, H'.env.log = H.env.log ++ es ∧ H'.got h = H.got h ++ es.filter (pass h) := by
  induction os with
  | nil => intro H H' hw hc _ hr; cases hr; exact ⟨hw, hc, [], by simp, by simp⟩
  | cons o os ih =>
    intro H H' hw hc hl hr
    unfold Hub.run at hr
    obtain ⟨hl1, hl2⟩ := hl
    cases hst : H.step pass o with
    | none => rw [hst] at hr; cases hr
    | some H1 =>
      rw [hst] at hr
      have hn := ho o (by simp)
      have rest := fun hw1 hc1 => ih (fun x hx => ho x (by simp [hx])) (H := H1) hw1 hc1 (hl2 H1 hst) hr
      cases o with
      | call op =>
        unfold Hub.step at hst
        dsimp only at hst
        cases hx : Env.Res.state? (H.env.step op) with
        | none => rw [hx] at hst; cases hst
        | some s' =>
          rw [hx] at hst; cases hst
          obtain ⟨w1, es1, he1⟩ := step_log_prefix hw hl1 hx
          obtain ⟨w2, c2, es2, l2, g2⟩ := rest w1 hc
          refine ⟨w2, c2, es1 ++ es2, ?_, ?_⟩
          · rw [l2, he1, List.append_assoc]
          · rw [g2]; dsimp only; rw [he1, List.drop_left, deliver_list_once hc, List.filter_append, List.append_assoc]
      | sub k =>
        have hk : k ≠ h := fun e => hn.1 (e ▸ rfl)
        unfold Hub.step at hst
        dsimp only at hst
        cases hx : H.env.announce with
        | none => rw [hx] at hst; cases hst
        | some es =>
          rw [hx] at hst; cases hst
          obtain ⟨w2, c2, es2, l2, g2⟩ := rest hw (by
            show (H.hs ++ [k]).count h = 1
            rw [List.count_append, hc, List.count_singleton]; simp [hk])
          refine ⟨w2, c2, es2, l2, ?_⟩
          rw [g2]
          dsimp only
          rw [deliver_list_not_mem (by simpa using fun e => hk e.symm)]
      | unsub k =>
        have hk : k ≠ h := fun e => hn.2 (e ▸ rfl)
        unfold Hub.step at hst
        dsimp only at hst
        cases hx : H.env.retract with
        | none => rw [hx] at hst; cases hst
        | some es =>
          rw [hx] at hst; cases hst
          obtain ⟨w2, c2, es2, l2, g2⟩ := rest hw (by
            show (H.hs.filter (fun x => decide (x ≠ k))).count h = 1
            rw [List.count_filter (by simpa using fun e => hk e.symm), hc])
          refine ⟨w2, c2, es2, l2, ?_⟩
          rw [g2]
          dsimp only
          rw [deliver_list_not_mem (by simpa using fun e => hk e.symm)]

/-- a handler that is not registered gets nothing -/
theorem hub_unregistered {pass : Nat → Ev → Bool} {h : Nat} (os : List HOp) (ho : ∀ o ∈ os, o ≠ .sub h ∧ o ≠ .unsub h) :
    ∀ {H H' : Hub}, h ∉ H.hs → H.run pass os = some H' → h ∉ H'.hs ∧ H'.got h = H.got h := by
  induction os with
  | nil => intro H H' hc hr; cases hr; exact ⟨hc, rfl⟩
  | cons o os ih =>
    intro H H' hc hr
    unfold Hub.run at hr
    cases hst : H.step pass o with
    | none => rw [hst] at hr; cases hr
    | some H1 =>
      rw [hst] at hr
      have hn := ho o (by simp)
      have rest := fun hc1 => ih (fun x hx => ho x (by simp [hx])) (H := H1) hc1 hr
      cases o with
      | call op =>
        unfold Hub.step at hst
        dsimp only at hst
        cases hx : Env.Res.state? (H.env.step op) with
        | none => rw [hx] at hst; cases hst
        | some s' =>
          rw [hx] at hst; cases hst
          obtain ⟨c2, g2⟩ := rest hc
          exact ⟨c2, by rw [g2]; exact deliver_list_not_mem hc _ _⟩
      | sub k =>
        have hk : h ≠ k := fun e => hn.1 (e ▸ rfl)
        unfold Hub.step at hst
        dsimp only at hst
        cases hx : H.env.announce with
        | none => rw [hx] at hst; cases hst
        | some es =>
          rw [hx] at hst; cases hst
          obtain ⟨c2, g2⟩ := rest (by simp [hc, hk])
          exact ⟨c2, by rw [g2]; exact deliver_list_not_mem (by simpa using hk) _ _⟩
      | unsub k =>
        have hk : h ≠ k := fun e => hn.2 (e ▸ rfl)
        unfold Hub.step at hst
        dsimp only at hst
        cases hx : H.env.retract with
        | none => rw [hx] at hst; cases hst
        | some es =>
          rw [hx] at hst; cases hst
          obtain ⟨c2, g2⟩ := rest (by simp [hc])
          exact ⟨c2, by rw [g2]; exact deliver_list_not_mem (by simpa using hk) _ _⟩

/-- **C19** From any hub in which `h` is not registered: register `h`, then any calls and any registrations and removals of
*other* handlers, then remove `h`, then again anything not about `h`. What `h` received is exactly: the announcement,
every event emitted between registration and removal once and in emission order, the retraction - each thinned out by
its filter only; and nothing afterwards. -/
theorem C19_every_event_once {pass : Nat → Ev → Bool} {h : Nat} {H H' : Hub} {os1 os2 : List HOp}
    (hw : WF H.env) (hn : h ∉ H.hs) (h1 : ∀ o ∈ os1, o ≠ .sub h ∧ o ≠ .unsub h)
    (h2 : ∀ o ∈ os2, o ≠ .sub h ∧ o ≠ .unsub h) (hl : HubLegal pass H (.sub h :: os1 ++ .unsub h :: os2))
    (hr : H.run pass (.sub h :: os1 ++ .unsub h :: os2) = some H') :
    ∃ H1 first during last, H.run pass (.sub h :: os1) = some H1 ∧ H.env.announce = some first ∧
      H1.env.log = H.env.log ++ during ∧ H1.env.retract = some last ∧
      H'.got h = H.got h ++ (first ++ during ++ last).filter (pass h) := by
  have run_append : ∀ (a b : List HOp) (H : Hub), H.run pass (a ++ b) = (H.run pass a).bind (fun K => K.run pass b) := by
    intro a
    induction a with
    | nil => intro b H; rfl
    | cons x xs ih =>
      intro b H
      show (match H.step pass x with | none => none | some K => K.run pass (xs ++ b)) =
        (match H.step pass x with | none => none | some K => K.run pass xs).bind (fun K => K.run pass b)
      cases H.step pass x with
      | none => rfl
      | some K => exact ih b K
  have legal_append : ∀ (a b : List HOp) (H : Hub), HubLegal pass H (a ++ b) → HubLegal pass H a ∧
      ∀ K, H.run pass a = some K → HubLegal pass K b := by
    intro a
    induction a with
    | nil => intro b H h; exact ⟨trivial, fun K hK => by cases hK; exact h⟩
    | cons x xs ih =>
      intro b H h
      refine ⟨⟨h.1, fun K hK => (ih b K (h.2 K hK)).1⟩, fun K hK => ?_⟩
      unfold Hub.run at hK
      cases hx : H.step pass x with
      | none => rw [hx] at hK; cases hK
      | some K1 => rw [hx] at hK; exact (ih b K1 (h.2 K1 hx)).2 K hK
  rw [run_append] at hr
  obtain ⟨hl1, hl2⟩ := legal_append _ _ _ hl
  cases hH1 : H.run pass (.sub h :: os1) with
  | none => rw [hH1] at hr; cases hr
  | some H1 =>
    rw [hH1] at hr
    have hr2 : H1.run pass (.unsub h :: os2) = some H' := hr
    have hH1' := hH1
    unfold Hub.run Hub.step at hH1'
    dsimp only at hH1'
    cases ha : H.env.announce with
    | none => rw [ha] at hH1'; cases hH1'
    | some first =>
      rw [ha] at hH1'
      dsimp only at hH1'
      have hcnt : (H.hs ++ [h]).count h = 1 := by
        rw [List.count_append, List.count_eq_zero.2 hn]; simp
      obtain ⟨w1, c1, during, d1, g1⟩ := hub_registered os1 h1 (H := ⟨H.env, H.hs ++ [h],
        first.foldl (deliver pass [h]) H.got⟩) hw hcnt (hl1.2 _ (by unfold Hub.step; rw [ha])) hH1'
      unfold Hub.run Hub.step at hr2
      dsimp only at hr2
      cases hb : H1.env.retract with
      | none => rw [hb] at hr2; cases hr2
      | some last =>
        rw [hb] at hr2
        dsimp only at hr2
        obtain ⟨_, g2⟩ := hub_unregistered os2 h2 (by simp) hr2
        refine ⟨H1, first, during, last, rfl, rfl, d1, hb, ?_⟩
        rw [g2]
        dsimp only
        rw [deliver_list_once (by simp), g1]
        dsimp only
        rw [deliver_list_once (by simp)]
        simp [List.filter_append, List.append_assoc]

/-- the hypotheses of C19 are met with three handlers, one of which filters, and handlers coming and going in between;
the filtering handler 7 gets the frame events only -/
example : ((Hub.mk (init 0) [3] (fun _ => [])).run (fun h e => h != 7 || e.ty == .frameTree)
    [.sub 7, .call (.alloc 1 .frame [] false 0 0), .sub 4, .call (.addChildF 0 1), .unsub 3, .call (.removeChildF 0 1),
     .unsub 7, .call (.addChildF 0 1)]).map (fun H => ((H.got 7).map (fun e => (e.op, e.b)), (H.got 3).length)) =
    some ([(.add, some 1), (.remove, some 1)], 6) := by decide +kernel

end Envire

#print axioms Envire.C16_stream_complete
#print axioms Envire.C17_snapshot_exact
#print axioms Envire.C17_late_subscriber_partial
#print axioms Envire.C17_snapshot_incomplete
#print axioms Envire.C18_retract_exact
#print axioms Envire.C18_unsubscribe_partial
#print axioms Envire.C18_root_maps_not_retracted
#print axioms Envire.C19_every_event_once
