import Verif.Core.ReplicaProps
import Verif.Serial.SyncModel
/-! What `Event::apply` does with events that do not fit exactly: items that are already there, links whose ends are
missing, links that replace others (`lenient` in Event.cpp l.103-262). On the level of ids. -/
namespace Envire.Sync
open Env Replica

/-- the facts at the receiver after an event, whether it fits or not -/
def lenient (S : Facts) (e : Ev) : Facts :=
  match e.ty, e.op with
  | .item, .add => S.set (.item e.ida) true
  | .item, .update => S.set (.item e.ida) true
  | .frameTree, .add => if S (.item e.ida) && S (.item e.idb) then
      fun k => match k with
        | .frame c p => if c = e.idb then decide (p = e.ida) else S (.frame c p)
        | k => S k
      else S
  | .frameNode, .add => if S (.item e.ida) && S (.item e.idb) then
      fun k => match k with
        | .map m f => if m = e.ida then decide (f = e.idb) else S (.map m f)
        | k => S k
      else S
  | .layerTree, .add => if S (.item e.ida) && S (.item e.idb) then S.set (.layer e.idb e.ida) true else S
  | .frameTree, .remove => S.set (.frame e.idb e.ida) false
  | .frameNode, .remove => S.set (.map e.ida e.idb) false
  | .layerTree, .remove => S.set (.layer e.idb e.ida) false
  | _, _ => S

/-- the events covered: no removal of an item the receiver has, no second copy of a layer link, no link of an item to
itself, updates for items only -/
def LOk (S : Facts) (e : Ev) : Prop :=
  e.shape ∧ (e.ty = .item → e.op = .update → goodId e.ida = true) ∧ match e.ty, e.op with
  | .item, .remove => S (.item e.ida) = false
  | .item, _ => True
  | .root, .update => False
  | .root, _ => True
  | _, .update => False
  | .frameTree, .add => e.ida ≠ e.idb
  | .layerTree, .add => e.ida ≠ e.idb ∧ S (.layer e.idb e.ida) = false
  | _, _ => True

theorem shape_link {ty : EvType} (h : ty ≠ .item ∧ ty ≠ .root) (op : EvOp) (a : Obj) (b : Option Obj) (i j : Uid) :
    Ev.shape ⟨ty, op, a, b, i, j⟩ :=
  ⟨fun hh => (hh.elim h.1 h.2).elim, fun hh => (h.1 hh).elim⟩

theorem set_eq {S : Facts} {k : Key} {v : Bool} (h : S k = v) : S.set k v = S := by
  funext x
  unfold Facts.set
  split
  · rename_i e; rw [e, h]
  · rfl

theorem valid_unset {S : Facts} (hS : S.Valid) {k : Key} (hk : ∀ i, k ≠ .item i) : (S.set k false).Valid := by
  have keep : ∀ x, Facts.set S k false x = true → S x = true := by
    intro x h
    unfold Facts.set at h
    split at h
    · cases h
    · exact h
  have it : ∀ i, Facts.set S k false (.item i) = S (.item i) := fun i => Facts.set_ne _ _ (fun e => hk i e.symm)
  constructor
  · intro c p h; rw [it, it]; exact hS.frame c p (keep _ h)
  · intro c p h; rw [it, it]; exact hS.layer c p (keep _ h)
  · intro c p h; rw [it, it]; exact hS.map c p (keep _ h)
  · intro c p p' h h'; exact hS.parent c p p' (keep _ h) (keep _ h')
  · intro c p p' h h'; exact hS.place c p p' (keep _ h) (keep _ h')

theorem valid_item {S : Facts} (hS : S.Valid) (i : Uid) : (S.set (.item i) true).Valid := by
  have it : ∀ j, S (.item j) = true → Facts.set S (.item i) true (.item j) = true := by
    intro j h
    unfold Facts.set
    split
    · rfl
    · exact h
  have fr : ∀ k, (∀ j, k ≠ .item j) → Facts.set S (.item i) true k = S k := fun k h => Facts.set_ne _ _ (h i)
  constructor
  · intro c p h
    rw [fr _ (by simp)] at h
    obtain ⟨a, b, c⟩ := hS.frame _ _ h
    exact ⟨it _ a, it _ b, c⟩
  · intro c p h
    rw [fr _ (by simp)] at h
    obtain ⟨a, b, c⟩ := hS.layer _ _ h
    exact ⟨it _ a, it _ b, c⟩
  · intro c p h
    rw [fr _ (by simp)] at h
    obtain ⟨a, b⟩ := hS.map _ _ h
    exact ⟨it _ a, it _ b⟩
  · intro c p p' h h'
    rw [fr _ (by simp)] at h h'
    exact hS.parent _ _ _ h h'
  · intro c p p' h h'
    rw [fr _ (by simp)] at h h'
    exact hS.place _ _ _ h h'

theorem valid_layer {S : Facts} (hS : S.Valid) {c p : Uid} (h1 : S (.item c) = true) (h2 : S (.item p) = true) (h3 : c ≠ p) :
    (S.set (.layer c p) true).Valid := by
  have it : ∀ k, (∀ c p, k ≠ .layer c p) → Facts.set S (.layer c p) true k = S k := fun k h => Facts.set_ne _ _ (h c p)
  constructor
  · intro c p h
    rw [it _ (by simp)] at h
    rw [it _ (by simp), it _ (by simp)]; exact hS.frame _ _ h
  · intro c' p' h
    rw [it _ (by simp), it _ (by simp)]
    unfold Facts.set at h
    split at h
    · rename_i e; cases e; exact ⟨h1, h2, h3⟩
    · exact hS.layer _ _ h
  · intro c p h
    rw [it _ (by simp)] at h
    rw [it _ (by simp), it _ (by simp)]; exact hS.map _ _ h
  · intro c p p' h h'
    rw [it _ (by simp)] at h h'
    exact hS.parent _ _ _ h h'
  · intro c p p' h h'
    rw [it _ (by simp)] at h h'
    exact hS.place _ _ _ h h'

/-- a frame gets a parent, the one before is dropped -/
def reparent (S : Facts) (c p : Uid) : Facts := fun k => match k with
  | .frame c' p' => if c' = c then decide (p' = p) else S (.frame c' p')
  | k => S k

/-- a map gets a frame, the one before is dropped -/
def replace (S : Facts) (m f : Uid) : Facts := fun k => match k with
  | .map m' f' => if m' = m then decide (f' = f) else S (.map m' f')
  | k => S k

theorem reparent_valid {S : Facts} (hS : S.Valid) {c p : Uid} (h1 : S (.item c) = true) (h2 : S (.item p) = true) (h3 : c ≠ p) :
    (reparent S c p).Valid where
  frame := by
    intro c' p' h
    show S _ = true ∧ S _ = true ∧ _
    change (if c' = c then decide (p' = p) else S (.frame c' p')) = true at h
    split at h
    · rename_i e; have := of_decide_eq_true h; subst this; subst e; exact ⟨h1, h2, h3⟩
    · exact hS.frame _ _ h
  layer := hS.layer
  map := hS.map
  parent := by
    intro c' p' p'' h h'
    change (if c' = c then decide (p' = p) else S (.frame c' p')) = true at h
    change (if c' = c then decide (p'' = p) else S (.frame c' p'')) = true at h'
    split at h
    · rename_i e; rw [if_pos e] at h'; rw [of_decide_eq_true h, of_decide_eq_true h']
    · rename_i e; rw [if_neg e] at h'; exact hS.parent _ _ _ h h'
  place := hS.place

theorem replace_valid {S : Facts} (hS : S.Valid) {c p : Uid} (h1 : S (.item c) = true) (h2 : S (.item p) = true) :
    (replace S c p).Valid where
  map := by
    intro c' p' h
    show S _ = true ∧ S _ = true
    change (if c' = c then decide (p' = p) else S (.map c' p')) = true at h
    split at h
    · rename_i e; have := of_decide_eq_true h; subst this; subst e; exact ⟨h1, h2⟩
    · exact hS.map _ _ h
  layer := hS.layer
  frame := hS.frame
  place := by
    intro c' p' p'' h h'
    change (if c' = c then decide (p' = p) else S (.map c' p')) = true at h
    change (if c' = c then decide (p'' = p) else S (.map c' p'')) = true at h'
    split at h
    · rename_i e; rw [if_pos e] at h'; rw [of_decide_eq_true h, of_decide_eq_true h']
    · rename_i e; rw [if_neg e] at h'; exact hS.place _ _ _ h h'
  parent := hS.parent

/-- two different keys set one after the other: drop the old link, add the new one -/
theorem reparent_eq {S : Facts} (hS : S.Valid) {c p q : Uid} (hq : S (.frame c q) = true) :
    reparent S c p = (S.set (.frame c q) false).set (.frame c p) true := by
  funext k
  by_cases hk : ∃ c' p', k = .frame c' p'
  · obtain ⟨c', p', rfl⟩ := hk
    show (if c' = c then decide (p' = p) else S (.frame c' p')) = _
    by_cases hc : c' = c
    · subst hc
      rw [if_pos rfl]
      by_cases hp : p' = p
      · subst hp; rw [Facts.set_self]; simp
      · rw [Facts.set_ne _ _ (by simpa using hp), decide_eq_false hp]
        by_cases hp' : p' = q
        · subst hp'; rw [Facts.set_self]
        · rw [Facts.set_ne _ _ (by simpa using hp')]
          cases h : S (.frame c' p') with
          | false => rfl
          | true => exact absurd (hS.parent _ _ _ h hq) hp'
    · rw [if_neg hc, Facts.set_ne _ _ (by simp [hc]), Facts.set_ne _ _ (by simp [hc])]
  · rw [Facts.set_ne _ _ (fun e => hk ⟨_, _, e⟩), Facts.set_ne _ _ (fun e => hk ⟨_, _, e⟩)]
    cases k with
    | frame c' p' => exact absurd ⟨_, _, rfl⟩ hk
    | _ => rfl

theorem replace_eq {S : Facts} (hS : S.Valid) {c p q : Uid} (hq : S (.map c q) = true) :
    replace S c p = (S.set (.map c q) false).set (.map c p) true := by
  funext k
  by_cases hk : ∃ c' p', k = .map c' p'
  · obtain ⟨c', p', rfl⟩ := hk
    show (if c' = c then decide (p' = p) else S (.map c' p')) = _
    by_cases hc : c' = c
    · subst hc
      rw [if_pos rfl]
      by_cases hp : p' = p
      · subst hp; rw [Facts.set_self]; simp
      · rw [Facts.set_ne _ _ (by simpa using hp), decide_eq_false hp]
        by_cases hp' : p' = q
        · subst hp'; rw [Facts.set_self]
        · rw [Facts.set_ne _ _ (by simpa using hp')]
          cases h : S (.map c' p') with
          | false => rfl
          | true => exact absurd (hS.place _ _ _ h hq) hp'
    · rw [if_neg hc, Facts.set_ne _ _ (by simp [hc]), Facts.set_ne _ _ (by simp [hc])]
  · rw [Facts.set_ne _ _ (fun e => hk ⟨_, _, e⟩), Facts.set_ne _ _ (fun e => hk ⟨_, _, e⟩)]
    cases k with
    | map c' p' => exact absurd ⟨_, _, rfl⟩ hk
    | _ => rfl

theorem reparent_new {S : Facts} {c p : Uid} (hn : ∀ q, S (.frame c q) = false) : reparent S c p = S.set (.frame c p) true := by
  funext k
  by_cases hk : ∃ c' p', k = .frame c' p'
  · obtain ⟨c', p', rfl⟩ := hk
    show (if c' = c then decide (p' = p) else S (.frame c' p')) = _
    by_cases hc : c' = c
    · subst hc
      rw [if_pos rfl]
      by_cases hp : p' = p
      · subst hp; rw [Facts.set_self]; simp
      · rw [Facts.set_ne _ _ (by simpa using hp), decide_eq_false hp, hn]
    · rw [if_neg hc, Facts.set_ne _ _ (by simp [hc])]
  · rw [Facts.set_ne _ _ (fun e => hk ⟨_, _, e⟩)]
    cases k with
    | frame c' p' => exact absurd ⟨_, _, rfl⟩ hk
    | _ => rfl

theorem replace_new {S : Facts} {c p : Uid} (hn : ∀ q, S (.map c q) = false) : replace S c p = S.set (.map c p) true := by
  funext k
  by_cases hk : ∃ c' p', k = .map c' p'
  · obtain ⟨c', p', rfl⟩ := hk
    show (if c' = c then decide (p' = p) else S (.map c' p')) = _
    by_cases hc : c' = c
    · subst hc
      rw [if_pos rfl]
      by_cases hp : p' = p
      · subst hp; rw [Facts.set_self]; simp
      · rw [Facts.set_ne _ _ (by simpa using hp), decide_eq_false hp, hn]
    · rw [if_neg hc, Facts.set_ne _ _ (by simp [hc])]
  · rw [Facts.set_ne _ _ (fun e => hk ⟨_, _, e⟩)]
    cases k with
    | map c' p' => exact absurd ⟨_, _, rfl⟩ hk
    | _ => rfl


theorem addChildF_reparent {R : Env} {p c q : Obj} (hq : R.getParent c = some q) (hqp : q ≠ p) (hpc : p ≠ c) (oc : R.owner c = .here)
    (oq : R.owner q = .here) : R.addChildF p c = (R.removeChildF q c).bind fun R => R.addChildF p c := by
  have e1 : R.removeChildF q c = .ok { R with ftree := eraseKey c R.ftree, log := R.log ++ [⟨.frameTree, .remove, q, some c, R.uid q, R.uid c⟩] } := by
    unfold removeChildF
    rw [if_pos hq, emit2 oq oc]
    rfl
  have hn : look c (eraseKey c R.ftree) = none := look_none_iff.2 (by simp [eraseKey])
  generalize hR1 : ({ R with ftree := _, log := _ } : Env) = R1 at e1
  have g1 : R1.getParent c = none := by rw [← hR1]; exact hn
  have o1 : R1.owner c = .here := by rw [← hR1]; exact oc
  rw [e1]
  show _ = R1.addChildF p c
  unfold addChildF
  rw [if_neg hpc, if_neg hpc, if_neg (by rw [hq]; simpa using hqp), if_neg (by rw [g1]; simp), ensure_here oc, ensure_here o1]
  show ((R.dropParent c).bind _) = ((R1.dropParent c).bind _)
  unfold dropParent
  rw [hq, g1]
  dsimp only
  rw [e1]

theorem setFrameNode_replace {R : Env} {m f g : Obj} (hg : R.getFrameNode m = some g) (hgf : g ≠ f) (om : R.owner m = .here)
    (of' : R.owner f = .here) (og : R.owner g = .here) : R.setFrameNode m f = (R.detachFrame m g).bind fun R => R.setFrameNode m f := by
  have e1 : R.detachFrame m g = .ok { R with cmap := eraseKey m R.cmap, log := R.log ++ [⟨.frameNode, .remove, m, some g, R.uid m, R.uid g⟩] } := by
    unfold detachFrame
    rw [if_pos hg, emit2 om og]
    rfl
  have hn : look m (eraseKey m R.cmap) = none := look_none_iff.2 (by simp [eraseKey])
  generalize hR1 : ({ R with cmap := _, log := _ } : Env) = R1 at e1
  have g1 : R1.getFrameNode m = none := by rw [← hR1]; exact hn
  have o1 : R1.owner m = .here := by rw [← hR1]; exact om
  have o2 : R1.owner f = .here := by rw [← hR1]; exact of'
  rw [e1]
  show _ = R1.setFrameNode m f
  unfold setFrameNode
  rw [ensure_here of', ensure_here o2]
  show ((R.ensureMapAttached m).bind _) = ((R1.ensureMapAttached m).bind _)
  unfold ensureMapAttached
  rw [om, o1]
  show R.linkFrame m f = R1.linkFrame m f
  unfold linkFrame
  rw [if_neg (by rw [hg]; simpa using hgf), if_neg (by rw [g1]; simp)]
  unfold dropFrame
  rw [hg, g1]
  dsimp only
  rw [e1]

section
variable {R : Env} {S : Facts} (h : Mirror R S)
include h

theorem no_item' (hr : S (.item rootId) = true) {i : Uid} (hi : S (.item i) = false) : R.getItem i = none :=
  (h.no_item hi (fun e => by rw [e, hr] at hi; cases hi)).2

theorem parent_of {c p : Uid} (hS : S.Valid) (hf : S (.frame c p) = true) : ∃ x y, R.getItem c = some x ∧ R.getItem p = some y ∧
    R.getParent x = some y ∧ R.owner x = .here ∧ R.owner y = .here := by
  have hv := hS.frame c p hf
  obtain ⟨x, gx, mx, ox, ux⟩ := h.item hv.1
  obtain ⟨y, gy, my, oy, uy⟩ := h.item hv.2.1
  have := h.link (k := .frame c p) (by simp)
  rw [hf] at this
  obtain ⟨x', y', h1, h2, h3⟩ := linkFact_true.1 this
  rw [obj_unique h.inv.ids h2 mx, obj_unique h.inv.ids h3 my] at h1
  exact ⟨x, y, gx, gy, (look_eq_some_iff h.wf.ftree_nodup).2 h1, ox, oy⟩

theorem frame_of {m f : Uid} (hS : S.Valid) (hf : S (.map m f) = true) : ∃ x y, R.getItem m = some x ∧ R.getItem f = some y ∧
    R.getFrameNode x = some y ∧ R.owner x = .here ∧ R.owner y = .here := by
  have hv := hS.map m f hf
  obtain ⟨x, gx, mx, ox, ux⟩ := h.item hv.1
  obtain ⟨y, gy, my, oy, uy⟩ := h.item hv.2
  have := h.link (k := .map m f) (by simp)
  rw [hf] at this
  obtain ⟨x', y', h1, h2, h3⟩ := linkFact_true.1 this
  rw [obj_unique h.inv.ids h2 mx, obj_unique h.inv.ids h3 my] at h1
  exact ⟨x, y, gx, gy, (look_eq_some_iff h.wf.cmap_nodup).2 h1, ox, oy⟩

end

/-- one event, whether it fits or not, applied to a receiver that has its root item -/
theorem lenient_step {R : Env} {S : Facts} (h : Mirror R S) (hr : S (.item rootId) = true) (hS : S.Valid) {e : Ev} (he : LOk S e)
    {o : Obj} (k : Kind) (ho : R.owner o = .dead) :
    ∃ R', applyEv R e o k = .ok R' ∧ Mirror R' (lenient S e) ∧ (lenient S e).Valid ∧ lenient S e (.item rootId) = true := by
  obtain ⟨ty, op, a, b, ida, idb⟩ := e
  obtain ⟨hsh, hup, he⟩ := he
  have keepRoot : ∀ k v, (∀ i, k ≠ .item i) → Facts.set S k v (.item rootId) = true := fun k v hk => by
    rw [Facts.set_ne _ _ (fun e => hk _ e.symm), hr]
  -- a link is removed, or was not there
  cases ty with
  | item =>
    cases op with
    | add =>
      show ∃ R', _ ∧ Mirror R' (S.set (.item ida) true) ∧ (S.set (.item ida) true).Valid ∧ S.set (.item ida) true (.item rootId) = true
      have hroot : S.set (.item ida) true (.item rootId) = true := by
        unfold Facts.set; split
        · rfl
        · exact hr
      cases hi : S (.item ida) with
      | true =>
        obtain ⟨x, g, hm, hx, hu⟩ := h.item hi
        rw [set_eq hi]
        exact ⟨_, by unfold applyEv; dsimp only; rw [g]; exact emit1 hx _ _, h.logged _ _ (fun _ _ => rfl), hS, hr⟩
      | false =>
        have fit : Ev.Fits S ⟨.item, .add, a, b, ida, idb⟩ := ⟨hsh, hi, valid_item hS ida⟩
        obtain ⟨R', e1, h1⟩ := Replica.step h hS fit k ho
        exact ⟨R', e1, h1, valid_item hS ida, hroot⟩
    | update =>
      show ∃ R', _ ∧ Mirror R' (S.set (.item ida) true) ∧ (S.set (.item ida) true).Valid ∧ S.set (.item ida) true (.item rootId) = true
      have hroot : S.set (.item ida) true (.item rootId) = true := by
        unfold Facts.set; split
        · rfl
        · exact hr
      cases hi : S (.item ida) with
      | true =>
        obtain ⟨x, g, hm, hx, hu⟩ := h.item hi
        rw [set_eq hi]
        exact ⟨_, by unfold applyEv; dsimp only; rw [g]; exact emit1 hx _ _, h.logged _ _ (fun _ _ => rfl), hS, hr⟩
      | false =>
        have fit : Ev.Fits S ⟨.item, .add, a, b, ida, idb⟩ := ⟨⟨hsh.1, fun _ _ => hup rfl rfl⟩, hi, valid_item hS ida⟩
        obtain ⟨R', e1, h1⟩ := Replica.step h hS fit k ho
        refine ⟨R', ?_, h1, valid_item hS ida, hroot⟩
        rw [← e1]
        unfold applyEv
        dsimp only
    | remove =>
      have g := no_item' h hr (show S (.item ida) = false from he)
      exact ⟨R, by unfold applyEv; dsimp only; rw [g], h, hS, hr⟩
  | root =>
    cases op with
    | add => exact ⟨R, by unfold applyEv; rfl, h, hS, hr⟩
    | remove => exact ⟨R, by unfold applyEv; rfl, h, hS, hr⟩
    | update => exact he.elim
  | frameTree =>
    cases op with
    | update => exact he.elim
    | remove =>
      show ∃ R', _ ∧ Mirror R' (S.set (.frame idb ida) false) ∧ (S.set (.frame idb ida) false).Valid ∧ _
      have hv := valid_unset hS (k := .frame idb ida) (by simp)
      cases hk : S (.frame idb ida) with
      | true =>
        obtain ⟨R', e1, h1⟩ := Replica.step h hS (e := ⟨.frameTree, .remove, a, b, ida, idb⟩) ⟨hsh, hk, hv⟩ k ho
        exact ⟨R', e1, h1, hv, keepRoot _ _ (by simp)⟩
      | false =>
        refine ⟨R, ?_, by rw [set_eq hk]; exact h, hv, keepRoot _ _ (by simp)⟩
        unfold applyEv
        dsimp only
        cases ga : R.getItem ida with
        | none => rfl
        | some p =>
          cases gb : R.getItem idb with
          | none => rfl
          | some c =>
            dsimp only
            unfold removeChildF
            rw [if_neg]
            intro hp
            have hm := look_some_mem hp
            have ha := look_some_mem ga
            have hb := look_some_mem gb
            obtain ⟨i, j, hi, hj, ht⟩ := h.links.1 _ hm
            rw [id_unique h.inv.objs hi hb, id_unique h.inv.objs hj ha, hk] at ht
            cases ht
    | add =>
      cases hi : (S (.item ida) && S (.item idb)) with
      | false =>
        have hl : lenient S ⟨.frameTree, .add, a, b, ida, idb⟩ = S := by
          unfold lenient
          dsimp only
          rw [hi]
          rfl
        rw [hl]
        refine ⟨R, ?_, h, hS, hr⟩
        unfold applyEv
        dsimp only
        rcases Bool.and_eq_false_iff.1 hi with hi | hi
        · rw [no_item' h hr hi]
        · rw [no_item' h hr hi]
          cases R.getItem ida <;> rfl
      | true =>
        have hl : lenient S ⟨.frameTree, .add, a, b, ida, idb⟩ = reparent S idb ida := by
          unfold lenient
          dsimp only
          rw [hi]
          rfl
        rw [hl]
        obtain ⟨i1, i2⟩ := Bool.and_eq_true_iff.1 hi
        have hne : idb ≠ ida := fun e => he e.symm
        have hv := reparent_valid hS i2 i1 hne
        by_cases hq : ∃ q, S (.frame idb q) = true
        · obtain ⟨q, hq⟩ := hq
          obtain ⟨c, y, gc, gq, hp, oc, oy⟩ := parent_of h hS hq
          obtain ⟨p, gp, mp, op', up⟩ := h.item i1
          by_cases hqp : q = ida
          · subst hqp
            have : reparent S idb q = S := by
              rw [reparent_eq hS hq]
              funext x
              unfold Facts.set
              split
              · rename_i e; rw [e, hq]
              · rfl
            rw [this]
            refine ⟨R, ?_, h, hS, hr⟩
            unfold applyEv
            dsimp only
            rw [gc, gp]
            rw [gq] at gp
            cases gp
            dsimp only
            have hyc : y ≠ c := by
              rintro rfl
              exact hne (id_unique h.inv.objs (look_some_mem gc) (look_some_mem gq))
            unfold addChildF
            rw [if_neg hyc, if_pos hp]
          · have hyp : y ≠ p := by
              rintro rfl
              exact hqp (id_unique h.inv.objs (look_some_mem gq) (look_some_mem gp))
            have hpc : p ≠ c := by
              rintro rfl
              exact hne (id_unique h.inv.objs (look_some_mem gc) (look_some_mem gp))
            have v1 := valid_unset hS (k := .frame idb q) (by simp)
            obtain ⟨R1, e1, h1⟩ := Replica.step h hS (e := ⟨.frameTree, .remove, a, b, q, idb⟩)
              ⟨shape_link (by decide) _ _ _ _ _, hq, v1⟩ k ho
            have e1' : R.removeChildF y c = .ok R1 := by
              rw [← e1]
              unfold applyEv
              dsimp only
              rw [gq, gc]
            have o1 : R1.owner o = .dead := by
              unfold removeChildF at e1'
              rw [if_pos hp, emit2 oy oc] at e1'
              cases e1'
              exact ho
            have i1' : R1.items = R.items := by
              unfold removeChildF at e1'
              rw [if_pos hp, emit2 oy oc] at e1'
              cases e1'
              rfl
            have hS1 : S.apply ⟨.frameTree, .remove, a, b, q, idb⟩ = S.set (.frame idb q) false := rfl
            rw [hS1] at h1
            obtain ⟨R2, e2, h2⟩ := Replica.step h1 v1 (e := ⟨.frameTree, .add, a, b, ida, idb⟩)
              ⟨hsh, by show Facts.set S (.frame idb q) false (.frame idb ida) = false
                       rw [Facts.set_ne _ _ (by simpa using fun e => hqp e.symm)]
                       cases hx : S (.frame idb ida) with
                       | false => rfl
                       | true => exact absurd (hS.parent _ _ _ hq hx) hqp,
                by show (Facts.set (S.set (.frame idb q) false) (.frame idb ida) true).Valid
                   rw [← reparent_eq hS hq]; exact hv⟩ k o1
            refine ⟨R2, ?_, ?_, hv, hr⟩
            · rw [← e2]
              unfold applyEv
              dsimp only
              have gg : ∀ i, R1.getItem i = R.getItem i := fun i => by unfold Env.getItem; rw [i1']
              rw [gg, gg, gp, gc]
              dsimp only
              rw [addChildF_reparent hp hyp hpc oc oy, e1']
              rfl
            · rw [reparent_eq hS hq]; exact h2
        · have hn : ∀ q, S (.frame idb q) = false := fun q => by
            cases hx : S (.frame idb q) with
            | false => rfl
            | true => exact absurd ⟨q, hx⟩ hq
          rw [reparent_new hn] at hv ⊢
          obtain ⟨R', e1, h1⟩ := Replica.step h hS (e := ⟨.frameTree, .add, a, b, ida, idb⟩) ⟨hsh, hn ida, hv⟩ k ho
          exact ⟨R', e1, h1, hv, keepRoot _ _ (by simp)⟩
  | layerTree =>
    cases op with
    | update => exact he.elim
    | remove =>
      show ∃ R', _ ∧ Mirror R' (S.set (.layer idb ida) false) ∧ (S.set (.layer idb ida) false).Valid ∧ _
      have hv := valid_unset hS (k := .layer idb ida) (by simp)
      cases hk : S (.layer idb ida) with
      | true =>
        obtain ⟨R', e1, h1⟩ := Replica.step h hS (e := ⟨.layerTree, .remove, a, b, ida, idb⟩) ⟨hsh, hk, hv⟩ k ho
        exact ⟨R', e1, h1, hv, keepRoot _ _ (by simp)⟩
      | false =>
        rw [set_eq hk]
        rw [set_eq hk] at hv
        cases ga : R.getItem ida with
        | none => exact ⟨R, by unfold applyEv; dsimp only; rw [ga], h, hv, hr⟩
        | some p =>
          cases gb : R.getItem idb with
          | none => exact ⟨R, by unfold applyEv; dsimp only; rw [ga, gb], h, hv, hr⟩
          | some c =>
            have ha := look_some_mem ga
            have hb := look_some_mem gb
            have oa := ((h.wf.items_iff _ _).1 ha).1
            have ob := ((h.wf.items_iff _ _).1 hb).1
            have hno : (c, p) ∉ R.ltree := by
              intro hm
              obtain ⟨i, j, hi, hj, ht⟩ := h.links.2.1 _ hm
              rw [id_unique h.inv.objs hi hb, id_unique h.inv.objs hj ha, hk] at ht
              cases ht
            refine ⟨_, by unfold applyEv; dsimp only; rw [ga, gb]; dsimp only; unfold removeChildL; rw [emit2 oa ob]; exact rfl, ?_, hv, hr⟩
            dsimp only
            rw [List.erase_of_not_mem hno]
            exact h.logged _ _ (fun _ _ => rfl)
    | add =>
      cases hi : (S (.item ida) && S (.item idb)) with
      | false =>
        have hl : lenient S ⟨.layerTree, .add, a, b, ida, idb⟩ = S := by
          unfold lenient
          dsimp only
          rw [hi]
          rfl
        rw [hl]
        refine ⟨R, ?_, h, hS, hr⟩
        unfold applyEv
        dsimp only
        rcases Bool.and_eq_false_iff.1 hi with hi | hi
        · rw [no_item' h hr hi]
        · rw [no_item' h hr hi]
          cases R.getItem ida <;> rfl
      | true =>
        have hl : lenient S ⟨.layerTree, .add, a, b, ida, idb⟩ = S.set (.layer idb ida) true := by
          unfold lenient
          dsimp only
          rw [hi]
          rfl
        rw [hl]
        obtain ⟨i1, i2⟩ := Bool.and_eq_true_iff.1 hi
        have hv := valid_layer hS i2 i1 (fun e => he.1 e.symm)
        obtain ⟨R', e1, h1⟩ := Replica.step h hS (e := ⟨.layerTree, .add, a, b, ida, idb⟩) ⟨hsh, he.2, hv⟩ k ho
        exact ⟨R', e1, h1, hv, keepRoot _ _ (by simp)⟩
  | frameNode =>
    cases op with
    | update => exact he.elim
    | remove =>
      show ∃ R', _ ∧ Mirror R' (S.set (.map ida idb) false) ∧ (S.set (.map ida idb) false).Valid ∧ _
      have hv := valid_unset hS (k := .map ida idb) (by simp)
      cases hk : S (.map ida idb) with
      | true =>
        obtain ⟨R', e1, h1⟩ := Replica.step h hS (e := ⟨.frameNode, .remove, a, b, ida, idb⟩) ⟨hsh, hk, hv⟩ k ho
        exact ⟨R', e1, h1, hv, keepRoot _ _ (by simp)⟩
      | false =>
        refine ⟨R, ?_, by rw [set_eq hk]; exact h, hv, keepRoot _ _ (by simp)⟩
        unfold applyEv
        dsimp only
        cases ga : R.getItem ida with
        | none => rfl
        | some p =>
          cases gb : R.getItem idb with
          | none => rfl
          | some c =>
            dsimp only
            unfold detachFrame
            rw [if_neg]
            intro hp
            have hm := look_some_mem hp
            have ha := look_some_mem ga
            have hb := look_some_mem gb
            obtain ⟨i, j, hi, hj, ht⟩ := h.links.2.2 _ hm
            rw [id_unique h.inv.objs hi ha, id_unique h.inv.objs hj hb, hk] at ht
            cases ht
    | add =>
      cases hi : (S (.item ida) && S (.item idb)) with
      | false =>
        have hl : lenient S ⟨.frameNode, .add, a, b, ida, idb⟩ = S := by
          unfold lenient
          dsimp only
          rw [hi]
          rfl
        rw [hl]
        refine ⟨R, ?_, h, hS, hr⟩
        unfold applyEv
        dsimp only
        rcases Bool.and_eq_false_iff.1 hi with hi | hi
        · rw [no_item' h hr hi]
        · rw [no_item' h hr hi]
          cases R.getItem ida <;> rfl
      | true =>
        have hl : lenient S ⟨.frameNode, .add, a, b, ida, idb⟩ = replace S ida idb := by
          unfold lenient
          dsimp only
          rw [hi]
          rfl
        rw [hl]
        obtain ⟨i1, i2⟩ := Bool.and_eq_true_iff.1 hi
        have hv := replace_valid hS i1 i2
        by_cases hq : ∃ q, S (.map ida q) = true
        · obtain ⟨q, hq⟩ := hq
          obtain ⟨c, y, gc, gq, hp, oc, oy⟩ := frame_of h hS hq
          obtain ⟨p, gp, mp, op', up⟩ := h.item i2
          by_cases hqp : q = idb
          · subst hqp
            have : replace S ida q = S := by
              rw [replace_eq hS hq]
              funext x
              unfold Facts.set
              split
              · rename_i e; rw [e, hq]
              · rfl
            rw [this]
            refine ⟨R, ?_, h, hS, hr⟩
            unfold applyEv
            dsimp only
            rw [gc, gp]
            rw [gq] at gp
            cases gp
            dsimp only
            unfold setFrameNode
            rw [ensure_here oy]
            show ((R.ensureMapAttached c).bind _) = _
            unfold ensureMapAttached
            rw [oc]
            show R.linkFrame c y = _
            unfold linkFrame
            rw [if_pos hp]
          · have hyp : y ≠ p := by
              rintro rfl
              exact hqp (id_unique h.inv.objs (look_some_mem gq) (look_some_mem gp))
            have v1 := valid_unset hS (k := .map ida q) (by simp)
            obtain ⟨R1, e1, h1⟩ := Replica.step h hS (e := ⟨.frameNode, .remove, a, b, ida, q⟩)
              ⟨shape_link (by decide) _ _ _ _ _, hq, v1⟩ k ho
            have e1' : R.detachFrame c y = .ok R1 := by
              rw [← e1]
              unfold applyEv
              dsimp only
              rw [gq, gc]
            have o1 : R1.owner o = .dead := by
              unfold detachFrame at e1'
              rw [if_pos hp, emit2 oc oy] at e1'
              cases e1'
              exact ho
            have i1' : R1.items = R.items := by
              unfold detachFrame at e1'
              rw [if_pos hp, emit2 oc oy] at e1'
              cases e1'
              rfl
            have hS1 : S.apply ⟨.frameNode, .remove, a, b, ida, q⟩ = S.set (.map ida q) false := rfl
            rw [hS1] at h1
            obtain ⟨R2, e2, h2⟩ := Replica.step h1 v1 (e := ⟨.frameNode, .add, a, b, ida, idb⟩)
              ⟨hsh, by show Facts.set S (.map ida q) false (.map ida idb) = false
                       rw [Facts.set_ne _ _ (by simpa using fun e => hqp e.symm)]
                       cases hx : S (.map ida idb) with
                       | false => rfl
                       | true => exact absurd (hS.place _ _ _ hq hx) hqp,
                by show (Facts.set (S.set (.map ida q) false) (.map ida idb) true).Valid
                   rw [← replace_eq hS hq]; exact hv⟩ k o1
            refine ⟨R2, ?_, ?_, hv, hr⟩
            · rw [← e2]
              unfold applyEv
              dsimp only
              have gg : ∀ i, R1.getItem i = R.getItem i := fun i => by unfold Env.getItem; rw [i1']
              rw [gg, gg, gp, gc]
              dsimp only
              rw [setFrameNode_replace hp hyp oc op' oy, e1']
              rfl
            · rw [replace_eq hS hq]; exact h2
        · have hn : ∀ q, S (.map ida q) = false := fun q => by
            cases hx : S (.map ida q) with
            | false => rfl
            | true => exact absurd ⟨q, hx⟩ hq
          rw [replace_new hn] at hv ⊢
          obtain ⟨R', e1, h1⟩ := Replica.step h hS (e := ⟨.frameNode, .add, a, b, ida, idb⟩) ⟨hsh, hn idb, hv⟩ k ho
          exact ⟨R', e1, h1, hv, keepRoot _ _ (by simp)⟩

/-- the events of a list are covered one after the other -/
def LOkAll : Facts → List Ev → Prop
  | _, [] => True
  | S, e :: es => LOk S e ∧ LOkAll (lenient S e) es

theorem lenient_run {ms : List Msg} : ∀ {R : Env} {S : Facts}, Mirror R S → S (.item rootId) = true → S.Valid → LOkAll S (ms.map Msg.ev) →
    Fresh R ms → ∃ R', applyAll R ms = some R' ∧ Mirror R' ((ms.map Msg.ev).foldl lenient S) ∧ ((ms.map Msg.ev).foldl lenient S).Valid ∧
      (ms.map Msg.ev).foldl lenient S (.item rootId) = true := by
  induction ms with
  | nil => intro R S h h2 h3 _ _; exact ⟨R, rfl, h, h3, h2⟩
  | cons m ms ih =>
    intro R S h hr hv hf hfr
    obtain ⟨R1, e1, h1, h2, h3⟩ := lenient_step h hr hv hf.1 m.kind hfr.1
    obtain ⟨R2, e2, h4⟩ := ih h1 h3 h2 hf.2 (hfr.2 R1 e1)
    exact ⟨R2, by unfold applyAll; rw [e1]; exact e2, h4⟩

/-- the facts of a fresh receiver -/
def freshFacts : Facts := fun k => decide (k = .item rootId)

theorem freshFacts_valid : freshFacts.Valid := by
  constructor <;> intros <;> simp_all [freshFacts]

theorem mirror_fresh (r : Obj) : Mirror (Env.init r) freshFacts := by
  have h := Replica.init r
  exact { h with same := fun k hk => by rw [h.same k hk]; simp [freshFacts] }

end Envire.Sync
