import Verif.Core.QueueProps
/-! Property C22: an environment fed with the events of another one (`Event::apply`). -/
namespace Envire
open Env

/-- what the relations of an environment hold, as a picture -/
def Env.pic (s : Env) : Pic := ⟨s.items, s.ftree, s.ltree, s.cmap⟩

namespace Replica

abbrev rootId : Uid := ['/', '0']

structure PicEq (A B : Pic) : Prop where
  items : A.items.Perm B.items
  f : A.f.Perm B.f
  l : A.l.Perm B.l
  c : A.c.Perm B.c

theorem PicEq.inv {A B : Pic} (h : PicEq A B) (hi : PicInv A) : PicInv B where
  ids := ((h.items.map _).nodup_iff).1 hi.ids
  objs := ((h.items.map _).nodup_iff).1 hi.objs
  f := fun l hl => by
    have := hi.f l (h.f.mem_iff.2 hl)
    rwa [(h.items.map (·.2)).mem_iff, (h.items.map (·.2)).mem_iff] at this
  fOne := ((h.f.map _).nodup_iff).1 hi.fOne
  l := fun l hl => by
    have := hi.l l (h.l.mem_iff.2 hl)
    rwa [(h.items.map (·.2)).mem_iff, (h.items.map (·.2)).mem_iff] at this
  lOne := (h.l.nodup_iff).1 hi.lOne
  c := fun l hl => by
    have := hi.c l (h.c.mem_iff.2 hl)
    rwa [(h.items.map (·.2)).mem_iff, (h.items.map (·.2)).mem_iff] at this
  cOne := ((h.c.map _).nodup_iff).1 hi.cOne

theorem linkFact_perm {items items' : List (Uid × Obj)} {L L' : List (Obj × Obj)} (hi : items.Perm items') (hl : L.Perm L')
    (i j : Uid) : linkFact items L i j = linkFact items' L' i j := by
  rw [Bool.eq_iff_iff, linkFact_true, linkFact_true]
  simp only [hi.mem_iff, hl.mem_iff]

theorem PicEq.facts {A B : Pic} (h : PicEq A B) (ρ : Uid → Bool) : A.facts ρ = B.facts ρ := by
  funext k
  cases k with
  | item i =>
    show decide _ = decide _
    rw [decide_eq_decide, (h.items.map (·.1)).mem_iff]
  | root i => rfl
  | frame c p => exact linkFact_perm h.items h.f c p
  | layer c p => exact linkFact_perm h.items h.l c p
  | map m f => exact linkFact_perm h.items h.c m f

theorem PicEq.refl (A : Pic) : PicEq A A := ⟨.refl _, .refl _, .refl _, .refl _⟩

/-- the replica `R` holds what the facts `S` say; its own root node is always there -/
structure Mirror (R : Env) (S : Facts) : Prop where
  wf : WF R
  inv : PicInv R.pic
  root : (rootId, R.rootNode) ∈ R.items
  noIn : R.opIn = []
  noOut : R.opOut = []
  same : ∀ k, (∀ i, k ≠ .root i) → R.pic.facts (fun _ => false) k = (S k || decide (k = .item rootId))

theorem emit1 {s : Env} {a : Obj} (h : s.owner a = .here) (ty : EvType) (op : EvOp) :
    s.emit ty op a none = .ok { s with log := s.log ++ [⟨ty, op, a, none, s.uid a, []⟩] } := by
  unfold emit
  dsimp only
  rw [if_neg (by rw [h]; decide), dropTmp_of_not_free (by show s.owner a ≠ .free; rw [h]; decide)]

theorem emit2 {s : Env} {a b : Obj} (h : s.owner a = .here) (h' : s.owner b = .here) (ty : EvType) (op : EvOp) :
    s.emit ty op a (some b) = .ok { s with log := s.log ++ [⟨ty, op, a, some b, s.uid a, s.uid b⟩] } := by
  unfold emit
  dsimp only
  rw [if_neg (by rw [h, h']; decide), dropTmp_of_not_free (s := { s with log := _ }) (by show s.owner b ≠ .free; rw [h']; decide),
    dropTmp_of_not_free (by show s.owner a ≠ .free; rw [h]; decide)]

theorem ensure_here {s : Env} {a : Obj} (h : s.owner a = .here) : s.ensureAttached a = .ok s := by
  unfold ensureAttached; rw [h]

theorem All.of_ok {P : Env → Prop} {r : Res Env} {s : Env} (h : r.All P) (he : r = .ok s) : P s := by
  rw [he] at h; exact h

section
variable {R : Env} {S : Facts} (h : Mirror R S)
include h

theorem Mirror.item {i : Uid} (hi : S (.item i) = true) : ∃ x, R.getItem i = some x ∧ (i, x) ∈ R.items ∧ R.owner x = .here ∧ R.uid x = i := by
  have := h.same (.item i) (by simp)
  rw [hi, Bool.true_or] at this
  have h1 : i ∈ R.items.map (·.1) := of_decide_eq_true this
  obtain ⟨⟨i', x⟩, hm, rfl⟩ := List.mem_map.1 h1
  exact ⟨x, (look_eq_some_iff h.wf.items_nodup).2 hm, hm, (h.wf.items_iff _ _).1 hm⟩

theorem Mirror.no_item {i : Uid} (hi : S (.item i) = false) (hr : i ≠ rootId) : i ∉ R.items.map (·.1) ∧ R.getItem i = none := by
  have := h.same (.item i) (by simp)
  rw [hi, Bool.false_or, decide_eq_false (fun e => hr (Key.item.inj e))] at this
  have h1 : i ∉ R.items.map (·.1) := of_decide_eq_false this
  exact ⟨h1, look_none_iff.2 h1⟩

theorem Mirror.link {k : Key} (hk : (∀ i, k ≠ .item i) ∧ ∀ i, k ≠ .root i) : R.pic.facts (fun _ => false) k = S k := by
  rw [h.same k hk.2, decide_eq_false (hk.1 _), Bool.or_false]

theorem Mirror.obj_root {i : Uid} {x : Obj} (hm : (i, x) ∈ R.items) : x = R.rootNode ↔ i = rootId := by
  constructor
  · rintro rfl; exact id_unique h.inv.objs hm h.root
  · rintro rfl; exact obj_unique h.inv.ids hm h.root

/-- nothing in the replica changes but its log -/
theorem Mirror.logged (l : List Ev) (S' : Facts) (hS : ∀ k, (∀ i, k ≠ .root i) → (S' k || decide (k = .item rootId)) = (S k || decide (k = .item rootId))) :
    Mirror { R with log := l } S' where
  wf := { h.wf with }
  inv := h.inv
  root := h.root
  noIn := h.noIn
  noOut := h.noOut
  same := fun k hk => (h.same k hk).trans (hS k hk).symm

/-- the common part of all cases -/
theorem Mirror.next {R' : Env} {e e' : Ev} (hadm : Adm True True R.pic e') (hk : e'.key = e.key) (ho : e'.op = e.op)
    (hne : e.key ≠ .item rootId) (wf' : WF R') (hp : PicEq (R.pic.apply e') R'.pic)
    (hroot : (rootId, R'.rootNode) ∈ R'.items) (hi : R'.opIn = []) (hoo : R'.opOut = []) : Mirror R' (S.apply e) := by
  obtain ⟨a, b, _, _⟩ := facts_step h.inv (fun _ => false) hadm
  refine ⟨wf', hp.inv a, hroot, hi, hoo, fun k hkr => ?_⟩
  rw [← hp.facts, b]
  unfold Facts.apply
  rw [hk, ho]
  have hs := h.same k hkr
  cases e.op <;> dsimp only
  · by_cases hek : k = e.key
    · rw [hek, Facts.set_self, Facts.set_self]; rfl
    · rw [Facts.set_ne _ _ hek, Facts.set_ne _ _ hek]; exact hs
  · by_cases hek : k = e.key
    · rw [hek, Facts.set_self, Facts.set_self, decide_eq_false hne]; rfl
    · rw [Facts.set_ne _ _ hek, Facts.set_ne _ _ hek]; exact hs
  · exact hs

end

theorem Facts.Valid.key_true {S : Facts} {k : Key} (h : (S.set k true).Valid) : (S.set k true) k = true := Facts.set_self ..

theorem ends {S : Facts} {c p : Uid} {k : Key} (hk : k = .frame c p ∨ k = .layer c p ∨ k = .map c p)
    (h : (S.set k true).Valid) : S (.item c) = true ∧ S (.item p) = true := by
  rcases hk with rfl | rfl | rfl
  · have := h.frame c p (Facts.set_self ..)
    rw [Facts.set_ne _ _ (by simp), Facts.set_ne _ _ (by simp)] at this
    exact ⟨this.1, this.2.1⟩
  · have := h.layer c p (Facts.set_self ..)
    rw [Facts.set_ne _ _ (by simp), Facts.set_ne _ _ (by simp)] at this
    exact ⟨this.1, this.2.1⟩
  · have := h.map c p (Facts.set_self ..)
    rw [Facts.set_ne _ _ (by simp), Facts.set_ne _ _ (by simp)] at this
    exact this

/-- a link of the replica, seen in `S` -/
theorem Mirror.links {R : Env} {S : Facts} (h : Mirror R S) :
    (∀ l ∈ R.ftree, ∃ c p, (c, l.1) ∈ R.items ∧ (p, l.2) ∈ R.items ∧ S (.frame c p) = true) ∧
    (∀ l ∈ R.ltree, ∃ c p, (c, l.1) ∈ R.items ∧ (p, l.2) ∈ R.items ∧ S (.layer c p) = true) ∧
    (∀ l ∈ R.cmap, ∃ c p, (c, l.1) ∈ R.items ∧ (p, l.2) ∈ R.items ∧ S (.map c p) = true) := by
  have get : ∀ o, o ∈ R.items.map (·.2) → ∃ i, (i, o) ∈ R.items := by
    intro o ho
    obtain ⟨⟨i, o'⟩, hm, rfl⟩ := List.mem_map.1 ho
    exact ⟨i, hm⟩
  refine ⟨fun l hl => ?_, fun l hl => ?_, fun l hl => ?_⟩
  · obtain ⟨a, b, _⟩ := h.inv.f l hl
    obtain ⟨c, hc⟩ := get _ a
    obtain ⟨p, hp⟩ := get _ b
    refine ⟨c, p, hc, hp, ?_⟩
    rw [← h.link (k := .frame c p) (by simp)]
    exact linkFact_true.2 ⟨_, _, hl, hc, hp⟩
  · obtain ⟨a, b, _⟩ := h.inv.l l hl
    obtain ⟨c, hc⟩ := get _ a
    obtain ⟨p, hp⟩ := get _ b
    refine ⟨c, p, hc, hp, ?_⟩
    rw [← h.link (k := .layer c p) (by simp)]
    exact linkFact_true.2 ⟨_, _, hl, hc, hp⟩
  · obtain ⟨a, b⟩ := h.inv.c l hl
    obtain ⟨c, hc⟩ := get _ a
    obtain ⟨p, hp⟩ := get _ b
    refine ⟨c, p, hc, hp, ?_⟩
    rw [← h.link (k := .map c p) (by simp)]
    exact linkFact_true.2 ⟨_, _, hl, hc, hp⟩

/-- an item whose removal leaves a valid structure is not linked in the replica -/
theorem Mirror.bare {R : Env} {S : Facts} (h : Mirror R S) {i : Uid} {x : Obj} (hx : (i, x) ∈ R.items)
    (hv : (S.set (.item i) false).Valid) : R.pic.bare x := by
  obtain ⟨hf, hl, hc⟩ := h.links
  have key : ∀ {j o}, (j, o) ∈ R.items → S.set (.item i) false (.item j) = true → o ≠ x := by
    rintro j o hm ht rfl
    rw [id_unique h.inv.objs hm hx, Facts.set_self] at ht
    cases ht
  refine ⟨fun l hll => ?_, fun l hll => ?_, fun l hll => ?_⟩
  · obtain ⟨c, p, h1, h2, h3⟩ := hf l hll
    have := hv.frame c p (by rw [Facts.set_ne _ _ (by simp)]; exact h3)
    exact ⟨key h1 this.1, key h2 this.2.1⟩
  · obtain ⟨c, p, h1, h2, h3⟩ := hl l hll
    have := hv.layer c p (by rw [Facts.set_ne _ _ (by simp)]; exact h3)
    exact ⟨key h1 this.1, key h2 this.2.1⟩
  · obtain ⟨c, p, h1, h2, h3⟩ := hc l hll
    have := hv.map c p (by rw [Facts.set_ne _ _ (by simp)]; exact h3)
    exact ⟨key h1 this.1, key h2 this.2⟩

theorem unlinkAll_bare {R : Env} {x : Obj} (hb : R.pic.bare x) (hi : R.opIn = []) (ho : R.opOut = []) : R.unlinkAll x = .ok R := by
  have nil : ∀ {L : List (Obj × Obj)}, (∀ l ∈ L, l.1 ≠ x ∧ l.2 ≠ x) → L.filter (mentions x) = [] := by
    intro L hL
    rw [List.filter_eq_nil_iff]
    intro l hl
    have := hL l hl
    simp [mentions, this.1, this.2]
  unfold unlinkAll
  rw [nil (L := R.ftree) hb.1, nil (L := R.ltree) hb.2.1, nil (L := R.cmap) hb.2.2, hi, ho]
  rfl

theorem finalId_good {s : Env} {o : Obj} (hg : goodId (s.uid o) = true) : s.finalId o = s.uid o := by
  unfold goodId at hg
  rw [Bool.and_eq_true, decide_eq_true_eq] at hg
  obtain ⟨h1, h2⟩ := hg
  have hne : s.uid o ≠ [] := by intro e; rw [e] at h1; cases h1
  have habs : s.absId o = s.uid o := by
    unfold absId
    dsimp only
    rw [if_neg hne, if_pos h1]
  unfold finalId assignId
  dsimp only
  rw [habs, if_neg (by simpa using h2)]
  simp [upd]

/-- one event applied to a faithful replica is defined, does not throw and keeps it faithful -/
theorem step {R : Env} {S : Facts} (h : Mirror R S) (hS : S.Valid) {e : Ev} (he : e.Fits S) {o : Obj} (k : Kind)
    (ho : R.owner o = .dead) : ∃ R', applyEv R e o k = .ok R' ∧ Mirror R' (S.apply e) := by
  obtain ⟨ty, op, a, b, ida, idb⟩ := e
  obtain ⟨⟨hs1, hs2⟩, hf⟩ := he
  cases op with
  | update =>
    obtain ⟨hty, hp⟩ := hf
    dsimp only at hty
    subst hty
    obtain ⟨x, g, hm, hx, hu⟩ := h.item hp
    refine ⟨_, by unfold applyEv; dsimp only; rw [g]; exact emit1 hx _ _, h.logged _ _ (fun _ _ => rfl)⟩
  | add =>
    obtain ⟨hf1, hf2⟩ := hf
    cases ty with
    | root =>
      refine ⟨R, by unfold applyEv; rfl, h.logged R.log _ (fun k hk => ?_)⟩
      show (Facts.set S (.root ida) true k || _) = _
      rw [Facts.set_ne _ _ (hk ida)]
    | item =>
      by_cases hr : ida = rootId
      · -- the replica has its own root
        subst hr
        have g : R.getItem rootId = some R.rootNode := (look_eq_some_iff h.wf.items_nodup).2 h.root
        refine ⟨_, by unfold applyEv; dsimp only; rw [g]; exact emit1 ((h.wf.items_iff _ _).1 h.root).1 _ _, h.logged _ _ (fun k hk => ?_)⟩
        show (Facts.set S (.item rootId) true k || _) = _
        by_cases hk' : k = .item rootId
        · simp [hk']
        · rw [Facts.set_ne _ _ hk']
      · obtain ⟨n1, n2⟩ := h.no_item hf1 hr
        have hgood : goodId ida = true := hs2 rfl rfl
        have hob : o ∉ R.items.map (·.2) := by
          intro hm
          obtain ⟨⟨i', o'⟩, hm2, rfl⟩ := List.mem_map.1 hm
          rw [((h.wf.items_iff _ _).1 hm2).1] at ho
          cases ho
        -- the three calls
        let R1 : Env := { R with kind := upd R.kind o k, uid := upd R.uid o ida, owner := upd R.owner o .free, held := upd R.held o true, inArity := upd R.inArity o 0, outArity := upd R.outArity o 0 }
        have e1 : R.exec (.alloc o k ida true 0 0) = .ok R1 := by
          show (if R.owner o = .dead then _ else _) = _
          rw [if_pos ho]
        have w1 : WF R1 := All.of_ok (h.wf.exec (.alloc o k ida true 0 0) trivial) e1
        have u1 : R1.uid o = ida := by simp [R1, upd]
        have hfin : R1.finalId o = ida := by rw [finalId_good (by rw [u1]; exact hgood), u1]
        have e2 := attachItem_free (s := R1) (o := o) (by simp [R1, upd])
        rw [hfin, if_neg n1] at e2
        have w2 := All.of_ok (w1.exec (.attach o) trivial) (show R1.exec (.attach o) = _ from e2)
        generalize hR2 : ({ R1 with lastId := _, uid := _, items := _, owner := _, log := _ } : Env) = R2 at e2 w2
        have e3 : R2.exec (.release o) = .ok { R2 with held := upd R2.held o false } := by
          show Res.ok _ = _
          rw [if_neg]
          rw [← hR2]
          simp [upd]
        have w3 := All.of_ok (w2.exec (.release o) trivial) e3
        refine ⟨{ R2 with held := upd R2.held o false }, ?_, ?_⟩
        · unfold applyEv
          dsimp only
          rw [n2]
          dsimp only
          rw [e1]
          show ((R1.attachItem o).bind _) = _
          rw [e2]
          exact e3
        · refine h.next (e' := ⟨.item, .add, o, none, ida, idb⟩) (e := ⟨.item, .add, a, b, ida, idb⟩)
            ⟨n1, hob, hs1 (.inl rfl), hgood⟩ rfl rfl (fun e => hr (Key.item.inj e)) w3 ?_ ?_ ?_ ?_
          · rw [← hR2]
            exact ⟨(ins_perm _ _ _).symm, .refl _, .refl _, .refl _⟩
          · rw [← hR2]
            exact (ins_perm _ _ _).mem_iff.2 (List.mem_cons_of_mem _ h.root)
          · rw [← hR2]; exact h.noIn
          · rw [← hR2]; exact h.noOut
    | frameTree =>
      obtain ⟨i1, i2⟩ := ends (.inl rfl) hf2
      obtain ⟨c, gc, mc, oc, uc⟩ := h.item i1
      obtain ⟨p, gp, mp, op', up⟩ := h.item i2
      have hcp := (hf2.frame idb ida (Facts.set_self ..)).2.2
      have hne : p ≠ c := by rintro rfl; exact hcp (uc.symm.trans up)
      have hno : c ∉ R.ftree.map (·.1) := by
        intro hm
        obtain ⟨⟨c', q⟩, hm2, rfl⟩ := List.mem_map.1 hm
        obtain ⟨i, j, hi, hj, ht⟩ := h.links.1 _ hm2
        rw [id_unique h.inv.objs hi mc] at ht
        have := hf2.parent idb ida j (Facts.set_self ..) (by
          by_cases hj : j = ida
          · rw [hj]; exact Facts.set_self ..
          · show Facts.set S (.frame idb ida) true _ = true
            rw [Facts.set_ne _ _ (fun e => hj (Key.frame.inj e).2)]; exact ht)
        rw [← this] at ht
        rw [show S (.frame idb ida) = false from hf1] at ht
        cases ht
      have hlook : R.getParent c = none := look_none_iff.2 hno
      have heq : R.addChildF p c = .ok { R with ftree := ins c p R.ftree, log := R.log ++ [⟨.frameTree, .add, p, some c, R.uid p, R.uid c⟩] } := by
        unfold addChildF
        rw [if_neg hne, if_neg (by rw [hlook]; simp), ensure_here oc]
        show ((R.dropParent c).bind _) = _
        unfold dropParent
        rw [hlook]
        exact emit2 (s := { R with ftree := ins c p R.ftree }) op' oc _ _
      refine ⟨_, by unfold applyEv; dsimp only; rw [gp, gc]; exact heq, ?_⟩
      exact h.next (e' := ⟨.frameTree, .add, p, some c, ida, idb⟩) ⟨hno, hne, fun _ => ⟨mp, mc⟩⟩ rfl rfl (by simp [Ev.key])
        (All.of_ok (h.wf.exec (.addChildF p c) trivial) heq) ⟨.refl _, (ins_perm _ _ _).symm, .refl _, .refl _⟩ h.root h.noIn h.noOut
    | layerTree =>
      obtain ⟨i1, i2⟩ := ends (.inr (.inl rfl)) hf2
      obtain ⟨c, gc, mc, oc, uc⟩ := h.item i1
      obtain ⟨p, gp, mp, op', up⟩ := h.item i2
      have hcp := (hf2.layer idb ida (Facts.set_self ..)).2.2
      have hne : p ≠ c := by rintro rfl; exact hcp (uc.symm.trans up)
      have hno : (c, p) ∉ R.ltree := by
        intro hm
        obtain ⟨i, j, hi, hj, ht⟩ := h.links.2.1 _ hm
        rw [id_unique h.inv.objs hi mc, id_unique h.inv.objs hj mp, show S (.layer idb ida) = false from hf1] at ht
        cases ht
      have hlook : look c R.ltree ≠ some p := fun e => hno (look_some_mem e)
      have heq : R.addChildL p c = .ok { R with ltree := ins c p R.ltree, log := R.log ++ [⟨.layerTree, .add, p, some c, R.uid p, R.uid c⟩] } := by
        unfold addChildL
        rw [if_neg hne, if_neg hlook, ensure_here oc]
        exact emit2 (s := { R with ltree := ins c p R.ltree }) op' oc _ _
      refine ⟨_, by unfold applyEv; dsimp only; rw [gp, gc]; exact heq, ?_⟩
      exact h.next (e' := ⟨.layerTree, .add, p, some c, ida, idb⟩) ⟨hlook, hne, fun _ => ⟨mp, mc⟩, fun _ => hno⟩ rfl rfl (by simp [Ev.key])
        (All.of_ok (h.wf.exec (.addChildL p c) trivial) heq)
        ⟨.refl _, .refl _, List.perm_append_comm.trans (ins_perm _ _ _).symm, .refl _⟩ h.root h.noIn h.noOut
    | frameNode =>
      obtain ⟨i1, i2⟩ := ends (.inr (.inr rfl)) hf2
      obtain ⟨m, gm, mm, om, um⟩ := h.item i1
      obtain ⟨f, gf, mf, of', uf⟩ := h.item i2
      have hno : m ∉ R.cmap.map (·.1) := by
        intro hm
        obtain ⟨⟨c', q⟩, hm2, rfl⟩ := List.mem_map.1 hm
        obtain ⟨i, j, hi, hj, ht⟩ := h.links.2.2 _ hm2
        rw [id_unique h.inv.objs hi mm] at ht
        have := hf2.place ida idb j (Facts.set_self ..) (by
          by_cases hj : j = idb
          · rw [hj]; exact Facts.set_self ..
          · show Facts.set S (.map ida idb) true _ = true
            rw [Facts.set_ne _ _ (fun e => hj (Key.map.inj e).2)]; exact ht)
        rw [← this] at ht
        rw [show S (.map ida idb) = false from hf1] at ht
        cases ht
      have hlook : R.getFrameNode m = none := look_none_iff.2 hno
      have heq : R.setFrameNode m f = .ok { R with cmap := ins m f R.cmap, log := R.log ++ [⟨.frameNode, .add, m, some f, R.uid m, R.uid f⟩] } := by
        unfold setFrameNode
        rw [ensure_here of']
        show ((R.ensureMapAttached m).bind _) = _
        unfold ensureMapAttached
        rw [om]
        show R.linkFrame m f = _
        unfold linkFrame
        rw [if_neg (by rw [hlook]; simp)]
        unfold dropFrame
        rw [hlook]
        exact emit2 (s := { R with cmap := ins m f R.cmap }) om of' _ _
      refine ⟨_, by unfold applyEv; dsimp only; rw [gm, gf]; exact heq, ?_⟩
      exact h.next (e' := ⟨.frameNode, .add, m, some f, ida, idb⟩) ⟨hno, fun _ => ⟨mm, mf⟩⟩ rfl rfl (by simp [Ev.key])
        (All.of_ok (h.wf.exec (.setFrame m f) trivial) heq) ⟨.refl _, .refl _, .refl _, (ins_perm _ _ _).symm⟩ h.root h.noIn h.noOut
  | remove =>
    obtain ⟨hf1, hf2⟩ := hf
    cases ty with
    | root =>
      refine ⟨R, by unfold applyEv; rfl, h.logged R.log _ (fun k hk => ?_)⟩
      show (Facts.set S (.root ida) false k || _) = _
      rw [Facts.set_ne _ _ (hk ida)]
    | item =>
      obtain ⟨x, g, hm, hx, hu⟩ := h.item hf1
      by_cases hr : ida = rootId
      · have hxr := (h.obj_root hm).2 hr
        refine ⟨R, by unfold applyEv; dsimp only; rw [g]; dsimp only; rw [if_pos hxr], h.logged R.log _ (fun k hk => ?_)⟩
        show (Facts.set S (.item ida) false k || _) = _
        by_cases hk' : k = .item rootId
        · simp [hk']
        · rw [Facts.set_ne _ _ (by rw [hr]; exact hk')]
      · have hxr : x ≠ R.rootNode := fun e => hr ((h.obj_root hm).1 e)
        have hb := h.bare hm hf2
        have hin : R.uid x ∈ R.items.map (·.1) := by rw [hu]; exact List.mem_map.2 ⟨_, hm, rfl⟩
        have heq : R.detachShallow x = .ok { R with items := eraseKey ida R.items, owner := upd R.owner x (R.afterRelease x), log := R.log ++ [⟨.item, .remove, x, none, R.uid x, []⟩] } := by
          unfold detachShallow
          rw [if_neg (by rw [hx]; decide), if_neg (fun hn => hn hin), unlinkAll_bare hb h.noIn h.noOut]
          show R.dropItem x = _
          unfold dropItem
          rw [emit1 hx]
          show (match look (R.uid x) R.items with | none => _ | some q => _) = _
          rw [hu, (look_eq_some_iff h.wf.items_nodup).2 hm]
          dsimp only
          rw [if_pos rfl]
          rfl
        refine ⟨_, by unfold applyEv; dsimp only; rw [g]; dsimp only; rw [if_neg hxr]; exact heq, ?_⟩
        refine h.next (e' := ⟨.item, .remove, x, none, ida, idb⟩) ⟨hm, hb, hs1 (.inl rfl)⟩ rfl rfl (fun e => hr (Key.item.inj e))
          (All.of_ok (h.wf.exec (.detach x false) ⟨hx, fun h => by cases h⟩) heq) ⟨?_, .refl _, .refl _, .refl _⟩ ?_ h.noIn h.noOut
        · show (R.items.erase (ida, x)).Perm (eraseKey ida R.items)
          rw [eraseKey_eq_erase_items h.wf.items_nodup hm]
        · show (rootId, R.rootNode) ∈ eraseKey ida R.items
          unfold eraseKey
          exact List.mem_filter.2 ⟨h.root, by simpa using fun e => hr e.symm⟩
    | frameTree =>
      have hv := hS.frame idb ida hf1
      obtain ⟨c, gc, mc, oc, uc⟩ := h.item hv.1
      obtain ⟨p, gp, mp, op', up⟩ := h.item hv.2.1
      have hin : (c, p) ∈ R.ftree := by
        have := h.link (k := .frame idb ida) (by simp)
        rw [show S (.frame idb ida) = true from hf1] at this
        obtain ⟨x, y, h1, h2, h3⟩ := linkFact_true.1 this
        rw [obj_unique h.inv.ids h2 mc, obj_unique h.inv.ids h3 mp] at h1
        exact h1
      have hlook : R.getParent c = some p := (look_eq_some_iff h.wf.ftree_nodup).2 hin
      have heq : R.removeChildF p c = .ok { R with ftree := eraseKey c R.ftree, log := R.log ++ [⟨.frameTree, .remove, p, some c, R.uid p, R.uid c⟩] } := by
        unfold removeChildF
        rw [if_pos hlook, emit2 op' oc]
        rfl
      refine ⟨_, by unfold applyEv; dsimp only; rw [gp, gc]; exact heq, ?_⟩
      refine h.next (e' := ⟨.frameTree, .remove, p, some c, ida, idb⟩) ⟨hin, fun _ => ⟨mp, mc⟩⟩ rfl rfl (by simp [Ev.key])
        (All.of_ok (h.wf.exec (.removeChildF p c) trivial) heq) ⟨.refl _, ?_, .refl _, .refl _⟩ h.root h.noIn h.noOut
      show (R.ftree.erase (c, p)).Perm (eraseKey c R.ftree)
      rw [eraseKey_eq_erase h.wf.ftree_nodup hin]
    | layerTree =>
      have hv := hS.layer idb ida hf1
      obtain ⟨c, gc, mc, oc, uc⟩ := h.item hv.1
      obtain ⟨p, gp, mp, op', up⟩ := h.item hv.2.1
      have hin : (c, p) ∈ R.ltree := by
        have := h.link (k := .layer idb ida) (by simp)
        rw [show S (.layer idb ida) = true from hf1] at this
        obtain ⟨x, y, h1, h2, h3⟩ := linkFact_true.1 this
        rw [obj_unique h.inv.ids h2 mc, obj_unique h.inv.ids h3 mp] at h1
        exact h1
      have heq : R.removeChildL p c = .ok { R with ltree := R.ltree.erase (c, p), log := R.log ++ [⟨.layerTree, .remove, p, some c, R.uid p, R.uid c⟩] } := by
        unfold removeChildL
        rw [emit2 op' oc]
        rfl
      refine ⟨_, by unfold applyEv; dsimp only; rw [gp, gc]; exact heq, ?_⟩
      exact h.next (e' := ⟨.layerTree, .remove, p, some c, ida, idb⟩) ⟨fun _ => ⟨mp, mc⟩, fun _ => hin⟩ rfl rfl (by simp [Ev.key])
        (All.of_ok (h.wf.exec (.removeChildL p c) trivial) heq) ⟨.refl _, .refl _, .refl _, .refl _⟩ h.root h.noIn h.noOut
    | frameNode =>
      have hv := hS.map ida idb hf1
      obtain ⟨m, gm, mm, om, um⟩ := h.item hv.1
      obtain ⟨f, gf, mf, of', uf⟩ := h.item hv.2
      have hin : (m, f) ∈ R.cmap := by
        have := h.link (k := .map ida idb) (by simp)
        rw [show S (.map ida idb) = true from hf1] at this
        obtain ⟨x, y, h1, h2, h3⟩ := linkFact_true.1 this
        rw [obj_unique h.inv.ids h2 mm, obj_unique h.inv.ids h3 mf] at h1
        exact h1
      have hlook : R.getFrameNode m = some f := (look_eq_some_iff h.wf.cmap_nodup).2 hin
      have heq : R.detachFrame m f = .ok { R with cmap := eraseKey m R.cmap, log := R.log ++ [⟨.frameNode, .remove, m, some f, R.uid m, R.uid f⟩] } := by
        unfold detachFrame
        rw [if_pos hlook, emit2 om of']
        rfl
      refine ⟨_, by unfold applyEv; dsimp only; rw [gm, gf]; exact heq, ?_⟩
      refine h.next (e' := ⟨.frameNode, .remove, m, some f, ida, idb⟩) ⟨hin, fun _ => ⟨mm, mf⟩⟩ rfl rfl (by simp [Ev.key])
        (All.of_ok (h.wf.exec (.detachFrame m f) trivial) heq) ⟨.refl _, .refl _, .refl _, ?_⟩ h.root h.noIn h.noOut
      show (R.cmap.erase (m, f)).Perm (eraseKey m R.cmap)
      rw [eraseKey_eq_erase h.wf.cmap_nodup hin]

end Replica

/-- a message on its way: the event, and the address and class of the object made for it at the receiver -/
structure Msg where
  ev : Ev
  obj : Obj
  kind : Kind

/-- the receiver applies all messages; `none`: an exception or undefined behaviour -/
def applyAll (R : Env) : List Msg → Option Env
  | [] => some R
  | m :: ms => match applyEv R m.ev m.obj m.kind with
    | .ok R' => applyAll R' ms
    | _ => none

/-- new objects are made at unused addresses -/
def Fresh : Env → List Msg → Prop
  | _, [] => True
  | R, m :: ms => R.owner m.obj = .dead ∧ ∀ R', applyEv R m.ev m.obj m.kind = .ok R' → Fresh R' ms

theorem Replica.run {ms : List Msg} : ∀ {R : Env} {S : Facts}, Replica.Mirror R S → S.Valid → FitsAll S (ms.map Msg.ev) → Fresh R ms →
    ∃ R', applyAll R ms = some R' ∧ Replica.Mirror R' (S.follow (ms.map Msg.ev)) := by
  induction ms with
  | nil => intro R S h _ _ _; exact ⟨R, rfl, h⟩
  | cons m ms ih =>
    intro R S h hv hf hfr
    obtain ⟨R1, e1, h1⟩ := Replica.step h hv hf.1 m.kind hfr.1
    obtain ⟨R2, e2, h2⟩ := ih h1 (hf.1.valid hv) hf.2 (hfr.2 R1 e1)
    exact ⟨R2, by unfold applyAll; rw [e1]; exact e2, h2⟩

theorem Replica.init (r : Obj) : Replica.Mirror (init r) (fun _ => false) where
  wf := WF.init r
  inv := by
    refine ⟨by simp [Env.pic, Env.init], by simp [Env.pic, Env.init], ?_, by simp [Env.pic, Env.init], ?_, by simp [Env.pic, Env.init], ?_, by simp [Env.pic, Env.init]⟩ <;>
    · intro l hl; cases hl
  root := by simp [Env.init]
  noIn := rfl
  noOut := rfl
  same := by
    intro k hk
    cases k with
    | item i => simp [Pic.facts, Env.pic, Env.init]
    | root i => exact absurd rfl (hk i)
    | _ => rfl

theorem Replica.facts {R : Env} (hw : WF R) {k : Key} (hk : ∀ i, k ≠ .root i) : R.pic.facts (fun _ => false) k = R.facts k :=
  Pic.Shows.facts (Rep.shows hw (A := R.pic) ⟨.refl _, .refl _, .refl _, fun _ => rfl⟩) _ hk

/-- **C22** A fresh replica gets the messages of a queue on the source, which was registered when the source was fresh and is
flushed at arbitrary moments (a flush after every event is the unbatched case, see `C22_unbatched_partial`). Applying them is
defined, throws nothing, and the replica then answers all queries about items, frame tree, layer links and map links on the
level of ids like the source; only its own root node "/0" stays although the source may have dropped it. Missing for the full
claim: the histories excluded by `QueueUse` (C20), the order of the parents of a layer. -/
theorem C22_replica_converges_partial {r : Obj} {s : Env} (h : Reach QueueUse r s) :
    ∃ first es, (Env.init r).announce = some first ∧ s.log = (Env.init r).log ++ es ∧
      ∀ (batches : List (List Ev)), batches.flatten = first ++ es → ∀ (r' : Obj) (ms : List Msg),
        ms.map Msg.ev = (batches.map compress).flatten → Fresh (Env.init r') ms →
        ∃ R, applyAll (Env.init r') ms = some R ∧ R.facts (.item ['/', '0']) = true ∧
          ∀ k, (∀ i, k ≠ .root i) → k ≠ .item ['/', '0'] → R.facts k = s.facts k := by
  obtain ⟨first, es, h1, h2, h3⟩ := C20_queue_partial h
  refine ⟨first, es, h1, h2, fun bs hb r' ms hms hfr => ?_⟩
  obtain ⟨c1, c2, _⟩ := h3 bs hb
  have hv : Facts.Valid (fun _ => false) := by constructor <;> intros <;> simp_all
  rw [← hms] at c1 c2
  obtain ⟨R, e, hm⟩ := Replica.run (Replica.init r') hv c1 hfr
  refine ⟨R, e, ?_, fun k hk hk0 => ?_⟩
  · rw [← Replica.facts hm.wf (by simp), hm.same _ (by simp)]; simp
  · rw [← Replica.facts hm.wf hk, hm.same k hk, c2 k hk, decide_eq_false hk0, Bool.or_false]

theorem compress_single (e : Ev) : compress [e] = [e] := rfl

/-- **C22**, every event applied in order, one by one -/
theorem C22_unbatched_partial {r : Obj} {s : Env} (h : Reach QueueUse r s) :
    ∃ first es, (Env.init r).announce = some first ∧ s.log = (Env.init r).log ++ es ∧
      ∀ (r' : Obj) (ms : List Msg), ms.map Msg.ev = first ++ es → Fresh (Env.init r') ms →
        ∃ R, applyAll (Env.init r') ms = some R ∧ R.facts (.item ['/', '0']) = true ∧
          ∀ k, (∀ i, k ≠ .root i) → k ≠ .item ['/', '0'] → R.facts k = s.facts k := by
  obtain ⟨first, es, h1, h2, h3⟩ := C22_replica_converges_partial h
  have flat : ∀ l : List Ev, (l.map (fun e => [e])).flatten = l ∧ ((l.map (fun e => [e])).map compress).flatten = l := by
    intro l
    induction l with
    | nil => exact ⟨rfl, rfl⟩
    | cons x l ih =>
      refine ⟨?_, ?_⟩
      · rw [List.map_cons, List.flatten_cons, ih.1]; rfl
      · rw [List.map_cons, List.map_cons, List.flatten_cons, ih.2]; rfl
  exact ⟨first, es, h1, h2, fun r' ms hms hfr => h3 ((first ++ es).map (fun e => [e])) (flat _).1 r' ms (hms.trans (flat _).2.symm) hfr⟩

/-- objects at addresses 100, 101, ... of the given kind for a list of events -/
def number (es : List Ev) (n : Nat) (k : Uid → Kind) : List Msg :=
  match es with
  | [] => []
  | e :: es => ⟨e, n, k e.ida⟩ :: number es (n + 1) k

/-- C22 on a concrete history (frames, a map, layer links, a detach): the replica gets the 7 compressed messages -/
example : ∃ s, Env.run (Env.init 0) queueHistory = some s ∧
    ((applyAll (Env.init 50) (number (compress (s.log.drop (Env.init 0).log.length)) 100 (fun i => if i = ['/', '2'] then .frame else .cmap))).any
      (fun R => decide (R.items.map (·.1) = s.items.map (·.1) ∧ R.facts (.map ['/', '4'] ['/', '2']) = true ∧
        R.facts (.layer ['/', '4'] ['/', '5']) = true ∧ R.facts (.frame ['/', '2'] ['/', '0']) = true)) = true) :=
  ex_of_any (by decide +kernel)

/-- **C22, the code violates the property in general**: the source detaches its own root node. The message is ignored
at the replica, which keeps an item the source does not have. -/
theorem C22_root_kept :
    ∃ s, Env.run (Env.init 0) [.detach 0 false] = some s ∧
      ((Env.init 0).log.length = 1 ∧ s.log.length = 2 ∧ s.facts (.item ['/', '0']) = false ∧
      (applyAll (Env.init 50) (number s.log 100 (fun _ => .frame))).any (fun R => R.facts (.item ['/', '0'])) = true) :=
  ex_of_any (by decide +kernel)

end Envire

#print axioms Envire.C22_replica_converges_partial
#print axioms Envire.C22_unbatched_partial
#print axioms Envire.C22_root_kept
