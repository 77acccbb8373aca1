import Verif.Serial.SyncProps
import Verif.Core.TransformProps
import Verif.Core.EventProps
/-! Property C74: context updates let a receiver place a map it knows nothing about. -/
namespace Envire.Sync
open Env Replica

theorem lokAll_append {S : Facts} {a b : List Ev} : LOkAll S (a ++ b) ↔ LOkAll S a ∧ LOkAll (a.foldl lenient S) b := by
  induction a generalizing S with
  | nil => simp [LOkAll]
  | cons x a ih => show _ ∧ LOkAll _ (a ++ b) ↔ _; rw [ih]; simp [LOkAll, and_assoc]

theorem uid_inj {s : Env} (hw : WF s) {x y : Obj} (hx : s.owner x = .here) (hy : s.owner y = .here) (h : s.uid x = s.uid y) : x = y := by
  have h1 := (hw.items_iff (s.uid x) x).2 ⟨hx, rfl⟩
  have h2 := (hw.items_iff (s.uid x) y).2 ⟨hy, h.symm⟩
  exact obj_unique hw.items_nodup h1 h2

theorem getParent_mem {s : Env} {x p : Obj} (h : s.getParent x = some p) : (x, p) ∈ s.ftree := look_some_mem h

theorem seqEv_eq {a b : Option (List Ev)} {x y : List Ev} (ha : a = some x) (hb : b = some y) : seqEv a b = some (x ++ y) := by
  rw [ha, hb]; rfl

theorem good_here {s : Env} (hw : WF s) {x : Obj} (hx : s.owner x = .here) : goodId (s.uid x) = true :=
  hw.good x (by unfold Env.isAttached; rw [hx])

/-- the events for the frames from `f` upwards -/
theorem chain_run {s : Env} (hw : WF s) (hc : Closed s) (ha : Acyclic s) : ∀ (n : Nat) (f : Obj) (child : Option Obj) (U : Facts),
    s.ftree.length < n + s.height f → s.owner f = .here →
    (∀ c, child = some c → (c, f) ∈ s.ftree ∧ U (.item (s.uid c)) = true) →
    ∃ es, chainEvs s n (some f) child = some es ∧ LOkAll U es ∧
      (∀ i, U (.item i) = true → es.foldl lenient U (.item i) = true) ∧
      es.foldl lenient U (.item (s.uid f)) = true ∧
      (∀ c, child = some c → es.foldl lenient U (.frame (s.uid c) (s.uid f)) = true) ∧
      (∀ g p, (g = f ∨ Above s f g) → s.getParent g = some p →
        es.foldl lenient U (.frame (s.uid g) (s.uid p)) = true ∧ es.foldl lenient U (.item (s.uid p)) = true) ∧
      (∀ i p, (∀ g, (g = f ∨ Above s f g ∨ child = some g) → i ≠ s.uid g) → es.foldl lenient U (.frame i p) = U (.frame i p)) := by
  intro n
  induction n with
  | zero => intro f child U h; exact absurd (height_le s f) (by omega)
  | succ n ih =>
    intro f child U hn hf hch
    let U1 := U.set (.item (s.uid f)) true
    have hU1f : U1 (.item (s.uid f)) = true := Facts.set_self ..
    have hU1 : ∀ i, U (.item i) = true → U1 (.item i) = true := by
      intro i hi
      show Facts.set U _ true _ = true
      unfold Facts.set
      split
      · rfl
      · exact hi
    have hU1fr : ∀ i p, U1 (.frame i p) = U (.frame i p) := fun i p => Facts.set_ne _ _ (by simp)
    -- the link to the child below
    obtain ⟨el, hel, hlok, hli, hlc, hlfr⟩ : ∃ el, (match child with | some c => s.tell .frameTree .add f (some c) | none => some []) = some el ∧
        LOkAll U1 el ∧ (∀ i, el.foldl lenient U1 (.item i) = U1 (.item i)) ∧
        (∀ c, child = some c → el.foldl lenient U1 (.frame (s.uid c) (s.uid f)) = true) ∧
        (∀ i p, (∀ g, child = some g → i ≠ s.uid g) → el.foldl lenient U1 (.frame i p) = U1 (.frame i p)) := by
      cases hcc : child with
      | none => exact ⟨[], rfl, trivial, fun _ => rfl, fun c h => (by cases h), fun _ _ _ => rfl⟩
      | some c =>
        obtain ⟨h1, h2⟩ := hch c hcc
        have oc := (hc.ftree _ h1).1.1
        have hne : s.uid f ≠ s.uid c := by
          intro e
          have := uid_inj hw hf oc e
          subst this
          exact ha _ (.one h1)
        have hlen : lenient U1 (mkEv s .frameTree .add f (some c)) = reparent U1 (s.uid c) (s.uid f) := by
          unfold lenient mkEv
          dsimp only
          rw [hU1f, hU1 _ h2]
          rfl
        refine ⟨[mkEv s .frameTree .add f (some c)], tell_here2 hf oc, ?_, ?_, ?_, ?_⟩
        · exact ⟨⟨shape_link (by decide) _ _ _ _ _, fun h => (by cases h), hne⟩, trivial⟩
        · intro i
          rw [List.foldl_cons, List.foldl_nil, hlen]
          rfl
        · intro c' e
          cases e
          rw [List.foldl_cons, List.foldl_nil, hlen]
          show (if s.uid c = s.uid c then decide (s.uid f = s.uid f) else _) = true
          simp
        · intro i p hi
          rw [List.foldl_cons, List.foldl_nil, hlen]
          show (if i = s.uid c then _ else _) = _
          rw [if_neg (hi c rfl)]
    let U2 := el.foldl lenient U1
    have hU2f : U2 (.item (s.uid f)) = true := (hli _).trans hU1f
    have hfst : LOk U (mkEv s .item .update f none) := by
      refine ⟨⟨fun _ => rfl, fun _ h => (by cases h)⟩, fun _ _ => good_here hw hf, trivial⟩
    have hlen1 : lenient U (mkEv s .item .update f none) = U1 := rfl
    cases hp : s.getParent f with
    | none =>
      refine ⟨[mkEv s .item .update f none] ++ (el ++ []), ?_, ?_, ?_, ?_, ?_, ?_, ?_⟩
      · unfold chainEvs
        rw [hp]
        refine seqEv_eq (tell_here1 hf) (seqEv_eq hel ?_)
        cases n <;> rfl
      · rw [List.append_nil]
        exact ⟨hfst, hlok⟩
      · intro i hi
        rw [List.append_nil]
        exact (hli i).trans (hU1 i hi)
      · rw [List.append_nil]; exact hU2f
      · intro c hcc; rw [List.append_nil]; exact hlc c hcc
      · intro g p hg hgp
        rcases hg with rfl | hg
        · rw [hp] at hgp; cases hgp
        · obtain ⟨q, hq⟩ : ∃ q, (f, q) ∈ s.ftree := by
            cases hg with
            | one h => exact ⟨_, h⟩
            | more h _ => exact ⟨_, h⟩
          rw [show s.getParent f = some q from (look_eq_some_iff hw.ftree_nodup).2 hq] at hp
          cases hp
      · intro i p hi
        rw [List.append_nil]
        exact (hlfr i p (fun g hg => hi g (.inr (.inr hg)))).trans (hU1fr i p)
    | some q =>
      have hfq := getParent_mem hp
      have oq := (hc.ftree _ hfq).1.2
      have hh := height_lt ha hfq
      obtain ⟨er, her, hrok, hri, hrq, hrc, hrg, hrfr⟩ := ih q (some f) U2 (by omega) oq (fun c e => by cases e; exact ⟨hfq, hU2f⟩)
      have hfold : ([mkEv s .item .update f none] ++ (el ++ er)).foldl lenient U = er.foldl lenient U2 := by
        rw [List.foldl_append, List.foldl_append]; rfl
      refine ⟨[mkEv s .item .update f none] ++ (el ++ er), ?_, ?_, ?_, ?_, ?_, ?_, ?_⟩
      · unfold chainEvs
        rw [hp]
        exact seqEv_eq (tell_here1 hf) (seqEv_eq hel her)
      · refine ⟨hfst, ?_⟩
        show LOkAll (lenient U _) (el ++ er)
        rw [hlen1, lokAll_append]
        exact ⟨hlok, hrok⟩
      · intro i hi
        rw [hfold]
        exact hri i ((hli i).trans (hU1 i hi))
      · rw [hfold]; exact hri _ hU2f
      · intro c hcc
        rw [hfold]
        rw [hrfr _ _ ?_]
        · exact hlc c hcc
        · obtain ⟨h1, _⟩ := hch c hcc
          have oc := (hc.ftree _ h1).1.1
          intro g hg e
          have hab : Above s c g := by
            rcases hg with rfl | hg | hg
            · exact .more h1 (.one hfq)
            · exact .more h1 (.more hfq hg)
            · cases hg; exact .one h1
          have og : s.owner g = .here := by
            rcases hg with rfl | hg | hg
            · exact oq
            · have : ∀ {x y}, Above s x y → s.owner y = .here := by
                intro x y h
                induction h with
                | one h => exact (hc.ftree _ h).1.2
                | more _ _ ih => exact ih
              exact this hg
            · cases hg; exact hf
          have := uid_inj hw oc og e
          subst this
          exact ha _ hab
      · intro g p hg hgp
        rw [hfold]
        rcases hg with rfl | hg
        · rw [hp] at hgp
          cases hgp
          exact ⟨hrc _ rfl, hrq⟩
        · refine hrg g p ?_ hgp
          cases hg with
          | one h => 
            have : s.getParent f = some g := (look_eq_some_iff hw.ftree_nodup).2 h
            rw [hp] at this
            cases this
            exact .inl rfl
          | more h h2 =>
            rename_i p'
            have : s.getParent f = some p' := (look_eq_some_iff hw.ftree_nodup).2 h
            rw [hp] at this
            cases this
            exact .inr h2
      · intro i p hi
        rw [hfold]
        rw [hrfr i p ?_]
        · exact (hlfr i p (fun g hg => hi g (.inr (.inr hg)))).trans (hU1fr i p)
        · intro g hg
          refine hi g ?_
          rcases hg with rfl | hg | hg
          · exact .inr (.inl (.one hfq))
          · exact .inr (.inl (.more hfq hg))
          · cases hg; exact .inl rfl

theorem fresh_append {a b : List Msg} : ∀ {R R' : Env}, Fresh R (a ++ b) → applyAll R a = some R' → Fresh R' b := by
  induction a with
  | nil => intro R R' h e; cases e; exact h
  | cons m a ih =>
    intro R R' h e
    unfold applyAll at e
    cases h1 : applyEv R m.ev m.obj m.kind with
    | ok R1 => rw [h1] at e; exact ih (h.2 R1 h1) e
    | throw _ => rw [h1] at e; cases e
    | fault _ => rw [h1] at e; cases e

theorem fresh_left {a b : List Msg} : ∀ {R : Env}, Fresh R (a ++ b) → Fresh R a := by
  induction a with
  | nil => intro R _; trivial
  | cons m a ih => intro R h; exact ⟨h.1, fun R' e => ih (h.2 R' e)⟩

theorem applyAll_append {a b : List Msg} : ∀ {R R' : Env}, applyAll R a = some R' → applyAll R (a ++ b) = applyAll R' b := by
  induction a with
  | nil => intro R R' e; cases e; rfl
  | cons m a ih =>
    intro R R' e
    unfold applyAll at e
    rw [List.cons_append]
    cases h1 : applyEv R m.ev m.obj m.kind with
    | ok R1 => rw [h1] at e; simp only [applyAll, h1]; exact ih e
    | throw _ => rw [h1] at e; cases e
    | fault _ => rw [h1] at e; cases e

theorem mirror_facts {R : Env} {S : Facts} (h : Mirror R S) {k : Key} (hk : ∀ i, k ≠ .root i) : R.facts k = (S k || decide (k = .item rootId)) := by
  rw [← Replica.facts h.wf hk, h.same k hk]

/-- **C74** With context updates the binary events made of an ADD or UPDATE of a map suffice to place it: a receiver that
got any list `ms1` of events before (fitting or not, see `LOk`), possibly nothing at all, can apply them and then has
the map, all frames above it, their tree links up to the root of the tree, and the link of the map to its frame, exactly
as in the source. Missing for the full claim: cyclic frame trees, and queues with allowMultithreading(true), see
`C74_async_assertion`. -/
theorem C74_context_partial {r : Obj} {s : Env} (h : Reach Good r s) (ha : Acyclic s) {m : Obj} (hm : s.owner m = .here)
    (hk : s.kind m = .cmap) {op : EvOp} (hop : op = .add ∨ op = .update) :
    ∃ batch, process s false ⟨.item, op, m, none, s.uid m, []⟩ = some batch ∧
      ∀ (r' : Obj) (ms1 ms2 : List Msg), LOkAll freshFacts (ms1.map Msg.ev) → ms2.map Msg.ev = batch →
        Fresh (Env.init r') (ms1 ++ ms2) →
        ∃ R, applyAll (Env.init r') (ms1 ++ ms2) = some R ∧ R.facts (.item (s.uid m)) = true ∧
          ∀ f, s.getFrameNode m = some f → R.facts (.map (s.uid m) (s.uid f)) = true ∧
            ∀ g p, (g = f ∨ Above s f g) → s.getParent g = some p → R.facts (.frame (s.uid g) (s.uid p)) = true := by
  obtain ⟨hw, hc⟩ := h.wf_closed
  have hproc : ∀ chain link, chainEvs s (s.ftree.length + 1) (s.getFrameNode m) none = some chain →
      s.tell .frameNode .add m (s.getFrameNode m) = some link →
      process s false ⟨.item, op, m, none, s.uid m, []⟩ = some ([⟨.item, op, m, none, s.uid m, []⟩] ++ (chain ++ link)) := by
    intro chain link h1 h2
    unfold process
    rw [if_pos ⟨rfl, hop, hk⟩, if_neg (by decide)]
    exact seqEv_eq rfl (seqEv_eq h1 h2)
  have hlok : ∀ S : Facts, LOk S ⟨.item, op, m, none, s.uid m, []⟩ ∧ lenient S ⟨.item, op, m, none, s.uid m, []⟩ = S.set (.item (s.uid m)) true := by
    intro S
    rcases hop with rfl | rfl
    · exact ⟨⟨⟨fun _ => rfl, fun _ _ => good_here hw hm⟩, fun _ _ => good_here hw hm, trivial⟩, rfl⟩
    · exact ⟨⟨⟨fun _ => rfl, fun _ h => (by cases h)⟩, fun _ _ => good_here hw hm, trivial⟩, rfl⟩
  -- the events do not depend on the receiver, so take any facts to get them
  cases hf : s.getFrameNode m with
  | none =>
    have h1 : chainEvs s (s.ftree.length + 1) (s.getFrameNode m) none = some [] := by rw [hf]; rfl
    have h2 : s.tell .frameNode .add m (s.getFrameNode m) = some [mkEv s .frameNode .add m none] := by rw [hf]; exact tell_here1 hm
    refine ⟨_, hproc _ _ h1 h2, fun r' ms1 ms2 hl he hfr => ?_⟩
    obtain ⟨R1, e1, m1, v1, r1⟩ := lenient_run (mirror_fresh r') (by simp [freshFacts]) freshFacts_valid hl (fresh_left hfr)
    have hok2 : LOkAll ((ms1.map Msg.ev).foldl lenient freshFacts) (ms2.map Msg.ev) := by
      rw [he]
      exact ⟨(hlok _).1, ⟨shape_link (by decide) _ _ _ _ _, fun h => (by cases h), trivial⟩, trivial⟩
    obtain ⟨R2, e2, m2, v2, r2⟩ := lenient_run m1 r1 v1 hok2 (fresh_append hfr e1)
    refine ⟨R2, (applyAll_append e1).trans e2, ?_, fun f e => by cases e⟩
    rw [mirror_facts m2 (by simp), he]
    show (lenient (lenient _ _) (mkEv s .frameNode .add m none) _ || _) = true
    rw [(hlok _).2]
    unfold lenient mkEv
    dsimp only
    split <;> simp [Facts.set_self]
  | some f =>
    have hmf := look_some_mem hf
    have of' := (hc.cmap _ hmf).1.2
    have h2 : s.tell .frameNode .add m (s.getFrameNode m) = some [mkEv s .frameNode .add m (some f)] := by rw [hf]; exact tell_here2 hm of'
    obtain ⟨chain, h1, _⟩ := chain_run hw hc ha (s.ftree.length + 1) f none freshFacts (by omega) of' (fun c e => by cases e)
    have h1' : chainEvs s (s.ftree.length + 1) (s.getFrameNode m) none = some chain := by rw [hf]; exact h1
    refine ⟨_, hproc _ _ h1' h2, fun r' ms1 ms2 hl he hfr => ?_⟩
    obtain ⟨R1, e1, m1, v1, r1⟩ := lenient_run (mirror_fresh r') (by simp [freshFacts]) freshFacts_valid hl (fresh_left hfr)
    generalize hS : (ms1.map Msg.ev).foldl lenient freshFacts = S at m1 v1 r1
    obtain ⟨chain', c1, c2, c3, c4, c5, c6, c7⟩ := chain_run hw hc ha (s.ftree.length + 1) f none (S.set (.item (s.uid m)) true)
      (by omega) of' (fun c e => by cases e)
    rw [h1] at c1
    cases c1
    generalize hU : chain.foldl lenient (S.set (.item (s.uid m)) true) = U at c3 c4 c5 c6 c7
    have hUm : U (.item (s.uid m)) = true := c3 _ (Facts.set_self ..)
    have hlast : lenient U (mkEv s .frameNode .add m (some f)) = replace U (s.uid m) (s.uid f) := by
      unfold lenient mkEv
      dsimp only
      rw [hUm, c4]
      rfl
    have hok2 : LOkAll S (ms2.map Msg.ev) := by
      rw [he]
      refine ⟨(hlok _).1, ?_⟩
      show LOkAll (lenient S _) (chain ++ _)
      rw [(hlok S).2, lokAll_append]
      exact ⟨c2, ⟨shape_link (by decide) _ _ _ _ _, fun h => (by cases h), trivial⟩, trivial⟩
    obtain ⟨R2, e2, m2, v2, r2⟩ := lenient_run m1 r1 v1 hok2 (fresh_append hfr e1)
    have hfin : (ms2.map Msg.ev).foldl lenient S = replace U (s.uid m) (s.uid f) := by
      rw [he, List.foldl_append, List.foldl_append]
      simp only [List.foldl_cons, List.foldl_nil]
      rw [(hlok S).2, hU]
      exact hlast
    rw [hfin] at m2
    refine ⟨R2, (applyAll_append e1).trans e2, ?_, fun f' e => ?_⟩
    · rw [mirror_facts m2 (by simp)]
      show (U _ || _) = true
      rw [hUm]; rfl
    · cases e
      constructor
      · rw [mirror_facts m2 (by simp)]
        show ((if s.uid m = s.uid m then decide (s.uid f = s.uid f) else _) || _) = true
        simp
      · intro g p hg hgp
        rw [mirror_facts m2 (by simp)]
        show (U _ || _) = true
        rw [(c6 g p hg hgp).1]; rfl

/-- a map two frames below the root, and a receiver that has another frame under the id of the map's frame: after the
context update the tree is as in the source -/
example : ∃ s, Env.run (Env.init 0) [.alloc 1 .frame [] false 0 0, .alloc 2 .frame [] false 0 0, .alloc 3 .cmap [] false 0 0, .addChildF 0 1,
      .addChildF 1 2, .attachMap 3 (some 2)] = some s ∧
    ((process s false ⟨.item, .update, 3, none, s.uid 3, []⟩).any (fun es =>
      decide (es.length = 7) && (applyAll (Env.init 50) (number es 100 (fun i => if i = s.uid 3 then .cmap else .frame))).any (fun R =>
        R.facts (.map (s.uid 3) (s.uid 2)) && R.facts (.frame (s.uid 2) (s.uid 1)) && R.facts (.frame (s.uid 1) ['/', '0']))) = true) :=
  ex_of_any (by decide +kernel)

/-- **C74, the code violates the property**: with allowMultithreading(true) and a queue the event holds a clone, which
is in no environment; asking it for its frame node fails an assertion, for every map. -/
theorem C74_async_assertion (s : Env) (e : Ev) (h : e.ty = .item ∧ (e.op = .add ∨ e.op = .update) ∧ s.kind e.a = .cmap) :
    process s true e = none := by
  unfold process
  rw [if_pos h, if_pos rfl]

/-- **C74 and C76 together**: the context updates of a map, sent to a fresh environment that has an event queue of its
own, make that environment dereference NULL. -/
theorem C74_chain_of_replicas_breaks :
    ∃ s, Env.run (Env.init 0) [.alloc 1 .frame [] false 0 0, .alloc 3 .cmap [] false 0 0, .addChildF 0 1, .attachMap 3 (some 1)] = some s ∧
    ((process s false ⟨.item, .add, 3, none, s.uid 3, []⟩).any (fun es =>
      (applyAllWatched (Env.init 50) (number es 100 (fun i => if i = s.uid 3 then .cmap else .frame))).isNone) = true) :=
  ex_of_any (by decide +kernel)

end Envire.Sync

#print axioms Envire.Sync.C74_context_partial
#print axioms Envire.Sync.C74_async_assertion
#print axioms Envire.Sync.C74_chain_of_replicas_breaks
