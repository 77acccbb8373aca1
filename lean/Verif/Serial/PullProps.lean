import Verif.Serial.ContextProps
/-! Property C75: pullEvents(all) gives a new receiver the whole environment. -/
namespace Envire.Sync
open Env Replica

/-! ### what is pending in a queue agrees with the environment -/

/-- every queued message is still true -/
def Says (S : Facts) (q : List Ev) : Prop :=
  ∀ o ∈ q, o.shape ∧ (o.op = .update → o.ty = .item) ∧ (o.op = .remove → S o.key = false) ∧ (o.op ≠ .remove → S o.key = true)

theorem says_step {S : Facts} {q : List Ev} {e : Ev} (hq : Says S q) (he : e.Fits S) : Says (S.apply e) (enqueue q e) := by
  have hnew : e.shape ∧ (e.op = .update → e.ty = .item) ∧ (e.op = .remove → S.apply e e.key = false) ∧ (e.op ≠ .remove → S.apply e e.key = true) := by
    obtain ⟨h1, h2⟩ := he
    unfold Facts.apply
    cases ho : e.op <;> rw [ho] at h2
    · exact ⟨h1, fun h => (by cases h), fun h => (by cases h), fun _ => Facts.set_self ..⟩
    · exact ⟨h1, fun h => (by cases h), fun _ => Facts.set_self .., fun h => absurd rfl h⟩
    · exact ⟨h1, fun _ => h2.1, fun h => (by cases h), fun _ => h2.2⟩
  have hold : ∀ o ∈ q, e.merge o = .ignore →
      o.shape ∧ (o.op = .update → o.ty = .item) ∧ (o.op = .remove → S.apply e o.key = false) ∧ (o.op ≠ .remove → S.apply e o.key = true) := by
    intro o ho hm
    obtain ⟨h1, h2, h3, h4⟩ := hq o ho
    rw [merge_eq he.1 h1] at hm
    by_cases hk : e.key = o.key
    · rw [if_pos hk] at hm
      refine ⟨h1, h2, ?_, ?_⟩
      · intro hr
        unfold Facts.apply
        cases heo : e.op <;> rw [heo, hr] at hm <;> simp at hm
        exact h3 hr
      · intro hr
        unfold Facts.apply
        cases heo : e.op <;> rw [heo] at hm
        · rw [← hk]; exact Facts.set_self ..
        · cases hoo : o.op <;> rw [hoo] at hm hr <;> simp at hm hr
        · exact h4 hr
    · have : S.apply e o.key = S o.key := by
        unfold Facts.apply
        cases e.op
        · exact Facts.set_ne _ _ (fun x => hk x.symm)
        · exact Facts.set_ne _ _ (fun x => hk x.symm)
        · rfl
      rw [this]
      exact ⟨h1, h2, h3, h4⟩
  intro o ho
  unfold enqueue at ho
  dsimp only at ho
  split at ho
  · obtain ⟨a, b⟩ := List.mem_filter.1 ho
    exact hold o a (by simpa using b)
  · rcases List.mem_append.1 ho with ho | ho
    · obtain ⟨a, b⟩ := List.mem_filter.1 ho
      exact hold o a (by simpa using b)
    · rw [List.mem_singleton] at ho
      subst ho
      exact hnew

theorem says_run (es : List Ev) : ∀ {S : Facts} {q : List Ev}, Says S q → FitsAll S es → Says (S.follow es) (es.foldl enqueue q) := by
  induction es with
  | nil => intro S q h _; exact h
  | cons e es ih => intro S q h hf; exact ih (says_step h hf.1) hf.2

/-! ### announcing into a queue -/

theorem enqueue_add {q d : List Ev} {e : Ev} (he : e.op = .add) (hs : e.shape) (hq : ∀ o ∈ q, o.shape ∧ (o.op = .remove → o.key ≠ e.key))
    (hd : ∀ o ∈ d, o.shape ∧ o.key ≠ e.key) : ∃ q', q'.Sublist q ∧ enqueue (q ++ d) e = q' ++ (d ++ [e]) := by
  refine ⟨q.filter (fun o => decide (e.merge o = .ignore)), List.filter_sublist, ?_⟩
  have hdf : d.filter (fun o => decide (e.merge o = .ignore)) = d := by
    rw [List.filter_eq_self]
    intro o ho
    rw [merge_eq hs (hd o ho).1, if_neg (fun x => (hd o ho).2 x.symm)]
    rfl
  have hany : (q ++ d).any (fun o => decide (e.merge o = .cancel)) = false := by
    rw [List.any_eq_false]
    intro o ho
    rw [decide_eq_true_eq]
    rcases List.mem_append.1 ho with ho | ho
    · rw [merge_eq hs (hq o ho).1]
      by_cases hk : e.key = o.key
      · rw [if_pos hk, he]
        cases hoo : o.op
        · simp
        · exact absurd hk.symm ((hq o ho).2 hoo)
        · simp
      · rw [if_neg hk]; simp
    · rw [merge_eq hs (hd o ho).1, if_neg (fun x => (hd o ho).2 x.symm)]
      simp
  unfold enqueue
  dsimp only
  rw [hany, List.filter_append, hdf]
  simp

theorem enqueue_adds (a : List Ev) : ∀ (q d : List Ev), (∀ e ∈ a, e.op = .add ∧ e.shape) → (a.Pairwise (fun x y => x.key ≠ y.key)) →
    (∀ e ∈ a, ∀ o ∈ q, o.shape ∧ (o.op = .remove → o.key ≠ e.key)) → (∀ e ∈ a, ∀ o ∈ d, o.shape ∧ o.key ≠ e.key) →
    ∃ q', q'.Sublist q ∧ a.foldl enqueue (q ++ d) = q' ++ (d ++ a) := by
  induction a with
  | nil => intro q d _ _ _ _; exact ⟨q, .refl _, by simp⟩
  | cons e a ih =>
    intro q d h1 h2 h3 h4
    rw [List.pairwise_cons] at h2
    obtain ⟨q1, s1, e1⟩ := enqueue_add (h1 e (by simp)).1 (h1 e (by simp)).2 (h3 e (by simp)) (h4 e (by simp))
    obtain ⟨q2, s2, e2⟩ := ih q1 (d ++ [e]) (fun x hx => h1 x (by simp [hx])) h2.2 (fun x hx o ho => h3 x (by simp [hx]) o (s1.subset ho))
      (fun x hx o ho => by
        rcases List.mem_append.1 ho with ho | ho
        · exact h4 x (by simp [hx]) o ho
        · rw [List.mem_singleton] at ho; subst ho; exact ⟨(h1 o (by simp)).2, h2.1 x hx⟩)
    refine ⟨q2, s2.trans s1, ?_⟩
    rw [List.foldl_cons, e1, e2]
    simp

/-! ### a receiver that gets true messages -/

/-- `S` claims nothing that is not in `T` -/
def Sub (S T : Facts) : Prop := ∀ k, (∀ i, k ≠ .root i) → S k = true → T k = true

/-- a message that is true in `T` -/
def True1 (T : Facts) (e : Ev) : Prop :=
  e.shape ∧ (e.op = .update → e.ty = .item) ∧ (e.ty ≠ .root → (e.op = .remove → T e.key = false) ∧ (e.op ≠ .remove → T e.key = true))

theorem true_step {S T : Facts} {e : Ev} (hT : T.Valid) (hg : ∀ i, T (.item i) = true → goodId i = true) (hS : Sub S T) (he : True1 T e)
    (hl : e.ty = .layerTree → e.op = .add → S e.key = false) :
    LOk S e ∧ Sub (lenient S e) T ∧ ∀ k, S k = true → lenient S e k = true := by
  obtain ⟨ty, op, a, b, i, j⟩ := e
  obtain ⟨hs, hu, hk⟩ := he
  have mono_set : ∀ k x, S x = true → Facts.set S k true x = true := by
    intro k x h; unfold Facts.set; split
    · rfl
    · exact h
  have sub_set : ∀ k, T k = true → Sub (Facts.set S k true) T := by
    intro k hk x hx h
    unfold Facts.set at h
    split at h
    · rename_i e; rw [e]; exact hk
    · exact hS x hx h
  have sub_unset : ∀ k, Sub (Facts.set S k false) T := by
    intro k x hx h
    unfold Facts.set at h
    split at h
    · cases h
    · exact hS x hx h
  have mono_unset : ∀ k, (∀ i, k ≠ .root i) → T k = false → ∀ x, S x = true → Facts.set S k false x = true := by
    intro k hk hf x hx
    unfold Facts.set
    rw [if_neg]
    · exact hx
    · rintro rfl
      rw [hS _ hk hx] at hf
      cases hf
  cases ty <;> cases op <;> simp at hu hk hl
  · exact ⟨⟨hs, fun _ h => (by cases h), trivial⟩, sub_set _ hk, mono_set _⟩
  · refine ⟨⟨hs, fun _ h => (by cases h), ?_⟩, hS, fun _ h => h⟩
    show S (.item i) = false
    rw [Bool.eq_false_iff]
    intro h
    have := hS (.item i) (by simp) h
    rw [show T (.item i) = false from hk] at this
    cases this
  · exact ⟨⟨hs, fun _ _ => hg _ hk, trivial⟩, sub_set _ hk, mono_set _⟩
  · -- frame add
    have hk : T (.frame j i) = true := hk
    refine ⟨⟨hs, fun h => (by cases h), fun h => (hT.frame _ _ hk).2.2 h.symm⟩, ?_, ?_⟩
    · intro k hr h
      unfold lenient at h
      dsimp only at h
      split at h
      · cases k with
        | frame c p =>
          dsimp only at h
          split at h
          · rename_i e; rw [decide_eq_true_eq] at h; rw [e, h]; exact hk
          · exact hS _ hr h
        | _ => exact hS _ hr h
      · exact hS _ hr h
    · intro k h
      unfold lenient
      dsimp only
      split
      · cases k with
        | frame c p =>
          dsimp only
          split
          · rename_i e
            rw [decide_eq_true_eq]
            rw [e] at h
            exact hT.parent j p i (hS _ (by simp) h) hk
          · exact h
        | _ => exact h
      · exact h
  · exact ⟨⟨hs, fun h => (by cases h), trivial⟩, sub_unset _, mono_unset _ (by simp) hk⟩
  · -- map add
    have hk : T (.map i j) = true := hk
    refine ⟨⟨hs, fun h => (by cases h), trivial⟩, ?_, ?_⟩
    · intro k hr h
      unfold lenient at h
      dsimp only at h
      split at h
      · cases k with
        | map c p =>
          dsimp only at h
          split at h
          · rename_i e; rw [decide_eq_true_eq] at h; rw [e, h]; exact hk
          · exact hS _ hr h
        | _ => exact hS _ hr h
      · exact hS _ hr h
    · intro k h
      unfold lenient
      dsimp only
      split
      · cases k with
        | map c p =>
          dsimp only
          split
          · rename_i e
            rw [decide_eq_true_eq]
            rw [e] at h
            exact hT.place i p j (hS _ (by simp) h) hk
          · exact h
        | _ => exact h
      · exact h
  · exact ⟨⟨hs, fun h => (by cases h), trivial⟩, sub_unset _, mono_unset _ (by simp) hk⟩
  · -- layer add
    have hk : T (.layer j i) = true := hk
    refine ⟨⟨hs, fun h => (by cases h), fun h => (hT.layer _ _ hk).2.2 h.symm, hl⟩, ?_, ?_⟩
    · intro k hr h
      unfold lenient at h
      dsimp only at h
      split at h
      · exact sub_set _ hk k hr h
      · exact hS _ hr h
    · intro k h
      unfold lenient
      dsimp only
      split
      · exact mono_set _ _ h
      · exact h
  · exact ⟨⟨hs, fun h => (by cases h), trivial⟩, sub_unset _, mono_unset _ (by simp) hk⟩
  · exact ⟨⟨hs, fun h => (by cases h), trivial⟩, hS, fun _ h => h⟩
  · exact ⟨⟨hs, fun h => (by cases h), trivial⟩, hS, fun _ h => h⟩

/-- an event other than a layer link leaves the layer links -/
theorem lenient_layer {S : Facts} {e : Ev} {c p : Uid} (h : lenient S e (.layer c p) = true) :
    S (.layer c p) = true ∨ (e.ty = .layerTree ∧ e.op = .add ∧ e.key = .layer c p) := by
  obtain ⟨ty, op, a, b, i, j⟩ := e
  have set_ne : ∀ {k v}, Facts.set S k v (.layer c p) = true → k ≠ .layer c p → S (.layer c p) = true := by
    intro k v h hk
    rw [Facts.set_ne _ _ (fun e => hk e.symm)] at h
    exact h
  have unset : ∀ {k}, Facts.set S k false (.layer c p) = true → S (.layer c p) = true := by
    intro k h
    unfold Facts.set at h
    split at h
    · cases h
    · exact h
  cases ty <;> cases op <;> unfold lenient at h <;> dsimp only at h
  all_goals first
    | exact .inl h
    | exact .inl (unset h)
    | exact .inl (set_ne h (by simp))
    | skip
  · split at h <;> exact .inl h
  · split at h <;> exact .inl h
  · split at h
    · by_cases hk : Key.layer j i = .layer c p
      · exact .inr ⟨rfl, rfl, hk⟩
      · exact .inl (set_ne h hk)
    · exact .inl h

theorem true_run {T : Facts} (hT : T.Valid) (hg : ∀ i, T (.item i) = true → goodId i = true) (l : List Ev) : ∀ {S : Facts}, Sub S T →
    (∀ e ∈ l, True1 T e) → Once (l.filter (fun e => decide (e.ty = .layerTree ∧ e.op = .add))) →
    (∀ e ∈ l, e.ty = .layerTree → e.op = .add → S e.key = false) →
    LOkAll S l ∧ Sub (l.foldl lenient S) T ∧ ∀ k, S k = true → l.foldl lenient S k = true := by
  induction l with
  | nil => intro S hS _ _ _; exact ⟨trivial, hS, fun _ h => h⟩
  | cons e l ih =>
    intro S hS h1 h2 h3
    obtain ⟨a1, a2, a3⟩ := true_step hT hg hS (h1 e (by simp)) (h3 e (by simp))
    have hon : Once (l.filter (fun e => decide (e.ty = .layerTree ∧ e.op = .add))) ∧
        (e.ty = .layerTree → e.op = .add → ∀ o ∈ l, o.ty = .layerTree → o.op = .add → e.key ≠ o.key) := by
      by_cases he : e.ty = .layerTree ∧ e.op = .add
      · rw [List.filter_cons_of_pos (by simpa using he)] at h2
        unfold Once at h2
        rw [List.pairwise_cons] at h2
        refine ⟨h2.2, fun _ _ o ho t1 t2 => h2.1 o (List.mem_filter.2 ⟨ho, by simp [t1, t2]⟩) (by rw [he.2]; decide) (by rw [t2]; decide)⟩
      · rw [List.filter_cons_of_neg (by simpa using he)] at h2
        exact ⟨h2, fun x y => absurd ⟨x, y⟩ he⟩
    obtain ⟨b1, b2, b3⟩ := ih a2 (fun x hx => h1 x (by simp [hx])) hon.1 (by
      intro o ho t1 t2
      rw [Bool.eq_false_iff]
      intro hh
      have hkey : o.key = .layer o.idb o.ida := by unfold Ev.key; rw [t1]
      rw [hkey] at hh
      rcases lenient_layer hh with hh | ⟨t3, t4, t5⟩
      · rw [← hkey, h3 o (by simp [ho]) t1 t2] at hh; cases hh
      · exact hon.2 t3 t4 o ho t1 t2 (t5.trans hkey.symm))
    exact ⟨⟨a1, b1⟩, b2, fun k hk => b3 k (a3 k hk)⟩

theorem once_filter {l : List Ev} {p : Ev → Bool} (h : Once l) : Once (l.filter p) := List.Pairwise.sublist List.filter_sublist h

theorem lenient_add {S : Facts} {e : Ev} (he : e.op = .add) (hr : e.ty ≠ .root) (h1 : e.ty = .item ∨ (S (.item e.ida) = true ∧ S (.item e.idb) = true)) :
    lenient S e e.key = true := by
  obtain ⟨ty, op, a, b, i, j⟩ := e
  dsimp only at he
  subst he
  cases ty <;> simp at h1 hr <;> simp [lenient, Ev.key, Facts.set, h1]

theorem once_of_keys {l : List Ev} (h : (l.map Ev.key).Nodup) : l.Pairwise (fun x y => x.key ≠ y.key) := List.pairwise_map.1 h

/-- the announcement as a list of messages about distinct things -/
theorem announce_keys {s : Env} (hw : WF s) (hc : Closed s) {L : List (Obj × Obj)} (hn : L.Nodup) (hL : ∀ e, e ∈ L ↔ LinkBelow s s.rootNode e) :
    (s.items.map (fun e => mkEv s .item .add e.2 none) ++ ([mkEv s .root .add s.rootNode none] ++
        (L.map (fun e => mkEv s .frameTree .add e.2 (some e.1)) ++
          s.cmap.map (fun e => mkEv s .frameNode .add e.1 (some e.2))))).Pairwise (fun x y => x.key ≠ y.key) := by
  have huid : ∀ e ∈ s.items, s.uid e.2 = e.1 := fun e he => ((hw.items_iff e.1 e.2).1 he).2
  have hinj := @uid_inj s hw
  have hft : ∀ e ∈ L, s.owner e.1 = .here ∧ s.owner e.2 = .here := fun e he => (hc.ftree e ((hL e).1 he).1).1
  have hcm : ∀ e ∈ s.cmap, s.owner e.1 = .here ∧ s.owner e.2 = .here := fun e he => (hc.cmap e he).1
  rw [List.pairwise_append, List.pairwise_append, List.pairwise_append]
  refine ⟨?_, ⟨List.pairwise_singleton .., ⟨?_, ?_, ?_⟩, ?_⟩, ?_⟩
  · rw [List.pairwise_map]
    refine List.Pairwise.imp_of_mem ?_ (List.pairwise_map.1 hw.items_nodup)
    intro x y hx hy hxy hk
    have : s.uid x.2 = s.uid y.2 := Key.item.inj hk
    rw [huid x hx, huid y hy] at this
    exact hxy this
  · rw [List.pairwise_map]
    refine List.Pairwise.imp_of_mem ?_ hn
    intro x y hx hy hxy hk
    obtain ⟨h1, h2⟩ := Key.frame.inj hk
    exact hxy (Prod.ext (hinj (hft x hx).1 (hft y hy).1 h1) (hinj (hft x hx).2 (hft y hy).2 h2))
  · rw [List.pairwise_map]
    refine List.Pairwise.imp_of_mem ?_ (List.pairwise_map.1 hw.cmap_nodup)
    intro x y hx hy hxy hk
    obtain ⟨h1, h2⟩ := Key.map.inj hk
    exact hxy (hinj (hcm x hx).1 (hcm y hy).1 h1)
  · intro x hx y hy hk
    obtain ⟨_, _, rfl⟩ := List.mem_map.1 hx
    obtain ⟨_, _, rfl⟩ := List.mem_map.1 hy
    cases hk
  · intro x hx y hy hk
    rw [List.mem_singleton] at hx
    subst hx
    rcases List.mem_append.1 hy with hy | hy <;> obtain ⟨_, _, rfl⟩ := List.mem_map.1 hy <;> cases hk
  · intro x hx y hy hk
    obtain ⟨_, _, rfl⟩ := List.mem_map.1 hx
    rcases List.mem_append.1 hy with hy | hy
    · rw [List.mem_singleton] at hy; subst hy; cases hk
    · rcases List.mem_append.1 hy with hy | hy <;> obtain ⟨_, _, rfl⟩ := List.mem_map.1 hy <;> cases hk

theorem facts_item {s : Env} (hw : WF s) {x : Obj} (hx : s.owner x = .here) : s.facts (.item (s.uid x)) = true ∧ s.getItem (s.uid x) = some x := by
  have h : s.getItem (s.uid x) = some x := (look_eq_some_iff hw.items_nodup).2 ((hw.items_iff _ _).2 ⟨hx, rfl⟩)
  refine ⟨?_, h⟩
  show (s.getItem (s.uid x)).isSome = true
  rw [h]; rfl

theorem adms_root {g d : Prop} {es : List Ev} : ∀ {A : Pic}, Adms g d A es → ∀ e ∈ es, e.ty ≠ .root := by
  induction es with
  | nil => intro A _ e he; cases he
  | cons x es ih =>
    intro A h e he
    rcases List.mem_cons.1 he with rfl | he
    · intro ht
      have := h.1
      unfold Adm at this
      rw [ht] at this
      exact this
    · exact ih h.2 e he

/-- the root is announced once, no later event is about it -/
theorem stream_root {r : Obj} {s : Env} (h : Reach QueueUse r s) {first es : List Ev} (h1 : (Env.init r).announce = some first)
    (h2 : s.log = (Env.init r).log ++ es) : ∀ e ∈ first ++ es, e.ty = .root → e.op = .add := by
  have hR : ∀ {r s}, Reach QueueUse r s → Reach Good r s := fun h => h.mono (fun _ _ h => h.1)
  obtain ⟨es', g1, g2, _⟩ := reach_stream (G := QueueUse) (g := True) (d := True)
    (fun s op hc h => h.1.legal hc) (fun h => (hR h).wf_closed) (fun _ s op h => ⟨h.1, h.2.1⟩)
    (fun _ s op h => h.2.2) h
  rw [h2] at g1
  have := List.append_cancel_left g1
  subst this
  rw [announce_init] at h1
  cases h1
  intro e he ht
  rcases List.mem_append.1 he with he | he
  · simp at he
    rcases he with rfl | rfl <;> rfl
  · exact absurd ht (adms_root g2 e he)

theorem enqueue_mem {q : List Ev} {e o : Ev} (h : o ∈ enqueue q e) : o ∈ q ∨ o = e := by
  unfold enqueue at h
  dsimp only at h
  split at h
  · exact .inl (List.mem_filter.1 h).1
  · rcases List.mem_append.1 h with h | h
    · exact .inl (List.mem_filter.1 h).1
    · exact .inr (List.mem_singleton.1 h)

theorem foldl_enqueue_mem (es : List Ev) : ∀ {q : List Ev} {o : Ev}, o ∈ es.foldl enqueue q → o ∈ q ∨ o ∈ es := by
  induction es with
  | nil => intro q o h; exact .inl h
  | cons e es ih =>
    intro q o h
    rcases ih h with h | h
    · rcases enqueue_mem h with h | rfl
      · exact .inl h
      · exact .inr (List.mem_cons_self ..)
    · exact .inr (List.mem_cons_of_mem _ h)

theorem mono_run {T : Facts} (hT : T.Valid) (hg : ∀ i, T (.item i) = true → goodId i = true) {l : List Ev} {S : Facts} (hS : Sub S T)
    (h : ∀ e ∈ l, True1 T e) (hl : ∀ e ∈ l, e.ty ≠ .layerTree) :
    Sub (l.foldl lenient S) T ∧ ∀ k, S k = true → l.foldl lenient S k = true := by
  have hf : l.filter (fun e => decide (e.ty = .layerTree ∧ e.op = .add)) = [] := by
    rw [List.filter_eq_nil_iff]
    intro e he
    simp [hl e he]
  exact (true_run hT hg l hS h (by rw [hf]; exact .nil) (fun e he ht => absurd ht (hl e he))).2

/-- **C75** What pullEvents(all) returns suffices for a fresh receiver, whatever changes were pending in the queue (`cur`,
the changes since the last pull, or no pull before): it shows all items, all places of maps and all frame links below
the root, and nothing that is not in the source. Missing for the full claim: layer links and frame trees that are not
below the root (C17), see `C75_layer_link_lost`. -/
theorem C75_pull_partial {r : Obj} {s : Env} (h : Reach QueueUse r s) (ha : Acyclic s) (hr : s.owner s.rootNode = .here)
    (h0 : (s.getItem ['/', '0']).isSome = true) :
    ∃ first es, (Env.init r).announce = some first ∧ s.log = (Env.init r).log ++ es ∧
      ∀ (q : Option (List Ev)), (q = none ∨ ∃ done cur, first ++ es = done ++ cur ∧ q = some (compress cur)) →
        ∃ l, pullEvents s q true = some l ∧ ∀ (r' : Obj) (ms : List Msg), ms.map Msg.ev = l → Fresh (Env.init r') ms →
          ∃ R, applyAll (Env.init r') ms = some R ∧
            (∀ i, R.facts (.item i) = s.facts (.item i)) ∧ (∀ m f, R.facts (.map m f) = s.facts (.map m f)) ∧
            (∀ c p, LinkBelow s s.rootNode (c, p) → R.facts (.frame (s.uid c) (s.uid p)) = true) ∧
            (∀ k, (∀ i, k ≠ .root i) → R.facts k = true → s.facts k = true) := by
  obtain ⟨hw, hc⟩ := (h.mono (G' := Good) (fun _ _ h => h.1)).wf_closed
  obtain ⟨first, es, e1, e2, hfits, hT⟩ := stream_fits h
  obtain ⟨L, hn, hL, han⟩ := announce_eq hw hc ha hr
  have hv0 : Facts.Valid (fun _ => false) := by constructor <;> intros <;> simp_all
  have hvT := hfits.valid hv0
  generalize hTT : Facts.follow (fun _ => false) (first ++ es) = T at hT hvT
  have hTi : ∀ x, s.owner x = .here → T (.item (s.uid x)) = true := fun x hx => by rw [hT _ (by simp)]; exact (facts_item hw hx).1
  have hg : ∀ i, T (.item i) = true → goodId i = true := by
    intro i hi
    rw [hT _ (by simp)] at hi
    obtain ⟨x, hx⟩ := Option.isSome_iff_exists.1 (show (s.getItem i).isSome = true from hi)
    have hm := (hw.items_iff i x).1 (look_some_mem hx)
    rw [← hm.2]
    exact good_here hw hm.1
  have hTf : ∀ e ∈ L, T (.frame (s.uid e.1) (s.uid e.2)) = true := by
    intro e he
    have hm := ((hL e).1 he).1
    rw [hT _ (by simp)]
    show (match s.getItem (s.uid e.1), s.getItem (s.uid e.2) with | some x, some y => decide (s.getParent x = some y) | _, _ => false) = true
    rw [(facts_item hw (hc.ftree e hm).1.1).2, (facts_item hw (hc.ftree e hm).1.2).2]
    exact decide_eq_true ((look_eq_some_iff hw.ftree_nodup).2 hm)
  have hTm : ∀ e ∈ s.cmap, T (.map (s.uid e.1) (s.uid e.2)) = true := by
    intro e he
    rw [hT _ (by simp)]
    show (match s.getItem (s.uid e.1), s.getItem (s.uid e.2) with | some x, some y => decide (s.getFrameNode x = some y) | _, _ => false) = true
    rw [(facts_item hw (hc.cmap e he).1.1).2, (facts_item hw (hc.cmap e he).1.2).2]
    exact decide_eq_true ((look_eq_some_iff hw.cmap_nodup).2 he)
  have hft : ∀ e ∈ L, s.owner e.1 = .here ∧ s.owner e.2 = .here := fun e he => (hc.ftree e ((hL e).1 he).1).1
  have hkeys := announce_keys hw hc hn hL
  generalize hI : s.items.map (fun e => mkEv s .item .add e.2 none) = I at han hkeys
  generalize hA : I ++ ([mkEv s .root .add s.rootNode none] ++ (L.map (fun e => mkEv s .frameTree .add e.2 (some e.1)) ++
          s.cmap.map (fun e => mkEv s .frameNode .add e.1 (some e.2)))) = A at han hkeys
  -- every announced message is true
  have hItrue : ∀ e ∈ I, e.op = .add ∧ e.shape ∧ e.ty = .item ∧ T e.key = true := by
    intro e he
    rw [← hI] at he
    obtain ⟨x, hx, rfl⟩ := List.mem_map.1 he
    have ox := ((hw.items_iff x.1 x.2).1 hx).1
    exact ⟨rfl, ⟨fun _ => rfl, fun _ _ => good_here hw ox⟩, rfl, hTi _ ox⟩
  have hAtrue : ∀ e ∈ A, e.op = .add ∧ e.shape ∧ (e.ty ≠ .root → T e.key = true) ∧ e.ty ≠ .layerTree := by
    intro e he
    rw [← hA] at he
    rcases List.mem_append.1 he with he | he
    · obtain ⟨a, b, c, d⟩ := hItrue e he
      exact ⟨a, b, fun _ => d, by rw [c]; decide⟩
    · rcases List.mem_append.1 he with he | he
      · rw [List.mem_singleton] at he
        subst he
        exact ⟨rfl, ⟨fun _ => rfl, fun h => (by cases h)⟩, fun h => absurd rfl h, fun h => (by cases h)⟩
      · rcases List.mem_append.1 he with he | he <;> obtain ⟨x, hx, rfl⟩ := List.mem_map.1 he
        · exact ⟨rfl, shape_link (by decide) _ _ _ _ _, fun _ => hTf x hx, fun h => (by cases h)⟩
        · exact ⟨rfl, shape_link (by decide) _ _ _ _ _, fun _ => hTm x hx, fun h => (by cases h)⟩
  refine ⟨first, es, e1, e2, fun q hq => ?_⟩
  -- the queue before
  obtain ⟨q0, hq0, hsays, honce, hroots⟩ : ∃ q0, pullEvents s q true = (s.announce).map (fun es => es.foldl enqueue q0) ∧ Says T q0 ∧ Once q0 ∧
      ∀ o ∈ q0, o.ty = .root → o.op = .add := by
    rcases hq with rfl | ⟨done, cur, hcut, rfl⟩
    · exact ⟨[], rfl, by simp [Says], List.Pairwise.nil, by simp⟩
    · have hsr := stream_root h e1 e2
      rw [hcut] at hfits hTT hsr
      rw [fitsAll_append] at hfits
      have hinv := compress_inv (hfits.1.valid hv0) hfits.2
      refine ⟨compress cur, rfl, ?_, hinv.once, fun o ho => hsr o (List.mem_append_right _ ((foldl_enqueue_mem cur ho).resolve_left (by simp)))⟩
      · rw [← hTT, Facts.follow_append]
        exact says_run cur (by simp [Says]) hfits.2
  obtain ⟨q', hsub, hl⟩ := enqueue_adds A q0 [] (fun e he => ⟨(hAtrue e he).1, (hAtrue e he).2.1⟩) hkeys (by
    intro e he o ho
    refine ⟨(hsays o ho).1, fun hrm hk => ?_⟩
    by_cases hroot : e.ty = .root
    · have hot : o.ty = .root := by
        have : e.key = .root e.ida := by unfold Ev.key; rw [hroot]
        rw [this] at hk
        unfold Ev.key at hk
        cases ho' : o.ty <;> rw [ho'] at hk <;> first | rfl | cases hk
      rw [hroots o ho hot] at hrm
      cases hrm
    · have := (hAtrue e he).2.2.1 hroot
      rw [← hk, (hsays o ho).2.2.1 hrm] at this
      cases this) (by simp)
  rw [List.append_nil, List.nil_append] at hl
  refine ⟨q' ++ A, by rw [hq0, han, Option.map_some, hl], fun r' ms hms hfr => ?_⟩
  have hS0 : Sub freshFacts T := by
    intro k hk hf
    have : k = .item rootId := by simpa [freshFacts] using hf
    rw [this, hT _ (by simp)]
    exact h0
  have htrue : ∀ e ∈ q' ++ A, True1 T e := by
    intro e he
    rcases List.mem_append.1 he with he | he
    · obtain ⟨a, b, c, d⟩ := hsays e (hsub.subset he)
      exact ⟨a, b, fun _ => ⟨c, d⟩⟩
    · obtain ⟨a, b, c, d⟩ := hAtrue e he
      exact ⟨b, fun h => (by rw [a] at h; cases h), fun h => ⟨fun h => (by rw [a] at h; cases h), fun _ => c h⟩⟩
  have honce' : Once ((q' ++ A).filter (fun e => decide (e.ty = .layerTree ∧ e.op = .add))) := by
    rw [List.filter_append]
    have : A.filter (fun e => decide (e.ty = .layerTree ∧ e.op = .add)) = [] := by
      rw [List.filter_eq_nil_iff]
      intro e he
      have := (hAtrue e he).2.2.2
      simp [this]
    rw [this, List.append_nil]
    exact once_filter (List.Pairwise.sublist hsub honce)
  obtain ⟨t1, t2, t3⟩ := true_run hvT hg (q' ++ A) hS0 htrue honce' (by
    intro e _ ht _
    have : e.key = .layer e.idb e.ida := by unfold Ev.key; rw [ht]
    rw [this]
    simp [freshFacts])
  rw [← hms] at t1
  obtain ⟨R, ra, rm, rv, rr⟩ := lenient_run (mirror_fresh r') (by simp [freshFacts]) freshFacts_valid t1 hfr
  rw [hms] at rm
  -- what is there in the end: everything that was added once both ends were there
  have hq't : ∀ e ∈ q', True1 T e := fun e he => htrue e (List.mem_append_left _ he)
  have hAt : ∀ e ∈ A, True1 T e := fun e he => htrue e (List.mem_append_right _ he)
  have hAl : ∀ e ∈ A, e.ty ≠ .layerTree := fun e he => (hAtrue e he).2.2.2
  obtain ⟨_, u2, _⟩ := true_run hvT hg q' hS0 hq't (once_filter (List.Pairwise.sublist hsub honce)) (by
    intro e _ ht _
    have : e.key = .layer e.idb e.ida := by unfold Ev.key; rw [ht]
    rw [this]
    simp [freshFacts])
  generalize hS1 : q'.foldl lenient freshFacts = S1 at u2
  have hfin : (q' ++ A).foldl lenient freshFacts = A.foldl lenient S1 := by rw [List.foldl_append, hS1]
  rw [hfin] at rm t2
  have key : ∀ A1 e A2, A = A1 ++ e :: A2 → e.ty ≠ .root →
      (e.ty = .item ∨ (A1.foldl lenient S1 (.item e.ida) = true ∧ A1.foldl lenient S1 (.item e.idb) = true)) →
      A.foldl lenient S1 e.key = true := by
    intro A1 e A2 hsplit hnr hends
    rw [hsplit] at hAt hAl ⊢
    obtain ⟨v1, _⟩ := mono_run hvT hg u2 (fun x hx => hAt x (by simp [hx])) (fun x hx => hAl x (by simp [hx])) (l := A1)
    have he : e.op = .add := (hAtrue e (by rw [hsplit]; simp)).1
    obtain ⟨v2, _⟩ := true_step hvT hg v1 (hAt e (by simp)) (fun ht => absurd ht (hAl e (by simp))) |>.2
    obtain ⟨_, v3⟩ := mono_run hvT hg v2 (fun x hx => hAt x (by simp [hx])) (fun x hx => hAl x (by simp [hx])) (l := A2)
    rw [List.foldl_append, List.foldl_cons]
    exact v3 _ (lenient_add he hnr hends)
  have hitem : ∀ x, s.owner x = .here → I.foldl lenient S1 (.item (s.uid x)) = true := by
    intro x hx
    have hm : mkEv s .item .add x none ∈ I := by
      rw [← hI]
      exact List.mem_map.2 ⟨(s.uid x, x), (hw.items_iff _ _).2 ⟨hx, rfl⟩, rfl⟩
    obtain ⟨I1, I2, hsplit⟩ := List.append_of_mem hm
    have hIt : ∀ e ∈ I, True1 T e ∧ e.ty ≠ .layerTree := fun e he =>
      have hm : e ∈ A := hA ▸ List.mem_append_left _ he
      ⟨hAt e hm, hAl e hm⟩
    rw [hsplit] at hIt ⊢
    obtain ⟨v1, _⟩ := mono_run hvT hg u2 (fun x hx => (hIt x (by simp [hx])).1) (fun x hx => (hIt x (by simp [hx])).2) (l := I1)
    obtain ⟨v2, _⟩ := true_step hvT hg v1 (hIt (mkEv s .item .add x none) (by simp)).1 (fun ht => absurd ht (hIt (mkEv s .item .add x none) (by simp)).2) |>.2
    obtain ⟨_, v3⟩ := mono_run hvT hg v2 (fun x hx => (hIt x (by simp [hx])).1) (fun x hx => (hIt x (by simp [hx])).2) (l := I2)
    rw [List.foldl_append, List.foldl_cons]
    exact v3 _ (lenient_add rfl (fun h => (by cases h)) (.inl rfl))
  have hafter : ∀ B C, A = I ++ (B ++ C) → ∀ x, s.owner x = .here → (I ++ B).foldl lenient S1 (.item (s.uid x)) = true := by
    intro B C hsplit x hx
    rw [List.foldl_append]
    rw [hsplit] at hAt hAl
    obtain ⟨v1, _⟩ := mono_run hvT hg u2 (fun x hx => hAt x (by simp [hx])) (fun x hx => hAl x (by simp [hx])) (l := I)
    obtain ⟨_, v2⟩ := mono_run hvT hg v1 (fun x hx => hAt x (by simp [hx])) (fun x hx => hAl x (by simp [hx])) (l := B)
    exact v2 _ (hitem x hx)
  have hRi : ∀ x, s.owner x = .here → A.foldl lenient S1 (.item (s.uid x)) = true := by
    intro x hx
    have := hafter _ [] (by rw [List.append_nil]; exact hA.symm) x hx
    rw [hA] at this
    exact this
  have hRf : ∀ e ∈ L, A.foldl lenient S1 (.frame (s.uid e.1) (s.uid e.2)) = true := by
    intro e he
    obtain ⟨L1, L2, hsplit⟩ := List.append_of_mem he
    have hs : A = (I ++ ([mkEv s .root .add s.rootNode none] ++ L1.map (fun e => mkEv s .frameTree .add e.2 (some e.1)))) ++
        mkEv s .frameTree .add e.2 (some e.1) :: (L2.map (fun e => mkEv s .frameTree .add e.2 (some e.1)) ++
          s.cmap.map (fun e => mkEv s .frameNode .add e.1 (some e.2))) := by
      rw [← hA, hsplit]; simp
    have hs2 := hs
    rw [List.append_assoc] at hs2
    exact key _ _ _ hs (fun h => (by cases h)) (.inr ⟨hafter _ _ hs2 _ (hft e he).2, hafter _ _ hs2 _ (hft e he).1⟩)
  have hRm : ∀ e ∈ s.cmap, A.foldl lenient S1 (.map (s.uid e.1) (s.uid e.2)) = true := by
    intro e he
    obtain ⟨L1, L2, hsplit⟩ := List.append_of_mem he
    have hs : A = (I ++ ([mkEv s .root .add s.rootNode none] ++ (L.map (fun e => mkEv s .frameTree .add e.2 (some e.1)) ++
          L1.map (fun e => mkEv s .frameNode .add e.1 (some e.2))))) ++
        mkEv s .frameNode .add e.1 (some e.2) :: L2.map (fun e => mkEv s .frameNode .add e.1 (some e.2)) := by
      rw [← hA, hsplit]; simp
    have hs2 := hs
    rw [List.append_assoc] at hs2
    exact key _ _ _ hs (fun h => (by cases h)) (.inr ⟨hafter _ _ hs2 _ (hc.cmap e he).1.1, hafter _ _ hs2 _ (hc.cmap e he).1.2⟩)
  have hsubR : ∀ k, (∀ i, k ≠ .root i) → R.facts k = true → s.facts k = true := by
    intro k hk hR
    rw [mirror_facts rm hk, Bool.or_eq_true] at hR
    rcases hR with hR | hR
    · rw [← hT k hk]; exact t2 k hk hR
    · rw [decide_eq_true_eq] at hR; subst hR; exact h0
  refine ⟨R, ra, ?_, ?_, ?_, hsubR⟩
  · intro i
    rw [Bool.eq_iff_iff]
    refine ⟨hsubR _ (by simp), fun hi => ?_⟩
    obtain ⟨x, hx⟩ := Option.isSome_iff_exists.1 (show (s.getItem i).isSome = true from hi)
    have hm := (hw.items_iff i x).1 (look_some_mem hx)
    rw [mirror_facts rm (by simp), ← hm.2, hRi x hm.1]
    rfl
  · intro m f
    rw [Bool.eq_iff_iff]
    refine ⟨hsubR _ (by simp), fun hi => ?_⟩
    have hi' : (match s.getItem m, s.getItem f with | some x, some y => decide (s.getFrameNode x = some y) | _, _ => false) = true := hi
    cases h1 : s.getItem m with
    | none => rw [h1] at hi'; cases hi'
    | some x =>
      cases h2 : s.getItem f with
      | none => rw [h1, h2] at hi'; cases hi'
      | some y =>
        rw [h1, h2] at hi'
        have hm := hRm (x, y) (look_some_mem (of_decide_eq_true hi'))
        rw [((hw.items_iff m x).1 (look_some_mem h1)).2, ((hw.items_iff f y).1 (look_some_mem h2)).2] at hm
        rw [mirror_facts rm (by simp), hm]
        rfl
  · intro c p hcp
    rw [mirror_facts rm (by simp), hRf (c, p) ((hL _).2 hcp)]
    rfl

/-- two layers attached and linked since the last pull, and a map two frames below the root -/
def pullHistory : List Op :=
  [.alloc 1 .layer [] false 0 0, .alloc 2 .layer [] false 0 0, .attach 1, .attach 2, .addChildL 1 2,
   .alloc 3 .frame [] false 0 0, .alloc 4 .frame [] false 0 0, .alloc 5 .cmap [] false 0 0, .addChildF 0 3, .addChildF 3 4, .attachMap 5 (some 4)]

/-- **C75, the code violates the property**: pullEvents() after these calls returns messages from which a fresh receiver
learns the layer link; pullEvents(all) moves the announcement of the layers behind that of their link, which is then
ignored. -/
theorem C75_layer_link_lost :
    ∃ s, Env.run (Env.init 0) pullHistory = some s ∧
      (let q := compress (s.log.drop (Env.init 0).log.length)
      s.getLayerParents 2 = [1] ∧
      (pullEvents s (some q) false).bind (fun l => (applyAll (Env.init 50) (number l 100 (fun i => ((s.getItem i).map s.kind).getD .layer))).map
        (fun R => R.facts (.layer (s.uid 2) (s.uid 1)))) = some true ∧
      (pullEvents s (some q) true).bind (fun l => (applyAll (Env.init 50) (number l 100 (fun i => ((s.getItem i).map s.kind).getD .layer))).map
        (fun R => (R.facts (.layer (s.uid 2) (s.uid 1)), R.facts (.map (s.uid 5) (s.uid 4)), R.facts (.frame (s.uid 4) (s.uid 3))))) =
          some (false, true, true)) :=
  ex_of_any (by decide +kernel)

end Envire.Sync

#print axioms Envire.Sync.C75_pull_partial
#print axioms Envire.Sync.C75_layer_link_lost
