import Verif.Core.EnvEffects
/-! Histories of calls; the bookkeeping invariant holds in every reachable state; links join attached items
as long as callers follow the rules of `Good`. -/
namespace Envire
namespace Env

/-- precondition of the API calls that have one: detachItem is called for items attached here; a deep detach
only when the frames and maps below are attached here as well -/
def Legal (s : Env) : Op → Prop
  | .detach o deep => s.owner o = .here ∧
      (deep = true → (∀ e ∈ s.ftree, s.owner e.1 = .here) ∧ (∀ e ∈ s.cmap, s.owner e.1 = .here))
  | _ => True

/-- states reached from a fresh environment by calls satisfying `G`; the caller may catch exceptions and
continue. A history ends when a call has no defined outcome. -/
inductive Reach (G : Env → Op → Prop) (r : Obj) : Env → Prop
  | init : Reach G r (init r)
  | step {s s' : Env} {op : Op} : Reach G r s → G s op → Res.state? (s.step op) = some s' → Reach G r s'

theorem Reach.mono {G G' : Env → Op → Prop} {r : Obj} {s : Env} (h : Reach G r s)
    (hg : ∀ s op, G s op → G' s op) : Reach G' r s := by
  induction h with
  | init => exact .init
  | step _ h1 h2 ih => exact .step ih (hg _ _ h1) h2

theorem Reach.invariant {G : Env → Op → Prop} {r : Obj} {P : Env → Prop} (h0 : P (Env.init r))
    (hs : ∀ s op, P s → G s op → (s.exec op).All P) : ∀ {s}, Reach G r s → P s := by
  intro s h
  induction h with
  | init => exact h0
  | step _ h1 h2 ih =>
    rename_i s1 s2 op _
    have := hs s1 op ih h1
    unfold Env.step at h2
    split at h2
    · cases h2
    · split at h2
      · cases h2
      · cases hx : s1.exec op with
        | ok t => rw [hx] at h2 this; cases h2; exact this
        | throw t => rw [hx] at h2 this; cases h2; exact this
        | fault => rw [hx] at h2; cases h2

/-- the same with the knowledge that the arguments are live and well typed -/
theorem Reach.invariant' {G : Env → Op → Prop} {r : Obj} {P : Env → Prop} (h0 : P (Env.init r))
    (hs : ∀ s op, P s → G s op → (∀ x ∈ args op, s.owner x ≠ .dead) → s.typed op = true →
      (s.exec op).All P) : ∀ {s}, Reach G r s → P s := by
  intro s h
  induction h with
  | init => exact h0
  | step _ h1 h2 ih =>
    rename_i s1 s2 op _
    have := hs s1 op ih h1
    unfold Env.step at h2
    split at h2
    · cases h2
    · rename_i hd
      have hd' : ∀ x ∈ args op, s1.owner x ≠ .dead := by
        intro x hx he; exact hd ⟨x, hx, he⟩
      split at h2
      · cases h2
      · rename_i ht
        have ht' : s1.typed op = true := by simpa using ht
        have := this hd' ht'
        cases hx : s1.exec op with
        | ok t => rw [hx] at h2 this; cases h2; exact this
        | throw t => rw [hx] at h2 this; cases h2; exact this
        | fault => rw [hx] at h2; cases h2

/-! ### deep detach keeps the bookkeeping -/

/-- `s` has been reached from `s0` by detaching -/
structure Shrunk (s0 s : Env) : Prop where
  uid : s.uid = s0.uid
  items : ∀ e ∈ s.items, e ∈ s0.items
  ftree : ∀ e ∈ s.ftree, e ∈ s0.ftree
  cmap : ∀ e ∈ s.cmap, e ∈ s0.cmap
  ltree : s.ltree.Sublist s0.ltree
  opIn : s.opIn.Sublist s0.opIn
  opOut : s.opOut.Sublist s0.opOut
  stat : Static s0 s

theorem Shrunk.refl (s : Env) : Shrunk s s :=
  ⟨rfl, fun _ h => h, fun _ h => h, fun _ h => h, List.Sublist.refl _, List.Sublist.refl _, List.Sublist.refl _,
   Static.refl s⟩
theorem Shrunk.trans {s s' s'' : Env} (h : Shrunk s s') (h' : Shrunk s' s'') : Shrunk s s'' :=
  ⟨h'.uid.trans h.uid, fun e he => h.items e (h'.items e he), fun e he => h.ftree e (h'.ftree e he),
   fun e he => h.cmap e (h'.cmap e he), h'.ltree.trans h.ltree, h'.opIn.trans h.opIn, h'.opOut.trans h.opOut,
   h.stat.trans h'.stat⟩

theorem DetachEff.shrunk {s s' : Env} {o : Obj} (h : DetachEff s s' o) : Shrunk s s' := by
  obtain ⟨⟨r1, r2, r3, r4, r5⟩, hi, hu, _, _, hst⟩ := h
  refine ⟨hu, fun e he => ?_, fun e he => ?_, fun e he => ?_, r2 ▸ List.filter_sublist, r3 ▸ List.filter_sublist,
    r4 ▸ List.filter_sublist, hst⟩
  · rw [hi] at he; exact (mem_eraseKey.1 he).1
  · rw [r1] at he; exact (mem_without.1 he).1
  · rw [r5] at he; exact (mem_without.1 he).1

theorem Shrunk.here_of_mem {s0 s : Env} (h : Shrunk s0 s) (h0 : WF s0) (hw : WF s) {o : Obj}
    (ho : s0.owner o = .here) (hm : s.uid o ∈ s.items.map (·.1)) : s.owner o = .here := by
  obtain ⟨⟨i, x⟩, he, hi⟩ := List.mem_map.1 hm
  have hi : i = s.uid o := hi
  have h1 := h.items _ he
  have h2 : (i, o) ∈ s0.items := (h0.items_iff _ _).2 ⟨ho, by rw [hi, h.uid]⟩
  have : x = o := keys_unique h0.items_nodup h1 h2
  subst this
  exact ((hw.items_iff _ _).1 he).1

theorem detachDeep_wf (s0 : Env) (h0 : WF s0) (hf : ∀ e ∈ s0.ftree, s0.owner e.1 = .here)
    (hc : ∀ e ∈ s0.cmap, s0.owner e.1 = .here) (fuel : Nat) :
    ∀ s o, WF s → Shrunk s0 s → s0.owner o = .here →
      (detachDeep fuel s o).All (fun s' => WF s' ∧ Shrunk s0 s') := by
  induction fuel with
  | zero => intro s o _ _ _; trivial
  | succ n ih =>
    intro s o hw hs ho
    unfold detachDeep
    split
    · trivial
    split
    · trivial
    have hlast : ∀ t, WF t ∧ Shrunk s0 t → (t.detachShallow o).All (fun s' => WF s' ∧ Shrunk s0 s') := by
      rintro t ⟨hwt, hst⟩
      by_cases hm : t.uid o ∈ t.items.map (·.1)
      · have hot := hst.here_of_mem h0 hwt ho hm
        have h1 := (detachShallow_eff hwt hot).toAll (R := fun s' => Shrunk s0 s')
          (fun s' h => hst.trans h.shrunk) (fun _ h => h.elim)
        exact (hwt.detachShallow hot).and h1
      · unfold detachShallow
        split
        · trivial
        · trivial
    refine Res.All.bind' ?_ hlast
    split
    · refine Res.All.bind' ?_ ?_
      · refine foldRes_all (P := fun s' => WF s' ∧ Shrunk s0 s') _ ?_ s ⟨hw, hs⟩
        intro t x hx ht
        refine ih t x ht.1 ht.2 ?_
        obtain ⟨e, he, hex⟩ := List.mem_map.1 hx
        have := hs.ftree e (List.mem_filter.1 he).1
        rw [← hex]; exact hf e this
      · intro t ht
        refine foldRes_all (P := fun s' => WF s' ∧ Shrunk s0 s') _ ?_ t ht
        intro u x hx hu
        refine ih u x hu.1 hu.2 ?_
        obtain ⟨e, he, hex⟩ := List.mem_map.1 hx
        have := ht.2.cmap e (List.mem_filter.1 he).1
        rw [← hex]; exact hc e this
    · exact ⟨hw, hs⟩

/-! ### every call keeps the bookkeeping -/

theorem WF.setPrefix {s : Env} (h : WF s) (p : Uid) : (s.setPrefix p).All WF := by
  unfold Env.setPrefix
  split
  · trivial
  · rename_i hp
    dsimp only
    have h1 : (if p.head? = some '/' then p else '/' :: p).head? = some '/' := by
      split
      · assumption
      · rfl
    generalize (if p.head? = some '/' then p else '/' :: p) = q at *
    have h2 : (if q.getLast? = some '/' then q else q ++ ['/']).head? = some '/' := by
      split
      · exact h1
      · rw [List.head?_append, h1]; rfl
    have h3 : (if q.getLast? = some '/' then q else q ++ ['/']).getLast? = some '/' := by
      split
      · assumption
      · simp
    exact { h with pfx_head := h2, pfx_last := h3 }

theorem WF.init (r : Obj) : WF (Env.init r) where
  items_nodup := by simp [Env.init]
  items_iff := by
    intro id o
    simp only [Env.init, List.mem_singleton, Prod.mk.injEq]
    constructor
    · rintro ⟨rfl, rfl⟩; simp
    · rintro ⟨h1, h2⟩
      by_cases ho : o = r
      · subst ho; simp at h2; exact ⟨h2.symm, rfl⟩
      · simp [ho] at h1
  good := by
    intro o ho
    rw [isAttached_iff] at ho
    by_cases h : o = r
    · subst h; simp [Env.init]; decide
    · simp [Env.init, h] at ho
  pfx_head := rfl
  pfx_last := rfl
  ftree_nodup := List.Pairwise.nil
  cmap_nodup := List.Pairwise.nil
  ftree_sorted := List.Pairwise.nil
  ltree_sorted := List.Pairwise.nil
  opIn_sorted := List.Pairwise.nil
  opOut_sorted := List.Pairwise.nil
  cmap_sorted := List.Pairwise.nil

theorem WF.ownerFields {s s' : Env} (h : WF s) (hi : s'.items = s.items)
    (hu : ∀ o, s.isAttached o = true → s'.uid o = s.uid o)
    (hp : s'.pfx = s.pfx) (hh : ∀ o, s'.owner o = .here ↔ s.owner o = .here)
    (hg : ∀ o, s'.owner o = .elsewhere → s.owner o = .elsewhere ∨ goodId (s'.uid o) = true)
    (hr : RelSame s s') : WF s' where
  items_nodup := hi ▸ h.items_nodup
  items_iff := by
    intro id o
    rw [hi, h.items_iff, hh]
    constructor
    · rintro ⟨h1, h2⟩; exact ⟨h1, by rw [hu o (isAttached_iff.2 (Or.inl h1)), h2]⟩
    · rintro ⟨h1, h2⟩; exact ⟨h1, by rw [← h2, hu o (isAttached_iff.2 (Or.inl h1))]⟩
  good := by
    intro o ha
    rw [isAttached_iff] at ha
    rcases ha with ha | ha
    · have h1 := isAttached_iff.2 (Or.inl ((hh o).1 ha))
      rw [hu o h1]; exact h.good o h1
    · rcases hg o ha with h1 | h1
      · have h2 := isAttached_iff.2 (Or.inr h1)
        rw [hu o h2]; exact h.good o h2
      · exact h1
  pfx_head := hp ▸ h.pfx_head
  pfx_last := hp ▸ h.pfx_last
  ftree_nodup := hr.ftree ▸ h.ftree_nodup
  cmap_nodup := hr.cmap ▸ h.cmap_nodup
  ftree_sorted := hr.ftree ▸ h.ftree_sorted
  ltree_sorted := hr.ltree ▸ h.ltree_sorted
  opIn_sorted := hr.opIn ▸ h.opIn_sorted
  opOut_sorted := hr.opOut ▸ h.opOut_sorted
  cmap_sorted := hr.cmap ▸ h.cmap_sorted

theorem WF.exec {s : Env} (h : WF s) (op : Op) (hl : Legal s op) : (s.exec op).All WF := by
  cases op with
  | alloc o k id hd ia oa =>
    unfold Env.exec
    dsimp only
    split
    · rename_i hd
      refine h.ownerFields rfl ?_ rfl ?_ ?_ ⟨rfl, rfl, rfl, rfl, rfl⟩
      · intro x hx
        refine upd_ne _ _ ?_
        rintro rfl
        rw [isAttached_iff, hd] at hx
        simp at hx
      · intro x
        show upd s.owner o .free x = .here ↔ _
        by_cases hx : x = o
        · subst hx; simp [hd]
        · rw [upd_ne _ _ hx]
      · intro x
        show upd s.owner o .free x = .elsewhere → _
        by_cases hx : x = o
        · subst hx; simp
        · rw [upd_ne _ _ hx]; exact Or.inl
    · trivial
  | hold o =>
    exact h.ownerFields rfl (fun _ _ => rfl) rfl (fun _ => Iff.rfl) (fun _ => Or.inl) ⟨rfl, rfl, rfl, rfl, rfl⟩
  | release o =>
    refine h.ownerFields rfl (fun _ _ => rfl) rfl ?_ ?_ ⟨rfl, rfl, rfl, rfl, rfl⟩
    · intro x
      show (if s.owner o = .free then upd s.owner o .dead else s.owner) x = .here ↔ _
      split
      · rename_i hf
        by_cases hx : x = o
        · subst hx; simp [hf]
        · rw [upd_ne _ _ hx]
      · rfl
    · intro x
      show (if s.owner o = .free then upd s.owner o .dead else s.owner) x = .elsewhere → _
      split
      · rename_i hf
        by_cases hx : x = o
        · subst hx; simp
        · rw [upd_ne _ _ hx]; exact Or.inl
      · exact Or.inl
  | setUid o id =>
    unfold Env.exec
    dsimp only
    split
    · exact h
    · rename_i ha
      refine h.ownerFields rfl ?_ rfl (fun _ => Iff.rfl) (fun _ => Or.inl) ⟨rfl, rfl, rfl, rfl, rfl⟩
      intro x hx
      refine upd_ne _ _ ?_
      rintro rfl
      exact ha hx
  | setPrefix p => exact h.setPrefix p
  | extAttach o id =>
    unfold Env.exec
    dsimp only
    split
    · rename_i hf
      refine h.ownerFields rfl ?_ rfl ?_ ?_ ⟨rfl, rfl, rfl, rfl, rfl⟩
      · intro x hx
        refine upd_ne _ _ ?_
        rintro rfl
        rw [isAttached_iff, hf.1] at hx
        simp at hx
      · intro x
        show upd s.owner o .elsewhere x = .here ↔ _
        by_cases hx : x = o
        · subst hx; simp [hf.1]
        · rw [upd_ne _ _ hx]
      · intro x
        show upd s.owner o .elsewhere x = .elsewhere → _ ∨ goodId (upd s.uid o id x) = true
        by_cases hx : x = o
        · subst hx; simp [hf.2]
        · rw [upd_ne _ _ hx]; exact Or.inl
    · trivial
  | extDetach o =>
    unfold Env.exec
    dsimp only
    split
    · rename_i hf
      refine h.ownerFields rfl (fun _ _ => rfl) rfl ?_ ?_ ⟨rfl, rfl, rfl, rfl, rfl⟩
      · intro x
        show upd s.owner o (s.afterRelease o) x = .here ↔ _
        by_cases hx : x = o
        · subst hx; simp [hf, afterRelease_ne_here]
        · rw [upd_ne _ _ hx]
      · intro x
        show upd s.owner o _ x = .elsewhere → _
        by_cases hx : x = o
        · subst hx; exact fun _ => Or.inl hf
        · rw [upd_ne _ _ hx]; exact Or.inl
    · trivial
  | attach o => exact h.attachItem o
  | attachMap m f => exact h.attachMap m f
  | detach o deep =>
    unfold Env.exec
    dsimp only
    cases deep with
    | false => exact h.detachShallow hl.1
    | true =>
      exact (detachDeep_wf s h (hl.2 rfl).1 (hl.2 rfl).2 _ s o h (Shrunk.refl s) hl.1).mono (fun _ h => h.1)
  | modified o => exact h.emit .item .update o none
  | addChildF p c => exact h.addChildF p c
  | removeChildF p c => exact h.removeChildF p c
  | addChildL p c => exact h.addChildL p c
  | removeChildL p c => exact h.removeChildL p c
  | setFrame m f => exact h.setFrameNode m f
  | detachFrame m f => exact h.detachFrame m f
  | addInput op l => exact h.addInput op l
  | addOutput op l => exact h.addOutput op l
  | removeInput op l => exact h.removeInput op l
  | removeOutput op l => exact h.removeOutput op l
  | removeInputs op => exact h.removeInputs op
  | removeOutputs op => exact h.removeOutputs op
  | opAddInput op l => exact h.opAddInput op l
  | opSetInput op l => exact h.opSetInput op l
  | opAddOutput op l => exact h.opAddOutput op l
  | opSetOutput op l => exact h.opSetOutput op l
  | detachFromOperator l => exact h.detachFromOperator l

theorem Reach.wf {r : Obj} {s : Env} (h : Reach Legal r s) : WF s :=
  Reach.invariant (WF.init r) (fun _ op hw hl => hw.exec op hl) h

end Env
end Envire
