import Verif.Maps.MetaModel
/-! Lemmas about the heap and the metadata maps. -/
namespace Envire.Meta

variable {K Ty V : Type} [DecidableEq K] [DecidableEq Ty]

/-- an allocator never returns a live address -/
def AllocOk (alloc : Alloc) : Prop := ∀ l, alloc l ∉ l

def Heap.Ok (h : Heap Ty V) : Prop := ∀ a o, h.obj a = some o → a ∈ h.live

theorem Heap.Ok.fresh {h : Heap Ty V} (ok : h.Ok) {alloc : Alloc} (ha : AllocOk alloc) : h.obj (alloc h.live) = none := by
  cases e : h.obj (alloc h.live) with
  | none => rfl
  | some o => exact absurd (ok _ o e) (ha _)

theorem Heap.Ok.new {h : Heap Ty V} (ok : h.Ok) (alloc : Alloc) (o : Ty × V) : (h.new alloc o).2.Ok := by
  intro a o' e
  unfold Heap.new at e ⊢
  dsimp only at e ⊢
  split at e
  · rename_i h; subst h; simp
  · exact List.mem_cons_of_mem _ (ok a o' e)

theorem Heap.Ok.delete {h h' : Heap Ty V} (ok : h.Ok) {a : Nat} (e : h.delete a = some h') : h'.Ok := by
  unfold Heap.delete at e
  split at e
  · cases e
  · cases e
    intro b o hb
    dsimp only at hb ⊢
    split at hb
    · cases hb
    · rename_i hne
      simpa [hne] using ok b o hb

theorem Heap.Ok.write {h h' : Heap Ty V} (ok : h.Ok) {a : Nat} {v : V} (e : h.write a v = some h') : h'.Ok := by
  unfold Heap.write at e
  split at e
  · cases e
  · rename_i o ho
    cases e
    intro b o' hb
    dsimp only at hb ⊢
    split at hb
    · rename_i h; subst h; exact ok _ _ ho
    · exact ok b o' hb

theorem find_mem {m : List (K × Nat)} {k : K} {a : Nat} (h : find m k = some a) : (k, a) ∈ m := by
  induction m with
  | nil => cases h
  | cons p m ih =>
    obtain ⟨k', b⟩ := p
    unfold find at h
    split at h
    · rename_i hk; subst hk; cases h; simp
    · exact List.mem_cons_of_mem _ (ih h)

theorem find_of_mem {m : List (K × Nat)} (hn : (m.map (·.1)).Nodup) {k : K} {a : Nat} (h : (k, a) ∈ m) : find m k = some a := by
  induction m with
  | nil => simp at h
  | cons p m ih =>
    obtain ⟨k', b⟩ := p
    simp only [List.map_cons, List.nodup_cons] at hn
    unfold find
    rcases List.mem_cons.1 h with h | h
    · cases h; rw [if_pos rfl]
    · rw [if_neg, ih hn.2 h]
      rintro rfl
      exact hn.1 (List.mem_map.2 ⟨_, h, rfl⟩)

theorem find_none {m : List (K × Nat)} {k : K} (h : find m k = none) : k ∉ m.map (·.1) := by
  induction m with
  | nil => simp
  | cons p m ih =>
    obtain ⟨k', b⟩ := p
    unfold find at h
    split at h
    · cases h
    · rename_i hk
      simp only [List.map_cons, List.mem_cons, not_or]
      exact ⟨fun e => hk e.symm, ih h⟩

theorem find_cons (k k' : K) (a : Nat) (m : List (K × Nat)) : find ((k, a) :: m) k' = if k = k' then some a else find m k' := rfl

theorem find_filter (m : List (K × Nat)) (k k' : K) : find (m.filter fun e => e.1 ≠ k) k' = if k' = k then none else find m k' := by
  induction m with
  | nil => simp [find]
  | cons p m ih =>
    obtain ⟨j, b⟩ := p
    by_cases hj : j = k
    · subst hj
      rw [List.filter_cons_of_neg (by simp), ih]
      by_cases hk : k' = j
      · simp [hk]
      · rw [if_neg hk, if_neg hk]
        conv_rhs => unfold find
        rw [if_neg (fun e => hk e.symm)]
    · rw [List.filter_cons_of_pos (by simpa using hj)]
      unfold find
      rw [ih]
      by_cases hk : j = k'
      · subst hk; simp [hj]
      · simp [hk]

/-- the invariant: no object has two owners, and every object of a map is live -/
structure Inv (w : World K Ty V) : Prop where
  ok : w.heap.Ok
  keys : ∀ l m, w.maps l = some m → (m.map (·.1)).Nodup
  live : ∀ l m k a, w.maps l = some m → (k, a) ∈ m → ∃ o, w.heap.obj a = some o
  own : ∀ l l' m m' k k' a, w.maps l = some m → w.maps l' = some m' → (k, a) ∈ m → (k', a) ∈ m' → l = l' ∧ k = k'

/-- the metadata as the user sees it: key to type and value, for every existing layer -/
abbrev Spec (K Ty V : Type) := Nat → Option (K → Option (Ty × V))

def abs (w : World K Ty V) : Spec K Ty V := fun l => (w.maps l).map fun m k => (find m k).bind w.heap.obj

/-- a change of one map that keeps all objects of the other maps -/
theorem abs_setMap {w : World K Ty V} {h : Heap Ty V} {l : Nat} {m : Option (List (K × Nat))}
    (hk : ∀ j mj k a, j ≠ l → w.maps j = some mj → find mj k = some a → h.obj a = w.heap.obj a) :
    abs (w.setMap h l m) = fun j => if j = l then m.map (fun m k => (find m k).bind h.obj) else abs w j := by
  funext j
  unfold abs World.setMap
  dsimp only
  by_cases hj : j = l
  · rw [if_pos hj, if_pos hj]
  · rw [if_neg hj, if_neg hj]
    cases e : w.maps j with
    | none => rfl
    | some mj =>
      simp only [Option.map_some, Option.some.injEq]
      funext k
      cases f : find mj k with
      | none => rfl
      | some a => exact hk j mj k a hj e f

theorem abs_some {w : World K Ty V} {l : Nat} {f} (h : abs w l = some f) : ∃ m, w.maps l = some m ∧ f = fun k => (find m k).bind w.heap.obj := by
  obtain ⟨m, hm, rfl⟩ := Option.map_eq_some_iff.1 h
  exact ⟨m, hm, rfl⟩

theorem abs_none {w : World K Ty V} {l : Nat} (h : abs w l = none) : w.maps l = none := by
  unfold abs at h
  simpa using h

/-- objects of the list -/
def addrs (m : List (K × Nat)) : List Nat := m.map (·.2)

theorem Inv.addrs_nodup {w : World K Ty V} (i : Inv w) {l m} (hm : w.maps l = some m) : (addrs m).Nodup := by
  have hk := i.keys l m hm
  have ho : ∀ k k' a, (k, a) ∈ m → (k', a) ∈ m → k = k' := fun k k' a h h' => (i.own l l m m k k' a hm hm h h').2
  clear i hm
  induction m with
  | nil => simp [addrs]
  | cons p m ih =>
    obtain ⟨k, a⟩ := p
    simp only [List.map_cons, List.nodup_cons] at hk
    simp only [addrs, List.map_cons, List.nodup_cons]
    refine ⟨?_, ih hk.2 (fun k k' a h h' => ho k k' a (List.mem_cons_of_mem _ h) (List.mem_cons_of_mem _ h'))⟩
    intro h
    obtain ⟨⟨k', b⟩, hq, hb⟩ := List.mem_map.1 h
    dsimp only at hb
    subst hb
    have := ho k k' b (by simp) (List.mem_cons_of_mem _ hq)
    subst this
    exact hk.1 (List.mem_map.2 ⟨_, hq, rfl⟩)

theorem deleteAll_spec (m : List (K × Nat)) : ∀ h : Heap Ty V, h.Ok → (addrs m).Nodup → (∀ a ∈ addrs m, ∃ o, h.obj a = some o) →
    ∃ h', deleteAll m h = some h' ∧ h'.Ok ∧ ∀ a, h'.obj a = if a ∈ addrs m then none else h.obj a := by
  induction m with
  | nil => intro h ok _ _; exact ⟨h, rfl, ok, fun a => by simp [addrs]⟩
  | cons p m ih =>
    obtain ⟨k, a⟩ := p
    intro h ok hn hl
    simp only [addrs, List.map_cons, List.nodup_cons] at hn
    obtain ⟨o, ho⟩ := hl a (by simp [addrs])
    have hd : h.delete a = some { obj := fun b => if b = a then none else h.obj b, live := h.live.filter (· ≠ a) } := by
      unfold Heap.delete; rw [ho]
    obtain ⟨h', e, ok', hobj⟩ := ih _ (ok.delete hd) hn.2 (by
      intro b hb
      have hne : b ≠ a := fun e => hn.1 (e ▸ hb)
      obtain ⟨o', ho'⟩ := hl b (List.mem_cons_of_mem _ hb)
      exact ⟨o', by dsimp only; rw [if_neg hne, ho']⟩)
    refine ⟨h', by unfold deleteAll; rw [hd]; exact e, ok', ?_⟩
    intro b
    rw [hobj]
    dsimp only
    have hmem : b ∈ addrs ((k, a) :: m) ↔ b = a ∨ b ∈ addrs m := List.mem_cons
    by_cases hb : b = a
    · rw [if_pos (hmem.2 (Or.inl hb)), if_pos hb, ite_self]
    · by_cases hb' : b ∈ addrs m
      · rw [if_pos hb', if_pos (hmem.2 (Or.inr hb'))]
      · rw [if_neg hb', if_neg hb, if_neg (fun h => (hmem.1 h).elim hb hb')]

theorem cloneAll_spec {alloc : Alloc} (ha : AllocOk alloc) (m : List (K × Nat)) : ∀ h : Heap Ty V, h.Ok → (∀ a ∈ addrs m, ∃ o, h.obj a = some o) →
    ∃ m' h', cloneAll alloc m h = some (m', h') ∧ h'.Ok ∧ m'.map (·.1) = m.map (·.1) ∧ (addrs m').Nodup ∧
      (∀ a ∈ addrs m', h.obj a = none ∧ ∃ o, h'.obj a = some o) ∧ (∀ a o, h.obj a = some o → h'.obj a = some o) ∧
      (∀ k, (find m' k).bind h'.obj = (find m k).bind h.obj) := by
  induction m with
  | nil => intro h ok _; exact ⟨[], h, rfl, ok, rfl, by simp [addrs], by simp [addrs], fun _ _ e => e, fun _ => rfl⟩
  | cons p m ih =>
    obtain ⟨k, a⟩ := p
    intro h ok hl
    obtain ⟨o, ho⟩ := hl a (by simp [addrs])
    have hf := ok.fresh ha
    have hkeep : ∀ b o', h.obj b = some o' → (h.new alloc o).2.obj b = some o' := by
      intro b o' hb
      unfold Heap.new
      dsimp only
      rw [if_neg, hb]
      rintro rfl
      rw [hf] at hb
      cases hb
    have hnewobj : (h.new alloc o).2.obj (h.new alloc o).1 = some o := by
      unfold Heap.new; simp
    obtain ⟨m', h', e, ok', hk, hn, hadd, hold, hfind⟩ := ih (h.new alloc o).2 (ok.new alloc o) (by
      intro b hb
      obtain ⟨o', ho'⟩ := hl b (List.mem_cons_of_mem _ hb)
      exact ⟨o', hkeep b o' ho'⟩)
    refine ⟨(k, (h.new alloc o).1) :: m', h', ?_, ok', ?_, ?_, ?_, ?_, ?_⟩
    · unfold cloneAll
      rw [ho]
      dsimp only [Option.bind_some]
      rw [e]
      rfl
    · simp [hk]
    · simp only [addrs, List.map_cons, List.nodup_cons]
      refine ⟨?_, hn⟩
      intro hb
      have := (hadd _ hb).1
      rw [hnewobj] at this
      cases this
    · intro b hb
      simp only [addrs, List.map_cons, List.mem_cons] at hb
      rcases hb with rfl | hb
      · exact ⟨hf, o, hold _ _ hnewobj⟩
      · obtain ⟨h1, h2⟩ := hadd b hb
        refine ⟨?_, h2⟩
        cases hb' : h.obj b with
        | none => rfl
        | some o' => rw [hkeep b o' hb'] at h1; cases h1
    · intro b o' hb
      exact hold b o' (hkeep b o' hb)
    · intro k'
      unfold find
      by_cases hk' : k = k'
      · rw [if_pos hk', if_pos hk']
        change h'.obj _ = h.obj a
        rw [hold _ _ hnewobj, ho]
      · rw [if_neg hk', if_neg hk', hfind k']
        cases f : find m k' with
        | none => rfl
        | some b =>
          obtain ⟨o', ho'⟩ := hl b (List.mem_cons_of_mem _ (List.mem_map.2 ⟨_, find_mem f, rfl⟩))
          change (h.new alloc o).2.obj b = h.obj b
          rw [hkeep b o' ho', ho']

end Envire.Meta
