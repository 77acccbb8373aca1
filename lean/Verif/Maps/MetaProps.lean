import Verif.Maps.MetaLemmas
/-! Properties C59, C60: metadata of layers, copies of traversability grids. -/
namespace Envire.Meta

variable {K Ty V : Type} [DecidableEq K] [DecidableEq Ty]

/-! ### C59 -/

/-- the calls -/
inductive Op (K Ty V : Type) where
  | create (l : Nat)
  /-- getData<T>( key ), the reference is not used -/
  | get (l : Nat) (k : K) (ty : Ty)
  /-- getData<T>( key ) = v -/
  | put (l : Nat) (k : K) (ty : Ty) (v : V)
  | remove (l : Nat) (k : K)
  | removeAll (l : Nat)
  | copy (l src : Nat)
  | assign (l src : Nat)
  | destroy (l : Nat)

def World.step (w : World K Ty V) (alloc : Alloc) (dflt : Ty → V) : Op K Ty V → Option (World K Ty V)
  | .create l => w.create l
  | .get l k ty => (w.getData alloc dflt l k ty).map (·.2)
  | .put l k ty v => (w.getData alloc dflt l k ty).bind fun r => (r.2.heap.write r.1 v).map fun h => { r.2 with heap := h }
  | .remove l k => w.removeData l k
  | .removeAll l => w.removeAll l
  | .copy l src => w.copy alloc l src
  | .assign l src => w.assign alloc l src
  | .destroy l => w.destroy l

/-- specification: a layer has its own finite map from keys to typed values; copying copies the values -/
def Spec.set (s : Spec K Ty V) (l : Nat) (f : Option (K → Option (Ty × V))) : Spec K Ty V := fun j => if j = l then f else s j

/-- `none`: the call is not allowed (layer does not exist or exists already, wrong type) -/
def Spec.step (s : Spec K Ty V) (dflt : Ty → V) : Op K Ty V → Option (Spec K Ty V)
  | .create l => match s l with
    | none => some (s.set l (some fun _ => none))
    | some _ => none
  | .get l k ty => (s l).bind fun f => match f k with
    | none => some (s.set l (some fun j => if j = k then some (ty, dflt ty) else f j))
    | some o => if o.1 = ty then some s else none
  | .put l k ty v => (s l).bind fun f => match f k with
    | none => some (s.set l (some fun j => if j = k then some (ty, v) else f j))
    | some o => if o.1 = ty then some (s.set l (some fun j => if j = k then some (ty, v) else f j)) else none
  | .remove l k => (s l).map fun f => s.set l (some fun j => if j = k then none else f j)
  | .removeAll l => (s l).map fun _ => s.set l (some fun _ => none)
  | .copy l src => match s l with
    | none => (s src).map fun f => s.set l (some f)
    | some _ => none
  | .assign l src => (s l).bind fun _ => (s src).map fun f => s.set l (some f)
  | .destroy l => (s l).map fun _ => s.set l none

theorem set_same {s : Spec K Ty V} {l : Nat} {f} (h : s l = f) : s.set l f = s := by
  funext j
  unfold Spec.set
  split
  · rename_i hj; subst hj; exact h.symm
  · rfl

/-- a new list of objects for layer l, all other objects stay -/
theorem Inv.setMap {w : World K Ty V} (i : Inv w) {h : Heap Ty V} {l : Nat} {m : List (K × Nat)} (ok : h.Ok) (hk : (m.map (·.1)).Nodup)
    (hn : (addrs m).Nodup) (hl : ∀ a ∈ addrs m, ∃ o, h.obj a = some o)
    (hother : ∀ j mj k a, j ≠ l → w.maps j = some mj → (k, a) ∈ mj → (∃ o, h.obj a = some o) ∧ a ∉ addrs m) : Inv (w.setMap h l (some m)) := by
  have hmaps : ∀ j mj, (w.setMap h l (some m)).maps j = some mj → (j = l ∧ mj = m) ∨ (j ≠ l ∧ w.maps j = some mj) := by
    intro j mj e
    unfold World.setMap at e
    dsimp only at e
    split at e
    · rename_i hj; cases e; exact Or.inl ⟨hj, rfl⟩
    · rename_i hj; exact Or.inr ⟨hj, e⟩
  refine ⟨ok, ?_, ?_, ?_⟩
  · intro j mj e
    rcases hmaps j mj e with ⟨rfl, rfl⟩ | ⟨_, e⟩
    · exact hk
    · exact i.keys j mj e
  · intro j mj k a e hm
    rcases hmaps j mj e with ⟨rfl, rfl⟩ | ⟨hj, e⟩
    · exact hl a (List.mem_map.2 ⟨_, hm, rfl⟩)
    · exact (hother j mj k a hj e hm).1
  · intro j j' mj mj' k k' a e e' hm hm'
    rcases hmaps j mj e with ⟨rfl, rfl⟩ | ⟨hj, g⟩ <;> rcases hmaps j' mj' e' with ⟨rfl, rfl⟩ | ⟨hj', g'⟩
    · refine ⟨rfl, ?_⟩
      have := List.inj_on_of_nodup_map hn hm hm' rfl
      exact congrArg Prod.fst this
    · exact absurd (List.mem_map.2 ⟨_, hm, rfl⟩) (hother j' mj' k' a hj' g' hm').2
    · exact absurd (List.mem_map.2 ⟨_, hm', rfl⟩) (hother j mj k a hj g hm).2
    · exact i.own j j' mj mj' k k' a g g' hm hm'

theorem mem_addrs {m : List (K × Nat)} {a : Nat} (h : a ∈ addrs m) : ∃ k, (k, a) ∈ m := by
  obtain ⟨⟨k, b⟩, hq, rfl⟩ := List.mem_map.1 h
  exact ⟨k, hq⟩

theorem getData_new {w : World K Ty V} (i : Inv w) {alloc : Alloc} (ha : AllocOk alloc) (o : Ty × V) {l k m} (hm : w.maps l = some m) (hf : find m k = none) :
    let r := w.heap.new alloc o
    Inv (w.setMap r.2 l (some ((k, r.1) :: m))) ∧ r.2.obj r.1 = some o ∧
    abs (w.setMap r.2 l (some ((k, r.1) :: m))) = Spec.set (abs w) l (some fun j => if j = k then some o else (find m j).bind w.heap.obj) := by
  intro r
  have hfr := i.ok.fresh ha
  have hnew : r.2.obj r.1 = some o := by simp [r, Heap.new]
  have hkeep : ∀ b o', w.heap.obj b = some o' → r.2.obj b = some o' := by
    intro b o' hb
    change (if b = alloc w.heap.live then some o else w.heap.obj b) = some o'
    rw [if_neg, hb]
    rintro rfl
    rw [hfr] at hb
    cases hb
  have hdead : ∀ j mj k' a, w.maps j = some mj → (k', a) ∈ mj → a ≠ r.1 := by
    rintro j mj k' a e hq rfl
    obtain ⟨o', ho'⟩ := i.live j mj k' _ e hq
    have : w.heap.obj r.1 = none := hfr
    rw [this] at ho'
    cases ho'
  refine ⟨i.setMap (i.ok.new alloc o) ?_ ?_ ?_ ?_, hnew, ?_⟩
  · simp only [List.map_cons, List.nodup_cons]
    exact ⟨find_none hf, i.keys l m hm⟩
  · simp only [addrs, List.map_cons, List.nodup_cons]
    refine ⟨?_, i.addrs_nodup hm⟩
    intro h
    obtain ⟨k', hq⟩ := mem_addrs h
    exact hdead l m k' _ hm hq rfl
  · intro a h
    simp only [addrs, List.map_cons, List.mem_cons] at h
    rcases h with rfl | h
    · exact ⟨o, hnew⟩
    · obtain ⟨k', hq⟩ := mem_addrs h
      obtain ⟨o', ho'⟩ := i.live l m k' a hm hq
      exact ⟨o', hkeep a o' ho'⟩
  · intro j mj k' a hj e hq
    obtain ⟨o', ho'⟩ := i.live j mj k' a e hq
    refine ⟨⟨o', hkeep a o' ho'⟩, ?_⟩
    intro h
    simp only [addrs, List.map_cons, List.mem_cons] at h
    rcases h with h | h
    · exact hdead j mj k' a e hq h
    · obtain ⟨k'', hq'⟩ := mem_addrs h
      exact hj (i.own j l mj m k' k'' a e hm hq hq').1
  · rw [abs_setMap (by
      intro j mj k' a _ e f
      obtain ⟨o', ho'⟩ := i.live j mj k' a e (find_mem f)
      rw [hkeep a o' ho', ho'])]
    funext j
    unfold Spec.set
    split
    · simp only [Option.map_some, Option.some.injEq]
      funext k'
      rw [find_cons]
      by_cases hk : k = k'
      · rw [if_pos hk, if_pos hk.symm]
        exact hnew
      · rw [if_neg hk, if_neg (fun e => hk e.symm)]
        cases f : find m k' with
        | none => rfl
        | some a =>
          obtain ⟨o', ho'⟩ := i.live l m k' a hm (find_mem f)
          change r.2.obj a = w.heap.obj a
          rw [hkeep a o' ho', ho']
    · rfl

theorem write_spec {w : World K Ty V} (i : Inv w) {l k m a o} (hm : w.maps l = some m) (hf : find m k = some a) (ho : w.heap.obj a = some o) (v : V) :
    ∃ h, w.heap.write a v = some h ∧ Inv { w with heap := h } ∧
    abs { w with heap := h } = Spec.set (abs w) l (some fun j => if j = k then some (o.1, v) else (find m j).bind w.heap.obj) := by
  have e : w.heap.write a v = some { w.heap with obj := fun b => if b = a then some (o.1, v) else w.heap.obj b } := by
    unfold Heap.write; rw [ho]
  refine ⟨_, e, ⟨i.ok.write e, i.keys, ?_, i.own⟩, ?_⟩
  · intro j mj k' b e' hq
    obtain ⟨o', ho'⟩ := i.live j mj k' b e' hq
    dsimp only
    by_cases hb : b = a
    · exact ⟨_, if_pos hb⟩
    · exact ⟨o', by rw [if_neg hb, ho']⟩
  · funext j
    unfold Spec.set abs
    dsimp only
    by_cases hj : j = l
    · subst hj
      rw [if_pos rfl, hm]
      simp only [Option.map_some, Option.some.injEq]
      funext k'
      by_cases hk : k' = k
      · subst hk
        rw [if_pos rfl, hf]
        exact if_pos rfl
      · rw [if_neg hk]
        cases f : find m k' with
        | none => rfl
        | some b =>
          refine if_neg ?_
          rintro rfl
          exact hk (i.own j j m m k' k b hm hm (find_mem f) (find_mem hf)).2
    · rw [if_neg hj]
      cases e' : w.maps j with
      | none => rfl
      | some mj =>
        simp only [Option.map_some, Option.some.injEq]
        funext k'
        cases f : find mj k' with
        | none => rfl
        | some b =>
          refine if_neg ?_
          rintro rfl
          exact hj (i.own j l mj m k' k b e' hm (find_mem f) (find_mem hf)).1

theorem removeAll_spec {w : World K Ty V} (i : Inv w) {l m} (hm : w.maps l = some m) :
    ∃ h, w.removeAll l = some (w.setMap h l (some [])) ∧ h.Ok ∧ Inv (w.setMap h l (some [])) ∧
      (∀ j mj k a, j ≠ l → w.maps j = some mj → (k, a) ∈ mj → h.obj a = w.heap.obj a) ∧
      abs (w.setMap h l (some [])) = Spec.set (abs w) l (some fun _ => none) := by
  obtain ⟨h, e, ok, hobj⟩ := deleteAll_spec m w.heap i.ok (i.addrs_nodup hm) (by
    intro a ha
    obtain ⟨k, hq⟩ := mem_addrs ha
    exact i.live l m k a hm hq)
  have hkeep : ∀ j mj k a, j ≠ l → w.maps j = some mj → (k, a) ∈ mj → h.obj a = w.heap.obj a := by
    intro j mj k a hj ej hq
    rw [hobj, if_neg]
    intro ha
    obtain ⟨k', hq'⟩ := mem_addrs ha
    exact hj (i.own j l mj m k k' a ej hm hq hq').1
  refine ⟨h, by unfold World.removeAll; rw [hm]; dsimp only [Option.bind_some]; rw [e]; rfl, ok, ?_, hkeep, ?_⟩
  · refine i.setMap ok (by simp) (by simp [addrs]) (by simp [addrs]) ?_
    intro j mj k a hj ej hq
    obtain ⟨o, ho⟩ := i.live j mj k a ej hq
    exact ⟨⟨o, by rw [hkeep j mj k a hj ej hq, ho]⟩, by simp [addrs]⟩
  · rw [abs_setMap (fun j mj k a hj ej f => hkeep j mj k a hj ej (find_mem f))]
    rfl

theorem clone_spec {w : World K Ty V} (i : Inv w) {alloc : Alloc} (ha : AllocOk alloc) {l src m} (hm : w.maps src = some m)
    (hl : ∀ ml, w.maps l = some ml → ml = []) : ∃ q, cloneAll alloc m w.heap = some q ∧ Inv (w.setMap q.2 l (some q.1)) ∧
      abs (w.setMap q.2 l (some q.1)) = Spec.set (abs w) l (abs w src) := by
  obtain ⟨m', h', e, ok, hk, hn, hadd, hold, hfind⟩ := cloneAll_spec ha m w.heap i.ok (by
    intro a h
    obtain ⟨k, hq⟩ := mem_addrs h
    exact i.live src m k a hm hq)
  refine ⟨(m', h'), e, ?_, ?_⟩
  · refine i.setMap ok (by rw [hk]; exact i.keys src m hm) hn (fun a h => (hadd a h).2) ?_
    intro j mj k a hj ej hq
    obtain ⟨o, ho⟩ := i.live j mj k a ej hq
    refine ⟨⟨o, hold a o ho⟩, ?_⟩
    intro h
    have := (hadd a h).1
    rw [ho] at this
    cases this
  · dsimp only
    rw [abs_setMap (by
      intro j mj k a _ ej f
      obtain ⟨o, ho⟩ := i.live j mj k a ej (find_mem f)
      rw [hold a o ho, ho])]
    funext j
    unfold Spec.set
    split
    · unfold abs
      rw [hm]
      simp only [Option.map_some, Option.some.injEq]
      funext k
      exact hfind k
    · rfl

/-- every allowed call is defined and does what the specification says -/
theorem sim {w : World K Ty V} (i : Inv w) {alloc : Alloc} (ha : AllocOk alloc) (dflt : Ty → V) {op : Op K Ty V} {s' : Spec K Ty V}
    (hs : Spec.step (abs w) dflt op = some s') : ∃ w', w.step alloc dflt op = some w' ∧ Inv w' ∧ abs w' = s' := by
  cases op with
  | create l =>
    simp only [Spec.step] at hs
    split at hs
    · rename_i hn
      cases hs
      have hm := abs_none hn
      refine ⟨w.setMap w.heap l (some []), ?_, ?_, ?_⟩
      · simp only [World.step, World.create]
        rw [hm]
      · refine i.setMap i.ok (by simp) (by simp [addrs]) (by simp [addrs]) ?_
        intro j mj k a _ e hq
        exact ⟨i.live j mj k a e hq, by simp [addrs]⟩
      · rw [abs_setMap (fun _ _ _ _ _ _ _ => rfl)]
        rfl
    · cases hs
  | get l k ty =>
    obtain ⟨f, hf, hs⟩ := Option.bind_eq_some_iff.1 hs
    obtain ⟨m, hm, rfl⟩ := abs_some hf
    dsimp only at hs
    cases e : find m k with
    | none =>
      rw [e] at hs
      cases hs
      obtain ⟨h1, _, h3⟩ := getData_new i ha (ty, dflt ty) hm e
      refine ⟨_, ?_, h1, h3⟩
      simp only [World.step, World.getData, hm, Option.bind_some, e, Option.map_some]
    | some a =>
      obtain ⟨o, ho⟩ := i.live l m k a hm (find_mem e)
      rw [e] at hs
      simp only [Option.bind_some, ho] at hs
      by_cases ht : o.1 = ty
      · rw [if_pos ht] at hs
        cases hs
        refine ⟨w, ?_, i, rfl⟩
        simp only [World.step, World.getData, hm, Option.bind_some, e, ho, if_pos ht, Option.map_some]
      · rw [if_neg ht] at hs
        cases hs
  | put l k ty v =>
    obtain ⟨f, hf, hs⟩ := Option.bind_eq_some_iff.1 hs
    obtain ⟨m, hm, rfl⟩ := abs_some hf
    dsimp only at hs
    cases e : find m k with
    | none =>
      rw [e] at hs
      simp only [Option.bind_none] at hs
      cases hs
      obtain ⟨h1, h2, h3⟩ := getData_new i ha (ty, dflt ty) hm e
      have hm' : (w.setMap (w.heap.new alloc (ty, dflt ty)).2 l (some ((k, (w.heap.new alloc (ty, dflt ty)).1) :: m))).maps l =
          some ((k, (w.heap.new alloc (ty, dflt ty)).1) :: m) := if_pos rfl
      obtain ⟨h, g1, g2, g3⟩ := write_spec h1 hm' (k := k) (if_pos rfl) h2 v
      refine ⟨_, ?_, g2, ?_⟩
      · simp only [World.step, World.getData, hm, Option.bind_some, e]
        change ((World.setMap _ _ _ _).heap.write _ v).map _ = _
        rw [g1]
        rfl
      · rw [g3, h3]
        funext j
        unfold Spec.set
        split
        · simp only [Option.some.injEq]
          funext k'
          by_cases hk : k' = k
          · rw [if_pos hk, if_pos hk]
          · rw [if_neg hk, if_neg hk]
            unfold find
            rw [if_neg (fun e => hk e.symm)]
            have := congrFun h3 l
            unfold Spec.set at this
            rw [if_pos rfl] at this
            unfold abs at this
            rw [hm'] at this
            simp only [Option.map_some, Option.some.injEq] at this
            have := congrFun this k'
            rw [if_neg hk] at this
            unfold find at this
            rw [if_neg (fun e => hk e.symm)] at this
            exact this
        · rfl
    | some a =>
      obtain ⟨o, ho⟩ := i.live l m k a hm (find_mem e)
      rw [e] at hs
      simp only [Option.bind_some, ho] at hs
      by_cases ht : o.1 = ty
      · rw [if_pos ht] at hs
        cases hs
        obtain ⟨h, g1, g2, g3⟩ := write_spec i hm e ho v
        refine ⟨_, ?_, g2, ?_⟩
        · simp only [World.step, World.getData, hm, Option.bind_some, e, ho, if_pos ht]
          rw [g1]
          rfl
        · rw [g3, ht]
      · rw [if_neg ht] at hs
        cases hs
  | remove l k =>
    obtain ⟨f, hf, rfl⟩ := Option.map_eq_some_iff.1 hs
    obtain ⟨m, hm, rfl⟩ := abs_some hf
    cases e : find m k with
    | none =>
      refine ⟨w, ?_, i, ?_⟩
      · simp only [World.step, World.removeData, hm, Option.bind_some, e]
      · symm
        apply set_same
        rw [hf]
        simp only [Option.some.injEq]
        funext j
        by_cases hj : j = k
        · rw [if_pos hj, hj, e]; rfl
        · rw [if_neg hj]
    | some a =>
      obtain ⟨o, ho⟩ := i.live l m k a hm (find_mem e)
      have hd : w.heap.delete a = some { obj := fun b => if b = a then none else w.heap.obj b, live := w.heap.live.filter (· ≠ a) } := by
        unfold Heap.delete; rw [ho]
      have hsub : ∀ k' b, (k', b) ∈ m.filter (fun e => e.1 ≠ k) → (k', b) ∈ m ∧ b ≠ a := by
        intro k' b hq
        rw [List.mem_filter] at hq
        refine ⟨hq.1, ?_⟩
        rintro rfl
        have := (i.own l l m m k' k b hm hm hq.1 (find_mem e)).2
        simp [this] at hq
      refine ⟨w.setMap { obj := fun b => if b = a then none else w.heap.obj b, live := w.heap.live.filter (· ≠ a) } l (some (m.filter fun e => e.1 ≠ k)), ?_, ?_, ?_⟩
      · simp only [World.step, World.removeData, hm, Option.bind_some, e]
        rw [hd]
        rfl
      · refine i.setMap (i.ok.delete hd) ?_ ?_ ?_ ?_
        · exact (i.keys l m hm).sublist (List.filter_sublist.map _)
        · exact (i.addrs_nodup hm).sublist (List.filter_sublist.map _)
        · intro b hb
          obtain ⟨k', hq⟩ := mem_addrs hb
          obtain ⟨h1, h2⟩ := hsub k' b hq
          obtain ⟨o', ho'⟩ := i.live l m k' b hm h1
          exact ⟨o', by dsimp only; rw [if_neg h2, ho']⟩
        · intro j mj k' b hj ej hq
          have hne : b ≠ a := by
            rintro rfl
            exact hj (i.own j l mj m k' k b ej hm hq (find_mem e)).1
          obtain ⟨o', ho'⟩ := i.live j mj k' b ej hq
          refine ⟨⟨o', by dsimp only; rw [if_neg hne, ho']⟩, ?_⟩
          intro hb
          obtain ⟨k'', hq'⟩ := mem_addrs hb
          exact hj (i.own j l mj m k' k'' b ej hm hq (hsub k'' b hq').1).1
      · rw [abs_setMap (by
          intro j mj k' b hj ej f
          refine if_neg ?_
          rintro rfl
          exact hj (i.own j l mj m k' k b ej hm (find_mem f) (find_mem e)).1)]
        funext j
        unfold Spec.set
        split
        · simp only [Option.map_some, Option.some.injEq]
          funext k'
          rw [find_filter]
          by_cases hk : k' = k
          · rw [if_pos hk, if_pos hk]; rfl
          · rw [if_neg hk, if_neg hk]
            cases f : find m k' with
            | none => rfl
            | some b =>
              refine if_neg ?_
              rintro rfl
              exact hk (i.own l l m m k' k b hm hm (find_mem f) (find_mem e)).2
        · rfl
  | removeAll l =>
    obtain ⟨f, hf, rfl⟩ := Option.map_eq_some_iff.1 hs
    obtain ⟨m, hm, rfl⟩ := abs_some hf
    obtain ⟨h, e, _, hi, _, habs⟩ := removeAll_spec i hm
    exact ⟨_, e, hi, habs⟩
  | copy l src =>
    simp only [Spec.step] at hs
    split at hs
    · rename_i hn
      obtain ⟨f, hf, rfl⟩ := Option.map_eq_some_iff.1 hs
      have hl := abs_none hn
      obtain ⟨m, hm, hfe⟩ := abs_some hf
      obtain ⟨q, e, hi, habs⟩ := clone_spec i ha (l := l) hm (fun ml h => by rw [hl] at h; cases h)
      refine ⟨_, ?_, hi, by rw [habs, hf]⟩
      simp only [World.step, World.copy, hl, hm, Option.bind_some, e, Option.map_some]
    · cases hs
  | assign l src =>
    obtain ⟨g, hg, hs⟩ := Option.bind_eq_some_iff.1 hs
    obtain ⟨f, hf, rfl⟩ := Option.map_eq_some_iff.1 hs
    obtain ⟨ml, hml, hge⟩ := abs_some hg
    obtain ⟨m, hm, hfe⟩ := abs_some hf
    by_cases hl : l = src
    · refine ⟨w, ?_, i, ?_⟩
      · simp only [World.step, World.assign, if_pos hl, hml, Option.map_some]
      · rw [set_same]
        rw [hl, hf]
    · obtain ⟨h, e, ok, hi, hkeep, habs⟩ := removeAll_spec i hml
      have hm' : (w.setMap h l (some [])).maps src = some m := by
        unfold World.setMap
        dsimp only
        rw [if_neg (fun e => hl e.symm), hm]
      obtain ⟨q, e', hi', habs'⟩ := clone_spec hi ha (l := l) hm' (by
        intro ml' h'
        unfold World.setMap at h'
        dsimp only at h'
        rw [if_pos rfl] at h'
        cases h'
        rfl)
      refine ⟨_, ?_, hi', ?_⟩
      · simp only [World.step, World.assign, if_neg hl, e, Option.bind_some, hm']
        rw [e']
        rfl
      · rw [habs', habs]
        funext j
        unfold Spec.set
        rw [if_neg (fun e : src = l => hl e.symm), hf]
        split <;> rfl
  | destroy l =>
    obtain ⟨f, hf, rfl⟩ := Option.map_eq_some_iff.1 hs
    obtain ⟨m, hm, rfl⟩ := abs_some hf
    obtain ⟨h, e, ok, hi, hkeep, habs⟩ := removeAll_spec i hm
    refine ⟨(w.setMap h l (some [])).setMap h l none, ?_, ?_, ?_⟩
    · simp only [World.step, World.destroy, e, Option.map_some]
      rfl
    · have hmaps : ∀ j mj, ((w.setMap h l (some [])).setMap h l none).maps j = some mj → (w.setMap h l (some [])).maps j = some mj := by
        intro j mj ej
        by_cases hj : j = l
        · unfold World.setMap at ej
          dsimp only at ej
          rw [if_pos hj] at ej
          cases ej
        · have : ((w.setMap h l (some [])).setMap h l none).maps j = (w.setMap h l (some [])).maps j := if_neg hj
          rw [← this]
          exact ej
      exact ⟨ok, fun j mj ej => hi.keys j mj (hmaps j mj ej), fun j mj k a ej => hi.live j mj k a (hmaps j mj ej),
        fun j j' mj mj' k k' a ej ej' => hi.own j j' mj mj' k k' a (hmaps j mj ej) (hmaps j' mj' ej')⟩
    · have : abs ((w.setMap h l (some [])).setMap h l none) = fun j => if j = l then none else abs (w.setMap h l (some [])) j :=
        abs_setMap (w := w.setMap h l (some [])) (h := h) (fun _ _ _ _ _ _ _ => rfl)
      rw [this, habs]
      funext j
      unfold Spec.set
      split <;> rfl

/-- executions: the calls are allowed by the specification; every call may use another allocator -/
inductive Exec (dflt : Ty → V) : World K Ty V → Spec K Ty V → Prop where
  | init : Exec dflt ⟨⟨fun _ => none, []⟩, fun _ => none⟩ (fun _ => none)
  | step {w w' s s'} (op : Op K Ty V) (alloc : Alloc) : Exec dflt w s → AllocOk alloc → s.step dflt op = some s' → w.step alloc dflt op = some w' →
      Exec dflt w' s'

theorem Exec.inv {dflt : Ty → V} {w : World K Ty V} {s} (e : Exec dflt w s) : Inv w ∧ abs w = s := by
  induction e with
  | init => exact ⟨⟨fun _ _ h => (by cases h), fun _ _ h => (by cases h), fun _ _ _ _ h => (by cases h), fun _ _ _ _ _ _ _ h => (by cases h)⟩, rfl⟩
  | step op alloc _ ha hs hw ih =>
    obtain ⟨i, rfl⟩ := ih
    obtain ⟨w', e, hi, habs⟩ := sim i ha _ hs
    rw [hw] at e
    cases e
    exact ⟨hi, habs⟩

/-- the call takes away the entry (l, k) -/
def Op.drops (l : Nat) (k : K) : Op K Ty V → Prop
  | .remove l' k' => l' = l ∧ k' = k
  | .removeAll l' => l' = l
  | .assign l' src => l' = l ∧ src ≠ l
  | .destroy l' => l' = l
  | _ => False

/-- where the object of an entry is -/
def World.ref (w : World K Ty V) (l : Nat) (k : K) : Option Nat := (w.maps l).bind fun m => find m k

theorem setMap_ref_ne {w : World K Ty V} {h : Heap Ty V} {l j : Nat} {m} (k : K) (hj : j ≠ l) : (w.setMap h l m).ref j k = w.ref j k := by
  unfold World.ref World.setMap
  dsimp only
  rw [if_neg hj]

theorem removeAll_ref {w w' : World K Ty V} {l j : Nat} (k : K) (hj : j ≠ l) (e : w.removeAll l = some w') : w'.ref j k = w.ref j k := by
  unfold World.removeAll at e
  obtain ⟨m, _, e⟩ := Option.bind_eq_some_iff.1 e
  obtain ⟨h, _, rfl⟩ := Option.map_eq_some_iff.1 e
  exact setMap_ref_ne k hj

/-- the object of an entry stays where it is until the entry is taken away -/
theorem step_ref {w w' : World K Ty V} {alloc : Alloc} {dflt : Ty → V} {op : Op K Ty V} {l : Nat} {k : K} {a : Nat} (hr : w.ref l k = some a)
    (hd : ¬ op.drops l k) (e : w.step alloc dflt op = some w') : w'.ref l k = some a := by
  have hget : ∀ l' k' ty r, w.getData alloc dflt l' k' ty = some r → r.2.ref l k = some a := by
    intro l' k' ty r hg
    unfold World.getData at hg
    obtain ⟨m, hm, hg⟩ := Option.bind_eq_some_iff.1 hg
    cases hf : find m k' with
    | some b =>
      rw [hf] at hg
      obtain ⟨o, _, hg⟩ := Option.bind_eq_some_iff.1 hg
      split at hg
      · cases hg; exact hr
      · cases hg
    | none =>
      rw [hf] at hg
      cases hg
      by_cases hl : l = l'
      · subst hl
        unfold World.ref at hr ⊢
        rw [hm] at hr
        unfold World.setMap
        dsimp only at hr ⊢
        rw [if_pos rfl]
        simp only [Option.bind_some, find_cons]
        rw [if_neg]
        · exact hr
        · rintro rfl
          change find m k' = some a at hr
          rw [hf] at hr
          cases hr
      · rw [setMap_ref_ne k hl]
        exact hr
  have hex : ∀ l', w.maps l' = none → l ≠ l' := by
    rintro l' h rfl
    unfold World.ref at hr
    rw [h] at hr
    cases hr
  cases op with
  | create l' =>
    simp only [World.step, World.create] at e
    split at e
    · cases e
    · rename_i hn
      cases e
      rw [setMap_ref_ne k (hex l' hn)]
      exact hr
  | get l' k' ty =>
    obtain ⟨r, hg, rfl⟩ := Option.map_eq_some_iff.1 e
    exact hget l' k' ty r hg
  | put l' k' ty v =>
    obtain ⟨r, hg, e⟩ := Option.bind_eq_some_iff.1 e
    obtain ⟨h, _, rfl⟩ := Option.map_eq_some_iff.1 e
    exact hget l' k' ty r hg
  | remove l' k' =>
    simp only [World.step, World.removeData] at e
    obtain ⟨m, hm, e⟩ := Option.bind_eq_some_iff.1 e
    cases hf : find m k' with
    | none => rw [hf] at e; cases e; exact hr
    | some b =>
      rw [hf] at e
      obtain ⟨h, _, rfl⟩ := Option.map_eq_some_iff.1 e
      by_cases hl : l = l'
      · subst hl
        have hk : k ≠ k' := fun e => hd ⟨rfl, e.symm⟩
        unfold World.ref at hr ⊢
        rw [hm] at hr
        unfold World.setMap
        dsimp only at hr ⊢
        rw [if_pos rfl]
        change find _ k = some a
        rw [find_filter, if_neg hk]
        exact hr
      · rw [setMap_ref_ne k hl]
        exact hr
  | removeAll l' => rw [removeAll_ref k (fun h => hd h.symm) e]; exact hr
  | copy l' src =>
    simp only [World.step, World.copy] at e
    split at e
    · cases e
    · rename_i hn
      obtain ⟨m, _, e⟩ := Option.bind_eq_some_iff.1 e
      obtain ⟨q, _, rfl⟩ := Option.map_eq_some_iff.1 e
      rw [setMap_ref_ne k (hex l' hn)]
      exact hr
  | assign l' src =>
    simp only [World.step, World.assign] at e
    split at e
    · obtain ⟨_, _, rfl⟩ := Option.map_eq_some_iff.1 e
      exact hr
    · rename_i hne
      have hl : l ≠ l' := fun h => hd ⟨h.symm, fun h' => hne (h.symm.trans h'.symm)⟩
      obtain ⟨w1, e1, e⟩ := Option.bind_eq_some_iff.1 e
      obtain ⟨m, _, e⟩ := Option.bind_eq_some_iff.1 e
      obtain ⟨q, _, rfl⟩ := Option.map_eq_some_iff.1 e
      rw [setMap_ref_ne k hl, removeAll_ref k hl e1]
      exact hr
  | destroy l' =>
    have hl : l ≠ l' := fun h => hd h.symm
    simp only [World.step, World.destroy] at e
    obtain ⟨w1, e1, rfl⟩ := Option.map_eq_some_iff.1 e
    rw [setMap_ref_ne k hl, removeAll_ref k hl e1]
    exact hr

/-- **C59, what is true**: with calls that use the right type, every layer has its own finite map from keys to typed values: each call is
defined and changes exactly what the specification says (so copies and originals are independent), queries report the map, a missing key
throws for a const layer. Missing: the exception for a wrong type. -/
theorem C59_metadata_partial {dflt : Ty → V} {w : World K Ty V} {s : Spec K Ty V} (e : Exec dflt w s) :
    (∀ op alloc s', AllocOk alloc → s.step dflt op = some s' → ∃ w', w.step alloc dflt op = some w' ∧ Exec dflt w' s') ∧
    (∀ l f, s l = some f → ∀ k,
      w.hasData l k = some (f k).isSome ∧
      (∀ ty, ∃ b, w.hasDataOf l k ty = some b ∧ (b = true ↔ ∃ v, f k = some (ty, v))) ∧
      (∀ ty, f k = none → w.getConst l k ty = some .throws) ∧
      (∀ ty v, f k = some (ty, v) → w.getConst l k ty = some (.ok v))) := by
  obtain ⟨i, rfl⟩ := e.inv
  refine ⟨?_, ?_⟩
  · intro op alloc s' ha hs
    obtain ⟨w', h1, _, _⟩ := sim i ha dflt hs
    exact ⟨w', h1, .step op alloc e ha hs h1⟩
  · intro l f hf k
    obtain ⟨m, hm, rfl⟩ := abs_some hf
    cases hk : find m k with
    | none =>
      refine ⟨?_, ?_, ?_, ?_⟩
      · simp [World.hasData, hm, hk]
      · intro ty; exact ⟨false, by simp [World.hasDataOf, hm, hk], by simp [hk]⟩
      · intro ty _; simp [World.getConst, hm, hk]
      · intro ty v h; simp [hk] at h
    | some a =>
      obtain ⟨⟨t, v0⟩, ho⟩ := i.live l m k a hm (find_mem hk)
      refine ⟨?_, ?_, ?_, ?_⟩
      · simp [World.hasData, hm, hk, ho]
      · intro ty; exact ⟨decide (t = ty), by simp [World.hasDataOf, hm, hk, ho], by simp [hk, ho]⟩
      · intro ty h; simp [hk, ho] at h
      · intro ty v h
        simp only [hk, Option.bind_some, ho, Option.some.injEq, Prod.mk.injEq] at h
        obtain ⟨rfl, rfl⟩ := h
        simp [World.getConst, hm, hk, ho]

/-- a sequence of calls -/
inductive Steps (dflt : Ty → V) (good : Op K Ty V → Prop) : World K Ty V → Spec K Ty V → World K Ty V → Spec K Ty V → Prop where
  | refl (w s) : Steps dflt good w s w s
  | step {w s w1 s1 w2 s2} (op : Op K Ty V) (alloc : Alloc) : Steps dflt good w s w1 s1 → good op → AllocOk alloc → s1.step dflt op = some s2 →
      w1.step alloc dflt op = some w2 → Steps dflt good w s w2 s2

theorem getData_ref {w w1 : World K Ty V} {alloc : Alloc} {dflt : Ty → V} {l k ty a} (hg : w.getData alloc dflt l k ty = some (a, w1)) :
    w1.ref l k = some a := by
  unfold World.getData at hg
  obtain ⟨m, hm, hg⟩ := Option.bind_eq_some_iff.1 hg
  cases hf : find m k with
  | some b =>
    rw [hf] at hg
    obtain ⟨o, _, hg⟩ := Option.bind_eq_some_iff.1 hg
    split at hg
    · cases hg; unfold World.ref; rw [hm]; exact hf
    · cases hg
  | none =>
    rw [hf] at hg
    cases hg
    unfold World.ref World.setMap
    dsimp only
    rw [if_pos rfl]
    exact if_pos rfl

/-- **C59, references**: a reference that getData returned can be used until its entry is taken away: writing through it changes exactly this entry. -/
theorem C59_reference {dflt : Ty → V} {w w1 w2 : World K Ty V} {s s1 s2 : Spec K Ty V} {l : Nat} {k : K} {ty : Ty} {a : Nat} {alloc : Alloc}
    (e : Exec dflt w s) (ha : AllocOk alloc) (hs : s.step dflt (.get l k ty) = some s1) (hg : w.getData alloc dflt l k ty = some (a, w1))
    (hst : Steps dflt (fun op => ¬ op.drops l k) w1 s1 w2 s2) :
    ∃ f o, s2 l = some f ∧ f k = some o ∧ w2.heap.obj a = some o ∧
      ∀ v, ∃ h, w2.heap.write a v = some h ∧ abs { w2 with heap := h } = s2.set l (some fun j => if j = k then some (o.1, v) else f j) := by
  have hw1 : w.step alloc dflt (.get l k ty) = some w1 := by simp [World.step, hg]
  have e1 : Exec dflt w1 s1 := .step _ alloc e ha hs hw1
  have hr : w1.ref l k = some a := getData_ref hg
  have h2 : Exec dflt w2 s2 ∧ w2.ref l k = some a := by
    induction hst with
    | refl => exact ⟨e1, hr⟩
    | step op alloc _ hgood ha hs hw ih =>
      obtain ⟨h1, h2⟩ := ih
      exact ⟨.step op alloc h1 ha hs hw, step_ref h2 hgood hw⟩
  obtain ⟨e2, hr2⟩ := h2
  obtain ⟨i, rfl⟩ := e2.inv
  obtain ⟨m, hm, hf⟩ := Option.bind_eq_some_iff.1 hr2
  obtain ⟨o, ho⟩ := i.live l m k a hm (find_mem hf)
  refine ⟨fun k => (find m k).bind w2.heap.obj, o, by unfold abs; rw [hm]; rfl, by dsimp only; rw [hf]; exact ho, ho, ?_⟩
  intro v
  obtain ⟨h, h1, _, h3⟩ := write_spec i hm hf ho v
  exact ⟨h, h1, h3⟩

/-- an allocator -/
def bump : Alloc := fun l => l.foldr max 0 + 1

theorem bump_ok : AllocOk bump := by
  intro l h
  have : ∀ (l : List Nat) a, a ∈ l → a ≤ l.foldr max 0 := by
    intro l
    induction l with
    | nil => intro a h; simp at h
    | cons b l ih =>
      intro a h
      rw [List.foldr_cons]
      rcases List.mem_cons.1 h with rfl | h
      · omega
      · have := ih a h
        omega
  have := this l _ h
  unfold bump at this
  omega

def runW (w : World K Ty V) (dflt : Ty → V) : List (Op K Ty V) → Option (World K Ty V)
  | [] => some w
  | op :: l => (w.step bump dflt op).bind fun w => runW w dflt l

def emptyW : World K Ty V := ⟨⟨fun _ => none, []⟩, fun _ => none⟩

/-- a layer is copied, then the copy is changed and the original destroyed -/
example : (runW (emptyW : World Nat Bool Nat) (fun _ => 0) [.create 1, .put 1 7 true 5, .copy 2 1, .put 2 7 true 6, .put 2 8 false 1]).map
    (fun w => (w.getConst 1 7 true, w.getConst 2 7 true, w.hasData 1 8)) = some (some (.ok 5), some (.ok 6), some false) := by decide +kernel

/-- **C59, the code violates the property**: getData with another type than the one that is stored is undefined behaviour in every state,
where the documentation promises an exception. -/
theorem C59_wrong_type {dflt : Ty → V} {w : World K Ty V} {s : Spec K Ty V} (e : Exec dflt w s) {l f k ty o} (hf : s l = some f) (hk : f k = some o) (ht : o.1 ≠ ty)
    (alloc : Alloc) : w.getData alloc dflt l k ty = none ∧ w.getConst l k ty = none := by
  obtain ⟨i, rfl⟩ := e.inv
  obtain ⟨m, hm, rfl⟩ := abs_some hf
  obtain ⟨a, ha, ho⟩ := Option.bind_eq_some_iff.1 hk
  refine ⟨?_, ?_⟩
  · simp only [World.getData, hm, Option.bind_some, ha, ho, if_neg ht]
  · simp only [World.getConst, hm, Option.bind_some, ha, ho, if_neg ht]

/-! ### C60 -/

section Trav
variable (dflt : Ty → V) (band : K) (ty : Ty)

/-- the array of a grid as the user sees it -/
def arr (s : Spec K Ty V) : Nat → Option V := fun l => (s l).map fun f => match f band with
  | none => dflt ty
  | some o => o.2

/-- the pointers point to the array of their own grid, and the band has the right type -/
structure TInv (w : TWorld K Ty V) : Prop where
  inv : Inv w.base
  ptr : ∀ l a, w.ptr l = some a → w.base.ref l band = some a
  typ : ∀ l f o, abs w.base l = some f → f band = some o → o.1 = ty

inductive TOp (V : Type) where
  | create (l : Nat)
  | set (l : Nat) (f : V → V)
  | read (l : Nat)
  | clone (l src : Nat)
  | assign (l src : Nat)
  | destroy (l : Nat)

def TWorld.step (w : TWorld K Ty V) (alloc : Alloc) : TOp V → Option (TWorld K Ty V)
  | .create l => w.create l
  | .set l f => w.setTrav alloc dflt band ty l f
  | .read l => (w.getTrav alloc dflt band ty l).map (·.2)
  | .clone l src => w.clone alloc l src
  | .assign l src => w.assign alloc l src
  | .destroy l => w.destroy l

/-- specification: every grid has its own array -/
def tspec (t : Nat → Option V) : TOp V → Option (Nat → Option V)
  | .create l => match t l with
    | none => some fun j => if j = l then some (dflt ty) else t j
    | some _ => none
  | .set l f => (t l).map fun v j => if j = l then some (f v) else t j
  | .read l => (t l).map fun _ => t
  | .clone l src => match t l with
    | none => (t src).map fun v j => if j = l then some v else t j
    | some _ => none
  | .assign l src => (t l).bind fun _ => (t src).map fun v j => if j = l then some v else t j
  | .destroy l => (t l).map fun _ j => if j = l then none else t j

/-- which grids have been accessed since they were created or assigned -/
def used (u : Nat → Bool) : TOp V → Nat → Bool
  | .create l => fun j => if j = l then false else u j
  | .set l _ => fun j => if j = l then true else u j
  | .read l => fun j => if j = l then true else u j
  | .clone l src => fun j => if j = l then u src else u j
  | .assign l _ => fun j => if j = l then false else u j
  | .destroy l => fun j => if j = l then false else u j

variable {dflt band ty}

theorem arr_set (s : Spec K Ty V) (l : Nat) (g : Option (K → Option (Ty × V))) :
    arr dflt band ty (s.set l g) = fun j => if j = l then (g.map fun f => match f band with
      | none => dflt ty
      | some o => o.2) else arr dflt band ty s j := by
  funext j
  unfold arr Spec.set
  split <;> rfl

theorem arr_some {s : Spec K Ty V} {l : Nat} {v : V} (h : arr dflt band ty s l = some v) : ∃ f, s l = some f ∧ (match f band with
    | none => dflt ty
    | some o => o.2) = v := Option.map_eq_some_iff.1 h

/-- types of the band are kept if a layer gets a map with the right type -/
theorem typ_set {s : Spec K Ty V} (h : ∀ l f o, s l = some f → f band = some o → o.1 = ty) {l : Nat} {g : Option (K → Option (Ty × V))}
    (hg : ∀ f o, g = some f → f band = some o → o.1 = ty) : ∀ j f o, s.set l g j = some f → f band = some o → o.1 = ty := by
  intro j f o e
  unfold Spec.set at e
  split at e
  · exact hg f o e
  · exact h j f o e

theorem fetch_spec {w : TWorld K Ty V} (i : TInv band ty w) {alloc : Alloc} (ha : AllocOk alloc) {l : Nat} {v : V}
    (hv : arr dflt band ty (abs w.base) l = some v) :
    ∃ a w', w.fetch alloc dflt band ty l = some (a, w') ∧ TInv band ty w' ∧ arr dflt band ty (abs w'.base) = arr dflt band ty (abs w.base) ∧
      w'.base.ref l band = some a ∧ w'.base.heap.obj a = some (ty, v) ∧ ∀ j, (w'.ptr j).isSome = if j = l then true else (w.ptr j).isSome := by
  obtain ⟨f, hf, hfv⟩ := arr_some hv
  obtain ⟨m, hm, hfe⟩ := abs_some hf
  cases hp : w.ptr l with
  | some a =>
    have hr := i.ptr l a hp
    obtain ⟨m', hm', hfind⟩ := Option.bind_eq_some_iff.1 hr
    rw [hm] at hm'
    cases hm'
    obtain ⟨o, ho⟩ := i.inv.live l m band a hm (find_mem hfind)
    have hfo : f band = some o := by rw [hfe]; dsimp only; rw [hfind]; exact ho
    have ht := i.typ l f o hf hfo
    rw [hfo] at hfv
    refine ⟨a, w, by unfold TWorld.fetch; rw [hp], i, rfl, hr, ?_, ?_⟩
    · rw [ho, ← ht, ← hfv]
    · intro j
      split
      · rename_i hj; rw [hj, hp]; rfl
      · rfl
  | none =>
    have key : ∃ s', Spec.step (abs w.base) dflt (.get l band ty) = some s' ∧ arr dflt band ty s' = arr dflt band ty (abs w.base) ∧
        (∀ j f o, s' j = some f → f band = some o → o.1 = ty) ∧ ∃ g, s' l = some g ∧ g band = some (ty, v) := by
      cases hfb : f band with
      | none =>
        rw [hfb] at hfv
        refine ⟨Spec.set (abs w.base) l (some fun j => if j = band then some (ty, dflt ty) else f j), ?_, ?_, ?_, ?_⟩
        · simp only [Spec.step, hf, Option.bind_some, hfb]
        · rw [arr_set]
          funext j
          split
          · rename_i hj
            rw [hj, hv]
            simp [← hfv]
          · rfl
        · refine typ_set i.typ ?_
          intro g o hg hgo
          cases hg
          simp only [if_true, Option.some.injEq] at hgo
          rw [← hgo]
        · refine ⟨_, if_pos rfl, ?_⟩
          simp [← hfv]
      | some o =>
        have ht := i.typ l f o hf hfb
        rw [hfb] at hfv
        refine ⟨abs w.base, ?_, rfl, i.typ, f, hf, ?_⟩
        · simp only [Spec.step, hf, Option.bind_some, hfb, if_pos ht]
        · rw [hfb, ← ht, ← hfv]
    obtain ⟨s', hs, h1, h2, g, hg, hgb⟩ := key
    obtain ⟨b, hb, hi, habs⟩ := sim i.inv ha dflt hs
    have hb0 := hb
    obtain ⟨⟨a, b'⟩, hgd, hbe⟩ := Option.map_eq_some_iff.1 hb
    dsimp only at hbe
    subst hbe
    have hr := getData_ref hgd
    subst habs
    refine ⟨a, { base := b', ptr := fun j => if j = l then some a else w.ptr j }, ?_, ⟨hi, ?_, h2⟩, h1, hr, ?_, ?_⟩
    · unfold TWorld.fetch
      rw [hp]
      dsimp only
      rw [hgd]
      rfl
    · intro j c hj
      dsimp only at hj
      split at hj
      · rename_i hjl; cases hj; subst hjl; exact hr
      · exact step_ref (i.ptr j c hj) (op := Op.get l band ty) (fun h => h) hb0
    · obtain ⟨m', hm', hge⟩ := abs_some hg
      obtain ⟨m'', hm'', hfind⟩ := Option.bind_eq_some_iff.1 hr
      rw [hm'] at hm''
      cases hm''
      rw [hge] at hgb
      dsimp only at hgb
      rw [hfind] at hgb
      exact hgb
    · intro j
      dsimp only
      split <;> rfl

/-- the call is allowed: a grid that has been accessed is not cloned -/
def TOp.fine (u : Nat → Bool) : TOp V → Prop
  | .clone _ src => u src = false
  | _ => True

theorem tsim {w : TWorld K Ty V} (i : TInv band ty w) {u : Nat → Bool} (hu : ∀ j, (w.ptr j).isSome = u j) {alloc : Alloc} (ha : AllocOk alloc) {op : TOp V}
    (hop : op.fine u) {t' : Nat → Option V} (hs : tspec dflt ty (arr dflt band ty (abs w.base)) op = some t') :
    ∃ w', w.step dflt band ty alloc op = some w' ∧ TInv band ty w' ∧ arr dflt band ty (abs w'.base) = t' ∧ ∀ j, (w'.ptr j).isSome = used u op j := by
  have hnone : ∀ {l}, arr dflt band ty (abs w.base) l = none → abs w.base l = none := by
    intro l h
    unfold arr at h
    simpa using h
  cases op with
  | create l =>
    simp only [tspec] at hs
    split at hs
    · rename_i hn
      cases hs
      have hs0 : Spec.step (abs w.base) dflt (.create l) = some (Spec.set (abs w.base) l (some fun _ => none)) := by simp only [Spec.step, hnone hn]
      obtain ⟨b, hb, hi, habs⟩ := sim i.inv ha dflt hs0
      refine ⟨{ base := b, ptr := fun j => if j = l then none else w.ptr j }, ?_, ⟨hi, ?_, ?_⟩, ?_, ?_⟩
      · change (w.base.create l).map _ = _
        rw [show w.base.create l = some b from hb]
        rfl
      · intro j a hj
        dsimp only at hj
        split at hj
        · cases hj
        · exact step_ref (i.ptr j a hj) (op := Op.create l) (fun h => h) hb
      · dsimp only
        rw [habs]
        refine typ_set i.typ ?_
        intro f o hf ho
        cases hf
        cases ho
      · dsimp only
        rw [habs, arr_set]
        rfl
      · intro j
        dsimp only [used]
        split
        · rfl
        · exact hu j
    · cases hs
  | set l f =>
    obtain ⟨v, hv, rfl⟩ := Option.map_eq_some_iff.1 hs
    obtain ⟨a, w1, e, i1, harr, hr, ho, hp⟩ := fetch_spec i ha hv
    obtain ⟨m, hm, hfind⟩ := Option.bind_eq_some_iff.1 hr
    obtain ⟨h, hw, hi, habs⟩ := write_spec i1.inv hm hfind ho (f v)
    refine ⟨{ w1 with base := { w1.base with heap := h } }, ?_, ⟨hi, i1.ptr, ?_⟩, ?_, ?_⟩
    · simp only [TWorld.step, TWorld.setTrav, e, Option.bind_some, ho, hw, Option.map_some]
    · dsimp only
      rw [habs]
      refine typ_set i1.typ ?_
      intro g o hg hgo
      cases hg
      simp only [if_true, Option.some.injEq] at hgo
      rw [← hgo]
    · dsimp only
      rw [habs, arr_set, harr]
      funext j
      split
      · simp
      · rfl
    · intro j
      dsimp only [used]
      rw [hp j]
      split
      · rfl
      · exact hu j
  | read l =>
    obtain ⟨v, hv, rfl⟩ := Option.map_eq_some_iff.1 hs
    obtain ⟨a, w1, e, i1, harr, hr, ho, hp⟩ := fetch_spec i ha hv
    refine ⟨w1, ?_, i1, harr, ?_⟩
    · simp only [TWorld.step, TWorld.getTrav, e, Option.bind_some, ho, Option.map_some]
    · intro j
      dsimp only [used]
      rw [hp j]
      split
      · rfl
      · exact hu j
  | clone l src =>
    simp only [tspec] at hs
    split at hs
    · rename_i hn
      obtain ⟨v, hv, rfl⟩ := Option.map_eq_some_iff.1 hs
      obtain ⟨f, hf, hfv⟩ := arr_some hv
      have hs0 : Spec.step (abs w.base) dflt (.copy l src) = some (Spec.set (abs w.base) l (some f)) := by simp only [Spec.step, hnone hn, hf, Option.map_some]
      obtain ⟨b, hb, hi, habs⟩ := sim i.inv ha dflt hs0
      have hps : w.ptr src = none := by
        have := hu src
        rw [show u src = false from hop] at this
        simpa using this
      refine ⟨{ base := b, ptr := fun j => if j = l then w.ptr src else w.ptr j }, ?_, ⟨hi, ?_, ?_⟩, ?_, ?_⟩
      · change (w.base.copy alloc l src).map _ = _
        rw [show w.base.copy alloc l src = some b from hb]
        rfl
      · intro j a hj
        dsimp only at hj
        split at hj
        · rw [hps] at hj; cases hj
        · exact step_ref (i.ptr j a hj) (op := Op.copy l src) (fun h => h) hb
      · dsimp only
        rw [habs]
        refine typ_set i.typ ?_
        intro g o hg hgo
        cases hg
        exact i.typ src f o hf hgo
      · dsimp only
        rw [habs, arr_set]
        funext j
        split
        · simp [hfv]
        · rfl
      · intro j
        dsimp only [used]
        split
        · exact hu src
        · exact hu j
    · cases hs
  | assign l src =>
    obtain ⟨v0, hv0, hs⟩ := Option.bind_eq_some_iff.1 hs
    obtain ⟨v, hv, rfl⟩ := Option.map_eq_some_iff.1 hs
    obtain ⟨f0, hf0, _⟩ := arr_some hv0
    obtain ⟨f, hf, hfv⟩ := arr_some hv
    have hs0 : Spec.step (abs w.base) dflt (.assign l src) = some (Spec.set (abs w.base) l (some f)) := by simp only [Spec.step, hf0, hf, Option.bind_some, Option.map_some]
    obtain ⟨b, hb, hi, habs⟩ := sim i.inv ha dflt hs0
    refine ⟨{ base := b, ptr := fun j => if j = l then none else w.ptr j }, ?_, ⟨hi, ?_, ?_⟩, ?_, ?_⟩
    · change (w.base.assign alloc l src).map _ = _
      rw [show w.base.assign alloc l src = some b from hb]
      rfl
    · intro j a hj
      dsimp only at hj
      split at hj
      · cases hj
      · rename_i hne
        exact step_ref (i.ptr j a hj) (op := Op.assign l src) (fun h => hne h.1.symm) hb
    · dsimp only
      rw [habs]
      refine typ_set i.typ ?_
      intro g o hg hgo
      cases hg
      exact i.typ src f o hf hgo
    · dsimp only
      rw [habs, arr_set]
      funext j
      split
      · simp [hfv]
      · rfl
    · intro j
      dsimp only [used]
      split
      · rfl
      · exact hu j
  | destroy l =>
    obtain ⟨v, hv, rfl⟩ := Option.map_eq_some_iff.1 hs
    obtain ⟨f, hf, hfv⟩ := arr_some hv
    have hs0 : Spec.step (abs w.base) dflt (.destroy l) = some (Spec.set (abs w.base) l none) := by simp only [Spec.step, hf, Option.map_some]
    obtain ⟨b, hb, hi, habs⟩ := sim i.inv ha dflt hs0
    refine ⟨{ base := b, ptr := fun j => if j = l then none else w.ptr j }, ?_, ⟨hi, ?_, ?_⟩, ?_, ?_⟩
    · change (w.base.destroy l).map _ = _
      rw [show w.base.destroy l = some b from hb]
      rfl
    · intro j a hj
      dsimp only at hj
      split at hj
      · cases hj
      · rename_i hne
        exact step_ref (i.ptr j a hj) (op := Op.destroy l) (fun h => hne h.symm) hb
    · dsimp only
      rw [habs]
      exact typ_set i.typ (fun f o hf _ => by cases hf)
    · dsimp only
      rw [habs, arr_set]
      rfl
    · intro j
      dsimp only [used]
      split
      · rfl
      · exact hu j

variable (dflt band ty) in
/-- executions on traversability grids that never clone a grid that has been accessed -/
inductive TExec : TWorld K Ty V → (Nat → Option V) → (Nat → Bool) → Prop where
  | init : TExec ⟨emptyW, fun _ => none⟩ (fun _ => none) (fun _ => false)
  | step {w w' t t' u} (op : TOp V) (alloc : Alloc) : TExec w t u → op.fine u → AllocOk alloc → tspec dflt ty t op = some t' →
      w.step dflt band ty alloc op = some w' → TExec w' t' (used u op)

/-- **C60, what is true**: as long as no grid is cloned after its array has been accessed, every call is defined, every grid has its own array,
clones and assigned grids start with the values of the source and change independently. Missing: clones of grids that are in use. -/
theorem C60_independent_partial {w : TWorld K Ty V} {t : Nat → Option V} {u : Nat → Bool} (e : TExec dflt band ty w t u) :
    (∀ op alloc t', AllocOk alloc → op.fine u → tspec dflt ty t op = some t' → ∃ w', w.step dflt band ty alloc op = some w' ∧ TExec dflt band ty w' t' (used u op)) ∧
    (∀ l v alloc, AllocOk alloc → t l = some v → ∃ w', w.getTrav alloc dflt band ty l = some (v, w')) := by
  have key : TInv band ty w ∧ arr dflt band ty (abs w.base) = t ∧ ∀ j, (w.ptr j).isSome = u j := by
    induction e with
    | init =>
      refine ⟨⟨(Exec.init (dflt := dflt)).inv.1, fun _ _ h => (by cases h), fun _ _ _ h => (by cases h)⟩, rfl, fun _ => rfl⟩
    | step op alloc _ hop ha hs hw ih =>
      obtain ⟨i, rfl, hu⟩ := ih
      obtain ⟨w1, e1, h1, h2, h3⟩ := tsim i hu ha hop hs
      rw [hw] at e1
      cases e1
      exact ⟨h1, h2, h3⟩
  obtain ⟨i, rfl, hu⟩ := key
  refine ⟨?_, ?_⟩
  · intro op alloc t' ha hop hs
    obtain ⟨w1, e1, _⟩ := tsim i hu ha hop hs
    exact ⟨w1, e1, .step op alloc e hop ha hs e1⟩
  · intro l v alloc ha hv
    obtain ⟨a, w1, h1, _, _, _, ho, _⟩ := fetch_spec i ha hv
    exact ⟨w1, by simp only [TWorld.getTrav, h1, Option.bind_some, ho, Option.map_some]⟩

end Trav

def runT (w : TWorld Nat Unit Nat) : List (TOp Nat) → Option (TWorld Nat Unit Nat)
  | [] => some w
  | op :: l => (w.step (fun _ => 0) 0 () bump op).bind fun w => runT w l

/-- a history that meets the hypotheses: assignment of a grid that is in use -/
example : ((runT ⟨emptyW, fun _ => none⟩ [.create 1, .set 1 (· + 5), .create 2, .assign 2 1, .set 2 (· + 1)]).bind fun w =>
    (w.getTrav bump (fun _ => 0) 0 () 1).bind fun a => (w.getTrav bump (fun _ => 0) 0 () 2).map fun b => (a.1, b.1)) = some (5, 6) := by decide +kernel

/-- **C60, the code violates the property**: setting a cell of a clone changes the original and not the own data of the clone; after the
original is destroyed, using the clone is undefined. -/
theorem C60_clone_shares_array :
    (∃ w, runT ⟨emptyW, fun _ => none⟩ [.create 1, .set 1 (· + 5), .clone 2 1, .set 2 (· + 1)] = some w ∧
      w.base.getConst 1 0 () = some (.ok 6) ∧ w.base.getConst 2 0 () = some (.ok 5)) ∧
    (∃ w, runT ⟨emptyW, fun _ => none⟩ [.create 1, .set 1 (· + 5), .clone 2 1, .destroy 1] = some w ∧ w.setTrav bump (fun _ => 0) 0 () 2 (· + 1) = none) := by
  refine ⟨?_, ?_⟩
  · have h : ((runT ⟨emptyW, fun _ => none⟩ [.create 1, .set 1 (· + 5), .clone 2 1, .set 2 (· + 1)]).map fun w =>
        (w.base.getConst 1 0 (), w.base.getConst 2 0 ())) = some (some (.ok 6), some (.ok 5)) := by decide +kernel
    obtain ⟨w, h1, h2⟩ := Option.map_eq_some_iff.1 h
    simp only [Prod.mk.injEq] at h2
    exact ⟨w, h1, h2⟩
  · have h : ((runT ⟨emptyW, fun _ => none⟩ [.create 1, .set 1 (· + 5), .clone 2 1, .destroy 1]).map fun w =>
        (w.setTrav bump (fun _ => 0) 0 () 2 (· + 1)).isNone) = some true := by decide +kernel
    obtain ⟨w, h1, h2⟩ := Option.map_eq_some_iff.1 h
    exact ⟨w, h1, by simpa using h2⟩

#print axioms C59_metadata_partial
#print axioms C59_reference
#print axioms C59_wrong_type
#print axioms C60_independent_partial
#print axioms C60_clone_shares_array

end Envire.Meta
