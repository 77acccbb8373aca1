import Verif.Maps.PolyLifeModel

/-! C203: life of polygons and of sets of polygons. -/
namespace Envire.PolyLife

/-- specification: the history neither copies nor assigns sets and destroys no polygon -/
def Plain : Op → Prop
  | .copy _ _ => False
  | .assign _ _ => False
  | .destroyPoly _ => False
  | _ => True

/-- each set has data of its own, there is no other data, and the polygons in it live -/
structure Own (s : State) : Prop where
  live : ∀ i d, s.sets i = some d → ∃ l, s.data d = some l ∧ ∀ p ∈ l, s.polys p = true
  inj : ∀ i j d, s.sets i = some d → s.sets j = some d → i = j
  used : ∀ d, s.data d ≠ none → ∃ i, s.sets i = some d
  fresh : ∀ i d, s.sets i = some d → d < s.next

theorem upd_same {A : Type} (f : Nat → A) (i : Nat) (a : A) : upd f i a i = a := if_pos rfl
theorem upd_other {A : Type} (f : Nat → A) {i j : Nat} (a : A) (h : j ≠ i) : upd f i a j = f j := if_neg h

theorem Own.start : Own start := ⟨fun i d h => (by cases h), fun i j d h => (by cases h), fun d h => absurd rfl h, fun i d h => (by cases h)⟩

theorem Own.step {s : State} (h : Own s) {o : Op} (hp : Plain o) : ∃ t, step s o = some t ∧ Own t := by
  cases o with
  | copy i j => cases hp
  | assign i j => cases hp
  | destroyPoly p => cases hp
  | newPoly p =>
    refine ⟨_, rfl, ⟨fun i d hd => ?_, h.inj, h.used, h.fresh⟩⟩
    obtain ⟨l, hl, hq⟩ := h.live i d hd
    refine ⟨l, hl, fun q hm => ?_⟩
    show upd s.polys p true q = true
    unfold upd
    split
    · rfl
    · exact hq q hm
  | newSet i =>
    unfold PolyLife.step
    dsimp only
    by_cases hi : s.sets i = none
    · rw [if_pos hi]
      refine ⟨_, rfl, ⟨fun k d hd => ?_, fun k k' d hd hd' => ?_, fun d hd => ?_, fun k d hd => ?_⟩⟩
      · dsimp only at hd ⊢
        by_cases hk : k = i
        · subst hk
          rw [upd_same] at hd
          cases hd
          exact ⟨[], upd_same _ _ _, fun p hm => by cases hm⟩
        · rw [upd_other _ _ hk] at hd
          have := h.fresh k d hd
          rw [upd_other _ _ (by omega)]
          exact h.live k d hd
      · dsimp only at hd hd'
        by_cases hk : k = i
        · by_cases hk' : k' = i
          · omega
          · subst hk
            rw [upd_same] at hd
            cases hd
            rw [upd_other _ _ hk'] at hd'
            have := h.fresh _ _ hd'
            omega
        · by_cases hk' : k' = i
          · subst hk'
            rw [upd_same] at hd'
            cases hd'
            rw [upd_other _ _ hk] at hd
            have := h.fresh _ _ hd
            omega
          · rw [upd_other _ _ hk] at hd
            rw [upd_other _ _ hk'] at hd'
            exact h.inj k k' d hd hd'
      · dsimp only at hd ⊢
        by_cases hn : d = s.next
        · subst hn
          exact ⟨i, upd_same _ _ _⟩
        · rw [upd_other _ _ hn] at hd
          obtain ⟨k, hk⟩ := h.used d hd
          refine ⟨k, ?_⟩
          rw [upd_other _ _ (fun e => by rw [e, hi] at hk; cases hk)]
          exact hk
      · dsimp only at hd ⊢
        by_cases hk : k = i
        · subst hk
          rw [upd_same] at hd
          cases hd
          omega
        · rw [upd_other _ _ hk] at hd
          have := h.fresh k d hd
          omega
    · rw [if_neg hi]
      exact ⟨s, rfl, h⟩
  | destroy i =>
    unfold PolyLife.step
    dsimp only
    cases hi : s.sets i with
    | none => exact ⟨s, rfl, h⟩
    | some d =>
      obtain ⟨l, hl, -⟩ := h.live i d hi
      dsimp only
      rw [hl]
      refine ⟨_, rfl, ⟨fun k e he => ?_, fun k k' e he he' => ?_, fun e he => ?_, fun k e he => ?_⟩⟩
      · dsimp only at he ⊢
        by_cases hk : k = i
        · subst hk
          rw [upd_same] at he
          cases he
        · rw [upd_other _ _ hk] at he
          rw [upd_other _ _ (fun e' => hk (h.inj k i d (by rw [← e']; exact he) hi))]
          exact h.live k e he
      · dsimp only at he he'
        by_cases hk : k = i
        · subst hk
          rw [upd_same] at he
          cases he
        · by_cases hk' : k' = i
          · subst hk'
            rw [upd_same] at he'
            cases he'
          · rw [upd_other _ _ hk] at he
            rw [upd_other _ _ hk'] at he'
            exact h.inj k k' e he he'
      · dsimp only at he ⊢
        by_cases hd : e = d
        · subst hd
          rw [upd_same] at he
          exact absurd rfl he
        · rw [upd_other _ _ hd] at he
          obtain ⟨k, hk⟩ := h.used e he
          refine ⟨k, ?_⟩
          rw [upd_other _ _ (fun e' => hd (by rw [e', hi] at hk; cases hk; rfl))]
          exact hk
      · dsimp only at he ⊢
        by_cases hk : k = i
        · subst hk
          rw [upd_same] at he
          cases he
        · rw [upd_other _ _ hk] at he
          exact h.fresh k e he
  | add i p =>
    unfold PolyLife.step
    dsimp only
    cases hi : s.sets i with
    | none => exact ⟨s, rfl, h⟩
    | some d =>
      dsimp only
      by_cases hp : s.polys p = false
      · rw [if_pos hp]
        exact ⟨s, rfl, h⟩
      · rw [if_neg hp]
        obtain ⟨l, hl, hq⟩ := h.live i d hi
        rw [hl]
        refine ⟨_, rfl, ⟨fun k e he => ?_, h.inj, fun e he => ?_, h.fresh⟩⟩
        · dsimp only at he ⊢
          by_cases hd : e = d
          · subst hd
            refine ⟨_, upd_same _ _ _, fun q hm => ?_⟩
            rcases List.mem_append.1 hm with hm | hm
            · exact hq q hm
            · cases List.mem_singleton.1 hm
              simpa using hp
          · rw [upd_other _ _ hd]
            exact h.live k e he
        · dsimp only at he ⊢
          by_cases hd : e = d
          · exact ⟨i, by rw [hd]; exact hi⟩
          · rw [upd_other _ _ hd] at he
            exact h.used e he
  | query i p near =>
    unfold PolyLife.step
    dsimp only
    cases hi : s.sets i with
    | none => exact ⟨s, rfl, h⟩
    | some d =>
      dsimp only
      by_cases hp : s.polys p = false
      · rw [if_pos hp]
        exact ⟨s, rfl, h⟩
      · rw [if_neg hp]
        obtain ⟨l, hl, hq⟩ := h.live i d hi
        rw [hl]
        dsimp only
        rw [if_pos (List.all_eq_true.2 fun q hm => by rw [hq q hm]; rfl)]
        exact ⟨s, rfl, h⟩

theorem Own.run : ∀ {l : List Op} {s : State}, Own s → (∀ o ∈ l, Plain o) → ∃ t, run s l = some t ∧ Own t := by
  intro l
  induction l with
  | nil => intro s h _; exact ⟨s, rfl, h⟩
  | cons o l ih =>
    intro s h hl
    obtain ⟨t, ht, hO⟩ := h.step (hl o List.mem_cons_self)
    obtain ⟨u, hu, hU⟩ := ih hO fun o ho => hl o (List.mem_cons_of_mem _ ho)
    refine ⟨u, ?_, hU⟩
    unfold PolyLife.run
    rw [ht]
    exact hu

/-- **C203 (without copies)** As long as no set is copied or assigned and no polygon is destroyed, no deleted memory is used or deleted again, and when all sets are destroyed no data is left.
Missing: copies and polygons that are destroyed, see below. -/
theorem C203_life_partial (l : List Op) (hl : ∀ o ∈ l, Plain o) :
    ∃ s, run start l = some s ∧ (∀ i d, s.sets i = some d → s.data d ≠ none) ∧ ((∀ i, s.sets i = none) → ∀ d, s.data d = none) := by
  obtain ⟨s, hs, h⟩ := Own.start.run hl
  refine ⟨s, hs, fun i d hd => ?_, fun hn d => ?_⟩
  · obtain ⟨l, hl, -⟩ := h.live i d hd
    rw [hl]
    simp
  · cases hd : s.data d with
    | none => rfl
    | some x =>
      obtain ⟨i, hi⟩ := h.used d (by rw [hd]; simp)
      rw [hn i] at hi
      cases hi

theorem run_append (l m : List Op) : ∀ s, run s (l ++ m) = (run s l).bind fun t => run t m := by
  induction l with
  | nil => intro s; rfl
  | cons o l ih =>
    intro s
    show (step s o).bind _ = ((step s o).bind _).bind _
    cases step s o with
    | none => rfl
    | some t => exact ih t

/-- **C203 (copies, deviation)** After any such history, when a set is copied, as by clone of a map, then destroying both the set and its copy deletes the data twice, and after one of them is destroyed
the other cannot be used. -/
theorem C203_copy_deviation (l : List Op) (hl : ∀ o ∈ l, Plain o) (s : State) (hs : run start l = some s) (i j : Nat) (hi : s.sets i ≠ none) (hj : s.sets j = none) :
    run start (l ++ [.copy i j, .destroy i, .destroy j]) = none ∧ run start (l ++ [.copy i j, .destroy j, .destroy i]) = none ∧
    ∀ p, s.polys p = true → run start (l ++ [.copy i j, .destroy j, .add i p]) = none := by
  obtain ⟨s', hs', h⟩ := Own.start.run hl
  rw [hs] at hs'
  cases hs'
  cases hd : s.sets i with
  | none => exact absurd hd hi
  | some d =>
    obtain ⟨x, hx, -⟩ := h.live i d hd
    have hne : i ≠ j := fun e => by rw [e, hj] at hd; cases hd
    have h1 : step s (.copy i j) = some { s with sets := upd s.sets j (some d) } := by
      simp only [step, hd, hj]
    have hI : (upd s.sets j (some d)) i = some d := by rw [upd_other _ _ hne]; exact hd
    have hJ : (upd s.sets j (some d)) j = some d := upd_same _ _ _
    refine ⟨?_, ?_, fun p hp => ?_⟩ <;> rw [run_append, hs] <;> simp only [Option.bind_some, run, h1]
    · simp only [step, hI, hx, Option.bind_some, upd_other _ _ (Ne.symm hne), hJ, upd_same, hd]
      rfl
    · simp only [step, hJ, hx, Option.bind_some, upd_other _ _ hne, upd_same, hd]
      rfl
    · simp only [step, hJ, hx, Option.bind_some, upd_other _ _ hne, upd_same, hd, hp]
      rfl

/-- **C203 (assignment, deviation)** After an assignment the former data of the target belongs to no set: it is never freed. -/
theorem C203_assign_deviation (l : List Op) (hl : ∀ o ∈ l, Plain o) (s : State) (hs : run start l = some s) (i j : Nat) (hne : i ≠ j) (di dj : Nat) (hi : s.sets i = some di)
    (hj : s.sets j = some dj) : ∃ t, run start (l ++ [.assign i j]) = some t ∧ t.data dj ≠ none ∧ ∀ k, t.sets k ≠ some dj := by
  obtain ⟨s', hs', h⟩ := Own.start.run hl
  rw [hs] at hs'
  cases hs'
  have h1 : step s (.assign i j) = some { s with sets := upd s.sets j (some di) } := by
    simp only [step, hi, hj]
  refine ⟨{ s with sets := upd s.sets j (some di) }, ?_, ?_, ?_⟩
  · rw [run_append, hs]
    simp only [Option.bind_some, run, h1]
  · obtain ⟨x, hx, -⟩ := h.live j dj hj
    show s.data dj ≠ none
    rw [hx]
    simp
  · intro k hk
    dsimp only at hk
    by_cases hkj : k = j
    · subst hkj
      rw [upd_same] at hk
      cases hk
      exact hne (h.inj i k di hi hj)
    · rw [upd_other _ _ hkj] at hk
      exact hkj (h.inj k j dj hk hj)

/-- **C203 (polygons, deviation)** A set keeps the address of a polygon that is destroyed: the next query near it uses deleted memory. -/
theorem C203_polygon_deviation : run start [.newSet 0, .newPoly 1, .newPoly 2, .add 0 1, .destroyPoly 1, .query 0 2 [1]] = none := by decide +kernel

/-! ### examples -/

example : ((run start [.newSet 0, .newSet 1, .newPoly 5, .newPoly 6, .add 0 5, .query 0 6 [5], .destroy 0, .destroy 1]).map fun s => (s.sets 0, s.data 0, s.data 1)) = some (none, none, none) := by
  decide +kernel

example : (∀ o ∈ [Op.newSet 0, .newPoly 5, .add 0 5], Plain o) ∧ run start [.newSet 0, .newPoly 5, .add 0 5, .copy 0 1, .destroy 0, .destroy 1] = none := by
  refine ⟨?_, by decide +kernel⟩
  simp [Plain]

#print axioms C203_life_partial
#print axioms C203_copy_deviation
#print axioms C203_assign_deviation
#print axioms C203_polygon_deviation
end Envire.PolyLife
