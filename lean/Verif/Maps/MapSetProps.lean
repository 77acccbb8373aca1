import Verif.Maps.MapSetModel
import Mathlib.Tactic.Linarith
import Mathlib.Tactic.NormNum
import Mathlib.Tactic.FieldSimp
import Mathlib.Tactic.Ring

/-!
C90 (patches of a set of grids) and C91 (selection of the active grid).
-/

namespace Envire.MapSet

open Matrix

/-! ### specification -/

/-- a point (x, y) of p with another height -/
def withZ (p : Fin 3 → ℝ) (z : ℝ) : Fin 3 → ℝ := ![p 0, p 1, z]

/-- the grid is not tilted with respect to the map -/
def Level (w : World) (g : Nat) : Prop :=
  (rel w.mapFrame (w.frame g)).R 2 0 = 0 ∧ (rel w.mapFrame (w.frame g)).R 2 1 = 0 ∧ (rel w.mapFrame (w.frame g)).R 2 2 = 1

/-- r is the answer of the grid g for the probe at p: all heights of p's column are converted between the frame of the map and the frame of the grid -/
def Answers (w : World) (ct : Contents) (g : Nat) (p : Fin 3 → ℝ) (probe r : Patch) : Prop :=
  ∃ q, ct g ((rel w.mapFrame (w.frame g)).apply p 0) ((rel w.mapFrame (w.frame g)).apply p 1)
      ⟨(rel w.mapFrame (w.frame g)).apply (withZ p probe.mean) 2, probe.rest⟩ = some q ∧
    r.rest = q.rest ∧ (rel w.mapFrame (w.frame g)).apply (withZ p r.mean) 2 = q.mean

/-- the states that a map can have by calls of its methods, with contents of the grids that may change all the time -/
inductive Reach : World → MMap → Prop
  | init (w : World) : Reach w {}
  | add {w m} (g : Nat) : Reach w m → g < w.next → Reach w (addGrid m g)
  | query {w m} (ct : Contents) (p : Fin 3 → ℝ) (probe : Patch) : Reach w m → Reach w (getPatch w ct m p probe).1
  | create {w m} (t : Pose) (relative aligned : Bool) : Reach w m → Reach (createGrid w m t relative aligned).1 (createGrid w m t relative aligned).2
  | select {w m w' m'} (fn : Pose) (threshold : ℝ) (aligned : Bool) : Reach w m →
      selectActiveGrid w m fn threshold aligned = some (w', m') → Reach w' m'

/-! ### invariant -/

structure Inv (w : World) (m : MMap) : Prop where
  known : ∀ g ∈ m.grids, g < w.next
  active : ∀ a, m.active = some a → a ∈ m.grids
  nonempty : m.grids ≠ [] → m.active ≠ none
  cache : ∀ g C, m.cache = some (g, C) → g ∈ m.grids ∧ C = rel w.mapFrame (w.frame g)

theorem search_some {w : World} {ct : Contents} {p : Fin 3 → ℝ} {patch : Patch} {gs : List Nat} {g : Nat} {C : Pose} {r : Patch}
    (h : search w ct p patch gs = some (g, C, r)) :
    C = rel w.mapFrame (w.frame g) ∧ getPatchIn ct g C p patch = some r ∧
      ∃ l1 l2, gs = l1 ++ g :: l2 ∧ ∀ k ∈ l1, getPatchIn ct k (rel w.mapFrame (w.frame k)) p patch = none := by
  induction gs with
  | nil => cases h
  | cons k gs ih =>
    unfold search at h
    dsimp only at h
    cases e : getPatchIn ct k (rel w.mapFrame (w.frame k)) p patch with
    | some q =>
      rw [e] at h
      simp only [Option.some.injEq, Prod.mk.injEq] at h
      obtain ⟨rfl, rfl, rfl⟩ := h
      exact ⟨rfl, e, [], gs, rfl, by simp⟩
    | none =>
      rw [e] at h
      obtain ⟨h1, h2, l1, l2, h3, h4⟩ := ih h
      refine ⟨h1, h2, k :: l1, l2, by rw [h3]; rfl, ?_⟩
      intro j hj
      rcases List.mem_cons.1 hj with rfl | hj
      · exact e
      · exact h4 j hj

theorem search_none {w : World} {ct : Contents} {p : Fin 3 → ℝ} {patch : Patch} {gs : List Nat} (h : search w ct p patch gs = none) :
    ∀ g ∈ gs, getPatchIn ct g (rel w.mapFrame (w.frame g)) p patch = none := by
  induction gs with
  | nil => simp
  | cons k gs ih =>
    unfold search at h
    dsimp only at h
    cases e : getPatchIn ct k (rel w.mapFrame (w.frame k)) p patch with
    | some q =>
      rw [e] at h
      cases h
    | none =>
      rw [e] at h
      intro g hg
      rcases List.mem_cons.1 hg with rfl | hg
      · exact e
      · exact ih h g hg

theorem Inv.addGrid {w : World} {m : MMap} (h : Inv w m) (g : Nat) (hg : g < w.next) : Inv w (addGrid m g) where
  known k hk := by
    rcases List.mem_append.1 hk with hk | hk
    · exact h.known k hk
    · rw [List.mem_singleton.1 hk]
      exact hg
  active a ha := by
    cases ha
    exact List.mem_append_right _ (List.mem_singleton.2 rfl)
  nonempty _ := fun e => by cases e
  cache k C e := ⟨List.mem_append_left _ (h.cache k C e).1, (h.cache k C e).2⟩

theorem Inv.createGrid {w : World} {m : MMap} (h : Inv w m) (t : Pose) (relative aligned : Bool) :
    Inv (createGrid w m t relative aligned).1 (createGrid w m t relative aligned).2 := by
  unfold Envire.MapSet.createGrid
  cases ha : m.active with
  | none => exact h
  | some a =>
    dsimp only
    refine Inv.addGrid ⟨?_, h.active, h.nonempty, ?_⟩ _ (Nat.lt_succ_self _)
    · exact fun g hg => Nat.lt_succ_of_lt (h.known g hg)
    · intro g C e
      obtain ⟨h1, h2⟩ := h.cache g C e
      refine ⟨h1, ?_⟩
      dsimp only
      rw [Function.update_of_ne (by have := h.known g h1; omega)]
      exact h2

theorem nearest_mem (w : World) (fn : Pose) (gs : List Nat) (b : Option Nat × ℝ) :
    (nearest w fn gs b).1 = b.1 ∨ ∃ g ∈ gs, (nearest w fn gs b).1 = some g := by
  induction gs generalizing b with
  | nil => exact .inl rfl
  | cons k gs ih =>
    unfold nearest at ih ⊢
    rw [List.foldl_cons]
    rcases ih (if dist w fn k < b.2 then (some k, dist w fn k) else b) with e | ⟨g, hg, e⟩
    · rw [e]
      split
      · exact .inr ⟨k, List.mem_cons_self, rfl⟩
      · exact .inl rfl
    · exact .inr ⟨g, List.mem_cons_of_mem _ hg, e⟩

theorem reach_inv {w : World} {m : MMap} (h : Reach w m) : Inv w m := by
  induction h with
  | init w => exact ⟨by simp, by simp, fun h => absurd rfl h, by simp⟩
  | add g _ hg ih => exact ih.addGrid g hg
  | @query w m ct p probe _ ih =>
    unfold getPatch
    dsimp only
    split
    · exact ih
    · split
      · rename_i g C r e
        refine ⟨ih.known, ih.active, ih.nonempty, ?_⟩
        intro g' C' e'
        simp only [Option.some.injEq, Prod.mk.injEq] at e'
        obtain ⟨rfl, rfl⟩ := e'
        obtain ⟨h1, -, l1, l2, h3, -⟩ := search_some e
        refine ⟨?_, h1⟩
        have : g ∈ m.grids.reverse := by
          rw [h3]
          simp
        exact List.mem_reverse.1 this
      · exact ih
  | create t relative aligned _ ih => exact ih.createGrid t relative aligned
  | @select w m w' m' fn threshold aligned _ e ih =>
    unfold selectActiveGrid at e
    split at e
    · rename_i g hg
      simp only [Option.some.injEq, Prod.mk.injEq] at e
      obtain ⟨rfl, rfl⟩ := e
      refine ⟨ih.known, ?_, fun _ => by simp, ih.cache⟩
      intro a ha
      cases ha
      rcases nearest_mem w fn m.grids (none, threshold) with h | ⟨k, hk, h⟩
      · rw [hg] at h
        cases h
      · rw [hg] at h
        cases h
        exact hk
    · split at e
      · cases e
      · rename_i a ha
        simp only [Option.some.injEq] at e
        have := ih.createGrid (rel fn (w.frame a)) true true
        rw [e] at this
        exact this

theorem getPatchIn_iff (w : World) (ct : Contents) (g : Nat) (hl : Level w g) (p : Fin 3 → ℝ) (probe r : Patch) :
    getPatchIn ct g (rel w.mapFrame (w.frame g)) p probe = some r ↔ Answers w ct g p probe r := by
  obtain ⟨h0, h1, h2⟩ := hl
  unfold getPatchIn Answers
  have hz : ∀ z, (rel w.mapFrame (w.frame g)).apply (withZ p z) 2 = z + (rel w.mapFrame (w.frame g)).t 2 := by
    intro z
    simp [Pose.apply, withZ, mulVec, dotProduct, Fin.sum_univ_three, h0, h1, h2]
  simp only [hz]
  constructor
  · intro h
    split at h
    · cases h
    · rename_i q e
      simp only [Option.some.injEq] at h
      refine ⟨q, e, by rw [← h], by rw [← h]; simp⟩
  · rintro ⟨q, e, e1, e2⟩
    rw [e]
    simp only [Option.some.injEq]
    cases r
    simp only [Patch.mk.injEq]
    exact ⟨by rw [← e2]; simp, e1.symm⟩

/-! ### C90 -/

/-- C90. Full claim: after any history, `getPatch` returns the patch of the newest grid that has a matching one, in the frame of the map, and false if no grid has.
Proved for level grids: the result is the answer of one of the grids; there is a result if and only if one of the grids
has an answer; it is that of the newest such grid if no grid was found before, or if the last grid found has no answer, or if no other grid
has an answer. Missing: with a cached grid, newer ones are not asked (`C90_newer_ignored`). -/
theorem C90_get_patch_partial {w : World} {m : MMap} (h : Reach w m) (hl : ∀ g ∈ m.grids, Level w g) (ct : Contents) (p : Fin 3 → ℝ) (probe : Patch) :
    ((getPatch w ct m p probe).2 = none ↔ ∀ g ∈ m.grids, ∀ r, ¬ Answers w ct g p probe r) ∧
    (∀ r, (getPatch w ct m p probe).2 = some r → ∃ g ∈ m.grids, Answers w ct g p probe r) ∧
    (∀ r l1 g l2, m.grids = l1 ++ g :: l2 → Answers w ct g p probe r → (∀ k ∈ l2, ∀ q, ¬ Answers w ct k p probe q) →
      (m.cache = none ∨ (∀ c C, m.cache = some (c, C) → c ≠ g → ∀ q, ¬ Answers w ct c p probe q)) →
      (getPatch w ct m p probe).2 = some r) ∧
    (getPatch w ct m p probe).1.grids = m.grids ∧ (getPatch w ct m p probe).1.active = m.active := by
  have inv := reach_inv h
  have no : ∀ g ∈ m.grids, (getPatchIn ct g (rel w.mapFrame (w.frame g)) p probe = none ↔ ∀ r, ¬ Answers w ct g p probe r) := by
    intro g hg
    rw [Option.eq_none_iff_forall_ne_some]
    exact forall_congr' fun r => not_congr (getPatchIn_iff w ct g (hl g hg) p probe r)
  -- the three cases
  have cases' : (∃ c r, c ∈ m.grids ∧ m.cache = some (c, rel w.mapFrame (w.frame c)) ∧ Answers w ct c p probe r ∧ getPatch w ct m p probe = (m, some r)) ∨
      ((∀ c C, m.cache = some (c, C) → ∀ q, ¬ Answers w ct c p probe q) ∧
        ((∃ g C r, search w ct p probe m.grids.reverse = some (g, C, r) ∧ getPatch w ct m p probe = ({ m with cache := some (g, C) }, some r)) ∨
          (search w ct p probe m.grids.reverse = none ∧ getPatch w ct m p probe = (m, none)))) := by
    cases hc : m.cache with
    | none =>
      refine .inr ⟨fun c C e => (by cases e), ?_⟩
      cases hs : search w ct p probe m.grids.reverse with
      | none => exact .inr ⟨rfl, by unfold getPatch; rw [hc, hs]⟩
      | some x =>
        obtain ⟨g, C, r⟩ := x
        exact .inl ⟨g, C, r, rfl, by unfold getPatch; rw [hc, hs]⟩
    | some y =>
      obtain ⟨c, C⟩ := y
      obtain ⟨hm, rfl⟩ := inv.cache c C hc
      cases hi : getPatchIn ct c (rel w.mapFrame (w.frame c)) p probe with
      | some r =>
        refine .inl ⟨c, r, hm, rfl, (getPatchIn_iff w ct c (hl c hm) p probe r).1 hi, ?_⟩
        unfold getPatch
        rw [hc]
        dsimp only
        rw [hi]
      | none =>
        refine .inr ⟨?_, ?_⟩
        · intro c' C' e
          simp only [Option.some.injEq, Prod.mk.injEq] at e
          obtain ⟨rfl, -⟩ := e
          exact (no c hm).1 hi
        · cases hs : search w ct p probe m.grids.reverse with
          | none =>
            refine .inr ⟨rfl, ?_⟩
            unfold getPatch
            rw [hc]
            dsimp only
            rw [hi, hs]
          | some x =>
            obtain ⟨g, C, r⟩ := x
            refine .inl ⟨g, C, r, rfl, ?_⟩
            unfold getPatch
            rw [hc]
            dsimp only
            rw [hi, hs]
  rcases cases' with ⟨c, r, hm, hc, ha, e⟩ | ⟨hc, ⟨g, C, r, hs, e⟩ | ⟨hs, e⟩⟩
  · rw [e]
    refine ⟨⟨fun h => (by cases h), fun h => absurd ha (h c hm r)⟩, ?_, ?_, rfl, rfl⟩
    · intro r' e'
      cases e'
      exact ⟨c, hm, ha⟩
    · intro r' l1 g l2 hg hr hn hcache
      rcases hcache with hcache | hcache
      · rw [hcache] at hc
        cases hc
      · by_cases hcg : c = g
        · subst hcg
          have h1 := (getPatchIn_iff w ct c (hl c hm) p probe r).2 ha
          have h2 := (getPatchIn_iff w ct c (hl c hm) p probe r').2 hr
          exact h1.symm.trans h2
        · exact absurd ha (hcache c _ hc hcg r)
  · obtain ⟨h1, h2, l1, l2, h3, h4⟩ := search_some hs
    subst h1
    have hg : g ∈ m.grids := List.mem_reverse.1 (by rw [h3]; simp)
    have ha := (getPatchIn_iff w ct g (hl g hg) p probe r).1 h2
    rw [e]
    refine ⟨⟨fun h => (by cases h), fun h => absurd ha (h g hg r)⟩, ?_, ?_, rfl, rfl⟩
    · intro r' e'
      cases e'
      exact ⟨g, hg, ha⟩
    · intro r' k1 g' k2 hg' hr hn _
      have hmem : ∀ k ∈ l1, k ∈ m.grids := fun k hk => List.mem_reverse.1 (by rw [h3]; simp [hk])
      have e1 : m.grids = l2.reverse ++ g :: l1.reverse := by
        have := congrArg List.reverse h3
        rw [List.reverse_reverse] at this
        rw [this]
        simp
      -- g is the last grid with an answer
      have hgg : g = g' := by
        rw [e1] at hg'
        rcases List.append_eq_append_iff.1 hg' with ⟨a, h5, h6⟩ | ⟨a, h5, h6⟩
        · cases a with
          | nil =>
            simp only [List.nil_append, List.cons.injEq] at h6
            exact h6.1
          | cons x a =>
            simp only [List.cons_append, List.cons.injEq] at h6
            have : g' ∈ l1 := List.mem_reverse.1 (by rw [h6.2]; simp)
            exact absurd hr ((no g' (hmem g' this)).1 (h4 g' this) r')
        · cases a with
          | nil =>
            simp only [List.nil_append, List.cons.injEq] at h6
            exact h6.1.symm
          | cons x a =>
            simp only [List.cons_append, List.cons.injEq] at h6
            exact absurd ha (hn g (by rw [h6.2]; simp) r)
      subst hgg
      exact h2.symm.trans ((getPatchIn_iff w ct g (hl g hg) p probe r').2 hr)
  · have none' := search_none hs
    rw [e]
    refine ⟨⟨fun _ g hg r => (no g hg).1 (none' g (List.mem_reverse.2 hg)) r, fun _ => rfl⟩, ?_, ?_, rfl, rfl⟩
    · intro r e'
      cases e'
    · intro r l1 g l2 hg hr _ _
      have hm : g ∈ m.grids := by
        rw [hg]
        simp
      exact absurd hr ((no g hm).1 (none' g (List.mem_reverse.2 hm)) r)

/-- the identity -/
def Pose.one : Pose := ⟨1, 0⟩

/-- a map with grids that are all at the same place -/
def flat : World := ⟨Pose.one, 10, fun _ => Pose.one, fun _ => (1, 1)⟩

theorem flat_rel (g : Nat) : rel flat.mapFrame (flat.frame g) = Pose.one := by
  simp [rel, flat, Pose.one, Pose.inv, Pose.mul]

theorem flat_level (g : Nat) : Level flat g := by
  unfold Level
  rw [flat_rel]
  simp [Pose.one]

theorem flat_answers (ct : Contents) (g : Nat) (p : Fin 3 → ℝ) (probe r : Patch) :
    Answers flat ct g p probe r ↔ ct g (p 0) (p 1) probe = some r := by
  unfold Answers
  rw [flat_rel]
  have h : ∀ v, Pose.one.apply v = v := by
    intro v
    simp [Pose.one, Pose.apply]
  simp only [h]
  constructor
  · rintro ⟨q, e, e1, e2⟩
    cases r
    cases q
    simp only [withZ] at e2 e1
    have e2' : _ = _ := e2
    simp at e2' e1
    subst e2' e1
    exact e
  · intro e
    exact ⟨r, e, rfl, rfl⟩

/-- C90 is violated: after a patch was found in the grid 0, the grid 1 that was added later is not asked -/
theorem C90_newer_ignored : ∃ (w : World) (m : MMap) (ct : Contents) (p : Fin 3 → ℝ) (probe r q : Patch), Reach w m ∧ (∀ g ∈ m.grids, Level w g) ∧
    m.grids = [0, 1] ∧ Answers w ct 1 p probe r ∧ (getPatch w ct m p probe).2 = some q ∧ q.mean ≠ r.mean := by
  let ct : Contents := fun g _ _ _ => some ⟨g, 0⟩
  let m0 : MMap := addGrid {} 0
  have h0 : Reach flat m0 := .add 0 (.init flat) (by decide)
  let m1 := (getPatch flat ct m0 0 ⟨0, 0⟩).1
  have h1 : Reach flat m1 := .query ct 0 ⟨0, 0⟩ h0
  have e0 : search flat ct 0 ⟨0, 0⟩ m0.grids.reverse = some (0, Pose.one, ⟨0, 0⟩) := by
    change search flat ct 0 ⟨0, 0⟩ [0] = _
    unfold search
    rw [flat_rel]
    simp [getPatchIn, ct, Pose.one]
  have e1 : m1 = { m0 with cache := some (0, Pose.one) } := by
    change (getPatch flat ct m0 0 ⟨0, 0⟩).1 = _
    unfold getPatch
    rw [e0]
    rfl
  have h2 : Reach flat (addGrid m1 1) := .add 1 h1 (by decide)
  refine ⟨flat, addGrid m1 1, ct, 0, ⟨0, 0⟩, ⟨1, 0⟩, ⟨0, 0⟩, h2, fun g _ => flat_level g, ?_, ?_, ?_, by norm_num⟩
  · rw [e1]
    rfl
  · rw [flat_answers]
    simp [ct]
  · rw [e1]
    simp [getPatch, addGrid, getPatchIn, ct, Pose.one]

/-- C90 is violated: the transform of the cached grid is not updated when the grid is moved, nor is the cache cleared by an assignment -/
theorem C90_stale_cache : ∃ (w w' : World) (m : MMap) (ct : Contents) (p : Fin 3 → ℝ) (probe r : Patch), Reach w m ∧ m.grids = [0] ∧
    (∀ g ∈ m.grids, Level w' g ∧ ∀ q, ¬ Answers w' ct g p probe q) ∧ (getPatch w' ct m p probe).2 = some r ∧
    (getPatch w ct (assign m {}) p probe).2 = some r := by
  let ct : Contents := fun _ x _ _ => if x < 1 then some ⟨7, 0⟩ else none
  let m0 : MMap := addGrid {} 0
  have h0 : Reach flat m0 := .add 0 (.init flat) (by decide)
  let m1 := (getPatch flat ct m0 0 ⟨0, 0⟩).1
  have h1 : Reach flat m1 := .query ct 0 ⟨0, 0⟩ h0
  have e0 : search flat ct 0 ⟨0, 0⟩ m0.grids.reverse = some (0, Pose.one, ⟨7, 0⟩) := by
    change search flat ct 0 ⟨0, 0⟩ [0] = _
    unfold search
    rw [flat_rel]
    simp [getPatchIn, ct, Pose.one, Pose.apply]
  have e1 : m1 = { m0 with cache := some (0, Pose.one) } := by
    change (getPatch flat ct m0 0 ⟨0, 0⟩).1 = _
    unfold getPatch
    rw [e0]
    rfl
  let w' : World := { flat with frame := fun _ => ⟨1, ![-5, 0, 0]⟩ }
  have hw : ∀ g, rel w'.mapFrame (w'.frame g) = ⟨1, ![5, 0, 0]⟩ := by
    intro g
    simp [rel, w', flat, Pose.one, Pose.inv, Pose.mul]
  refine ⟨flat, w', m1, ct, 0, ⟨0, 0⟩, ⟨7, 0⟩, h1, by rw [e1]; rfl, ?_, ?_, ?_⟩
  · intro g _
    refine ⟨?_, ?_⟩
    · unfold Level
      rw [hw]
      simp
    · rintro q ⟨r, h, -⟩
      rw [hw] at h
      simp only [ct, Pose.apply] at h
      norm_num at h
      cases h
  · rw [e1]
    simp [getPatch, getPatchIn, ct, Pose.one, Pose.apply]
  · rw [e1]
    simp [getPatch, assign, getPatchIn, ct, Pose.one, Pose.apply]

/-- the hypotheses of `C90_get_patch_partial` are met: two grids, the newer one has no patch -/
example : ∃ (w : World) (m : MMap) (ct : Contents), Reach w m ∧ m.grids = [0, 1] ∧ (getPatch w ct m ![1, 2, 3] ⟨5, 0⟩).2 = some ⟨6, 3⟩ := by
  let ct : Contents := fun g x y p => if g = 0 ∧ x = 1 ∧ y = 2 ∧ p.mean = 5 then some ⟨6, 3⟩ else none
  have h : Reach flat (addGrid (addGrid {} 0) 1) := .add 1 (.add 0 (.init flat) (by decide)) (by decide)
  refine ⟨flat, _, ct, h, rfl, ?_⟩
  obtain ⟨-, -, h3, -⟩ := C90_get_patch_partial h (fun g _ => flat_level g) ct ![1, 2, 3] ⟨5, 0⟩
  refine h3 _ [] 0 [1] rfl ?_ ?_ (.inl rfl)
  · rw [flat_answers]
    simp [ct]
  · intro k hk q
    rw [List.mem_singleton.1 hk, flat_answers]
    simp [ct]

/-! ### C91 -/

theorem nearest_spec (w : World) (fn : Pose) (gs : List Nat) (b : Option Nat × ℝ) (hb : ∀ g, b.1 = some g → dist w fn g = b.2) :
    (∀ g, (nearest w fn gs b).1 = some g → dist w fn g = (nearest w fn gs b).2) ∧ (nearest w fn gs b).2 ≤ b.2 ∧
      (∀ g ∈ gs, (nearest w fn gs b).2 ≤ dist w fn g) ∧
      ((nearest w fn gs b = b) ∨ ∃ g ∈ gs, (nearest w fn gs b).1 = some g ∧ dist w fn g < b.2) := by
  induction gs generalizing b with
  | nil => exact ⟨hb, le_refl _, by simp, .inl rfl⟩
  | cons k gs ih =>
    have e : nearest w fn (k :: gs) b = nearest w fn gs (if dist w fn k < b.2 then (some k, dist w fn k) else b) := rfl
    rw [e]
    by_cases h : dist w fn k < b.2
    · rw [if_pos h]
      obtain ⟨h1, h2, h3, h4⟩ := ih (some k, dist w fn k) (by
        intro g hg
        cases hg
        rfl)
      refine ⟨h1, le_trans h2 (le_of_lt h), ?_, .inr ?_⟩
      · intro g hg
        rcases List.mem_cons.1 hg with rfl | hg
        · exact h2
        · exact h3 g hg
      · rcases h4 with h4 | ⟨g, hg, h5, h6⟩
        · exact ⟨k, List.mem_cons_self, by rw [h4], h⟩
        · exact ⟨g, List.mem_cons_of_mem _ hg, h5, lt_trans h6 h⟩
    · rw [if_neg h]
      obtain ⟨h1, h2, h3, h4⟩ := ih b hb
      refine ⟨h1, h2, ?_, ?_⟩
      · intro g hg
        rcases List.mem_cons.1 hg with rfl | hg
        · exact le_trans h2 (not_lt.1 h)
        · exact h3 g hg
      · rcases h4 with h4 | ⟨g, hg, h5, h6⟩
        · exact .inl h4
        · exact .inr ⟨g, List.mem_cons_of_mem _ hg, h5, h6⟩

theorem nearest_cases (w : World) (fn : Pose) (gs : List Nat) (threshold : ℝ) :
    ((nearest w fn gs (none, threshold)).1 = none ∧ ∀ g ∈ gs, threshold ≤ dist w fn g) ∨
      ∃ g ∈ gs, (nearest w fn gs (none, threshold)).1 = some g ∧ dist w fn g < threshold ∧ ∀ k ∈ gs, dist w fn g ≤ dist w fn k := by
  obtain ⟨h1, h2, h3, h4⟩ := nearest_spec w fn gs (none, threshold) (by intro g hg; cases hg)
  rcases h4 with h4 | ⟨g, hg, h5, h6⟩
  · refine .inl ⟨by rw [h4], fun g hg => ?_⟩
    have := h3 g hg
    rw [h4] at this
    exact this
  · refine .inr ⟨g, hg, h5, h6, fun k hk => ?_⟩
    rw [h1 g h5]
    exact h3 k hk

/-- the position of a frame in a new grid: less than a cell from its origin -/
theorem align_bounds (s x : ℝ) (hs : 0 < s) : 0 ≤ x - alignTo s x ∧ x - alignTo s x < s := by
  unfold alignTo
  have h1 := Int.floor_le (x / s)
  have h2 := Int.lt_floor_add_one (x / s)
  have e : x = x / s * s := by field_simp
  constructor
  · have := mul_le_mul_of_nonneg_right h1 hs.le
    rw [← e] at this
    linarith
  · have := mul_lt_mul_of_pos_right h2 hs
    rw [← e] at this
    linarith

theorem rel_created (F A T : Pose) (hA : A.Rᵀ * A.R = 1) (hT : T.R = 1) : (rel F (A.mul T)).t = (rel F A).t - T.t ∧ (rel F (A.mul T)).R = (rel F A).R := by
  unfold rel Pose.mul Pose.inv
  dsimp only
  rw [hT, Matrix.mul_one]
  refine ⟨?_, rfl⟩
  rw [Matrix.mulVec_add, Matrix.mulVec_mulVec, hA, Matrix.one_mulVec]
  abel

/-- the distance of the origin of a frame from that of a grid: the greater of the differences in x and y, in the frame of the grid -/
noncomputable def away (w : World) (fn : Pose) (g : Nat) : ℝ := max |(w.frame g).inv.apply fn.t 0| |(w.frame g).inv.apply fn.t 1|

theorem dist_away : dist = away := rfl

/-- C91. Full claim: for every map, `selectActiveGrid` makes the nearest grid active if one is within the threshold, and changes nothing else; otherwise there is
one more grid, which is active, with the scale of the active one, its orientation, shifted by whole cells, and such that the frame is less than a
cell from its origin, or placed exactly at the frame if no alignment is wanted. Missing: maps without grids (`C91_select_empty`), the parameter
`aligned` (`C91_aligned_ignored`). -/
theorem C91_select_partial {w : World} {m : MMap} (h : Reach w m) (hne : m.grids ≠ []) (hs : ∀ g ∈ m.grids, 0 < (w.scale g).1 ∧ 0 < (w.scale g).2)
    (ho : ∀ g ∈ m.grids, (w.frame g).Rᵀ * (w.frame g).R = 1) (fn : Pose) (threshold : ℝ) (aligned : Bool) :
    ∃ a w' m', m.active = some a ∧ a ∈ m.grids ∧ selectActiveGrid w m fn threshold aligned = some (w', m') ∧
      ((∃ g ∈ m.grids, away w fn g < threshold) → w' = w ∧ m'.grids = m.grids ∧
        ∃ g ∈ m.grids, m'.active = some g ∧ away w fn g < threshold ∧ ∀ k ∈ m.grids, away w fn g ≤ away w fn k) ∧
      ((∀ g ∈ m.grids, threshold ≤ away w fn g) → ∃ n, n ∉ m.grids ∧ m'.grids = m.grids ++ [n] ∧ m'.active = some n ∧
        w'.scale n = w.scale a ∧ (w'.frame n).R = (w.frame a).R ∧
        (∃ i j : ℤ, (rel (w'.frame n) (w.frame a)).t 0 = i * (w.scale a).1 ∧ (rel (w'.frame n) (w.frame a)).t 1 = j * (w.scale a).2) ∧
        (0 ≤ (rel fn (w'.frame n)).t 0 ∧ (rel fn (w'.frame n)).t 0 < (w.scale a).1) ∧
        (0 ≤ (rel fn (w'.frame n)).t 1 ∧ (rel fn (w'.frame n)).t 1 < (w.scale a).2) ∧ (rel fn (w'.frame n)).t 2 = 0 ∧
        ∀ g ∈ m.grids, w'.frame g = w.frame g ∧ w'.scale g = w.scale g) := by
  rw [← dist_away]
  have inv := reach_inv h
  obtain ⟨a, ha⟩ := Option.ne_none_iff_exists'.1 (inv.nonempty hne)
  have hm := inv.active a ha
  rcases nearest_cases w fn m.grids threshold with ⟨hn, hfar⟩ | ⟨g, hg, hn, hd, hmin⟩
  · refine ⟨a, (createGrid w m (rel fn (w.frame a)) true true).1, (createGrid w m (rel fn (w.frame a)) true true).2, ha, hm, ?_, ?_, ?_⟩
    · unfold selectActiveGrid
      rw [hn, ha]
    · rintro ⟨g, hg, hd⟩
      exact absurd hd (not_lt.2 (hfar g hg))
    · intro _
      unfold createGrid
      rw [ha]
      dsimp only
      simp only [if_true]
      have nm : w.next ∉ m.grids := fun hn => absurd (inv.known _ hn) (by omega)
      obtain ⟨c1, -⟩ := rel_created fn (w.frame a)
        ⟨1, ![alignTo (w.scale a).1 ((rel fn (w.frame a)).t 0), alignTo (w.scale a).2 ((rel fn (w.frame a)).t 1), (rel fn (w.frame a)).t 2]⟩ (ho a hm) rfl
      have b1 := align_bounds (w.scale a).1 ((rel fn (w.frame a)).t 0) (hs a hm).1
      have b2 := align_bounds (w.scale a).2 ((rel fn (w.frame a)).t 1) (hs a hm).2
      refine ⟨w.next, nm, rfl, rfl, Function.update_self .., ?_, ?_, ?_, ?_, ?_, ?_⟩
      · rw [Function.update_self]
        simp [Pose.mul]
      · rw [Function.update_self]
        refine ⟨⌊(rel fn (w.frame a)).t 0 / (w.scale a).1⌋, ⌊(rel fn (w.frame a)).t 1 / (w.scale a).2⌋, ?_⟩
        have e : (rel ((w.frame a).mul ⟨1, ![alignTo (w.scale a).1 ((rel fn (w.frame a)).t 0),
            alignTo (w.scale a).2 ((rel fn (w.frame a)).t 1), (rel fn (w.frame a)).t 2]⟩) (w.frame a)).t =
            ![alignTo (w.scale a).1 ((rel fn (w.frame a)).t 0), alignTo (w.scale a).2 ((rel fn (w.frame a)).t 1), (rel fn (w.frame a)).t 2] := by
          unfold rel Pose.mul Pose.inv
          dsimp only
          rw [Matrix.mulVec_add, Matrix.mulVec_mulVec, ho a hm, Matrix.one_mulVec]
          abel
        rw [e]
        exact ⟨rfl, rfl⟩
      · rw [Function.update_self, c1]
        exact b1
      · rw [Function.update_self, c1]
        exact b2
      · rw [Function.update_self, c1]
        exact sub_self _
      · intro g hg
        have : g ≠ w.next := fun e => nm (e ▸ hg)
        exact ⟨Function.update_of_ne this .., Function.update_of_ne this ..⟩
  · refine ⟨a, w, { m with active := some g }, ha, hm, ?_, ?_, ?_⟩
    · unfold selectActiveGrid
      rw [hn]
    · intro _
      exact ⟨rfl, rfl, g, hg, rfl, hd, hmin⟩
    · intro hfar
      exact absurd hd (not_lt.2 (hfar g hg))

/-- C91: with a threshold that is not less than the size of the cells, a second selection for the same frame creates no grid -/
theorem C91_select_twice {w w' w'' : World} {m m' m'' : MMap} (h : Reach w m) (hne : m.grids ≠ []) (hs : ∀ g ∈ m.grids, 0 < (w.scale g).1 ∧ 0 < (w.scale g).2)
    (ho : ∀ g ∈ m.grids, (w.frame g).Rᵀ * (w.frame g).R = 1) (fn : Pose) (threshold : ℝ) (aligned : Bool)
    (ht : ∀ g ∈ m.grids, (w.scale g).1 ≤ threshold ∧ (w.scale g).2 ≤ threshold)
    (h1 : selectActiveGrid w m fn threshold aligned = some (w', m')) (h2 : selectActiveGrid w' m' fn threshold aligned = some (w'', m'')) :
    w'' = w' ∧ m''.grids = m'.grids := by
  obtain ⟨a, u, v, ha, hm, e, near, far⟩ := C91_select_partial h hne hs ho fn threshold aligned
  rw [← dist_away] at near far
  rw [h1] at e
  simp only [Option.some.injEq, Prod.mk.injEq] at e
  obtain ⟨rfl, rfl⟩ := e
  -- one of the grids is near now
  have hn : ∃ g ∈ m'.grids, dist w' fn g < threshold := by
    by_cases hd : ∃ g ∈ m.grids, dist w fn g < threshold
    · obtain ⟨rfl, e2, -⟩ := near hd
      rw [e2]
      exact hd
    · push Not at hd
      obtain ⟨n, -, e2, -, -, -, -, ⟨x1, x2⟩, ⟨y1, y2⟩, -⟩ := far hd
      refine ⟨n, by rw [e2]; simp, ?_⟩
      unfold dist
      dsimp only
      rw [abs_of_nonneg x1, abs_of_nonneg y1]
      exact max_lt (lt_of_lt_of_le x2 (ht a hm).1) (lt_of_lt_of_le y2 (ht a hm).2)
  unfold selectActiveGrid at h2
  rcases nearest_cases w' fn m'.grids threshold with ⟨-, hfar⟩ | ⟨g, hg, hng, -⟩
  · obtain ⟨g, hg, hd⟩ := hn
    exact absurd hd (not_lt.2 (hfar g hg))
  · rw [hng] at h2
    simp only [Option.some.injEq, Prod.mk.injEq] at h2
    obtain ⟨rfl, rfl⟩ := h2
    exact ⟨rfl, rfl⟩

/-- C91 is violated: a map without grids, for which `createGrid` does nothing, makes `selectActiveGrid` dereference a NULL pointer -/
theorem C91_select_empty (w : World) (fn t : Pose) (threshold : ℝ) (relative aligned : Bool) :
    createGrid w {} t relative aligned = (w, {}) ∧ selectActiveGrid w {} fn threshold aligned = none := by
  constructor
  · rfl
  · simp [selectActiveGrid, nearest]

/-- C91 is violated: the parameter `aligned` is ignored -/
theorem C91_aligned_ignored (w : World) (m : MMap) (fn : Pose) (threshold : ℝ) :
    selectActiveGrid w m fn threshold false = selectActiveGrid w m fn threshold true := rfl

/-- `createGrid` without alignment places the grid exactly at the given transform -/
theorem C91_create_unaligned {w : World} {m : MMap} (a : Nat) (ha : m.active = some a) (ho : (w.frame a).Rᵀ * (w.frame a).R = 1) (t : Pose) :
    (createGrid w m t true false).2.active = some w.next ∧
      rel ((createGrid w m t true false).1.frame w.next) (w.frame a) = t := by
  unfold createGrid
  rw [ha]
  dsimp only
  refine ⟨rfl, ?_⟩
  rw [Function.update_self]
  unfold rel Pose.mul Pose.inv
  simp only [if_true, Bool.false_eq_true, if_false]
  rw [Matrix.mulVec_add, Matrix.mulVec_mulVec, ← Matrix.mul_assoc, ho, Matrix.one_mulVec, Matrix.one_mul]
  cases t
  simp

/-- the hypotheses of `C91_select_partial` are met: one grid, and a frame that is two and a half cells away -/
example : ∃ (w : World) (m : MMap) (fn : Pose) (w' : World) (m' : MMap), Reach w m ∧ m.grids = [0] ∧ selectActiveGrid w m fn 2 true = some (w', m') ∧
    ∃ n, m'.grids = [0, n] := by
  have h : Reach flat (addGrid {} 0) := .add 0 (.init flat) (by decide)
  obtain ⟨a, w', m', -, -, e, -, far⟩ := C91_select_partial h (by simp [addGrid]) (fun g _ => by simp [flat]) (fun g _ => by simp [flat, Pose.one])
    ⟨1, ![5 / 2, 0, 0]⟩ 2 true
  obtain ⟨n, -, e2, -⟩ := far (by
    intro g _
    rw [← dist_away]
    unfold dist
    have : rel ⟨1, ![5 / 2, 0, 0]⟩ (flat.frame g) = ⟨1, ![5 / 2, 0, 0]⟩ := by
      simp [rel, flat, Pose.one, Pose.inv, Pose.mul]
    rw [this]
    simp
    rw [abs_of_pos] <;> norm_num)
  exact ⟨flat, _, _, w', m', h, rfl, e, n, e2⟩

end Envire.MapSet

#print axioms Envire.MapSet.C90_get_patch_partial
#print axioms Envire.MapSet.C90_newer_ignored
#print axioms Envire.MapSet.C90_stale_cache
#print axioms Envire.MapSet.C91_select_partial
#print axioms Envire.MapSet.C91_select_twice
#print axioms Envire.MapSet.C91_select_empty
#print axioms Envire.MapSet.C91_aligned_ignored
#print axioms Envire.MapSet.C91_create_unaligned
