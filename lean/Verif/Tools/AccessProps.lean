import Verif.Tools.AccessModel
import Mathlib.Tactic.Linarith
import Mathlib.Tactic.NormNum

/-!
C92: elevations from the grids of an environment (GridAccess and MLSAccess).
-/

namespace Envire.Access

open Envire.MapSet Matrix

/-! ### specification -/

/-- q is on the surface of the grid -/
def OnSurface (g : Grid (Option ℝ)) (q : Fin 3 → ℝ) : Prop :=
  g.data ((rel root g.frame).apply q 0) ((rel root g.frame).apply q 1) = some ((rel root g.frame).apply q 2)

/-- q is the point of the surface of the grid above or below p -/
def Elevated (g : Grid (Option ℝ)) (p q : Fin 3 → ℝ) : Prop := q 0 = p 0 ∧ q 1 = p 1 ∧ OnSurface g q

/-- (z, d) is the patch, in root coordinates, that the grid has at the point p -/
def PatchAt (g : Grid (ℝ → Option (ℝ × ℝ))) (p : Fin 3 → ℝ) (r : ℝ × ℝ) : Prop :=
  ∃ z, g.data ((rel root g.frame).apply p 0) ((rel root g.frame).apply p 1) ((rel root g.frame).apply p 2) = some (z, r.2) ∧
    (rel root g.frame).apply ![p 0, p 1, r.1] 2 = z

/-- the grid is not tilted -/
def Level (F : Pose) : Prop :=
  (F.R 2 0 = 0 ∧ F.R 2 1 = 0 ∧ F.R 2 2 = 1) ∧ F.R 0 2 = 0 ∧ F.R 1 2 = 0

/-- the states after any number of calls -/
inductive Reach {D P R : Type} (eval : Grid D → Pose → P → Option R) (env : List (Grid D)) : State D → Prop
  | init : Reach eval env {}
  | call {s} (p : P) : Reach eval env s → Reach eval env (getElevation eval env s p).1

/-! ### lemmas -/

theorem tryGrids_spec {D P R : Type} (eval : Grid D → Pose → P → Option R) (p : P) (gs : List (Grid D)) (last : Option (Grid D × Pose)) :
    ((tryGrids eval p gs last).2 = none ∧ (∀ g ∈ gs, eval g (rel root g.frame) p = none)) ∨
    ∃ l1 g l2 r, gs = l1 ++ g :: l2 ∧ (∀ k ∈ l1, eval k (rel root k.frame) p = none) ∧ eval g (rel root g.frame) p = some r ∧
      (tryGrids eval p gs last).2 = some r := by
  induction gs generalizing last with
  | nil => exact .inl ⟨rfl, by simp⟩
  | cons g gs ih =>
    unfold tryGrids
    dsimp only
    cases e : eval g (rel root g.frame) p with
    | some r => exact .inr ⟨[], g, gs, r, rfl, by simp, e, rfl⟩
    | none =>
      rcases ih (some (g, rel root g.frame)) with ⟨h1, h2⟩ | ⟨l1, k, l2, r, h1, h2, h3, h4⟩
      · refine .inl ⟨h1, ?_⟩
        intro k hk
        rcases List.mem_cons.1 hk with rfl | hk
        · exact e
        · exact h2 k hk
      · refine .inr ⟨g :: l1, k, l2, r, by rw [h1]; rfl, ?_, h3, h4⟩
        intro j hj
        rcases List.mem_cons.1 hj with rfl | hj
        · exact e
        · exact h2 j hj

theorem tryGrids_last {D P R : Type} (eval : Grid D → Pose → P → Option R) (p : P) (gs : List (Grid D)) (last : Option (Grid D × Pose)) :
    (tryGrids eval p gs last).1 = last ∧ gs = [] ∨ ∃ g ∈ gs, (tryGrids eval p gs last).1 = some (g, rel root g.frame) := by
  induction gs generalizing last with
  | nil => exact .inl ⟨rfl, rfl⟩
  | cons g gs ih =>
    unfold tryGrids
    dsimp only
    cases e : eval g (rel root g.frame) p with
    | some r => exact .inr ⟨g, List.mem_cons_self, rfl⟩
    | none =>
      rcases ih (some (g, rel root g.frame)) with ⟨h, -⟩ | ⟨k, hk, h⟩
      · exact .inr ⟨g, List.mem_cons_self, h⟩
      · exact .inr ⟨k, List.mem_cons_of_mem _ hk, h⟩

/-- the list of grids is that of the environment, or not filled yet; the last grid is one of them -/
theorem reach_inv {D P R : Type} {eval : Grid D → Pose → P → Option R} {env : List (Grid D)} {s : State D} (h : Reach eval env s) :
    (s.grids = [] ∨ s.grids = env) ∧ ∀ g t, s.grid = some (g, t) → g ∈ env ∧ t = rel root g.frame := by
  induction h with
  | init => exact ⟨.inl rfl, fun g t e => by cases e⟩
  | @call s p _ ih =>
    unfold getElevation
    split
    · split
      · exact ih
      · exact ih
    · dsimp only
      have e : (if s.grids.isEmpty then env else s.grids) = env := by
        rcases ih.1 with h | h
        · rw [h]
          rfl
        · rw [h]
          split <;> rfl
      rw [e]
      refine ⟨.inr rfl, ?_⟩
      intro g t ht
      rcases tryGrids_last eval p env none with ⟨h, -⟩ | ⟨k, hk, h⟩
      · rw [h] at ht
        cases ht
      · rw [h] at ht
        cases ht
        exact ⟨hk, rfl⟩

/-- what one call does in any state -/
theorem getElevation_spec {D P R : Type} {eval : Grid D → Pose → P → Option R} {env : List (Grid D)} {s : State D} (h : Reach eval env s) (p : P) :
    (s.grid = none → ((getElevation eval env s p).2 = none ∧ ∀ g ∈ env, eval g (rel root g.frame) p = none) ∨
      ∃ l1 g l2 r, env = l1 ++ g :: l2 ∧ (∀ k ∈ l1, eval k (rel root k.frame) p = none) ∧ eval g (rel root g.frame) p = some r ∧
        (getElevation eval env s p).2 = some r) ∧
    (∀ g t, s.grid = some (g, t) → g ∈ env ∧ (getElevation eval env s p).2 = eval g (rel root g.frame) p) := by
  obtain ⟨h1, h2⟩ := reach_inv h
  constructor
  · intro hs
    have e : (if s.grids.isEmpty then env else s.grids) = env := by
      rcases h1 with h | h
      · rw [h]
        rfl
      · rw [h]
        split <;> rfl
    have e2 : (getElevation eval env s p).2 = (tryGrids eval p env none).2 := by
      unfold getElevation
      rw [hs]
      dsimp only
      rw [e]
    rw [e2]
    exact tryGrids_spec eval p env none
  · intro g t hs
    obtain ⟨h3, rfl⟩ := h2 g t hs
    refine ⟨h3, ?_⟩
    unfold getElevation
    rw [hs]
    dsimp only
    cases eval g (rel root g.frame) p <;> rfl

theorem rel_root (F : Pose) : rel root F = ⟨F.Rᵀ, -(F.Rᵀ *ᵥ F.t)⟩ := by
  simp [rel, root, Pose.inv, Pose.mul]

/-- a level grid: the height in the grid is the height in the root frame minus the height of the frame, the other coordinates do not depend on the height -/
theorem level_apply {F : Pose} (h : Level F) (v : Fin 3 → ℝ) :
    (rel root F).apply v 2 = v 2 - F.t 2 ∧ ∀ q : Fin 3 → ℝ, q 0 = v 0 → q 1 = v 1 →
      (rel root F).apply q 0 = (rel root F).apply v 0 ∧ (rel root F).apply q 1 = (rel root F).apply v 1 := by
  obtain ⟨⟨h1, h2, h3⟩, h4, h5⟩ := h
  rw [rel_root]
  constructor
  · simp [Pose.apply, mulVec, dotProduct, Fin.sum_univ_three, h3, h4, h5]
    ring
  · intro q q0 q1
    simp [Pose.apply, mulVec, dotProduct, Fin.sum_univ_three, h1, h2, q0, q1]

theorem evalElevation_iff (g : Grid (Option ℝ)) (h : Level g.frame) (ho : g.frame.R * g.frame.Rᵀ = 1) (p q : Fin 3 → ℝ) :
    evalElevation g (rel root g.frame) p = some q ↔ Elevated g p q := by
  have hz : (rel root g.frame).inv.t 2 = g.frame.t 2 := by
    rw [rel_root]
    simp only [Pose.inv, transpose_transpose, mulVec_neg, neg_neg, mulVec_mulVec, ho, one_mulVec]
  have lp := level_apply h p
  have lq := level_apply h q
  unfold evalElevation Elevated OnSurface
  rw [hz, lq.1]
  dsimp only
  constructor
  · intro e
    split at e
    · rename_i z hd
      simp only [Option.some.injEq] at e
      subst e
      obtain ⟨e0, e1⟩ := lp.2 (Function.update p 2 (z + g.frame.t 2)) (by simp) (by simp)
      refine ⟨by simp, by simp, ?_⟩
      rw [e0, e1, hd]
      simp
    · cases e
  · rintro ⟨q0, q1, e⟩
    obtain ⟨e0, e1⟩ := lp.2 q q0 q1
    rw [e0, e1] at e
    rw [e]
    simp only [sub_add_cancel, Option.some.injEq]
    funext i
    fin_cases i
    · simpa using q0.symm
    · simpa using q1.symm
    · simp

theorem evalMLS_iff (g : Grid (ℝ → Option (ℝ × ℝ))) (h : Level g.frame) (hz : g.frame.t 2 = 0) (p : Fin 3 → ℝ) (r : ℝ × ℝ) :
    evalMLS g (rel root g.frame) p = some r ↔ PatchAt g p r := by
  unfold evalMLS PatchAt
  have e := (level_apply h ![p 0, p 1, r.1]).1
  rw [e, hz]
  dsimp only
  constructor
  · intro e
    exact ⟨r.1, e, by simp⟩
  · rintro ⟨z, e, e2⟩
    simp at e2
    rw [e, ← e2]

/-! ### C92 -/

/-- C92, GridAccess. Full claim: each call gives the point of the surface above or below the position, on the first grid of the environment
that covers it, and fails only if no grid covers it. Proved for level grids: the first call does; every call does if there is
only one grid; a result of any call is on the surface of one of the grids. Missing: later calls with more grids
(`C92_other_grid_ignored`), tilted grids (`C92_tilted`). -/
theorem C92_elevation_partial (env : List (Grid (Option ℝ))) (hl : ∀ g ∈ env, Level g.frame ∧ g.frame.R * g.frame.Rᵀ = 1) (s : State (Option ℝ))
    (h : Reach evalElevation env s) (p : Fin 3 → ℝ) :
    (∀ q, (getElevation evalElevation env s p).2 = some q → ∃ g ∈ env, Elevated g p q) ∧
    (s.grid = none ∨ env.length = 1 →
      ((getElevation evalElevation env s p).2 = none ↔ ∀ g ∈ env, ∀ q, ¬ Elevated g p q) ∧
      ∀ q, (getElevation evalElevation env s p).2 = some q →
        ∃ l1 g l2, env = l1 ++ g :: l2 ∧ Elevated g p q ∧ ∀ k ∈ l1, ∀ r, ¬ Elevated k p r) ∧
    (s = {} → s.grid = none) := by
  obtain ⟨h1, h2⟩ := getElevation_spec h p
  have ev : ∀ g ∈ env, ∀ q, evalElevation g (rel root g.frame) p = some q ↔ Elevated g p q :=
    fun g hg q => evalElevation_iff g (hl g hg).1 (hl g hg).2 p q
  have no : ∀ g ∈ env, (evalElevation g (rel root g.frame) p = none ↔ ∀ q, ¬ Elevated g p q) := by
    intro g hg
    rw [Option.eq_none_iff_forall_ne_some]
    exact forall_congr' fun q => not_congr (ev g hg q)
  have first : s.grid = none →
      ((getElevation evalElevation env s p).2 = none ↔ ∀ g ∈ env, ∀ q, ¬ Elevated g p q) ∧
      ∀ q, (getElevation evalElevation env s p).2 = some q →
        ∃ l1 g l2, env = l1 ++ g :: l2 ∧ Elevated g p q ∧ ∀ k ∈ l1, ∀ r, ¬ Elevated k p r := by
    intro hs
    rcases h1 hs with ⟨h3, h4⟩ | ⟨l1, g, l2, r, h3, h4, h5, h6⟩
    · rw [h3]
      exact ⟨⟨fun _ g hg => (no g hg).1 (h4 g hg), fun _ => rfl⟩, fun q e => by cases e⟩
    · have hg : g ∈ env := by
        rw [h3]
        simp
      rw [h6]
      refine ⟨⟨fun e => (by cases e), fun hn => absurd ((ev g hg r).1 h5) (hn g hg r)⟩, ?_⟩
      intro q e
      cases e
      refine ⟨l1, g, l2, h3, (ev g hg r).1 h5, fun k hk => (no k ?_).1 (h4 k hk)⟩
      rw [h3]
      exact List.mem_append_left _ hk
  refine ⟨?_, ?_, fun e => by rw [e]⟩
  · intro q e
    cases hs : s.grid with
    | none =>
      obtain ⟨l1, g, l2, h3, h4, -⟩ := (first hs).2 q e
      exact ⟨g, by rw [h3]; simp, h4⟩
    | some x =>
      obtain ⟨h3, h4⟩ := h2 x.1 x.2 hs
      rw [h4] at e
      exact ⟨x.1, h3, (ev _ h3 q).1 e⟩
  · intro hs
    cases hg : s.grid with
    | none => exact first hg
    | some x =>
      rcases hs with hs | hs
      · rw [hs] at hg
        cases hg
      · obtain ⟨h3, h4⟩ := h2 x.1 x.2 hg
        obtain ⟨g, rfl⟩ := List.length_eq_one_iff.1 hs
        have e := List.mem_singleton.1 h3
        rw [h4, e]
        refine ⟨?_, ?_⟩
        · rw [no g (by simp)]
          simp
        · intro q hq
          exact ⟨[], g, [], rfl, (ev g (by simp) q).1 hq, by simp⟩

/-- C92, MLSAccess, the same for patches. Missing: the height of the grid in the root frame (`C92_mls_height`) -/
theorem C92_mls_partial (env : List (Grid (ℝ → Option (ℝ × ℝ)))) (hl : ∀ g ∈ env, Level g.frame ∧ g.frame.t 2 = 0) (s : State (ℝ → Option (ℝ × ℝ)))
    (h : Reach evalMLS env s) (p : Fin 3 → ℝ) :
    (∀ r, (getElevation evalMLS env s p).2 = some r → ∃ g ∈ env, PatchAt g p r) ∧
    (s.grid = none ∨ env.length = 1 → ((getElevation evalMLS env s p).2 = none ↔ ∀ g ∈ env, ∀ r, ¬ PatchAt g p r)) := by
  obtain ⟨h1, h2⟩ := getElevation_spec h p
  have ev : ∀ g ∈ env, ∀ q, evalMLS g (rel root g.frame) p = some q ↔ PatchAt g p q :=
    fun g hg q => evalMLS_iff g (hl g hg).1 (hl g hg).2 p q
  have no : ∀ g ∈ env, (evalMLS g (rel root g.frame) p = none ↔ ∀ q, ¬ PatchAt g p q) := by
    intro g hg
    rw [Option.eq_none_iff_forall_ne_some]
    exact forall_congr' fun q => not_congr (ev g hg q)
  constructor
  · intro q e
    cases hs : s.grid with
    | none =>
      rcases h1 hs with ⟨h3, -⟩ | ⟨l1, g, l2, r, h3, h4, h5, h6⟩
      · rw [h3] at e
        cases e
      · rw [h6] at e
        cases e
        have hg : g ∈ env := by
          rw [h3]
          simp
        exact ⟨g, hg, (ev g hg q).1 h5⟩
    | some x =>
      obtain ⟨h3, h4⟩ := h2 x.1 x.2 hs
      rw [h4] at e
      exact ⟨x.1, h3, (ev _ h3 q).1 e⟩
  · intro hs
    cases hg : s.grid with
    | none =>
      rcases h1 hg with ⟨h3, h4⟩ | ⟨l1, g, l2, r, h3, h4, h5, h6⟩
      · rw [h3]
        exact ⟨fun _ g hg => (no g hg).1 (h4 g hg), fun _ => rfl⟩
      · have hg : g ∈ env := by
          rw [h3]
          simp
        rw [h6]
        exact ⟨fun e => (by cases e), fun hn => absurd ((ev g hg r).1 h5) (hn g hg r)⟩
    | some x =>
      rcases hs with hs | hs
      · rw [hs] at hg
        cases hg
      · obtain ⟨h3, h4⟩ := h2 x.1 x.2 hg
        obtain ⟨g, rfl⟩ := List.length_eq_one_iff.1 hs
        have e := List.mem_singleton.1 h3
        rw [h4, e, no g (by simp)]
        simp

/-- a flat grid of height z that covers the positions with x < 1, or those with x ≥ 1 -/
noncomputable def half (low : Bool) (z : ℝ) : Grid (Option ℝ) :=
  ⟨root, fun x _ => if low then (if x < 1 then some z else none) else (if x < 1 then none else some z)⟩

theorem root_level : Level root := by
  simp [Level, root]

theorem rel_root_root : rel root root = root := by
  rw [rel_root]
  simp [root]

theorem root_apply (v : Fin 3 → ℝ) : (rel root root).apply v = v := by
  rw [rel_root_root]
  simp [root, Pose.apply]

/-- C92 is violated: after a call for a position on the first grid, a position on the second one is not found -/
theorem C92_other_grid_ignored : ∃ (env : List (Grid (Option ℝ))) (s : State (Option ℝ)) (p q : Fin 3 → ℝ), Reach evalElevation env s ∧
    (∀ g ∈ env, Level g.frame) ∧ (∃ g ∈ env, Elevated g p q) ∧ (getElevation evalElevation env s p).2 = none ∧
    (getElevation evalElevation env {} p).2 = some q := by
  have e1 : (getElevation evalElevation [half true 0, half false 3] {} 0).1 = ⟨[half true 0, half false 3], some (half true 0, rel root root)⟩ := by
    unfold getElevation
    dsimp only
    unfold tryGrids
    have : evalElevation (half true 0) (rel root (half true 0).frame) 0 = some 0 := by
      have e : (half true 0).frame = root := rfl
      unfold evalElevation
      rw [e, root_apply, rel_root_root]
      simp [half, root, Pose.inv]
    simp only [List.isEmpty_nil, if_true, this]
    rfl
  have a1 : evalElevation (half true 0) (rel root root) ![2, 0, 0] = none := by
    unfold evalElevation
    rw [root_apply]
    simp only [half, if_true]
    norm_num
  have a2 : evalElevation (half false 3) (rel root root) ![2, 0, 0] = some ![2, 0, 3] := by
    unfold evalElevation
    rw [root_apply, rel_root_root]
    have hc : ¬ ((![2, 0, 0] : Fin 3 → ℝ) 0 < 1) := by
      norm_num
    simp only [half, Bool.false_eq_true, if_false, if_neg hc]
    congr 1
    funext i
    fin_cases i <;> simp [root, Pose.inv]
  refine ⟨[half true 0, half false 3], ⟨[half true 0, half false 3], some (half true 0, rel root root)⟩, ![2, 0, 0], ![2, 0, 3], ?_, ?_, ?_, ?_, ?_⟩
  · rw [← e1]
    exact .call 0 .init
  · intro g hg
    simp only [List.mem_cons, List.not_mem_nil, or_false] at hg
    rcases hg with rfl | rfl
    · exact root_level
    · exact root_level
  · refine ⟨half false 3, by simp, (evalElevation_iff _ root_level ?_ _ _).1 a2⟩
    simp [half, root]
  · unfold getElevation
    dsimp only
    rw [a1]
  · unfold getElevation
    dsimp only
    simp only [List.isEmpty_nil, if_true, tryGrids]
    have f1 : evalElevation (half true 0) (rel root (half true 0).frame) ![2, 0, 0] = none := a1
    have f2 : evalElevation (half false 3) (rel root (half false 3).frame) ![2, 0, 0] = some ![2, 0, 3] := a2
    rw [f1]
    dsimp only
    rw [f2]

/-- C92 is violated: the result of a tilted grid is not on its surface -/
theorem C92_tilted : ∃ (g : Grid (Option ℝ)) (p q : Fin 3 → ℝ), g.frame.R * g.frame.Rᵀ = 1 ∧
    (getElevation evalElevation [g] {} p).2 = some q ∧ ¬ OnSurface g q := by
  let g : Grid (Option ℝ) := ⟨⟨!![1, 0, 0; 0, 0, -1; 0, 1, 0], 0⟩, fun _ _ => some 0⟩
  refine ⟨g, ![0, 5, 0], ![0, 5, 0], ?_, ?_, ?_⟩
  · ext i j
    fin_cases i <;> fin_cases j <;> simp [g, Matrix.mul_apply, Fin.sum_univ_three]
  · have : evalElevation g (rel root g.frame) ![0, 5, 0] = some ![0, 5, 0] := by
      unfold evalElevation
      rw [rel_root]
      simp only [g, Option.some.injEq]
      funext i
      fin_cases i <;> simp [Pose.inv]
    unfold getElevation
    dsimp only
    simp only [List.isEmpty_nil, if_true, tryGrids]
    rw [this]
  · unfold OnSurface
    rw [rel_root]
    simp [g, Pose.apply, mulVec, dotProduct, Fin.sum_univ_three]

/-- C92 is violated: MLSAccess returns the height in the frame of the grid -/
theorem C92_mls_height : ∃ (g : Grid (ℝ → Option (ℝ × ℝ))) (p : Fin 3 → ℝ) (r r' : ℝ × ℝ), Level g.frame ∧
    (getElevation evalMLS [g] {} p).2 = some r ∧ PatchAt g p r' ∧ r.1 ≠ r'.1 := by
  let g : Grid (ℝ → Option (ℝ × ℝ)) := ⟨⟨1, ![0, 0, 10]⟩, fun _ _ _ => some (0, 1)⟩
  refine ⟨g, 0, (0, 1), (10, 1), ?_, ?_, ?_, by norm_num⟩
  · simp [Level, g]
  · unfold getElevation
    dsimp only
    simp only [List.isEmpty_nil, if_true, tryGrids, evalMLS, g]
  · refine ⟨0, rfl, ?_⟩
    rw [rel_root]
    simp [g, Pose.apply]

/-- the hypotheses of `C92_elevation_partial` are met: one grid, a second call -/
example : ∃ (s : State (Option ℝ)) (q : Fin 3 → ℝ), Reach evalElevation [half true 4] s ∧ s.grid ≠ none ∧
    (getElevation evalElevation [half true 4] s 0).2 = some q ∧ q 2 = 4 := by
  have h : Reach evalElevation [half true 4] (getElevation evalElevation [half true 4] {} 0).1 := .call 0 .init
  obtain ⟨-, h2, -⟩ := C92_elevation_partial [half true 4] (by
    intro g hg
    rw [List.mem_singleton.1 hg]
    exact ⟨root_level, by simp [half, root]⟩) _ h 0
  obtain ⟨h3, h4⟩ := h2 (.inr rfl)
  have ex : Elevated (half true 4) 0 ![0, 0, 4] := by
    refine ⟨rfl, rfl, ?_⟩
    unfold OnSurface
    have e : (half true 4).frame = root := rfl
    rw [e, root_apply]
    simp [half]
  refine ⟨(getElevation evalElevation [half true 4] {} 0).1, ?_⟩
  cases e : (getElevation evalElevation [half true 4] (getElevation evalElevation [half true 4] {} 0).1 0).2 with
  | none => exact absurd ex (h3.1 e _ (by simp) _)
  | some q =>
    refine ⟨q, h, ?_, rfl, ?_⟩
    · unfold getElevation
      dsimp only
      simp only [List.isEmpty_nil, if_true]
      rcases tryGrids_last evalElevation (0 : Fin 3 → ℝ) [half true 4] none with ⟨-, e⟩ | ⟨g, -, e⟩
      · cases e
      · rw [e]
        simp
    · obtain ⟨l1, g, l2, e1, ⟨-, -, e2⟩, -⟩ := h4 q e
      have hg : g = half true 4 := List.mem_singleton.1 (by rw [e1]; simp)
      rw [hg] at e2
      unfold OnSurface at e2
      have e : (half true 4).frame = root := rfl
      rw [e, root_apply] at e2
      simp only [half, if_true] at e2
      split at e2
      · exact (Option.some.inj e2).symm
      · cases e2

end Envire.Access

#print axioms Envire.Access.C92_elevation_partial
#print axioms Envire.Access.C92_mls_partial
#print axioms Envire.Access.C92_other_grid_ignored
#print axioms Envire.Access.C92_tilted
#print axioms Envire.Access.C92_mls_height
