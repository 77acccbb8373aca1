import Verif.Ops.ConvertModel
import Mathlib.Tactic.Linarith
import Mathlib.Tactic.NormNum
import Mathlib.Tactic.FieldSimp

/-!
C93 (elevations of a multi-level surface grid), C94 (multi-level surface grid from elevations) and C95 (merging of multi-level surface grids).
-/

namespace Envire.Convert

open Envire.MapSet Matrix

/-! ### specification -/

/-- the point (x, y) of the frame of the grid is in its cell c -/
def InCell (g : Geo) (c : Nat × Nat) (x y : ℝ) : Prop :=
  c.1 < g.w ∧ c.2 < g.h ∧ g.ox + c.1 * g.sx ≤ x ∧ x < g.ox + (c.1 + 1) * g.sx ∧ g.oy + c.2 * g.sy ≤ y ∧ y < g.oy + (c.2 + 1) * g.sy

/-- the centre of a cell, at a height -/
noncomputable def centre (g : Geo) (c : Nat × Nat) (z : ℝ) : Fin 3 → ℝ := ![g.ox + c.1 * g.sx + g.sx / 2, g.oy + c.2 * g.sy + g.sy / 2, z]

/-- all patches of the inputs with their cells, in order -/
def entries (inputs : List Input) : List (Input × (Nat × Nat) × Patch) :=
  inputs.flatMap fun i => (List.range i.geo.w ×ˢ List.range i.geo.h).flatMap fun c => (i.cells c).map fun p => (i, c, p)

open Classical in
/-- the patches that belong to the cell c of the output: those whose position, transformed to the frame of the output, is in this cell -/
noncomputable def landing (out : Geo) (inputs : List Input) (c : Nat × Nat) : List Patch :=
  (entries inputs).filterMap fun e =>
    let v := (rel e.1.geo.frame out.frame).apply (centre e.1.geo e.2.1 e.2.2.mean)
    if InCell out c (v 0) (v 1) then some { e.2.2 with mean := v 2 } else none

open Classical in
/-- the patches that the inputs have below the centre of the cell c of the output, with their heights in the frame of the output -/
noncomputable def below (out : Geo) (inputs : List Input) (c : Nat × Nat) : List Patch :=
  (entries inputs).filterMap fun e =>
    let v := (rel out.frame e.1.geo.frame).apply (centre out c 0)
    if InCell e.1.geo e.2.1 (v 0) (v 1) then some { e.2.2 with mean := (rel e.1.geo.frame out.frame).apply ![v 0, v 1, e.2.2.mean] 2 } else none

/-- the grids of an input -/
def gridsOf : InLayer → List Input
  | .grid i => [i]
  | .map cs => cs
  | .other => []

/-! ### lemmas -/

theorem floor_iff (x o s : ℝ) (hs : 0 < s) (k : ℤ) : ⌊(x - o) / s⌋ = k ↔ o + k * s ≤ x ∧ x < o + (k + 1) * s := by
  rw [Int.floor_eq_iff, le_div_iff₀ hs, div_lt_iff₀ hs]
  constructor
  · rintro ⟨h1, h2⟩
    exact ⟨by linarith, by linarith⟩
  · rintro ⟨h1, h2⟩
    exact ⟨by linarith, by linarith⟩

theorem toGrid_iff (g : Geo) (hs : 0 < g.sx ∧ 0 < g.sy) (x y : ℝ) (c : Nat × Nat) : toGrid g x y = some c ↔ InCell g c x y := by
  unfold toGrid InCell
  dsimp only
  have fx := floor_iff x g.ox g.sx hs.1
  have fy := floor_iff y g.oy g.sy hs.2
  constructor
  · intro h
    split at h
    · rename_i hc
      obtain ⟨a0, a1, b0, b1⟩ := hc
      have hx := (fx _).1 rfl
      have hy := (fy _).1 rfl
      simp only [Option.some.injEq] at h
      rw [← h]
      have ea : ((⌊(x - g.ox) / g.sx⌋.toNat : ℕ) : ℝ) = (⌊(x - g.ox) / g.sx⌋ : ℝ) := by
        have : ((⌊(x - g.ox) / g.sx⌋.toNat : ℕ) : ℤ) = ⌊(x - g.ox) / g.sx⌋ := Int.toNat_of_nonneg a0
        exact_mod_cast this
      have eb : ((⌊(y - g.oy) / g.sy⌋.toNat : ℕ) : ℝ) = (⌊(y - g.oy) / g.sy⌋ : ℝ) := by
        have : ((⌊(y - g.oy) / g.sy⌋.toNat : ℕ) : ℤ) = ⌊(y - g.oy) / g.sy⌋ := Int.toNat_of_nonneg b0
        exact_mod_cast this
      dsimp only
      rw [ea, eb]
      exact ⟨by omega, by omega, hx.1, hx.2, hy.1, hy.2⟩
    · cases h
  · rintro ⟨h1, h2, h3, h4, h5, h6⟩
    have ex : ⌊(x - g.ox) / g.sx⌋ = (c.1 : ℤ) := (fx _).2 ⟨by exact_mod_cast h3, by exact_mod_cast h4⟩
    have ey : ⌊(y - g.oy) / g.sy⌋ = (c.2 : ℤ) := (fy _).2 ⟨by exact_mod_cast h5, by exact_mod_cast h6⟩
    rw [ex, ey, if_pos (by omega)]
    simp

theorem toGrid_none (g : Geo) (hs : 0 < g.sx ∧ 0 < g.sy) (x y : ℝ) : toGrid g x y = none ↔ ∀ c, ¬ InCell g c x y := by
  rw [Option.eq_none_iff_forall_ne_some]
  exact forall_congr' fun c => not_congr (toGrid_iff g hs x y c)

theorem fromGrid_centre (g : Geo) (c : Nat × Nat) (z : ℝ) : ![(fromGrid g c).1, (fromGrid g c).2, z] = centre g c z := by
  unfold fromGrid centre
  funext i
  fin_cases i
  · simp
    ring
  · simp
    ring
  · rfl

/-- a loop in which each step changes the cell c by at most one update -/
theorem foldl_cell {E : Type} (upd : List Patch → Patch → List Patch) (step : Cells → E → Cells) (c : Nat × Nat) (land : E → Option Patch)
    (L : List E) (h : ∀ e ∈ L, ∀ o, step o e c = match land e with | none => o c | some p => upd (o c) p) (o : Cells) :
    L.foldl step o c = (L.filterMap land).foldl upd (o c) := by
  induction L generalizing o with
  | nil => rfl
  | cons e L ih =>
    rw [List.foldl_cons, ih (fun e he => h e (List.mem_cons_of_mem _ he)), h e List.mem_cons_self, List.filterMap_cons]
    cases land e <;> rfl

/-- a loop in which each step changes its own cell only -/
theorem foldl_own {α : Type} (step : (Nat × Nat → α) → Nat × Nat → Nat × Nat → α) (cell : Nat × Nat → Nat × Nat) (hc : Function.Injective cell)
    (f : Nat × Nat → α → α)
    (L : List (Nat × Nat)) (hn : L.Nodup) (h : ∀ e ∈ L, ∀ o k, step o e k = if k = cell e then f e (o k) else o k) (o : Nat × Nat → α) :
    (∀ e ∈ L, L.foldl step o (cell e) = f e (o (cell e))) ∧ ∀ k, (∀ e ∈ L, k ≠ cell e) → L.foldl step o k = o k := by
  induction L generalizing o with
  | nil => exact ⟨by simp, fun _ _ => rfl⟩
  | cons a L ih =>
    obtain ⟨ha, hn⟩ := List.nodup_cons.1 hn
    obtain ⟨h1, h2⟩ := ih hn (fun e he => h e (List.mem_cons_of_mem _ he)) (step o a)
    have hs := h a List.mem_cons_self o
    constructor
    · intro e he
      rw [List.foldl_cons]
      rcases List.mem_cons.1 he with rfl | he
      · rw [h2 (cell e) (fun k hk ek => ha (hc ek ▸ hk)), hs, if_pos rfl]
      · rw [h1 e he, hs, if_neg]
        intro ek
        exact ha (hc ek ▸ he)
    · intro k hk
      rw [List.foldl_cons, h2 k (fun e he => hk e (List.mem_cons_of_mem _ he)), hs, if_neg (hk a List.mem_cons_self)]

theorem product_nodup (a b : Nat) : (List.range a ×ˢ List.range b).Nodup := List.Nodup.product List.nodup_range List.nodup_range

theorem mem_range_product (a b : Nat) (e : Nat × Nat) : e ∈ List.range a ×ˢ List.range b ↔ e.1 < a ∧ e.2 < b := by
  obtain ⟨x, y⟩ := e
  rw [List.mem_product, List.mem_range, List.mem_range]

/-! ### C93 -/

theorem foldl_max (ps : List Patch) (p : Patch) : ∃ m, (ps.foldl (fun m q => open Classical in if m.mean < q.mean then q else m) p) = m ∧
    (m = p ∨ m ∈ ps) ∧ p.mean ≤ m.mean ∧ ∀ q ∈ ps, q.mean ≤ m.mean := by
  induction ps generalizing p with
  | nil => exact ⟨p, rfl, .inl rfl, le_refl _, by simp⟩
  | cons q ps ih =>
    rw [List.foldl_cons]
    by_cases h : p.mean < q.mean
    · rw [if_pos h]
      obtain ⟨m, e, h1, h2, h3⟩ := ih q
      refine ⟨m, e, ?_, by linarith, ?_⟩
      · rcases h1 with h1 | h1
        · exact .inr (by simp [h1])
        · exact .inr (by simp [h1])
      · intro r hr
        rcases List.mem_cons.1 hr with rfl | hr
        · exact h2
        · exact h3 r hr
    · rw [if_neg h]
      obtain ⟨m, e, h1, h2, h3⟩ := ih p
      refine ⟨m, e, ?_, h2, ?_⟩
      · rcases h1 with h1 | h1
        · exact .inl h1
        · exact .inr (by simp [h1])
      · intro r hr
        rcases List.mem_cons.1 hr with rfl | hr
        · linarith
        · exact h3 r hr

theorem maxElement_spec (l : List Patch) : (l = [] ∧ maxElement l = none) ∨
    ∃ m ∈ l, maxElement l = some m ∧ ∀ q ∈ l, q.mean ≤ m.mean := by
  cases l with
  | nil => exact .inl ⟨rfl, rfl⟩
  | cons p ps =>
    obtain ⟨m, e, h1, h2, h3⟩ := foldl_max ps p
    refine .inr ⟨m, ?_, ?_, ?_⟩
    · rcases h1 with h1 | h1 <;> simp [h1]
    · unfold maxElement
      rw [← e]
    · intro q hq
      rcases List.mem_cons.1 hq with rfl | hq
      · exact h2
      · exact h3 q hq

/-- C93. Full claim: MLSToGrid writes the height of the topmost patch of each cell to the output, leaves cells without patches, and rejects
outputs whose size or scale differs. Proved for outputs of the same size and scale, and the rejection if both directions
differ. Missing: outputs that differ in one direction (`C93_size_unchecked`, `C93_scale_unchecked`). -/
theorem C93_elevation_partial (g : Geo) (mls : Cells) (out : Geo) (old : Nat × Nat → ℝ) :
    (g.w ≠ out.w ∧ g.h ≠ out.h ∨ g.sx ≠ out.sx ∧ g.sy ≠ out.sy → mlsToGrid g mls out old = .exception) ∧
    (g.w = out.w → g.h = out.h → g.sx = out.sx → g.sy = out.sy → ∃ d, mlsToGrid g mls out old = .ok d ∧
      (∀ c : Nat × Nat, c.1 < g.w → c.2 < g.h → mls c ≠ [] → (∃ p ∈ mls c, d c = p.mean) ∧ ∀ p ∈ mls c, p.mean ≤ d c) ∧
      ∀ c : Nat × Nat, ¬ (c.1 < g.w ∧ c.2 < g.h) ∨ mls c = [] → d c = old c) := by
  constructor
  · intro h
    unfold mlsToGrid
    by_cases h1 : g.w ≠ out.w ∧ g.h ≠ out.h
    · rw [if_pos h1]
    · rw [if_neg h1, if_pos (h.resolve_left h1)]
  · intro hw hh hsx hsy
    refine ⟨_, by
      unfold mlsToGrid
      rw [if_neg (fun h => h.1 hw), if_neg (fun h => h.1 hsx), if_neg]
      rintro ⟨c, h1, h2, -, h3⟩
      exact h3 ⟨hw ▸ h1, hh ▸ h2⟩, ?_⟩
    obtain ⟨h1, h2⟩ := foldl_own (copyCell mls) id Function.injective_id (fun e v => match maxElement (mls e) with | none => v | some p => p.mean)
      (List.range g.w ×ˢ List.range g.h) (product_nodup _ _) (by
        intro e _ o k
        unfold copyCell
        cases maxElement (mls e) with
        | none => simp
        | some p =>
          dsimp only
          rw [Function.update_apply]
          rfl) old
    constructor
    · intro c cw ch hne
      have e : List.foldl (copyCell mls) old (List.range g.w ×ˢ List.range g.h) c = _ := h1 c ((mem_range_product _ _ _).2 ⟨cw, ch⟩)
      rw [e]
      rcases maxElement_spec (mls c) with ⟨h3, -⟩ | ⟨m, h3, h4, h5⟩
      · exact absurd h3 hne
      · rw [h4]
        exact ⟨⟨m, h3, rfl⟩, h5⟩
    · intro c hc
      by_cases hin : c.1 < g.w ∧ c.2 < g.h
      · have e : List.foldl (copyCell mls) old (List.range g.w ×ˢ List.range g.h) c = _ := h1 c ((mem_range_product _ _ _).2 hin)
        rw [e, hc.resolve_left (fun h => h hin)]
        rfl
      · exact h2 c (fun e he ec => hin (by rw [ec]; exact (mem_range_product _ _ _).1 he))

/-- C93 is violated: an output that is narrower is not rejected, the operator writes outside of it -/
theorem C93_size_unchecked (g out : Geo) (mls : Cells) (old : Nat × Nat → ℝ) (hw : out.w < g.w) (hh : g.h = out.h) (h0 : 0 < g.h)
    (hs : g.sx = out.sx ∧ g.sy = out.sy) (hm : mls (out.w, 0) ≠ []) : mlsToGrid g mls out old = .undefined := by
  unfold mlsToGrid
  rw [if_neg (fun h => h.2 hh), if_neg (fun h => h.1 hs.1), if_pos ⟨(out.w, 0), hw, h0, hm, fun h => absurd h.1 (lt_irrefl _)⟩]

/-- C93 is violated: an output whose cells have another length in one direction is not rejected -/
theorem C93_scale_unchecked (g out : Geo) (mls : Cells) (old : Nat × Nat → ℝ) (hw : g.w = out.w) (hh : g.h = out.h) (hs : g.sy = out.sy) :
    ∃ d, mlsToGrid g mls out old = .ok d := by
  refine ⟨_, by
    unfold mlsToGrid
    rw [if_neg (fun h => h.1 hw), if_neg (fun h => h.2 hs), if_neg]
    rintro ⟨c, h1, h2, -, h3⟩
    exact h3 ⟨hw ▸ h1, hh ▸ h2⟩⟩

/-- a grid of 2 x 2 cells at the root -/
noncomputable def small : Geo := ⟨1, 1, 0, 0, 2, 2, ⟨1, 0⟩⟩

/-- the hypotheses of `C93_elevation_partial` are met: a cell with two patches -/
example : ∃ d, mlsToGrid small (fun c => if c = (1, 0) then [⟨2, 0⟩, ⟨5, 1⟩, ⟨3, 0⟩] else []) small (fun _ => 7) = .ok d ∧ d (1, 0) = 5 ∧ d (0, 0) = 7 := by
  obtain ⟨d, h1, h2, h3⟩ := (C93_elevation_partial small (fun c => if c = (1, 0) then [⟨2, 0⟩, ⟨5, 1⟩, ⟨3, 0⟩] else []) small (fun _ => 7)).2 rfl rfl rfl rfl
  refine ⟨d, h1, ?_, h3 _ (.inr (by simp))⟩
  obtain ⟨⟨p, hp, e⟩, hle⟩ := h2 (1, 0) (by decide) (by decide) (by simp)
  simp only [if_true, List.mem_cons, List.not_mem_nil, or_false] at hp hle
  have := hle ⟨5, 1⟩ (by simp)
  rcases hp with rfl | rfl | rfl
  · rw [e] at this
    norm_num at this
  · exact e
  · rw [e] at this
    norm_num at this

/-! ### C94 -/

/-- C94. Full claim: GridFloatToMLS updates each cell of the output whose centre is covered by the grid with the value of the grid there, as a height in the frame of the
output, and no other cell. Proved for a grid and an output in the same frame: a cell is updated with the value at its
lower left corner; this is the value of the same cell if the grids have the same scale and offset. Missing: other frames
(`C94_wrong_direction`), the centre of the cells (`C94_corner`). -/
theorem C94_convert_partial (upd : List Patch → Patch → List Patch) (grid : Geo) (data : Nat × Nat → ℝ) (mls : Geo) (o : Cells)
    (hf : rel grid.frame mls.frame = ⟨1, 0⟩) (hs : 0 < grid.sx ∧ 0 < grid.sy) :
    (∀ c s : Nat × Nat, c.1 < mls.w → c.2 < mls.h → InCell grid s (mls.ox + c.1 * mls.sx) (mls.oy + c.2 * mls.sy) →
      convert upd grid data mls o c = upd (o c) ⟨data s, 0⟩) ∧
    (∀ c : Nat × Nat, (∀ s, ¬ InCell grid s (mls.ox + c.1 * mls.sx) (mls.oy + c.2 * mls.sy)) → convert upd grid data mls o c = o c) ∧
    (∀ c : Nat × Nat, ¬ (c.1 < mls.w ∧ c.2 < mls.h) → convert upd grid data mls o c = o c) ∧
    (grid.sx = mls.sx → grid.sy = mls.sy → grid.ox = mls.ox → grid.oy = mls.oy → ∀ c : Nat × Nat, c.1 < mls.w → c.2 < mls.h →
      c.1 < grid.w → c.2 < grid.h → convert upd grid data mls o c = upd (o c) ⟨data c, 0⟩) := by
  unfold convert
  rw [hf]
  let f : Nat × Nat → List Patch → List Patch := fun e v =>
    match toGrid grid (mls.sx * e.2 + mls.ox) (mls.sy * e.1 + mls.oy) with
    | none => v
    | some s => upd v ⟨data s, 0⟩
  obtain ⟨h1, h2⟩ := foldl_own (convertCell upd ⟨1, 0⟩ grid data mls) (fun e => (e.2, e.1)) (by
      rintro ⟨a, b⟩ ⟨a', b'⟩ h
      simp only [Prod.mk.injEq] at h
      rw [h.1, h.2]) f
    (List.range mls.h ×ˢ List.range mls.w) (product_nodup _ _) (by
      intro e _ o k
      have ap : ∀ v, Pose.apply ⟨1, 0⟩ v = v := fun v => by simp [Pose.apply]
      unfold convertCell
      dsimp only [f]
      rw [ap]
      change (match toGrid grid (mls.sx * (e.2 : ℝ) + mls.ox) (mls.sy * (e.1 : ℝ) + mls.oy) with
        | none => o
        | some s => Function.update o (e.2, e.1) (upd (o (e.2, e.1)) ⟨data s, 0⟩)) k = _
      cases toGrid grid (mls.sx * (e.2 : ℝ) + mls.ox) (mls.sy * (e.1 : ℝ) + mls.oy) with
      | none => simp
      | some s =>
        dsimp only
        rw [Function.update_apply]
        split
        · rename_i hk
          rw [hk]
        · rfl) o
  have ex : ∀ (n : Nat), mls.sx * (n : ℝ) + mls.ox = mls.ox + n * mls.sx := fun n => by ring
  have ey : ∀ (n : Nat), mls.sy * (n : ℝ) + mls.oy = mls.oy + n * mls.sy := fun n => by ring
  have main : ∀ c s : Nat × Nat, c.1 < mls.w → c.2 < mls.h → InCell grid s (mls.ox + c.1 * mls.sx) (mls.oy + c.2 * mls.sy) →
      List.foldl (convertCell upd ⟨1, 0⟩ grid data mls) o (List.range mls.h ×ˢ List.range mls.w) c = upd (o c) ⟨data s, 0⟩ := by
    intro c s cw ch hin
    have e := h1 (c.2, c.1) ((mem_range_product _ _ _).2 ⟨ch, cw⟩)
    dsimp only [f] at e
    rw [ex, ey, (toGrid_iff grid hs _ _ s).2 hin] at e
    exact e
  refine ⟨main, ?_, ?_, ?_⟩
  · intro c hno
    by_cases hc : c.1 < mls.w ∧ c.2 < mls.h
    · have e := h1 (c.2, c.1) ((mem_range_product _ _ _).2 ⟨hc.2, hc.1⟩)
      dsimp only [f] at e
      rw [ex, ey, (toGrid_none grid hs _ _).2 hno] at e
      exact e
    · exact h2 c (fun e he ec => hc (by
        rw [ec]
        exact ((mem_range_product _ _ _).1 he).symm))
  · intro c hc
    exact h2 c (fun e he ec => hc (by
      rw [ec]
      exact ((mem_range_product _ _ _).1 he).symm))
  · intro a1 a2 a3 a4 c cw ch gw gh
    refine main c c cw ch ⟨gw, gh, ?_, ?_, ?_, ?_⟩
    · rw [a1, a3]
    · rw [a1, a3, ← a1]
      have := hs.1
      linarith
    · rw [a2, a4]
    · rw [a2, a4, ← a2]
      have := hs.2
      linarith

/-- a grid of 10 x 10 cells with a frame that is moved by 5 in x -/
noncomputable def moved : Geo := ⟨1, 1, 0, 0, 10, 10, ⟨1, ![5, 0, 0]⟩⟩

/-- an MLS of 10 x 10 cells at the root -/
noncomputable def fixed : Geo := ⟨1, 1, 0, 0, 10, 10, ⟨1, 0⟩⟩

theorem foldl_untouched {α E : Type} (step : (Nat × Nat → α) → E → Nat × Nat → α) (L : List E) (k : Nat × Nat) (h : ∀ e ∈ L, ∀ o, step o e k = o k)
    (o : Nat × Nat → α) : L.foldl step o k = o k := by
  induction L generalizing o with
  | nil => rfl
  | cons e L ih => rw [List.foldl_cons, ih (fun e he => h e (List.mem_cons_of_mem _ he)), h e List.mem_cons_self]

/-- C94 is violated: the transform from the grid to the output is used for the points of the output. The centre of the cell (7, 0) of the output is in the cell
(2, 0) of the grid, but the cell is not updated. -/
theorem C94_wrong_direction (upd : List Patch → Patch → List Patch) (data : Nat × Nat → ℝ) (o : Cells) :
    InCell moved (2, 0) ((rel fixed.frame moved.frame).apply (centre fixed (7, 0) 0) 0) ((rel fixed.frame moved.frame).apply (centre fixed (7, 0) 0) 1) ∧
      convert upd moved data fixed o (7, 0) = o (7, 0) := by
  constructor
  · simp [InCell, rel, moved, fixed, Pose.mul, Pose.inv, Pose.apply, centre]
    norm_num
  · unfold convert
    refine foldl_untouched _ _ _ ?_ o
    intro e _ o
    unfold convertCell
    have hr : rel moved.frame fixed.frame = ⟨1, ![5, 0, 0]⟩ := by
      simp [rel, moved, fixed, Pose.mul, Pose.inv]
    rw [hr]
    cases hs : toGrid moved (Pose.apply ⟨1, ![5, 0, 0]⟩ ![fixed.sx * (e.2 : ℝ) + fixed.ox, fixed.sy * (e.1 : ℝ) + fixed.oy, 0] 0)
      (Pose.apply ⟨1, ![5, 0, 0]⟩ ![fixed.sx * (e.2 : ℝ) + fixed.ox, fixed.sy * (e.1 : ℝ) + fixed.oy, 0] 1) with
    | none => rfl
    | some s =>
      dsimp only
      have := (toGrid_iff moved (by norm_num [moved]) _ _ s).1 hs
      rw [Function.update_apply, if_neg]
      intro he
      have h2 : e.2 = 7 := (congrArg Prod.fst he).symm
      obtain ⟨h3, -, -, h5, -⟩ := this
      simp only [Pose.apply, Matrix.one_mulVec, moved, fixed, h2] at h5 h3
      have h6 : (s.1 : ℝ) + 1 ≤ 10 := by exact_mod_cast h3
      norm_num at h5
      linarith

/-- C94 is violated: the value at the corner of the cell is used. With cells of twice the size that are shifted by half a cell, the cell (0, 0) of the output has its centre in the
cell (1, 0) of the grid, but is updated with the value of the cell (0, 0). -/
theorem C94_corner (upd : List Patch → Patch → List Patch) (data : Nat × Nat → ℝ) (o : Cells) :
    InCell fixed (1, 0) (centre ⟨2, 1, 1 / 2, 0, 2, 2, ⟨1, 0⟩⟩ (0, 0) 0 0) (centre ⟨2, 1, 1 / 2, 0, 2, 2, ⟨1, 0⟩⟩ (0, 0) 0 1) ∧
      convert upd fixed data ⟨2, 1, 1 / 2, 0, 2, 2, ⟨1, 0⟩⟩ o (0, 0) = upd (o (0, 0)) ⟨data (0, 0), 0⟩ := by
  constructor
  · simp [InCell, fixed, centre]
    norm_num
  · refine (C94_convert_partial upd fixed data ⟨2, 1, 1 / 2, 0, 2, 2, ⟨1, 0⟩⟩ o ?_ (by norm_num [fixed])).1 (0, 0) (0, 0) (by norm_num) (by norm_num) ?_
    · simp [rel, fixed, Pose.mul, Pose.inv]
    · simp [InCell, fixed]
      norm_num

/-- the hypotheses of `C94_convert_partial` are met: the same grid, an update that appends -/
example : convert (fun l p => l ++ [p]) fixed (fun c => c.1) fixed (fun _ => []) (3, 4) = [⟨3, 0⟩] := by
  have := (C94_convert_partial (fun l p => l ++ [p]) fixed (fun c => c.1) fixed (fun _ => []) (by
    simp [rel, fixed, Pose.mul, Pose.inv]) (by norm_num [fixed])).2.2.2 rfl rfl rfl rfl (3, 4) (by norm_num [fixed]) (by norm_num [fixed])
    (by norm_num [fixed]) (by norm_num [fixed])
  rw [this]
  simp

/-! ### C95 -/

theorem mergeForward_eq (upd : List Patch → Patch → List Patch) (out : Geo) (inputs : List Input) (o : Cells) :
    mergeForward upd out inputs o = (entries inputs).foldl (fun o e => put upd out e.1 e.2.1 o e.2.2) o := by
  unfold mergeForward entries
  rw [List.foldl_flatMap]
  simp only [List.foldl_flatMap, List.foldl_map]

theorem collect_eq (l : List InLayer) (grids : List Input) :
    (.other ∈ l → collect l grids = none) ∧ (.other ∉ l → collect l grids = some (grids ++ l.flatMap gridsOf)) := by
  induction l generalizing grids with
  | nil => simp [collect]
  | cons a l ih =>
    cases a with
    | grid i => simpa [collect, gridsOf] using ih (grids ++ [i])
    | map cs => simpa [collect, gridsOf] using ih (grids ++ cs)
    | other => simp [collect]

/-- forward: each cell of the output is updated by exactly those patches, in order, whose position transformed to the frame of the output is in
the cell, with their heights in that frame -/
theorem forward_cell (upd : List Patch → Patch → List Patch) (out : Geo) (hs : 0 < out.sx ∧ 0 < out.sy) (inputs : List Input) (o : Cells) (c : Nat × Nat) :
    mergeForward upd out inputs o c = (landing out inputs c).foldl upd (o c) := by
  rw [mergeForward_eq]
  unfold landing
  refine foldl_cell upd _ c _ _ ?_ o
  rintro ⟨i, k, p⟩ _ o
  unfold put
  dsimp only
  rw [fromGrid_centre]
  have ht := toGrid_iff out hs ((rel i.geo.frame out.frame).apply (centre i.geo k p.mean) 0) ((rel i.geo.frame out.frame).apply (centre i.geo k p.mean) 1)
  cases e : toGrid out ((rel i.geo.frame out.frame).apply (centre i.geo k p.mean) 0) ((rel i.geo.frame out.frame).apply (centre i.geo k p.mean) 1) with
  | none =>
    dsimp only
    rw [if_neg]
    intro h
    rw [(ht c).2 h] at e
    cases e
  | some t =>
    dsimp only
    rw [Function.update_apply]
    by_cases h : c = t
    · rw [if_pos h, if_pos (by rw [h]; exact (ht t).1 e)]
      rw [h]
    · rw [if_neg h, if_neg]
      intro hin
      rw [(ht c).2 hin] at e
      exact h (Option.some.inj e)

/-- C95, forward: the operator throws exactly if an input is neither a multi-level surface grid nor a set of them; otherwise each cell of the output is updated by exactly those
patches of all grids, in order, whose position transformed to the frame of the output is in the cell, with their heights in that frame -/
theorem C95_forward (upd : List Patch → Patch → List Patch) (out : Geo) (hs : 0 < out.sx ∧ 0 < out.sy) (inputs : List InLayer) (o : Cells) :
    (.other ∈ inputs → ∀ reverse, mergeMLS upd reverse out inputs o = none) ∧
    (.other ∉ inputs → ∃ o', mergeMLS upd false out inputs o = some o' ∧
      ∀ c, o' c = (landing out (inputs.flatMap gridsOf) c).foldl upd (o c)) := by
  obtain ⟨h1, h2⟩ := collect_eq inputs []
  constructor
  · intro h reverse
    unfold mergeMLS
    rw [h1 h]
  · intro h
    refine ⟨mergeForward upd out (inputs.flatMap gridsOf) o, ?_, fun c => forward_cell upd out hs _ o c⟩
    unfold mergeMLS
    rw [h2 h]
    rfl

/-- the frames of an input and the output are at the same height and not tilted against each other -/
def Flush (out : Geo) (i : Input) : Prop :=
  (∀ v, (rel out.frame i.geo.frame).apply v 2 = v 2) ∧ ∀ v, (rel i.geo.frame out.frame).apply v 2 = v 2

open Classical in
theorem filterMap_cell {β : Type} (i : Input) (P : Nat × Nat → Prop) (s : Nat × Nat) (hs : s.1 < i.geo.w ∧ s.2 < i.geo.h) (hP : ∀ c, P c ↔ c = s)
    (f : Patch → β) :
    ((List.range i.geo.w ×ˢ List.range i.geo.h).flatMap fun c => (i.cells c).map fun p => (i, c, p)).filterMap
      (fun e : Input × (Nat × Nat) × Patch => if P e.2.1 then some (f e.2.2) else none) = (i.cells s).map f := by
  have key : ∀ L : List (Nat × Nat), L.Nodup → (L.flatMap fun c => (i.cells c).map fun p => (i, c, p)).filterMap
      (fun e : Input × (Nat × Nat) × Patch => if P e.2.1 then some (f e.2.2) else none) = if s ∈ L then (i.cells s).map f else [] := by
    intro L
    induction L with
    | nil => simp
    | cons a L ih =>
      intro hn
      obtain ⟨ha, hn⟩ := List.nodup_cons.1 hn
      rw [List.flatMap_cons, List.filterMap_append, ih hn, List.filterMap_map]
      by_cases h : a = s
      · subst h
        have : ((fun e : Input × (Nat × Nat) × Patch => if P e.2.1 then some (f e.2.2) else none) ∘ fun p => (i, a, p)) = fun p => some (f p) := by
          funext p
          simp [(hP a).2 rfl]
        rw [this, if_neg ha, if_pos List.mem_cons_self, List.append_nil]
        simp
      · have : ((fun e : Input × (Nat × Nat) × Patch => if P e.2.1 then some (f e.2.2) else none) ∘ fun p => (i, a, p)) = fun _ => none := by
          funext p
          simp [hP a, h]
        rw [this]
        by_cases hm : s ∈ L
        · rw [if_pos hm, if_pos (List.mem_cons_of_mem _ hm)]
          simp
        · rw [if_neg hm, if_neg (fun hc => (List.mem_cons.1 hc).elim (fun e => h e.symm) hm)]
          simp
  rw [key _ (product_nodup _ _), if_pos ((mem_range_product _ _ _).2 hs)]

open Classical in
theorem filterMap_no_cell {β : Type} (i : Input) (P : Nat × Nat → Prop) (hP : ∀ c, ¬ P c) (f : Patch → β) (L : List (Nat × Nat)) :
    (L.flatMap fun c => (i.cells c).map fun p => (i, c, p)).filterMap
      (fun e : Input × (Nat × Nat) × Patch => if P e.2.1 then some (f e.2.2) else none) = [] := by
  rw [List.filterMap_eq_nil_iff]
  intro e _
  rw [if_neg (hP _)]

/-- reverse: each cell of the output is updated by exactly those patches that the inputs have below its centre -/
theorem reverse_cell (upd : List Patch → Patch → List Patch) (out : Geo) (inputs : List Input)
    (hs : ∀ i ∈ inputs, (0 < i.geo.sx ∧ 0 < i.geo.sy) ∧ Flush out i) (o : Cells) (c : Nat × Nat) (hc : c.1 < out.w ∧ c.2 < out.h) :
    mergeReverse upd out inputs o c = (below out inputs c).foldl upd (o c) := by
  classical
  -- the value of one cell after its visit
  have hpull : ∀ (e : Nat × Nat) (o : Cells) (k : Nat × Nat), pull upd out inputs o e k =
      if k = e then (below out inputs e).foldl upd (o k) else o k := by
    intro e
    unfold pull below entries
    generalize hi : inputs = L at hs
    clear hi
    induction L with
    | nil =>
      intro o k
      simp
    | cons i L ih =>
      intro o k
      obtain ⟨hsi, hfl⟩ := hs i List.mem_cons_self
      rw [List.foldl_cons, ih (fun j hj => hs j (List.mem_cons_of_mem _ hj)), List.flatMap_cons, List.filterMap_append, List.foldl_append]
      dsimp only
      rw [fromGrid_centre]
      have ht := toGrid_iff i.geo hsi ((rel out.frame i.geo.frame).apply (centre out e 0) 0) ((rel out.frame i.geo.frame).apply (centre out e 0) 1)
      have hz : (rel out.frame i.geo.frame).apply (centre out e 0) 2 = 0 := (hfl.1 _).trans rfl
      have hz2 : ∀ a b z, (rel i.geo.frame out.frame).apply ![a, b, z] 2 = z := fun a b z => (hfl.2 _).trans rfl
      have hfun : ((List.range i.geo.w ×ˢ List.range i.geo.h).flatMap fun c => (i.cells c).map fun p => (i, c, p)).filterMap
          (fun e_1 : Input × (Nat × Nat) × Patch =>
            if InCell e_1.1.geo e_1.2.1 ((rel out.frame e_1.1.geo.frame).apply (centre out e 0) 0) ((rel out.frame e_1.1.geo.frame).apply (centre out e 0) 1) then
              some { e_1.2.2 with mean := (rel e_1.1.geo.frame out.frame).apply ![(rel out.frame e_1.1.geo.frame).apply (centre out e 0) 0,
                (rel out.frame e_1.1.geo.frame).apply (centre out e 0) 1, e_1.2.2.mean] 2 } else none) =
          ((List.range i.geo.w ×ˢ List.range i.geo.h).flatMap fun c => (i.cells c).map fun p => (i, c, p)).filterMap
          (fun e_1 : Input × (Nat × Nat) × Patch =>
            if InCell i.geo e_1.2.1 ((rel out.frame i.geo.frame).apply (centre out e 0) 0) ((rel out.frame i.geo.frame).apply (centre out e 0) 1) then
              some (id e_1.2.2) else none) := by
        refine List.filterMap_congr ?_
        intro x hx
        obtain ⟨k, -, hk⟩ := List.mem_flatMap.1 hx
        obtain ⟨p, -, rfl⟩ := List.mem_map.1 hk
        dsimp only
        rw [hz2]
        rfl
      rw [hfun]
      cases hg : toGrid i.geo ((rel out.frame i.geo.frame).apply (centre out e 0) 0) ((rel out.frame i.geo.frame).apply (centre out e 0) 1) with
      | none =>
        dsimp only
        rw [filterMap_no_cell i (fun c => InCell i.geo c _ _) (fun c hcell => by
          rw [(ht c).2 hcell] at hg
          cases hg)]
        rfl
      | some s =>
        dsimp only
        rw [filterMap_cell i (fun c => InCell i.geo c _ _) s ⟨((ht s).1 hg).1, ((ht s).1 hg).2.1⟩ (fun c => by
          rw [← ht c, hg]
          simp [eq_comm])]
        rw [hz, List.map_id]
        have hin : ∀ (ps : List Patch) (o : Cells) (k : Nat × Nat),
            ps.foldl (fun o p => Function.update o e (upd (o e) { p with mean := p.mean + 0 })) o k = if k = e then ps.foldl upd (o k) else o k := by
          intro ps
          induction ps with
          | nil =>
            intro o k
            simp
          | cons p ps ih2 =>
            intro o k
            rw [List.foldl_cons, ih2, List.foldl_cons, Function.update_apply]
            by_cases hk : k = e
            · rw [if_pos hk, if_pos hk, if_pos hk, hk, add_zero]
            · rw [if_neg hk, if_neg hk, if_neg hk]
        rw [hin]
        by_cases hk : k = e
        · rw [if_pos hk, if_pos hk, if_pos hk]
        · rw [if_neg hk, if_neg hk, if_neg hk]
  unfold mergeReverse
  exact (foldl_own (pull upd out inputs) id Function.injective_id (fun e v => (below out inputs e).foldl upd v)
    (List.range out.w ×ˢ List.range out.h) (product_nodup _ _) (fun e _ o k => hpull e o k) o).1 c ((mem_range_product _ _ _).2 hc)

/-- C95, reverse. Full claim: each cell of the output is updated by exactly those patches that the inputs have below its centre, with their heights
in the frame of the output. Proved for inputs that are level and at the same height as the output. Missing: other heights, for
which the code has the wrong sign (`C95_reverse_height`). -/
theorem C95_reverse_partial (upd : List Patch → Patch → List Patch) (out : Geo) (inputs : List InLayer) (hin : .other ∉ inputs)
    (hs : ∀ i ∈ inputs.flatMap gridsOf, (0 < i.geo.sx ∧ 0 < i.geo.sy) ∧ Flush out i) (o : Cells) :
    ∃ o', mergeMLS upd true out inputs o = some o' ∧
      (∀ c : Nat × Nat, c.1 < out.w → c.2 < out.h → o' c = (below out (inputs.flatMap gridsOf) c).foldl upd (o c)) := by
  refine ⟨mergeReverse upd out (inputs.flatMap gridsOf) o, ?_, fun c h1 h2 => reverse_cell upd out _ hs o c ⟨h1, h2⟩⟩
  unfold mergeMLS
  rw [(collect_eq inputs []).2 hin]
  rfl

/-- C95 is violated: an input whose frame is 10 above that of the output; its patch at 0 should be at 10, and is at -10 in the reverse case -/
theorem C95_reverse_height : ∃ (out : Geo) (i : Input) (c : Nat × Nat), c.1 < out.w ∧ c.2 < out.h ∧
    below out [i] c = [⟨10, 0⟩] ∧
    (mergeMLS (fun l p => l ++ [p]) false out [.grid i] (fun _ => [])).map (· c) = some [⟨10, 0⟩] ∧
    (mergeMLS (fun l p => l ++ [p]) true out [.grid i] (fun _ => [])).map (· c) = some [⟨-10, 0⟩] := by
  let out : Geo := ⟨1, 1, 0, 0, 1, 1, ⟨1, 0⟩⟩
  let i : Input := ⟨⟨1, 1, 0, 0, 1, 1, ⟨1, ![0, 0, 10]⟩⟩, fun _ => [⟨0, 0⟩]⟩
  have hin : InCell out (0, 0) (1 / 2) (1 / 2) := by
    simp [InCell, out]
    norm_num
  have hin' : InCell i.geo (0, 0) (1 / 2) (1 / 2) := by
    simp [InCell, i]
    norm_num
  have r1 : rel i.geo.frame out.frame = ⟨1, ![0, 0, 10]⟩ := by
    simp [rel, i, out, Pose.mul, Pose.inv]
  have r2 : rel out.frame i.geo.frame = ⟨1, ![0, 0, -10]⟩ := by
    simp [rel, i, out, Pose.mul, Pose.inv]
  have c1 : ∀ z, centre out (0, 0) z = ![1 / 2, 1 / 2, z] := by
    intro z
    simp [centre, out]
  have c2 : ∀ z, centre i.geo (0, 0) z = ![1 / 2, 1 / 2, z] := by
    intro z
    simp [centre, i]
  have a1 : ∀ z, Pose.apply ⟨1, ![0, 0, 10]⟩ ![1 / 2, 1 / 2, z] = ![1 / 2, 1 / 2, z + 10] := by
    intro z
    simp [Pose.apply]
  have a2 : ∀ z, Pose.apply ⟨1, ![0, 0, -10]⟩ ![1 / 2, 1 / 2, z] = ![1 / 2, 1 / 2, z + -10] := by
    intro z
    simp [Pose.apply]
  have ent : entries [i] = [(i, (0, 0), ⟨0, 0⟩)] := rfl
  have hf : ∀ (g : Geo) (c : Nat × Nat) (z : ℝ), ![(fromGrid g c).1, (fromGrid g c).2, z] = centre g c z := fromGrid_centre
  refine ⟨out, i, (0, 0), Nat.one_pos, Nat.one_pos, ?_, ?_, ?_⟩
  · unfold below
    rw [ent]
    simp only [List.filterMap_cons, List.filterMap_nil, r2, c1, a2, r1]
    rw [if_pos (by rw [r2, c1, a2]; exact hin')]
    have e : ![(![1 / 2, 1 / 2, (0 : ℝ) + -10] : Fin 3 → ℝ) 0, (![1 / 2, 1 / 2, (0 : ℝ) + -10] : Fin 3 → ℝ) 1, 0] = ![1 / 2, 1 / 2, (0 : ℝ)] := rfl
    rw [e, a1]
    simp
  · change some (mergeForward _ _ [_] _ _) = _
    refine congrArg some ?_
    rw [forward_cell _ _ (by norm_num [out])]
    unfold landing
    rw [ent]
    simp only [List.filterMap_cons, List.filterMap_nil, r1, c2, a1]
    rw [if_pos (by rw [r1, c2, a1]; exact hin)]
    simp
  · change some (mergeReverse _ _ [_] _ _) = _
    refine congrArg some ?_
    have hl : (List.range out.w ×ˢ List.range out.h) = [(0, 0)] := rfl
    unfold mergeReverse
    rw [hl]
    simp only [List.foldl_cons, List.foldl_nil, pull, hf, c1, r2, a2]
    have : toGrid i.geo (![1 / 2, 1 / 2, (0 : ℝ) + -10] 0) (![1 / 2, 1 / 2, (0 : ℝ) + -10] 1) = some (0, 0) :=
      (toGrid_iff i.geo (by norm_num [i]) _ _ _).2 hin'
    rw [this]
    simp [i]

/-- the hypotheses of `C95_reverse_partial` are met: an input in the frame of the output -/
example : ∃ (out : Geo) (i : Input), (0 < i.geo.sx ∧ 0 < i.geo.sy) ∧ Flush out i ∧
    (mergeMLS (fun l p => l ++ [p]) true out [.grid i] (fun _ => [])).map (· (1, 1)) = some (below out [i] (1, 1)) := by
  have hr : rel fixed.frame fixed.frame = ⟨1, 0⟩ := by simp [rel, fixed, Pose.mul, Pose.inv]
  have hfl : Flush fixed ⟨fixed, fun _ => [⟨2, 0⟩]⟩ := by
    constructor
    · intro v
      dsimp only
      rw [hr]
      simp [Pose.apply]
    · intro v
      dsimp only
      rw [hr]
      simp [Pose.apply]
  refine ⟨fixed, ⟨fixed, fun _ => [⟨2, 0⟩]⟩, by norm_num [fixed], hfl, ?_⟩
  change some (mergeReverse _ _ [_] _ _) = _
  refine congrArg some ?_
  rw [reverse_cell _ _ _ (by
    intro i hi
    rw [List.mem_singleton.1 hi]
    exact ⟨by norm_num [fixed], hfl⟩) _ _ (by norm_num [fixed])]
  generalize below fixed [_] (1, 1) = l
  have : ∀ (l a : List Patch), l.foldl (fun l p => l ++ [p]) a = a ++ l := by
    intro l
    induction l with
    | nil => simp
    | cons p l ih =>
      intro a
      rw [List.foldl_cons, ih]
      simp
  exact (this l []).trans (List.nil_append _)

end Envire.Convert

#print axioms Envire.Convert.C93_elevation_partial
#print axioms Envire.Convert.C93_size_unchecked
#print axioms Envire.Convert.C93_scale_unchecked
#print axioms Envire.Convert.C94_convert_partial
#print axioms Envire.Convert.C94_wrong_direction
#print axioms Envire.Convert.C94_corner
#print axioms Envire.Convert.C95_forward
#print axioms Envire.Convert.C95_reverse_partial
#print axioms Envire.Convert.C95_reverse_height
