import Verif.Tools.ToolMapsModel
import Verif.Grid.GridProps
import Mathlib.Data.List.Basic

/-!
C165: the cloud that env_mls_to_pointcloud makes. C166: the place of the grids that tools make.
-/

namespace Envire.ToolMaps

open Envire.Grid

variable {K : Type} [Field K] [LinearOrder K] [IsStrictOrderedRing K] [FloorRing K]

/-! ### specification -/

/-- the height of a point, if the point lies in the cell -/
def heightIn (conv : Int → Nat) (g : GridBase K) (m n : Nat) (p : K × K × K) : Option K :=
  match g.toGrid conv p.1 p.2.1 with
  | some r => if r.1 = m ∧ r.2.1 = n then some p.2.2 else none
  | none => none

/-! ### C165 -/

theorem height_own {conv : Int → Nat} (hc : ConvOk conv) {g : GridBase K} (hg : Ok g) {a b : Nat} (ha : a < g.nx) (hb : b < g.ny) (m n : Nat) (z : K) :
    heightIn conv g m n ((g.fromGrid a b).1, (g.fromGrid a b).2, z) = if a = m ∧ b = n then some z else none := by
  obtain ⟨xm, ym, e⟩ := (C29_roundtrip_partial hc hg).1 a b ha hb
  unfold heightIn
  dsimp only
  rw [e]

theorem filter_cells {P A : Type} (f : Nat → List P) (p : P → Option A) (m : Nat) (l : List A) : ∀ N, (∀ a < N, (f a).filterMap p = if a = m then l else []) →
    ((List.range N).flatMap f).filterMap p = if m < N then l else []
  | 0, _ => by simp
  | N + 1, h => by
    rw [List.range_succ, List.flatMap_append, List.filterMap_append, filter_cells f p m l N fun a ha => h a (by omega)]
    simp only [List.flatMap_cons, List.flatMap_nil, List.append_nil]
    rw [h N (by omega)]
    by_cases h1 : m < N
    · rw [if_pos h1, if_neg (by omega), if_pos (by omega), List.append_nil]
    · rw [if_neg h1]
      by_cases h2 : N = m
      · rw [if_pos h2, if_pos (by omega), List.nil_append]
      · rw [if_neg h2, if_neg (by omega), List.nil_append]

/-- **C165** the points of the cloud that lie in a cell of the map have the heights of the patches of this cell, one point for each patch -/
theorem C165_cells {conv : Int → Nat} (hc : ConvOk conv) {g : GridBase K} (hg : Ok g) (cells : Nat → Nat → List K) {m n : Nat} (hm : m < g.nx) (hn : n < g.ny) :
    (mlsToCloud g cells).filterMap (heightIn conv g m n) = cells m n := by
  have inner : ∀ a < g.nx, ((List.range g.ny).flatMap fun b => (cells a b).map fun mean => ((g.fromGrid a b).1, (g.fromGrid a b).2, mean)).filterMap (heightIn conv g m n) = if a = m then cells m n else [] := by
    intro a ha
    rw [filter_cells _ (heightIn conv g m n) n (if a = m then cells m n else []) g.ny, if_pos hn]
    intro b hb
    rw [List.filterMap_map]
    by_cases h : a = m ∧ b = n
    · obtain ⟨rfl, rfl⟩ := h
      rw [if_pos rfl, if_pos rfl]
      have e : (heightIn conv g a b ∘ fun mean => ((g.fromGrid a b).1, (g.fromGrid a b).2, mean)) = some := funext fun z => (height_own hc hg ha hb a b z).trans (if_pos ⟨rfl, rfl⟩)
      rw [e]
      exact List.filterMap_some ..
    · have e0 : (heightIn conv g m n ∘ fun mean => ((g.fromGrid a b).1, (g.fromGrid a b).2, mean)) = fun _ => none := funext fun z => (height_own hc hg ha hb m n z).trans (if_neg h)
      rw [e0]
      have e : (if b = n then (if a = m then cells m n else []) else []) = ([] : List K) := by
        by_cases hb' : b = n
        · rw [if_pos hb', if_neg fun ha' => h ⟨ha', hb'⟩]
        · rw [if_neg hb']
      rw [e]
      simp
  unfold mlsToCloud
  rw [filter_cells _ (heightIn conv g m n) m (cells m n) g.nx inner, if_pos hm]

/-- **C165** there are no other points: every point is in the middle of a cell of the map, at the height of a patch of it -/
theorem C165_points (g : GridBase K) (cells : Nat → Nat → List K) (p : K × K × K) : p ∈ mlsToCloud g cells ↔
    ∃ m n, m < g.nx ∧ n < g.ny ∧ p.1 = g.ox + (m + 1 / 2) * g.sx ∧ p.2.1 = g.oy + (n + 1 / 2) * g.sy ∧ p.2.2 ∈ cells m n := by
  unfold mlsToCloud GridBase.fromGrid
  simp only [List.mem_flatMap, List.mem_range, List.mem_map]
  constructor
  · rintro ⟨m, hm, n, hn, z, hz, rfl⟩
    exact ⟨m, n, hm, hn, add_comm _ _, add_comm _ _, hz⟩
  · rintro ⟨m, n, hm, hn, e1, e2, hz⟩
    exact ⟨m, hm, n, hn, p.2.2, hz, Prod.ext ((add_comm _ _).trans e1.symm) (Prod.ext ((add_comm _ _).trans e2.symm) rfl)⟩

/-! ### C166 -/

/-- **C166** the result has the cells of the map it is made from, of the same size, and in the same places if this map has no offset. Missing: maps with an offset, see `C166_offset_deviation` -/
theorem C166_same_partial (g : GridBase K) :
    (resultGrid g).nx = g.nx ∧ (resultGrid g).ny = g.ny ∧ (resultGrid g).sx = g.sx ∧ (resultGrid g).sy = g.sy ∧ (g.ox = 0 → g.oy = 0 → ∀ m n, (resultGrid g).fromGrid m n = g.fromGrid m n) := by
  refine ⟨rfl, rfl, rfl, rfl, fun h1 h2 m n => ?_⟩
  unfold GridBase.fromGrid resultGrid
  rw [h1, h2]

/-- **C166, deviation** for a map with an offset every cell of the result is in another place than the cell it is computed from -/
theorem C166_offset_deviation {g : GridBase K} (h : g.ox ≠ 0 ∨ g.oy ≠ 0) (m n : Nat) : (resultGrid g).fromGrid m n ≠ g.fromGrid m n ∧
    (g.fromGrid m n).1 = ((resultGrid g).fromGrid m n).1 + g.ox ∧ (g.fromGrid m n).2 = ((resultGrid g).fromGrid m n).2 + g.oy := by
  unfold GridBase.fromGrid resultGrid
  dsimp only
  refine ⟨fun e => ?_, by ring, by ring⟩
  simp only [Prod.mk.injEq, add_right_inj] at e
  rcases h with h | h
  · exact h e.1.symm
  · exact h e.2.symm

/-! examples -/

def map : GridBase ℚ := ⟨2, 1, 1, 1, 5, 0⟩

def patches (m n : Nat) : List ℚ := if m = 1 ∧ n = 0 then [3, 7] else []

example : mlsToCloud map patches = [(13 / 2, 1 / 2, 3), (13 / 2, 1 / 2, 7)] := by decide +kernel

example : Ok map := ⟨by decide +kernel, by decide +kernel, by decide +kernel, by decide +kernel⟩

#print axioms Envire.ToolMaps.C165_cells
#print axioms Envire.ToolMaps.C165_points
#print axioms Envire.ToolMaps.C166_same_partial
#print axioms Envire.ToolMaps.C166_offset_deviation

end Envire.ToolMaps
