import Verif.Maps.ElevationGridModel
import Verif.Ops.ElevationProps
import Mathlib.Tactic.Positivity

/-!
C109: normals and elevations of an elevation grid.
-/

namespace Envire.ElevationGrid

open Envire.Rect Envire.Elevation

/-- a cell that has neighbours on all sides -/
def Inner (g : Geo) (m n : Nat) : Prop := 0 < m ∧ m + 1 < g.w ∧ 0 < n ∧ n + 1 < g.h

def dot (a b : P3) : ℝ := a.1 * b.1 + a.2.1 * b.2.1 + a.2.2 * b.2.2

/-- v is the unit vector upwards that is orthogonal to a and b -/
def UpNormal (a b v : P3) : Prop := dot v v = 1 ∧ 0 < v.2.2 ∧ dot v a = 0 ∧ dot v b = 0

/-- the middle of the cell in column m and row n -/
noncomputable def centre (g : Geo) (m n : Nat) : ℝ × ℝ := (g.ox + (m + 1 / 2) * g.sx, g.oy + (n + 1 / 2) * g.sy)

theorem get_in {g : Geo} {d : Nat → Nat → ℝ} {n m : Nat} (hn : n < g.h) (hm : m < g.w) : get g d n m = some (d n m) := by
  unfold get
  rw [if_pos ⟨by omega, by omega, by omega, by omega⟩]
  simp

theorem getNormal_inner {g : Geo} {d : Nat → Nat → ℝ} {m n : Nat} (h : Inner g m n) :
    getNormal g d m n = .ok (normalized ((d n (m - 1) - d n (m + 1)) / (g.sx * 2), (d (n - 1) m - d (n + 1) m) / (g.sy * 2), 1)) := by
  obtain ⟨h1, h2, h3, h4⟩ := h
  unfold getNormal
  have e1 : ((m : Int) - 1) = ((m - 1 : Nat) : Int) := by omega
  have e2 : ((n : Int) - 1) = ((n - 1 : Nat) : Int) := by omega
  have e3 : ((m : Int) + 1) = ((m + 1 : Nat) : Int) := by omega
  have e4 : ((n : Int) + 1) = ((n + 1 : Nat) : Int) := by omega
  rw [e1, e2, e3, e4, get_in (by omega) (by omega), get_in (by omega) (by omega), get_in (by omega) (by omega), get_in (by omega) (by omega)]

theorem len_pos (a b : ℝ) : 0 < len (a, b, 1) := by
  unfold len
  apply Real.sqrt_pos.2
  positivity

theorem len_sq (v : P3) : len v * len v = v.1 ^ 2 + v.2.1 ^ 2 + v.2.2 ^ 2 := Real.mul_self_sqrt (by positivity)

/-- C109 for cells with neighbours on all sides: the normal is the unit vector upwards that is orthogonal to the lines through the opposite neighbours. -/
theorem C109_normal_partial (g : Geo) (hx : 0 < g.sx) (hy : 0 < g.sy) (d : Nat → Nat → ℝ) (m n : Nat) (h : Inner g m n) :
    ∃ v, getNormal g d m n = .ok v ∧ UpNormal (2 * g.sx, 0, d n (m + 1) - d n (m - 1)) (0, 2 * g.sy, d (n + 1) m - d (n - 1) m) v := by
  refine ⟨_, getNormal_inner h, ?_⟩
  generalize ha : (d n (m - 1) - d n (m + 1)) / (g.sx * 2) = a
  generalize hb : (d (n - 1) m - d (n + 1) m) / (g.sy * 2) = b
  have ha' : d n (m - 1) - d n (m + 1) = a * (g.sx * 2) := by
    rw [← ha]
    field_simp
  have hb' : d (n - 1) m - d (n + 1) m = b * (g.sy * 2) := by
    rw [← hb]
    field_simp
  have hl := len_pos a b
  have hs := len_sq (a, b, 1)
  dsimp only at hs
  generalize hlen : len (a, b, 1) = l at *
  unfold UpNormal dot normalized
  rw [hlen]
  dsimp only
  refine ⟨?_, by positivity, ?_, ?_⟩
  · field_simp
    linarith
  · field_simp
    linarith
  · field_simp
    linarith

/-- there is only one such vector -/
theorem C109_unique (sx sy p q : ℝ) (hx : 0 < sx) (hy : 0 < sy) (v w : P3) (hv : UpNormal (2 * sx, 0, p) (0, 2 * sy, q) v) (hw : UpNormal (2 * sx, 0, p) (0, 2 * sy, q) w) : v = w := by
  have key : ∀ v : P3, UpNormal (2 * sx, 0, p) (0, 2 * sy, q) v → v.1 = -(p / (2 * sx)) * v.2.2 ∧ v.2.1 = -(q / (2 * sy)) * v.2.2 ∧ v.2.2 ^ 2 * ((p / (2 * sx)) ^ 2 + (q / (2 * sy)) ^ 2 + 1) = 1 := by
    rintro ⟨a, b, c⟩ ⟨h1, h2, h3, h4⟩
    simp only [dot] at h1 h2 h3 h4 ⊢
    have e1 : a = -(p / (2 * sx)) * c := by
      field_simp
      linarith
    have e2 : b = -(q / (2 * sy)) * c := by
      field_simp
      linarith
    refine ⟨e1, e2, ?_⟩
    rw [e1, e2] at h1
    linear_combination h1
  obtain ⟨a1, a2, a3⟩ := key v hv
  obtain ⟨b1, b2, b3⟩ := key w hw
  have hp : 0 < (p / (2 * sx)) ^ 2 + (q / (2 * sy)) ^ 2 + 1 := by positivity
  have hsq : v.2.2 ^ 2 = w.2.2 ^ 2 := mul_right_cancel₀ hp.ne' (a3.trans b3.symm)
  have hz : v.2.2 = w.2.2 := by
    rcases sq_eq_sq_iff_eq_or_eq_neg.1 hsq with h | h
    · exact h
    · have := hv.2.1
      have := hw.2.1
      linarith
  refine Prod.ext ?_ (Prod.ext ?_ hz)
  · rw [a1, b1, hz]
  · rw [a2, b2, hz]

theorem getElevation_inner {g : Geo} (hx : 0 < g.sx) (hy : 0 < g.sy) {d : Nat → Nat → ℝ} {m n : Nat} (h : Inner g m n) {x y : ℝ} (hc : InCell g (m, n) (x, y, 0)) :
    getElevation g d x y = .ok (d n m + (x - (centre g m n).1) * ((d n (m + 1) - d n (m - 1)) / (2 * g.sx)) + (y - (centre g m n).2) * ((d (n + 1) m - d (n - 1) m) / (2 * g.sy))) := by
  have ht : toGrid g x y = some (m, n) := (toGrid_iff hx hy (x, y, 0) (m, n)).2 hc
  unfold getElevation getNormalAt
  rw [ht]
  dsimp only
  rw [getNormal_inner h]
  dsimp only [normalized, centre]
  have hl := len_pos ((d n (m - 1) - d n (m + 1)) / (g.sx * 2)) ((d (n - 1) m - d (n + 1) m) / (g.sy * 2))
  generalize len _ = l at *
  congr 1
  field_simp
  ring

/-- C109 for positions in cells with neighbours on all sides: the elevation is that of the plane through the elevation of the cell at its middle, with the slopes given by the opposite neighbours. -/
theorem C109_elevation_partial (g : Geo) (hx : 0 < g.sx) (hy : 0 < g.sy) (d : Nat → Nat → ℝ) (m n : Nat) (h : Inner g m n) (x y : ℝ) (hc : InCell g (m, n) (x, y, 0)) :
    ∃ v z, getNormalAt g d x y = .ok v ∧ getElevation g d x y = .ok z ∧ dot v (x - (centre g m n).1, y - (centre g m n).2, z - d n m) = 0 := by
  have ht : toGrid g x y = some (m, n) := (toGrid_iff hx hy (x, y, 0) (m, n)).2 hc
  obtain ⟨v, hv, -, h2, h3, h4⟩ := C109_normal_partial g hx hy d m n h
  refine ⟨v, _, ?_, getElevation_inner hx hy h hc, ?_⟩
  · unfold getNormalAt
    rw [ht]
    exact hv
  · simp only [dot] at h3 h4 ⊢
    have e1 : v.1 = -((d n (m + 1) - d n (m - 1)) / (2 * g.sx)) * v.2.2 := by
      field_simp
      linarith
    have e2 : v.2.1 = -((d (n + 1) m - d (n - 1) m) / (2 * g.sy)) * v.2.2 := by
      field_simp
      linarith
    rw [e1, e2]
    ring

/-- elevations of a plane are exact -/
theorem C109_plane (g : Geo) (hx : 0 < g.sx) (hy : 0 < g.sy) (d : Nat → Nat → ℝ) (α β γ : ℝ) (hd : ∀ n < g.h, ∀ m < g.w, d n m = α * (centre g m n).1 + β * (centre g m n).2 + γ) (m n : Nat) (h : Inner g m n) (x y : ℝ)
    (hc : InCell g (m, n) (x, y, 0)) : getElevation g d x y = .ok (α * x + β * y + γ) := by
  rw [getElevation_inner hx hy h hc]
  obtain ⟨h1, h2, h3, h4⟩ := h
  rw [hd n (by omega) m (by omega), hd n (by omega) (m + 1) (by omega), hd n (by omega) (m - 1) (by omega), hd (n + 1) (by omega) m (by omega), hd (n - 1) (by omega) m (by omega)]
  simp only [centre]
  rw [Nat.cast_sub (by omega : 1 ≤ m), Nat.cast_sub (by omega : 1 ≤ n)]
  push_cast
  congr 1
  field_simp
  ring

/-- the elevation in the middle of a cell is the one of the cell -/
theorem C109_centre (g : Geo) (hx : 0 < g.sx) (hy : 0 < g.sy) (d : Nat → Nat → ℝ) (m n : Nat) (h : Inner g m n) : getElevation g d (centre g m n).1 (centre g m n).2 = .ok (d n m) := by
  have hc : InCell g (m, n) ((centre g m n).1, (centre g m n).2, 0) := by
    obtain ⟨h1, h2, h3, h4⟩ := h
    refine ⟨⟨by dsimp only; omega, ?_, ?_⟩, by dsimp only; omega, ?_, ?_⟩ <;> dsimp only [centre] <;> nlinarith
  rw [getElevation_inner hx hy h hc]
  congr 1
  ring

/-- positions outside of the grid are rejected -/
theorem C109_outside (g : Geo) (hx : 0 < g.sx) (hy : 0 < g.sy) (d : Nat → Nat → ℝ) (x y : ℝ) (hc : ∀ c, ¬ InCell g c (x, y, 0)) : getElevation g d x y = .throws ∧ getNormalAt g d x y = .throws := by
  have ht : toGrid g x y = none := by
    cases h : toGrid g x y with
    | none => rfl
    | some c => exact absurd ((toGrid_iff hx hy (x, y, 0) c).1 h) (hc c)
  unfold getElevation getNormalAt
  rw [ht]
  exact ⟨rfl, rfl⟩

theorem get_out {g : Geo} {d : Nat → Nat → ℝ} {n m : Int} (h : ¬ (0 ≤ n ∧ n < g.h ∧ 0 ≤ m ∧ m < g.w)) : get g d n m = none := if_neg h

/-- Violation: for the cells at the border of the grid, elements outside of it are accessed. -/
theorem C109_border (g : Geo) (hx : 0 < g.sx) (hy : 0 < g.sy) (d : Nat → Nat → ℝ) (m n : Nat) (h : ¬ Inner g m n) (x y : ℝ) (hc : InCell g (m, n) (x, y, 0)) :
    getNormalAt g d x y = .undefined ∧ getElevation g d x y = .undefined := by
  have ht : toGrid g x y = some (m, n) := (toGrid_iff hx hy (x, y, 0) (m, n)).2 hc
  have hn : getNormal g d m n = .undefined := by
    unfold getNormal
    have : get g d n (m - 1) = none ∨ get g d n (m + 1) = none ∨ get g d (n - 1) m = none ∨ get g d (n + 1) m = none := by
      unfold Inner at h
      by_cases h1 : 0 < m
      · by_cases h2 : m + 1 < g.w
        · by_cases h3 : 0 < n
          · exact .inr (.inr (.inr (get_out (by omega))))
          · exact .inr (.inr (.inl (get_out (by omega))))
        · exact .inr (.inl (get_out (by omega)))
      · exact .inl (get_out (by omega))
    rcases this with h | h | h | h <;> rw [h] <;> split <;> simp_all
  have hna : getNormalAt g d x y = .undefined := by
    unfold getNormalAt
    rw [ht]
    exact hn
  refine ⟨hna, ?_⟩
  unfold getElevation
  rw [ht]
  dsimp only
  rw [hna]

/-- an example: the plane 2 x + y on a grid of 3 x 3 cells -/
example : getElevation (unitGrid 3 3) (fun n m => 2 * (m + 1 / 2) + (n + 1 / 2)) (5 / 4) (7 / 4) = .ok (17 / 4) := by
  rw [C109_plane (unitGrid 3 3) (by norm_num [unitGrid]) (by norm_num [unitGrid]) _ 2 1 0 (by intro n _ m _; simp [centre, unitGrid]) 1 1 ⟨by decide, by decide, by decide, by decide⟩ (5 / 4) (7 / 4)
    ⟨⟨by decide, by norm_num [unitGrid], by norm_num [unitGrid]⟩, by decide, by norm_num [unitGrid], by norm_num [unitGrid]⟩]
  norm_num

/-- and a position at its border -/
example (d : Nat → Nat → ℝ) : getElevation (unitGrid 3 3) d (1 / 4) (7 / 4) = .undefined :=
  (C109_border (unitGrid 3 3) (by norm_num [unitGrid]) (by norm_num [unitGrid]) d 0 1 (fun h => absurd h.1 (by decide)) (1 / 4) (7 / 4)
    ⟨⟨by decide, by norm_num [unitGrid], by norm_num [unitGrid]⟩, by decide, by norm_num [unitGrid], by norm_num [unitGrid]⟩).2

end Envire.ElevationGrid

#print axioms Envire.ElevationGrid.C109_normal_partial
#print axioms Envire.ElevationGrid.C109_unique
#print axioms Envire.ElevationGrid.C109_elevation_partial
#print axioms Envire.ElevationGrid.C109_plane
#print axioms Envire.ElevationGrid.C109_centre
#print axioms Envire.ElevationGrid.C109_outside
#print axioms Envire.ElevationGrid.C109_border
