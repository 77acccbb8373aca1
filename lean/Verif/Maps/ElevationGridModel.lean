import Verif.Ops.ElevationModel

/-!
Model of src/maps/ElevationGrid.cpp l.14-60: normal and elevation of a position.

Simplifications: real numbers for `double`; the grid has the band of the maximal elevations, with real values.
-/

namespace Envire.ElevationGrid

open Envire.Rect Envire.Elevation

inductive Res (A : Type) where
  | ok (a : A)
  | throws
  /-- access outside of the grid -/
  | undefined

/-- `grid[n][m]`: row n, column m. The numbers are integers since those of the neighbours may be negative (`size_t` wraps around). -/
def get (g : Geo) (d : Nat → Nat → ℝ) (n m : Int) : Option ℝ := if 0 ≤ n ∧ n < g.h ∧ 0 ≤ m ∧ m < g.w then some (d n.toNat m.toNat) else none

noncomputable def len (v : P3) : ℝ := Real.sqrt (v.1 ^ 2 + v.2.1 ^ 2 + v.2.2 ^ 2)

noncomputable def normalized (v : P3) : P3 := (v.1 / len v, v.2.1 / len v, v.2.2 / len v)

/-- getNormal l.14-23 -/
noncomputable def getNormal (g : Geo) (d : Nat → Nat → ℝ) (m n : Nat) : Res P3 :=
  match get g d n (m - 1), get g d n (m + 1), get g d (n - 1) m, get g d (n + 1) m with
  | some a, some b, some u, some v => .ok (normalized ((a - b) / (g.sx * 2), (u - v) / (g.sy * 2), 1))
  | _, _, _, _ => .undefined

/-- getNormal of a position, l.25-32 -/
noncomputable def getNormalAt (g : Geo) (d : Nat → Nat → ℝ) (x y : ℝ) : Res P3 :=
  match toGrid g x y with
  | none => .throws
  | some (m, n) => getNormal g d m n

/-- getElevation l.34-60 -/
noncomputable def getElevation (g : Geo) (d : Nat → Nat → ℝ) (x y : ℝ) : Res ℝ :=
  match toGrid g x y with
  | none => .throws
  | some (m, n) =>
    let cx := (m + 0.5) * g.sx + g.ox - x
    let cy := (n + 0.5) * g.sy + g.oy - y
    match getNormalAt g d x y with
    | .throws => .throws
    | .undefined => .undefined
    | .ok v => .ok (d n m + cx * (v.1 / v.2.2) + cy * (v.2.1 / v.2.2))

end Envire.ElevationGrid
