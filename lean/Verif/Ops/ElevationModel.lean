import Verif.Tools.VoxelModel
import Mathlib.Data.EReal.Basic
import Mathlib.LinearAlgebra.Matrix.NonsingularInverse
import Mathlib.Data.Matrix.Reflection

/-!
Model of src/operators/Projection.cpp l.46-165: elevations of point clouds and their interpolation.

Simplifications: extended real numbers for `double` (no NaN); the transforms are functions; the operator has an output, and its inputs are point clouds (which is not checked in the code). The Delaunay triangulation of CGAL is a
parameter of the model: the face in which a position is located, for the points that were inserted. It is NULL, a triangle, or a face with the infinite vertex, the position of which is not initialised.
-/

namespace Envire.Elevation

open Envire.Rect Envire.Voxel

abbrev P3 : Type := ℝ × ℝ × ℝ

open Classical in
/-- toGrid, src/maps/GridBase.cpp l.392-415 -/
noncomputable def toGrid (g : Geo) (x y : ℝ) : Option (Nat × Nat) := if valid g (x, y) then some (⌊(x - g.ox) / g.sx⌋.toNat, ⌊(y - g.oy) / g.sy⌋.toNat) else none

/-- the two bands: row, column -/
structure Bands where
  max : Nat → Nat → EReal
  min : Nat → Nat → EReal

def set (d : Nat → Nat → EReal) (r c : Nat) (v : EReal) : Nat → Nat → EReal := fun r' c' => if r' = r ∧ c' = c then v else d r' c'

/-- l.76-82 -/
noncomputable def addPoint (g : Geo) (b : Bands) (p : P3) : Bands :=
  match toGrid g p.1 p.2.1 with
  | some (x, y) => { max := set b.max y x (b.max y x ⊔ (p.2.2 : EReal)), min := set b.min y x (b.min y x ⊓ (p.2.2 : EReal)) }
  | none => b

/-- updateElevationMap l.54-88. `root` is the transform of the root node; an input is its transform relative to the grid and its points. -/
noncomputable def updateElevation (g : Geo) (root : P3 → P3) (inputs : List ((P3 → P3) × List P3)) : Bands :=
  inputs.foldl (fun b i => i.2.foldl (fun b p => addPoint g b (root (i.1 p))) b) { max := fun _ _ => ⊥, min := fun _ _ => ⊤ }

/-! ### interpolation -/

/-- `fabs( v ) != infinity` -/
def Measured (v : EReal) : Prop := v ≠ ⊤ ∧ v ≠ ⊥

open Classical in
/-- the cells in which there is a value, in the order of the loops; l.119-121 -/
noncomputable def measured (h w : Nat) (d : Nat → Nat → EReal) : List (Nat × Nat) :=
  ((List.range h).flatMap fun r => (List.range w).map fun c => (r, c)).filter fun p => decide (Measured (d p.1 p.2))

/-- the points that are inserted; l.123-124 -/
noncomputable def inserted (h w : Nat) (d : Nat → Nat → EReal) : List P3 := (measured h w d).map fun p => ((p.1 : ℝ), (p.2 : ℝ), (d p.1 p.2).toReal)

/-- min_width, max_width, min_height and max_height; l.114-117, l.126-129 -/
structure Box where
  minR : Nat
  maxR : Nat
  minC : Nat
  maxC : Nat

noncomputable def box (h w : Nat) (d : Nat → Nat → EReal) : Box :=
  (measured h w d).foldl (fun b p => ⟨min b.minR p.1, max b.maxR p.1, min b.minC p.2, max b.maxC p.2⟩) ⟨h - 1, 0, w - 1, 0⟩

/-- the result of `locate` -/
inductive Face where
  | null
  | finite (a b c : P3)
  | infinite

/-- A; l.155 -/
def matA (a b c : P3) : Matrix (Fin 3) (Fin 3) ℝ := !![a.1, a.2.1, 1; b.1, b.2.1, 1; c.1, c.2.1, 1]

/-- l.147-160 -/
noncomputable def plane (a b c : P3) (x y : ℝ) : ℝ := ![x, y, 1] ⬝ᵥ ((matA a b c)⁻¹.mulVec ![a.2.2, b.2.2, c.2.2])

open Classical in
/-- interpolateMap l.91-165: the value of a cell after it, `none` if it is computed from an uninitialised position -/
noncomputable def interpolate (locate : List P3 → ℝ → ℝ → Face) (h w : Nat) (d : Nat → Nat → EReal) (r c : Nat) : Option EReal :=
  let b := box h w d
  if b.minR ≤ r ∧ r < b.maxR ∧ b.minC ≤ c ∧ c < b.maxC ∧ ¬ Measured (d r c) then
    match locate (inserted h w d) r c with
    | .null => some (d r c)
    | .finite p q s => some (plane p q s r c : ℝ)
    | .infinite => none
  else some (d r c)

end Envire.Elevation
