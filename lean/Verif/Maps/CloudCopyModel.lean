import Verif.Ops.ToCloudModel
import Mathlib.Analysis.SpecialFunctions.Pow.Real

/-!
Model of copyFrom (both) and getExtents of src/maps/Pointcloud.cpp l.131-174, with clear of src/maps/Pointcloud.hpp l.55-62.

Simplifications: real numbers for `double`. A transform is its matrix without the last row (0, 0, 0, 1). Of base::samples::Pointcloud points and colors are modelled, these are all its data but the time.
-/

namespace Envire.CloudCopy

open Envire.Ply (V3 Res)
open Envire.ToCloud (PC clear)

/-- an affine transform: its first three rows -/
structure Aff where
  m : Fin 3 → Fin 4 → ℝ

noncomputable section

def coord (p : V3) : Fin 4 → ℝ := ![p.1, p.2.1, p.2.2, 1]

def Aff.row (t : Aff) (p : V3) (i : Fin 3) : ℝ := ∑ j, t.m i j * coord p j

def Aff.apply (t : Aff) (p : V3) : V3 := (t.row p 0, t.row p 1, t.row p 2)

def unit (i : Fin 3) (j : Fin 4) : ℝ := if (i : Nat) = j then 1 else 0

/-- `isApprox` of Eigen for the matrices of transforms, with its default precision -/
def Aff.isIdentity (t : Aff) : Prop :=
  ∑ i, ∑ j, (t.m i j - unit i j) ^ 2 ≤ (1 / 10 ^ 12) ^ 2 * min (∑ i, ∑ j, t.m i j ^ 2 + 1) 4

open Classical in
/-- copyFrom l.131-149; `source` is `none` if it is this cloud itself, `t` is the relative transform, `none` if the source is not in a frame (a NULL pointer is dereferenced) -/
def copyFrom (c : PC) (source : Option PC) (t : Option Aff) (transform : Bool) : Res PC :=
  match clear c with
  | .ok c =>
    match t with
    | none => .undefined
    | some t =>
      let v := (source.getD c).vertices
      .ok { c with vertices := if transform = false ∨ t.isIdentity then v else c.vertices ++ v.map t.apply }
  | .throws => .throws
  | .undefined => .undefined

/-- base::samples::Pointcloud -/
structure Sample where
  points : List V3
  colors : List (ℝ × ℝ × ℝ × ℝ)

/-- copyFrom l.151-163 -/
def copySample (c : PC) (s : Sample) : Res PC :=
  match clear c with
  | .ok c => .ok { c with vertices := s.points, colors := some (c.colors.getD [] ++ s.colors.map fun q => (q.1, q.2.1, q.2.2.1)) }
  | .throws => .throws
  | .undefined => .undefined

/-- AlignedBox::extend; `none` is the empty box -/
def extend (b : Option (V3 × V3)) (p : V3) : Option (V3 × V3) :=
  match b with
  | none => some (p, p)
  | some (a, b) => some ((min a.1 p.1, min a.2.1 p.2.1, min a.2.2 p.2.2), (max b.1 p.1, max b.2.1 p.2.1, max b.2.2 p.2.2))

/-- getExtents l.165-174 -/
def extents (c : PC) : Option (V3 × V3) := c.vertices.foldl extend none

end

end Envire.CloudCopy
