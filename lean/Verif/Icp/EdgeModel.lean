import Verif.Icp.AlignModel
import Mathlib.Analysis.SpecialFunctions.Trigonometric.Inverse

/-!
Model of the adapter and the filter with edges and normals of icp/icp.hpp l.91-97, l.173-221, and of findPairs with a filter, l.242-252.

Simplifications: real numbers; a normal with NaN is `none`; the transforms of the adapter have a linear part and a translation. The search of the tree is a parameter as in
Verif/Icp/AlignModel.
-/
namespace Envire.Icp.Edge

open Envire.Icp

noncomputable section

/-- VertexEdgeAndNormalNode, l.91-97 -/
structure Node where
  point : V3
  /-- `none`: NaN -/
  normal : Option V3
  edge : Bool

/-- a cloud with its data; the vectors of attributes and normals are empty if there was no data of that name, Pointcloud.hpp l.46-53 -/
structure Cloud where
  vertices : List V3
  normals : List (Option V3)
  attrs : List Nat

/-- an affine map: C_local2globalnew -/
structure Affine where
  linear : M3
  shift : V3

/-- next, l.184-193, at an index; `none` is an access out of range. The edge is the bit with the number SCAN_EDGE = 1 -/
def node (t : Affine) (c : Cloud) (i : Nat) : Option Node :=
  match c.vertices[i]?, c.attrs[i]?, c.normals[i]? with
  | some v, some a, some n => some ⟨t.linear.mulVec v + t.shift, n.map t.linear.mulVec, a.testBit 1⟩
  | _, _, _ => none

/-- the nodes of a loop over hasNext and next, for a positive density -/
def nodes (t : Affine) (c : Cloud) (density : ℝ) : Option (List Node) :=
  (visit c.vertices.length density (⌈c.vertices.length * density⌉₊ + 1) 0).mapM (node t c)

/-- the scalar product of the normals; `none` is NaN -/
def dot (a b : Option V3) : Option ℝ :=
  match a, b with
  | some u, some v => some (u 0 * v 0 + u 1 * v 1 + u 2 * v 2)
  | _, _ => none

open Classical in
/-- std::min( 1.0, x ), which is 1.0 unless x is less -/
def clamp : Option ℝ → ℝ
  | some x => if x < 1 then x else 1
  | none => 1

open Classical in
/-- acos; `none` is NaN -/
def acos (x : ℝ) : Option ℝ := if x < -1 ∨ 1 < x then none else some (Real.arccos x)

/-- MAX_NORMAL_DEV, l.209 -/
def maxDev : ℝ := Real.pi / 8

open Classical in
/-- EdgeAndNormalPairFilter, l.213-220; a comparison with NaN is false -/
def accept (a b : Node) : Bool :=
  !(a.edge || b.edge) && match acos (clamp (dot a.normal b.normal)) with
    | some x => decide (x < maxDev)
    | none => false

/-- find_nearest of the tree of nodes -/
structure Tree where
  nearest : List Node → V3 → Option ℝ → Option (Node × ℝ)
  found : ∀ m p d a r, nearest m p d = some (a, r) → a ∈ m ∧ r = dist a.point p ∧ (∀ b ∈ m, r ≤ dist b.point p) ∧ ∀ x, d = some x → r ≤ x
  none : ∀ m p d, nearest m p d = none → ∀ b ∈ m, ∃ x, d = some x ∧ x < dist b.point p

/-- findPairs l.242-252 -/
def findPairs (kd : Tree) (model pts : List Node) (d : Option ℝ) (s : Pairs) : Pairs :=
  pts.foldl (fun (s : Pairs) (p : Node) => match kd.nearest model p.point d with
    | some (a, r) => if accept p a then s.add a.point p.point r else s
    | none => s) s

end

end Envire.Icp.Edge
