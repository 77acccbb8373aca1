import Verif.Icp.PairsProps
import Verif.Core.TransformProps
import Mathlib.Algebra.Order.Floor.Semiring
import Mathlib.Algebra.Group.End

/-!
Model of the adapters and of the alignment in icp/icp.hpp: PointcloudAdapter l.99-171, FindPairsKDTree l.223-264,
Trimmed l.332-511 (align with a given overlap, _align, addToModel, clearModel).

Simplifications: real numbers for `double`, infinity is `none`. A transform is a bijection of the points. `rotation()` in
applyTransform (l.157-158) does not change a rigid transform and is left out. The tree of libkdtree++ is a list of points;
its search is any function that finds a nearest point within the given distance (`Kd`). Only the adapter and the filter of
TrimmedKD are modelled, not those with edges and normals.
-/

namespace Envire.Icp

abbrev Tf := Equiv.Perm V3

noncomputable section

/-- Eigen norm() -/
def dist (a b : V3) : ℝ := √(sq (a - b))

/-- PointcloudAdapter, l.164-170. The index is part of the loops -/
structure Adapter where
  vertices : List V3
  density : ℝ
  local2global : Tf
  local2globalnew : Tf

/-- constructor, l.102-119; `t` is the transform of the frame of the cloud to the root node -/
def Adapter.mk' (vertices : List V3) (density : ℝ) (t : Tf) : Adapter := ⟨vertices, density, t, t⟩

/-- setOffsetTransform, l.121-124 -/
def Adapter.setOffset (a : Adapter) (c : Tf) : Adapter := { a with local2globalnew := c * a.local2global }

/-- the values of idx in a loop over hasNext and next, l.126-138, from a value of index -/
def visit (n : Nat) (density : ℝ) : Nat → ℝ → List Nat
  | 0, _ => []
  | fuel + 1, index => if ⌊index⌋₊ < n then ⌊index⌋₊ :: visit n density fuel (index + 1 / density) else []

open Classical in
/-- the points of a loop over reset, hasNext and next, l.126-142. If the density is not positive then the second value of
index is infinite or negative, and has no value as size_t -/
def Adapter.points (a : Adapter) : Res (List V3) :=
  if a.density ≤ 0 ∧ a.vertices ≠ [] then .undefined
  else .ok ((visit a.vertices.length a.density (⌈a.vertices.length * a.density⌉₊ + 1) 0).map
    fun i => a.local2globalnew (a.vertices.getD i 0))

open Classical in
/-- size, l.143-146 -/
def Adapter.size (a : Adapter) : Nat := ⌊a.vertices.length * a.density⌋₊

/-- find_nearest of the tree, with the largest distance to look at (`none`: infinity) -/
structure Kd where
  nearest : List V3 → V3 → Option ℝ → Option (V3 × ℝ)
  found : ∀ m p d a r, nearest m p d = some (a, r) → a ∈ m ∧ r = dist a p ∧ (∀ b ∈ m, r ≤ dist b p) ∧ ∀ x, d = some x → r ≤ x
  none : ∀ m p d, nearest m p d = none → ∀ b ∈ m, ∃ x, d = some x ∧ x < dist b p

/-- findPairs, l.242-252, for the points of the adapter -/
def findPairs (kd : Kd) (model : List V3) (pts : List V3) (d : Option ℝ) (s : Pairs) : Pairs :=
  pts.foldl (fun (s : Pairs) (p : V3) => match kd.nearest model p d with
    | some (a, r) => s.add a p r
    | none => s) s

/-- addModel, l.231-240 -/
def addModel (model : List V3) (a : Adapter) : Res (List V3) :=
  match a.points with
  | .ok pts => .ok (model ++ pts)
  | .throws => .throws
  | .undefined => .undefined

/-- the inverse of a rigid motion -/
def Motion.back (m : Motion) (v : V3) : V3 := m.q.mat.transpose.mulVec (v - m.t)

open Classical in
/-- the transform of a motion. Every motion of getTransform has a quaternion of norm 1 -/
def Motion.tf (m : Motion) : Tf :=
  if h : m.q.w ^ 2 + m.q.v 0 ^ 2 + m.q.v 1 ^ 2 + m.q.v 2 ^ 2 = 1 then
    { toFun := m.apply
      invFun := m.back
      left_inv := by
        intro v
        unfold Motion.back Motion.apply
        rw [rot_mat, add_sub_cancel_right, Matrix.mulVec_mulVec, mat_orth h, Matrix.one_mulVec]
      right_inv := by
        intro v
        unfold Motion.back Motion.apply
        rw [rot_mat, Matrix.mulVec_mulVec, mul_eq_one_comm.1 (mat_orth h), Matrix.one_mulVec, sub_add_cancel] }
  else 1

/-- Result, l.334-365, without the overlap -/
structure Result where
  c : Tf
  iter : Nat
  pairs : Nat
  mse : Option ℝ
  mseDiff : Option ℝ
  dbox : Option ℝ
  distances : List ℝ

/-- `a > b` for a value that can be infinite -/
def above (a : Option ℝ) (b : ℝ) : Prop := ∀ x, a = some x → b < x

/-- old_mse - mse, l.483 -/
def minus (a : Option ℝ) (b : ℝ) : Option ℝ := a.map (· - b)

structure Setup where
  kd : Kd
  so : Sorting
  e : M4 → Eig
  minMse : ℝ
  minMseDiff : ℝ
  overlap : ℝ

/-- one round of the loop, l.468-485: the new result, the pairs, and `true` if the function returns in l.476 -/
def round (u : Setup) (model : List V3) (m : Adapter) (r : Result) (s : Pairs) : Res (Result × Pairs × Bool) :=
  match (m.setOffset r.c).points with
  | .throws => .throws
  | .undefined => .undefined
  | .ok pts =>
    let s := findPairs u.kd model pts r.dbox s.clear
    let t := s.trim u.so ⌊m.size * u.overlap⌋₊
    let r := { r with dbox := t.2.map (· * 2), pairs := t.1.size }
    if t.1.size < 3 then .ok (r, t.1, true)
    else
      match t.1.getTransform u.e with
      | .throws => .throws
      | .undefined => .undefined
      | .ok (mo, s') =>
        .ok ({ r with c := mo.tf * r.c, mse := some s'.mse, mseDiff := minus r.mse s'.mse, iter := r.iter + 1 }, s', false)

open Classical in
/-- the loop of _align, l.466-506; the first argument is max_iter - iter -/
def loop (u : Setup) (model : List V3) (m : Adapter) : Nat → Result → Pairs → Res Result
  | 0, r, s => .ok { r with distances := s.pairs.map Entry.distance }
  | n + 1, r, s =>
    if above r.mse u.minMse ∧ above r.mseDiff u.minMseDiff then
      match round u model m r s with
      | .throws => .throws
      | .undefined => .undefined
      | .ok (r, s, true) => .ok r
      | .ok (r, s, false) => loop u model m n r s
    else .ok { r with distances := s.pairs.map Entry.distance }

/-- _align, l.453-507. `mse` is the value of the uninitialised member of Pairs. In the first round the adapter has the
transform of its constructor, which is the one of an offset that is the identity -/
def align (u : Setup) (model : List V3) (m : Adapter) (maxIter : Nat) (mse : ℝ) : Res Result :=
  loop u model m maxIter ⟨1, 0, 0, none, none, none, []⟩ ⟨[], [], [], mse⟩

/-- applyTransform, l.148-162: the new transform of the frame node -/
def applyTransform {G : Type} [Group G] (frame local2global c : G) : G := frame * local2global⁻¹ * c * local2global

end

end Envire.Icp
