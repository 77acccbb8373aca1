import Mathlib.LinearAlgebra.Matrix.Charpoly.Eigs
import Mathlib.LinearAlgebra.Matrix.ToLinearEquiv
import Mathlib.LinearAlgebra.CrossProduct
import Mathlib.Analysis.Complex.Polynomial.Basic
import Mathlib.Data.Matrix.Basic
import Mathlib.Data.Real.Sqrt

/-!
Model of the class Pairs of icp/icp.hpp l.32-76 and icp/icp.cpp: add, trim, getTransform, size, clear, getMeanSquareError.

Simplifications: real numbers for `double`; NaN is `none`. std::sort is any function that permutes its argument into
ascending order (`Sorting`). The EigenSolver of Eigen is any four pairs of an eigenvalue and an eigenvector as in `EigOf`;
Eigen normalises the vectors, and the vectors of real eigenvalues are real.
-/

namespace Envire.Icp

abbrev V3 := Fin 3 → ℝ
abbrev M3 := Matrix (Fin 3) (Fin 3) ℝ
abbrev M4 := Matrix (Fin 4) (Fin 4) ℝ

/-- Pairs::pair, icp.hpp l.63-72 -/
@[ext] structure Entry where
  index : Nat
  distance : ℝ

/-- Pairs, icp.hpp l.60-75. `mse` is not initialised by the constructor -/
@[ext] structure Pairs where
  x : List V3
  p : List V3
  pairs : List Entry
  mse : ℝ

/-- outcome of a call: `undefined` stands for undefined behaviour -/
inductive Res (α : Type) | ok (a : α) | throws | undefined

/-- clear, icp.cpp l.114-119 -/
def Pairs.clear (s : Pairs) : Pairs := { s with pairs := [], x := [], p := [] }

/-- size, l.104-107 -/
def Pairs.size (s : Pairs) : Nat := s.pairs.length

/-- add, l.12-21 -/
def Pairs.add (s : Pairs) (a b : V3) (dist : ℝ) : Pairs :=
  { s with x := s.x ++ [a], p := s.p ++ [b], pairs := s.pairs ++ [⟨s.pairs.length, dist⟩] }

/-- std::sort with the operator < of the entries -/
structure Sorting where
  sort : List Entry → List Entry
  perm : ∀ l, (sort l).Perm l
  sorted : ∀ l, (sort l).Pairwise fun a b => a.distance ≤ b.distance

/-- trim, l.23-41; `none` is NaN -/
def Pairs.trim (so : Sorting) (s : Pairs) (n : Nat) : Pairs × Option ℝ :=
  let sorted := so.sort s.pairs
  let kept := if n < sorted.length then sorted.take n else sorted
  ({ s with pairs := kept }, kept.getLast?.map Entry.distance)

/-- the points p and x and the distance of a pair, l.55-60; `none` if an index is out of range -/
def Pairs.row (s : Pairs) (e : Entry) : Option (V3 × V3 × ℝ) :=
  match s.p[e.index]?, s.x[e.index]? with
  | some pv, some xv => some (pv, xv, e.distance)
  | _, _ => none

def Pairs.rows (s : Pairs) : Option (List (V3 × V3 × ℝ)) := s.pairs.mapM s.row

noncomputable section

abbrev Row := V3 × V3 × ℝ

/-- a sum over all pairs times n_inv, l.61-71 -/
def mean (l : List Row) (f : Row → ℝ) : ℝ := (l.map f).sum * (1 / l.length)

def muP (l : List Row) : V3 := fun i => mean l fun r => r.1 i
def muX (l : List Row) : V3 := fun i => mean l fun r => r.2.1 i
def muD (l : List Row) : ℝ := mean l fun r => r.2.2 * r.2.2

/-- l.73 -/
def sigma (l : List Row) : M3 := fun i j => mean l (fun r => r.1 i * r.2.1 j) - muP l i * muX l j

/-- l.76-77 -/
def diff (s : M3) : M3 := s - s.transpose
def delta (s : M3) : V3 := ![diff s 1 2, diff s 2 0, diff s 0 1]

/-- trace() -/
def tr (s : M3) : ℝ := s 0 0 + s 1 1 + s 2 2

/-- l.79-81 -/
def qMat (s : M3) : M4 :=
  !![tr s, delta s 0, delta s 1, delta s 2;
     delta s 0, diff s 0 0 - tr s, diff s 0 1, diff s 0 2;
     delta s 1, diff s 1 0, diff s 1 1 - tr s, diff s 1 2;
     delta s 2, diff s 2 0, diff s 2 1, diff s 2 2 - tr s]

/-- eigenvalues() and the columns of eigenvectors() of an EigenSolver -/
structure Eig where
  vals : Fin 4 → ℂ
  vecs : Fin 4 → Fin 4 → ℂ

/-- `e` is an eigenvalue decomposition of `q` -/
structure EigOf (q : M4) (e : Eig) : Prop where
  eigen : ∀ i, (q.map (algebraMap ℝ ℂ)).mulVec (e.vecs i) = e.vals i • e.vecs i
  unit : ∀ i, ∑ k, Complex.normSq (e.vecs i k) = 1
  real : ∀ i, (e.vals i).im = 0 → ∀ k, (e.vecs i k).im = 0
  all : ∀ (m : ℂ) (u : Fin 4 → ℂ), u ≠ 0 → (q.map (algebraMap ℝ ℂ)).mulVec u = m • u → ∃ i, e.vals i = m

/-- Eigen::Quaterniond -/
@[ext] structure Quat where
  w : ℝ
  v : V3

/-- l.86 -/
def Eig.maxEig (e : Eig) : ℝ := Finset.univ.sup' Finset.univ_nonempty fun i => (e.vals i).re

open Classical in
/-- l.84-93; `none`: q_R is not set -/
def Eig.select (e : Eig) : Option Quat :=
  ((List.finRange 4).find? fun i => e.vals i = (e.maxEig : ℂ)).map fun i =>
    ⟨(e.vecs i 0).re, ![(e.vecs i 1).re, (e.vecs i 2).re, (e.vecs i 3).re]⟩

/-- product of a quaternion and a vector in Eigen: v + w * uv + u × uv with uv = 2 (u × v) -/
def Quat.rot (q : Quat) (v : V3) : V3 :=
  let uv := (2 : ℝ) • crossProduct q.v v
  v + q.w • uv + crossProduct q.v uv

/-- Affine3d( Translation3d( t ) * q ) -/
structure Motion where
  q : Quat
  t : V3

def Motion.apply (m : Motion) (v : V3) : V3 := m.q.rot v + m.t

/-- getTransform, l.43-102; `e` is the decomposition that the EigenSolver finds for q_px -/
def Pairs.getTransform (s : Pairs) (e : M4 → Eig) : Res (Motion × Pairs) :=
  if s.size < 3 then .throws
  else
    match s.rows with
    | none => .undefined
    | some l =>
      match (e (qMat (sigma l))).select with
      | none => .undefined
      | some q => .ok (⟨q, muX l - q.rot (muP l)⟩, { s with mse := muD l })

end

end Envire.Icp
