import Mathlib.Algebra.BigOperators.Group.Finset.Basic
import Mathlib.Algebra.BigOperators.Fin
import Mathlib.Algebra.Order.Field.Basic
import Mathlib.Data.Fintype.BigOperators
import Mathlib.Data.Matrix.Mul

/-!
Model of `KMeans` (src/tools/ExpectationMaximization.hpp l.21-142) and of `Gaussian::Stats` (src/tools/GaussianMixture.hpp
l.31-50).

Simplifications: exact arithmetic in an ordered field `K`; the arrays `samples`, `weights` (N elements) and `means`, `sum`
(k elements, `numClasses`) are functions on `Fin N` and `Fin k`; missing weights are ones (l.83, l.129); the kd-tree is the list of
the centres by class, and its search (`find_nearest`, libkdtree++) is a function `find` of the tree and of the point. A class without
weight has the centre 0/0 (not a number), what the kd-tree does with it is not specified: outcome `degenerate`.
-/

namespace Envire.KMeans

variable {K : Type*} [Field K] [LinearOrder K] [IsStrictOrderedRing K] {d N k : Nat}

/-- a sample or a mean: `Vector` -/
abbrev Vec (K : Type*) (d : Nat) := Fin d → K

/-- squared Euclidean distance -/
def sqDist (u v : Vec K d) : K := ∑ c, (u c - v c) ^ 2

/-- the samples with their weights -/
structure Data (K : Type*) (d N : Nat) where
  sample : Fin N → Vec K d
  weight : Fin N → K

/-- `index` and `kdtree` -/
structure State (K : Type*) (d N k : Nat) where
  index : Fin N → Fin k
  tree : Fin k → Vec K d

/-- `initialize`; l.52-76. `none` if the assertion fails. Class j starts at the sample `j * stride`. -/
def start (k : Nat) (s : Fin N → Vec K d) : Option (State K d N k) :=
  if h : k ≤ N ∧ 0 < k then
    some { index := fun _ => ⟨0, h.2⟩
           tree := fun j => s ⟨j * (N / k), by
             have h1 : j.1 * (N / k) < k * (N / k) := Nat.mul_lt_mul_of_pos_right j.2 (Nat.div_pos h.1 h.2)
             exact lt_of_lt_of_le h1 (Nat.mul_div_le N k)⟩ }
  else none

/-- `sum[j]`; l.85-92 -/
def sumOf (D : Data K d N) (index : Fin N → Fin k) (j : Fin k) : K := ∑ i, if index i = j then D.weight i else 0

/-- `means[j]` before the division; l.85-92 -/
def total (D : Data K d N) (index : Fin N → Fin k) (j : Fin k) : Vec K d :=
  fun c => ∑ i, if index i = j then D.sample i c * D.weight i else 0

/-- `calcMeans`; l.78-101: the new tree, `none` if a class has no weight -/
def calcMeans (D : Data K d N) (index : Fin N → Fin k) : Option (Fin k → Vec K d) :=
  if ∃ j, sumOf D index j = 0 then none
  else some fun j c => total D index j c / sumOf D index j

/-- `associateSamples`; l.103-114: the new index and the number of switches -/
def associate (find : (Fin k → Vec K d) → Vec K d → Fin k) (D : Data K d N) (s : State K d N k) : (Fin N → Fin k) × Nat :=
  let index := fun i => find s.tree (D.sample i)
  (index, ∑ i, if index i ≠ s.index i then 1 else 0)

/-- outcome of some iterations of `run` -/
inductive Outcome (K : Type*) (d N k : Nat) where
  | running (s : State K d N k)
  | done (s : State K d N k)
  | degenerate (index : Fin N → Fin k)

/-- one iteration of the loop of `run`; l.116-120 -/
def iterate (find : (Fin k → Vec K d) → Vec K d → Fin k) (D : Data K d N) : Outcome K d N k → Outcome K d N k
  | .running s =>
    let a := associate find D s
    if a.2 = 0 then .done { s with index := a.1 }
    else match calcMeans D a.1 with
      | none => .degenerate a.1
      | some tree => .running { index := a.1, tree := tree }
  | o => o

/-- `run` for at most `n` iterations -/
def run (find : (Fin k → Vec K d) → Vec K d → Fin k) (D : Data K d N) (s : State K d N k) : Nat → Outcome K d N k
  | 0 => .running s
  | n + 1 => iterate find D (run find D s n)

/-- `Gaussian::Stats`; GaussianMixture.hpp l.31-37 -/
structure Stats (K : Type*) (d : Nat) where
  Sxx : Matrix (Fin d) (Fin d) K
  Sx : Vec K d
  sum : K

/-- l.37 -/
def Stats.zero : Stats K d := { Sxx := 0, Sx := 0, sum := 0 }

/-- `insert`; l.38-43 -/
def Stats.insert (s : Stats K d) (v : Vec K d) (w : K) : Stats K d :=
  { Sx := s.Sx + fun c => v c * w
    Sxx := s.Sxx + Matrix.of fun a b => v a * v b * w
    sum := s.sum + w }

/-- `update`; l.45-50: mean and covariance, `none` if the sum of the weights is 0 (the result is not a number) -/
def Stats.update (s : Stats K d) : Option (Vec K d × Matrix (Fin d) (Fin d) K) :=
  if s.sum = 0 then none
  else
    let mean : Vec K d := fun c => s.Sx c / s.sum
    some (mean, Matrix.of fun a b => s.Sxx a b / s.sum - mean a * mean b)

/-- the loop of `getClusters` over the samples; ExpectationMaximization.hpp l.125-129 -/
def gather (D : Data K d N) (index : Fin N → Fin k) (j : Fin k) : Stats K d :=
  (List.finRange N).foldl (fun s i => if index i = j then s.insert (D.sample i) (D.weight i) else s) Stats.zero

/-- `getClusters`; l.122-136 -/
def getClusters (D : Data K d N) (index : Fin N → Fin k) (j : Fin k) : Option (Vec K d × Matrix (Fin d) (Fin d) K) :=
  (gather D index j).update

end Envire.KMeans
