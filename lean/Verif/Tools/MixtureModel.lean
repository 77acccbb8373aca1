import Verif.Tools.KMeansModel
import Mathlib.Analysis.SpecialFunctions.Pow.Real
import Mathlib.LinearAlgebra.Matrix.NonsingularInverse
import Mathlib.LinearAlgebra.Matrix.Determinant.Basic

/-!
Model of `Gaussian`, `GaussianMixture` (src/tools/GaussianMixture.hpp), `GaussianMixtureSampling` and `ExpectationMaximization`
(src/tools/ExpectationMaximization.hpp l.138-316).

Simplifications: real arithmetic without rounding, so that no value is infinite or not a number except by a division by zero, which is a
separate outcome (`none`); the random numbers of the sampling are arguments; the Cholesky factor of a covariance (`llt()`, Eigen) is
a parameter; missing sample weights are ones (l.227, l.242, l.249).
-/

namespace Envire.Mixture

open Envire.KMeans (Vec)

variable {d : Nat}

/-- `Gaussian`; GaussianMixture.hpp l.19-28 -/
structure Gaussian (d : Nat) where
  mean : Vec ℝ d
  cov : Matrix (Fin d) (Fin d) ℝ

/-- `Gaussian::eval`; GaussianMixture.hpp l.56-66 -/
noncomputable def Gaussian.eval (g : Gaussian d) (x : Vec ℝ d) : ℝ :=
  let v := x - g.mean
  let e := v ⬝ᵥ Matrix.mulVec g.cov⁻¹ v
  (2 * Real.pi) ^ (-(d : ℝ) / 2) * Real.sqrt g.cov.det * Real.exp (-0.5 * e)

/-- `GaussianMixture::Parameter`; l.80-96 -/
structure Param (d : Nat) where
  dist : Gaussian d
  weight : ℝ

/-- `GaussianMixture::normalize`; l.101-114 -/
noncomputable def normalize (params : List (Param d)) : List (Param d) :=
  let sum := (params.map (·.weight)).foldl (· + ·) 0
  params.map fun p => if sum > 1e-5 then { p with weight := p.weight / sum } else { p with weight := 1.0 / params.length }

/-- `GaussianMixture::eval`; l.116-123 -/
noncomputable def mixEval (params : List (Param d)) (x : Vec ℝ d) : ℝ :=
  params.foldl (fun v p => v + p.dist.eval x) 0

/-- the loop of `GaussianMixtureSampling::sample`; ExpectationMaximization.hpp l.165-175: the component that is drawn for the
uniform random number `r`, `none` if an exception is thrown. `s` is the running sum. -/
noncomputable def pick (r : ℝ) : ℝ → List (Param d) → Option (Param d)
  | _, [] => none
  | s, p :: ps => if s + p.weight ≥ r then some p else pick r (s + p.weight) ps

/-- `GaussianMixtureSampling::sample`; l.159-176. `z` are the normal random numbers, `chol` the Cholesky factor. -/
noncomputable def sample (chol : Matrix (Fin d) (Fin d) ℝ → Matrix (Fin d) (Fin d) ℝ) (params : List (Param d)) (z : Vec ℝ d) (r : ℝ) :
    Option (Vec ℝ d) :=
  (pick r 0 params).map fun p => p.dist.mean + Matrix.mulVec (chol p.dist.cov) z

/-- a sample with its weight -/
abbrev Sample (d : Nat) := Vec ℝ d × ℝ

/-- `gamma(i, j)` before the scaling; l.237-239. `ev` is `Gaussian::eval`. -/
def value (ev : Gaussian d → Vec ℝ d → ℝ) (x : Sample d) (p : Param d) : ℝ := p.weight * ev p.dist x.1

/-- the sum over the components; l.233-240 -/
def likelihood (ev : Gaussian d → Vec ℝ d → ℝ) (params : List (Param d)) (x : Sample d) : ℝ :=
  (params.map (value ev x)).foldl (· + ·) 0

/-- `gamma(i, j)`; l.242 -/
noncomputable def gamma (ev : Gaussian d → Vec ℝ d → ℝ) (params : List (Param d)) (x : Sample d) (p : Param d) : ℝ :=
  value ev x p * (x.2 / likelihood ev params x)

/-- sum over the samples -/
def sumS {α M : Type*} [AddCommMonoid M] (xs : List α) (f : α → M) : M := (xs.map f).foldl (· + ·) 0

/-- the new parameters of a component with the responsibilities `g`; l.252-269. -/
noncomputable def updateParam (xs : List (Sample d)) (g : Sample d → ℝ) : Param d :=
  let nj := sumS xs g
  let mean : Vec ℝ d := (1.0 / nj) • sumS xs fun x => g x • x.1
  let cov : Matrix (Fin d) (Fin d) ℝ := (1.0 / nj) • sumS xs fun x => g x • Matrix.vecMulVec (x.1 - mean) (x.1 - mean)
  { dist := { mean := mean, cov := cov }, weight := nj / sumS xs fun x => x.2 }

/-- `step`; l.209-279: the returned value and the new components. `none` if a division by zero happens (a sample with likelihood 0; or
the weights have the sum 0). A component with a vanishing `n_j` is removed (l.255, l.272-276), so the division by it does no harm. -/
noncomputable def step (ev : Gaussian d → Vec ℝ d → ℝ) (xs : List (Sample d)) (params : List (Param d)) :
    Option (ℝ × List (Param d)) :=
  if params.length = 0 ∨ xs.length < params.length then some (0, params)
  else if (∃ x ∈ xs, likelihood ev params x = 0) ∨ sumS xs (fun x => x.2) = 0 then none
  else
    let loglhood := sumS xs (fun x => Real.log (likelihood ev params x)) / xs.length
    let new := params.filter fun p => ¬ sumS xs (fun x => gamma ev params x p) < 1e-4
    some (loglhood, new.map fun p => updateParam xs fun x => gamma ev params x p)

end Envire.Mixture
