import Verif.Icp.PairsModel

/-!
Model of icp/ransac.hpp: FitTransform l.13-74, pickRandomIndex l.106-118, ransacSingleModel l.120-179.

Simplifications: real numbers for `double`. The calls of pickRandomIndex give the lists `pick 0`, `pick 1`, …; all that is
known of them is `IsPick`. softIterLimit, calculated from the number of inliers in float (l.165-171), is an arbitrary function
of this number. The models that were tried are part of the outcome. FitTransformUncertain l.76-98 is not modelled.
-/

namespace Envire.Icp.Ransac

open Envire.Icp

/-- a model of the fit concept: getSampleCount, fitModel, and testSample compared with p_fitnessThreshold -/
structure Fit (M : Type) where
  samples : Nat
  fit : List Nat → Option M
  below : Nat → M → Bool

/-- what pickRandomIndex may return, l.106-118 -/
structure IsPick (n k : Nat) (l : List Nat) : Prop where
  length : l.length = k
  nodup : l.Nodup
  range : ∀ i ∈ l, i < n

/-- outcome: the result with p_bestModel and p_inliers (`none` if they were not set) and the models that were tried, the last
one first; or a failed assertion -/
inductive Out (M : Type)
  | done (ret : Bool) (best : Option (M × List Nat)) (tried : List M)
  | assertion

/-- the inner loop l.137-146 with `r` attempts left before the last one, which always returns false -/
def attempt {M : Type} (f : Fit M) (pick : Nat → List Nat) : Nat → Nat → Option M × Nat
  | 0, t => (none, t + 1)
  | r + 1, t =>
    match f.fit (pick t) with
    | some m => (some m, t + 1)
    | none => attempt f pick r (t + 1)

/-- l.148-154 -/
def inliers {M : Type} (f : Fit M) (m : M) : List Nat := (List.range f.samples).filter fun i => f.below i m

/-- local variables of ransacSingleModel; `calls` counts the calls of pickRandomIndex -/
structure St (M : Type) where
  bestScore : Nat
  iter : Nat
  softIterLimit : Nat
  best : Option (M × List Nat)
  calls : Nat
  tried : List M

/-- l.155-175 -/
def rate {M : Type} (f : Fit M) (soft : Nat → Nat) (m : M) (calls : Nat) (s : St M) : St M :=
  let inl := inliers f m
  if s.bestScore < inl.length then
    { bestScore := inl.length, iter := s.iter + 1, softIterLimit := soft inl.length, best := some (m, inl),
      calls := calls, tried := m :: s.tried }
  else { s with iter := s.iter + 1, calls := calls, tried := m :: s.tried }

/-- the loop l.132-176; `r` is hardIterLimit - iter -/
def loop {M : Type} (f : Fit M) (pick : Nat → List Nat) (soft : Nat → Nat) (hard : Nat) : Nat → St M → Out M
  | 0, s => .done true s.best s.tried
  | r + 1, s =>
    if s.iter < s.softIterLimit then
      match attempt f pick hard s.calls with
      | (none, _) => .done false s.best s.tried
      | (some m, calls) =>
        if inliers f m = [] then .assertion else loop f pick soft hard r (rate f soft m calls s)
    else .done true s.best s.tried

/-- ransacSingleModel, l.120-179 -/
def ransac {M : Type} (f : Fit M) (pick : Nat → List Nat) (soft : Nat → Nat) (kernel hard : Nat) : Out M :=
  if 0 < hard ∧ f.samples < kernel then .assertion
  else loop f pick soft hard hard ⟨0, 0, 1, none, 0, []⟩

noncomputable section

/-- norm() -/
def norm3 (v : V3) : ℝ := √(v 0 ^ 2 + v 1 ^ 2 + v 2 ^ 2)

/-- FitTransform l.13-29; `x` and `p` have the same size -/
structure FitTransform where
  x : List V3
  p : List V3
  errorThreshold : ℝ

/-- testSample, l.66-73; indices are in range -/
def FitTransform.testSample (s : FitTransform) (i : Nat) (m : Motion) : ℝ :=
  norm3 (m.apply (s.p.getD i 0) - s.x.getD i 0)

/-- l.44-51 -/
def FitTransform.pairs (s : FitTransform) (l : List Nat) : Pairs :=
  l.foldl (fun (q : Pairs) i => q.add (s.x.getD i 0) (s.p.getD i 0) (norm3 (s.p.getD i 0 - s.x.getD i 0))) ⟨[], [], [], 0⟩

open Classical in
/-- fitModel, l.36-64 -/
def FitTransform.fitModel (s : FitTransform) (e : M4 → Eig) (l : List Nat) : Option Motion :=
  if l.length < 3 then none
  else
    match (s.pairs l).getTransform e with
    | .ok (m, _) => if ∃ i ∈ l, s.errorThreshold < s.testSample i m then none else some m
    | _ => none

open Classical in
def FitTransform.toFit (s : FitTransform) (e : M4 → Eig) (fitness : ℝ) : Fit Motion :=
  ⟨s.x.length, s.fitModel e, fun i m => decide (s.testSample i m < fitness)⟩

end

end Envire.Icp.Ransac
