import Verif.Grid.FitModel
import Mathlib.Analysis.SpecialFunctions.Trigonometric.Inverse
import Mathlib.Data.List.ProdSigma
import Mathlib.Algebra.Order.Floor.Ring

/-!
Model of the slopes that MLSSlope and TraversabilityGrassfire compute with a plane fit.

Source modelled: /repo/src/operators/MLSSlope.cpp l.130-206 and l.240-256 (the band mean_slope); /repo/src/operators/TraversabilityGrassfire.cpp l.37-161 (setTraversability);
numeric::PlaneFitting as specified in Verif/Grid/FitModel.

Simplifications: real numbers for `float` and `double`; `none` for the value UNKNOWN of MLSSlope; the input is the patch of each cell that is used (the topmost one, `maxElement` of
Verif/Ops/SlopeModel, or bestPatchMap of Verif/Ops/GrassfireModel); the order in which the neighbours are handed to the fitter is that of MLSSlope for both; grids with fewer than 2^31
columns and rows; at most 254 classes, so that they fit into a byte.
-/
namespace Envire.Incline
open Fit (Solver Sums)

noncomputable section

/-- a patch of a cell -/
structure Top where
  mean : ℝ
  stdev : ℝ
  count : Nat

/-- the patches that are used -/
abbrev Tops := ℤ → ℤ → Option Top

/-- the offsets of the loops l.167-171 -/
def offsets (w : ℤ) : List (ℤ × ℤ) :=
  let n := (2 * w + 1).toNat
  ((List.range n ×ˢ List.range n).map fun p => ((p.1 : ℤ) - w, (p.2 : ℤ) - w)).filter fun o => o ≠ (0, 0)

/-- the neighbours with a patch, l.173-187 -/
def near (g : Tops) (width height : ℤ) (w x y : ℤ) : List ((ℤ × ℤ) × Top) :=
  (offsets w).filterMap fun o =>
    if x + o.1 < 0 ∨ x + o.1 ≥ width ∨ y + o.2 < 0 ∨ y + o.2 ≥ height then none else (g (x + o.1) (y + o.2)).map fun t => (o, t)

/-- the updates of the fitter, l.184-186 and l.194 -/
def fitter (sx sy this : ℝ) (h : Top → ℝ) (l : List ((ℤ × ℤ) × Top)) : Sums :=
  (l.foldl (fun s p => s.add (Sums.one (p.1.1 * sx) (p.1.2 * sy) (this - h p.2) 1)) Sums.zero).add (Sums.one 0 0 0 1)

/-- l.202-204 -/
def angle (S : Solver) (s : Sums) : ℝ :=
  let fit := S.coeffs s
  Real.arccos (1 / √(fit.a * fit.a + fit.b * fit.b + 1))

/-- the band mean_slope of the cell, l.130-206, with the border of l.240-256 -/
def meanSlope (S : Solver) (g : Tops) (width height : ℤ) (required : Nat) (w : ℤ) (sx sy : ℝ) (x y : ℤ) : Option ℝ :=
  if x = 0 ∨ y = 0 ∨ x = width - 1 ∨ y = height - 1 then none
  else match g x y with
    | none => none
    | some t =>
      if required > 0 ∧ t.count < required then none
      else
        let l := near g width height w x y
        if l.length < 5 then none else some (angle S (fitter sx sy t.mean Top.mean l))

/-- Config of TraversabilityGrassfire -/
structure Config where
  maxStep : ℝ
  maxSlope : ℝ
  classes : Nat

def Top.upper (t : Top) : ℝ := t.mean + t.stdev

inductive Out where
  /-- the class that is written -/
  | set (c : ℤ)
  /-- a value that is not a number is converted -/
  | undefined

open Classical in
/-- setTraversability l.37-161 -/
def traversability (S : Solver) (c : Config) (g : Tops) (width height : ℤ) (sx sy : ℝ) (x y : ℤ) : Out :=
  match g x y with
  | none => .set 0
  | some t =>
    let l := near g width height 1 x y
    -- l.87-96: the loop ends at the first step that is too high
    if ∃ p ∈ l, |p.2.upper - t.upper| > c.maxStep then .set 1
    else if l.length < 5 then .set 0
    else
      let slope := angle S (fitter sx sy t.upper Top.upper l)
      if slope > c.maxSlope then .set 1
      -- 0 / 0
      else if c.maxSlope = 0 then .undefined
      else .set (1 + ⌈((1 - slope / c.maxSlope) - 1 / 100000) * c.classes⌉)

end

end Envire.Incline
