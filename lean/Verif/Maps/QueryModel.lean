import Verif.Grid.PatchModel
import Verif.Ops.ElevationModel

/-!
Model of the queries of a multi-level surface grid: SurfacePatch::distance and getMaxZ, src/maps/MLSPatch.hpp l.106-119, l.147-150; get, getNearestPatch, match, matchHeight and projectPointsOnSurface, projectSplineOnSurface,
src/maps/MLSGrid.cpp l.73-136, l.418-472, l.549-568, l.626-680, l.697-728.

Simplifications: real numbers for `float` and `double`. A cell is the list of its patches; a pointer to a patch is its place in the list. Cells that do not exist are not modelled here (see C33). Of the update models, SLOPE
is not modelled. The spline itself (an external class) is not modelled, only the points that are sampled from it. A transform is a function of points.
-/

namespace Envire.Query

open Envire.Patch Envire.Rect Envire.Elevation

/-- isHorizontal, isNegative; MLSPatch.hpp l.173-188 -/
def horizontal (p : Patch) : Prop := p.kind = .horizontal
def negative (p : Patch) : Prop := p.kind = .negative

noncomputable section

open Classical in
/-- distance, MLSPatch.hpp l.106-119 -/
def distance (p o : Patch) : ℝ :=
  if ¬ horizontal p ∧ ¬ horizontal o then 0
  else if ¬ horizontal p then (if o.mean > p.mean then o.mean - p.mean else max 0 (p.mean - p.height - o.mean))
  else if ¬ horizontal o then (if p.mean > o.mean then p.mean - o.mean else max 0 (o.mean - o.height - p.mean))
  else |p.mean - o.mean|

/-- getMaxZ with the default threshold, MLSPatch.hpp l.147-150 -/
def maxZ (p : Patch) : ℝ := p.mean + p.stdev * 2

open Classical in
/-- get of a cell, MLSGrid.cpp l.424-438 -/
def get (q : Patch) (sigma : ℝ) (ignoreNegative : Bool) : List Patch → Option Nat
  | [] => none
  | p :: l =>
    if distance p q < Real.sqrt (q.stdev ^ 2 + p.stdev ^ 2) * sigma ∧ (ignoreNegative = false ∨ ¬ negative p) then some 0
    else (get q sigma ignoreNegative l).map (· + 1)

/-- get of a height, l.418-422: the place of the patch, its height and its deviation; l.448-472 without a plane -/
def getHeight (zpos zstdev : ℝ) (l : List Patch) : Option (Nat × ℝ × ℝ) :=
  (get (Patch.make zpos zstdev) 3 true l).bind fun i => l[i]?.map fun p => (i, p.mean, p.stdev)

open Classical in
/-- getNearestPatch l.549-568, from the place i on; the distance is infinite if it is none -/
def nearestFrom (q : Patch) : Nat → Option (Nat × ℝ) → List Patch → Option (Nat × ℝ)
  | _, best, [] => best
  | i, best, p :: l => nearestFrom q (i + 1) (if ∀ b ∈ best, distance q p < b.2 then some (i, distance q p) else best) l

def nearest (q : Patch) (l : List Patch) : Option (Nat × ℝ) := nearestFrom q 0 none l

/-! ### match -/

inductive Res (A : Type) where
  | ok (a : A)
  | throws
  /-- division by zero -/
  | undefined

/-- a patch of the other grid as it is compared, l.654-657 -/
def measured (offset p : Patch) : Patch := { p with mean := p.mean + offset.mean, stdev := Real.sqrt (p.stdev ^ 2 + offset.stdev ^ 2), updateIdx := offset.updateIdx }

/-- the loop over the patches of a cell, l.652-666 -/
def cellMatches (offset : Patch) (sigma : ℝ) (l : List Patch) : List Patch → Bool
  | [] => false
  | p :: r => if (get (measured offset p) sigma true l).isSome then true else cellMatches offset sigma l r

/-- the cell of this grid in which the middle of a cell of the other grid is, l.641-648 -/
def conv (g go : Geo) (T : P3 → P3) (c : Nat × Nat) : Option (Nat × Nat) :=
  let q := T ((c.1 + 1 / 2) * go.sx + go.ox, (c.2 + 1 / 2) * go.sy + go.oy, 0)
  toGrid g q.1 q.2.1

/-- the loop over the index, l.637-674: the numbers of matching and of compared cells -/
def matchLoop (this other : Nat × Nat → List Patch) (conv : Nat × Nat → Option (Nat × Nat)) (offset : Patch) (sampling : Nat) (sigma : ℝ) : Nat → List (Nat × Nat) → Nat × Nat → Nat × Nat
  | _, [], c => c
  | idx, x :: l, c => matchLoop this other conv offset sampling sigma (idx + 1) l
      (if idx % sampling = 0 then
        match conv x with
        | some y => if (other x).isEmpty then c else (if cellMatches offset sigma (this y) (other x) then c.1 + 1 else c.1, c.2 + 1)
        | none => c
      else c)

/-- match l.626-680 -/
def gridMatch (g go : Geo) (this other : Nat × Nat → List Patch) (index : Option (List (Nat × Nat))) (T : P3 → P3) (offset : Patch) (sampling : Nat) (sigma : ℝ) : Res ℝ :=
  match index with
  | none => .throws
  | some l =>
    if sampling = 0 ∧ l ≠ [] then .undefined
    else
      let c := matchLoop this other (conv g go T) offset sampling sigma 0 l (0, 0)
      .ok (if c.2 = 0 then 1 else (c.1 : ℝ) / c.2)

/-! ### matchHeight -/

/-- the terms for a cell, l.708-719: distance and variance for each patch of the other grid -/
def cellTerms (this other : List Patch) : List (ℝ × ℝ) :=
  if this.isEmpty then [] else other.filterMap fun p => (nearest p this).bind fun r => this[r.1]?.map fun n => (r.2, n.stdev ^ 2 + p.stdev ^ 2)

/-- all terms, l.703-722 -/
def terms (w h : Nat) (this other : Nat × Nat → List Patch) : List (ℝ × ℝ) :=
  (List.range w).flatMap fun x => (List.range h).flatMap fun y => cellTerms (this (x, y)) (other (x, y))

/-- d1 and d2 -/
def sums : List (ℝ × ℝ) → ℝ × ℝ → ℝ × ℝ
  | [], d => d
  | t :: l, d => sums l (d.1 + t.1 / t.2, d.2 + 1 / t.2)

open Classical in
/-- matchHeight l.697-728: the difference and its variance. `undefined`: a division by zero. -/
def matchHeight (w h : Nat) (this other : Nat × Nat → List Patch) : Res (ℝ × ℝ) :=
  let t := terms w h this other
  if t = [] ∨ ∃ x ∈ t, x.2 = 0 then .undefined
  else
    let d := sums t (0, 0)
    .ok (d.1 / d.2, 1 / d.2)

/-! ### projectPointsOnSurface -/

open Classical in
/-- the loop over the patches of a cell, l.82-91; the first component is minDiff, `none` is the largest number -/
def closest (last : ℝ) : List Patch → Option (ℝ × ℝ) → Option (ℝ × ℝ)
  | [], b => b
  | p :: l, b => closest last l (if ∀ x ∈ b, |last - maxZ p| < x.1 then some (|last - maxZ p|, maxZ p) else b)

/-- projectPointsOnSurface l.73-101 -/
def project (this : Nat × Nat → List Patch) (zOffset : ℝ) : ℝ → List (Nat × Nat) → List (Nat × Nat × ℝ)
  | _, [] => []
  | last, c :: l =>
    let z := ((closest last (this c) none).map fun b => b.2).getD last
    (c.1, c.2, z + zOffset) :: project this zOffset z l

/-- the loop of projectSplineOnSurface, l.110-136 -/
def projectSpline (g : Geo) (this : Nat × Nat → List Patch) (zOffset : ℝ) : ℝ → List P3 → List P3
  | _, [] => []
  | last, p :: l =>
    match toGrid g p.1 p.2.1 with
    | none => p :: projectSpline g this zOffset last l
    | some c =>
      let z := ((closest last (this c) none).map fun b => b.2).getD last
      (p.1, p.2.1, z + zOffset) :: projectSpline g this zOffset z l

/-- the step with which the spline is sampled, l.107; getCellSizeX, src/maps/GridBase.hpp l.199-201 -/
def splineStep (g : Geo) : ℝ := g.w / 4

end

end Envire.Query
