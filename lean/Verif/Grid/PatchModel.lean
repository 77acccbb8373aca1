import Mathlib.Analysis.Real.Sqrt
/-!
Model of surface patches of multi level surface maps.

Source modelled: /repo/src/tools/Numeric.hpp l.6-17 (kalman_update); /repo/src/maps/MLSPatch.hpp l.11-17 (overlap), l.43-48 (types),
l.51-64 (constructor), l.79-92 (updateSum), l.219-243 (mergeSum), l.266-360 (mergeMLS), l.362-394 (merge), l.410-414 (scaleWeight),
l.107-122 (distance); /repo/src/maps/MLSGrid.cpp l.590-600 (the patch that merge takes over from another map).

Simplifications: real numbers instead of float/double; the NaN that is caught in kalman_update is 0/0, that is both deviations zero.
The color is left out. The sums kept by numeric::PlaneFitting (an external class) are z, zz and n; `scale` of that class multiplies
its sums by the factor, `update` adds them. The plane fit itself (SLOPE model) is not modelled.
-/
namespace Envire.Patch

noncomputable section

/-- kalman_update l.8-17 -/
def kalman (mean stdev mMean mStdev : ℝ) : ℝ × ℝ :=
  let var := stdev * stdev
  let mVar := mStdev * mStdev
  let gain := if var + mVar = 0 then 1 / 2 else var / (var + mVar)
  (mean + gain * (mMean - mean), √((1 - gain) * var))

/-- overlap l.11-17 -/
def overlap (a1 a2 b1 b2 : ℝ) : Prop := (a1 < b2 ∧ a2 > b2) ∨ (a1 < b1 ∧ a2 > b1)

inductive Kind where
  | vertical
  | horizontal
  | negative
deriving DecidableEq

/-- SurfacePatch -/
@[ext] structure Patch where
  mean : ℝ
  stdev : ℝ
  height : ℝ
  /-- sums of the weights, of weight * z, of weight * z² -/
  planeN : ℝ
  planeZ : ℝ
  planeZZ : ℝ
  min : ℝ
  max : ℝ
  n : ℝ
  normsq : ℝ
  updateIdx : Nat
  kind : Kind

/-- SurfacePatch( mean, stdev, height, type ) l.51-64 -/
def Patch.make (mean stdev : ℝ) (height : ℝ := 0) (kind : Kind := .horizontal) : Patch :=
  let w := 1 / stdev ^ 2
  { mean := mean, stdev := stdev, height := height, planeN := w, planeZ := mean * w, planeZZ := mean ^ 2 * w, min := mean, max := mean,
    n := 1, normsq := 1 / stdev ^ 4, updateIdx := 0, kind := kind }

/-- updateSum l.79-92 -/
def Patch.updateSum (p : Patch) : Patch :=
  let mean := p.planeZ / p.planeN
  let norm := p.planeN / (p.planeN ^ 2 - p.normsq)
  { p with
    mean := mean
    stdev := if p.n > 1 then √(Max.max (1 / 1000000) ((p.planeZZ - mean ^ 2 * (p.planeN - 2)) * norm - p.n / p.planeN)) else √(1 / p.planeN) }

open Classical in
/-- mergeSum l.219-243 -/
def Patch.mergeSum (p o : Patch) (gap : ℝ) : Bool × Patch × Patch :=
  if overlap (p.min - gap) (p.max + gap) o.min o.max then
    (true, Patch.updateSum { p with
      planeZ := p.planeZ + o.planeZ, planeZZ := p.planeZZ + o.planeZZ, planeN := p.planeN + o.planeN, n := p.n + o.n, normsq := p.normsq + o.normsq
      min := Min.min p.min o.min, max := Max.max p.max o.max }, o)
  else (false, p, o)

/-- the part of mergeMLS that extends p, l.340-353 -/
def Patch.extend (p o : Patch) : Patch :=
  let p1 := if o.mean > p.mean then { p with height := p.height + (o.mean - p.mean), mean := o.mean, stdev := o.stdev } else p
  let oMin := o.mean - o.height
  let pMin := p1.mean - p1.height
  let p2 := if oMin < pMin then { p1 with height := p1.mean - oMin } else p1
  { p2 with n := p2.n + o.n }

/-- cutting the older patch rp, l.322-332 -/
def Patch.cut (rp ro : Patch) : Patch :=
  if ro.mean < rp.mean then { rp with height := rp.mean - ro.mean }
  else if ro.mean - ro.height < rp.mean then
    let newMean := ro.mean - ro.height
    { rp with height := rp.height - (rp.mean - newMean), mean := newMean }
  else rp

/-- mergeMLS l.266-360: the result, p and o afterwards -/
def Patch.mergeMLS (p o : Patch) (thickness gap : ℝ) : Bool × Patch × Patch :=
  let dd := √(p.stdev * p.stdev + o.stdev * o.stdev)
  if p.mean - p.height - gap - dd < o.mean ∧ p.mean + gap + dd > o.mean - o.height then
    let p1 : Patch :=
      if p.kind = .horizontal ∧ o.kind = .horizontal then
        if p.mean - p.height - thickness - dd < o.mean ∧ p.mean + thickness + dd > o.mean then
          { p with mean := (kalman p.mean p.stdev o.mean o.stdev).1, stdev := (kalman p.mean p.stdev o.mean o.stdev).2 }
        else { p with kind := .vertical }
      else p
    if p1.kind ≠ .horizontal ∨ o.kind ≠ .horizontal then
      if p1.kind = .horizontal ∧ o.kind = .vertical then (true, Patch.extend { p1 with kind := .vertical } o, o)
      else if p1.kind = .negative ∧ o.kind = .negative then (true, p1.extend o, o)
      else if p1.kind = .negative ∨ o.kind = .negative then
        if p1.updateIdx = o.updateIdx then (false, p1, o)
        else if p1.updateIdx < o.updateIdx then
          -- o is the newer one
          if o.mean > p1.mean ∧ o.mean - o.height < p1.mean - p1.height then (true, o, o) else (false, p1.cut o, o)
        else
          -- p is the newer one, `p = ro` is a self assignment
          if p1.mean > o.mean ∧ p1.mean - p1.height < o.mean - o.height then (true, p1, o) else (false, p1, o.cut p1)
      else (true, p1.extend o, o)
    else (true, { p1 with n := p1.n + o.n }, o)
  else (false, p, o)

inductive Model where
  | kalman
  | sum
deriving DecidableEq

/-- merge l.362-394, models KALMAN and SUM -/
def Patch.merge (m : Model) (thickness gap : ℝ) (p o : Patch) : Bool × Patch × Patch :=
  let r := match m with
    | .kalman => p.mergeMLS o thickness gap
    | .sum => p.mergeSum o gap
  if r.1 then (true, { r.2.1 with updateIdx := Max.max r.2.1.updateIdx r.2.2.updateIdx }, r.2.2) else r

/-- scaleWeight l.410-414 -/
def Patch.scaleWeight (p : Patch) (f : ℝ) : Patch :=
  { p with planeN := f * p.planeN, planeZ := f * p.planeZ, planeZZ := f * p.planeZZ, normsq := p.normsq * f ^ 2 }

/-- the patch that MLSGrid::merge takes from the other map (MLSGrid.cpp l.606-610): moved up by dz -/
def Patch.moved (p : Patch) (dz dstdev : ℝ) (idx : Nat) : Patch :=
  { p with mean := p.mean + dz, stdev := √(p.stdev ^ 2 + dstdev ^ 2), updateIdx := idx }

end
end Envire.Patch
