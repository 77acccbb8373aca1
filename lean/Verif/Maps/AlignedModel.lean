import Verif.Maps.RasterModel
import Mathlib.Data.Real.Archimedean
import Mathlib.Algebra.Order.Floor.Ring
import Mathlib.Algebra.Ring.Int.Parity

/-!
Model of the comparisons of the places of grids, src/maps/GridBase.cpp l.596-634, and of the operator of
src/operators/ClassGridProjection.hpp.

Simplifications: real numbers for `double`; a scale of 0 is not treated (the code divides by it, in the model the quotient is 0).
Of a transform only the part in the plane is used (`Flat`): the points that are transformed have z = 0, and the z coordinate of the
result is not used.
-/

namespace Envire.Aligned

open Envire.Raster

noncomputable section

/-- rint with the default rounding mode: to the nearest integer, halves to the even one -/
def rint (x : ℝ) : ℤ :=
  if Int.fract x < 1 / 2 then ⌊x⌋
  else if 1 / 2 < Int.fract x then ⌊x⌋ + 1
  else if ⌊x⌋ % 2 = 0 then ⌊x⌋ else ⌊x⌋ + 1

/-- the conversion of a floating point number to an integer -/
def trunc (x : ℝ) : ℤ := if 0 ≤ x then ⌊x⌋ else ⌈x⌉

/-- a point in the plane after a transform -/
def move (t : Flat ℝ) (p : ℝ × ℝ) : ℝ × ℝ := (t.m00 * p.1 + t.m01 * p.2 + t.tx, t.m10 * p.1 + t.m11 * p.2 + t.ty)

variable {V W : Type}

/-- isAlignedWith, GridBase.cpp l.616-634; `tf` is the relative transform from the frame of `a` (this) to the frame of `b` -/
def isAlignedWith (a : Grid V ℝ) (b : Grid W ℝ) (tf : Flat ℝ) : Bool :=
  if a.nx ≠ b.nx ∨ a.ny ≠ b.ny ∨ a.ox ≠ b.ox ∨ a.oy ≠ b.oy then false
  else
    let p := move tf ((b.nx : ℝ), (b.ny : ℝ))
    if rint p.1 ≠ b.nx ∨ rint p.2 ≠ b.ny then false else true

/-- fromGrid( xi, yi, x, y ), GridBase.cpp l.451-455 -/
def fromGrid (g : Grid V ℝ) (x y : Nat) : ℝ × ℝ := ((x + 1 / 2) * g.sx + g.ox, (y + 1 / 2) * g.sy + g.oy)

/-- cellDiff, l.604-608; `ta` and `tb` are the transforms to the root frame -/
def cellDiff (a : Grid V ℝ) (b : Grid W ℝ) (ta tb : Flat ℝ) : ℝ × ℝ :=
  (((move ta (fromGrid a 0 0)).1 - (move tb (fromGrid b 0 0)).1) * (1 / a.sx),
    ((move ta (fromGrid a 0 0)).2 - (move tb (fromGrid b 0 0)).2) * (1 / a.sy))

/-- the numbers that can be converted to an `int` -/
def fits (x : ℝ) : Prop := -2 ^ 31 - 1 < x ∧ x < 2 ^ 31

/-- isZero for one component, with the default precision of Eigen -/
def isZero (x : ℝ) : Prop := |x| ≤ 1 / 10 ^ 12

open Classical in
/-- isCellAlignedWith, l.596-614; `none` if a conversion is undefined -/
def isCellAlignedWith (a : Grid V ℝ) (b : Grid W ℝ) (ta tb : Flat ℝ) : Option Bool :=
  if a.sx ≠ b.sx ∨ a.sy ≠ b.sy then some false
  else
    let d := cellDiff a b ta tb
    if ¬ (fits d.1 ∧ fits d.2) then none
    else if ¬ (isZero (trunc d.1 - d.1) ∧ isZero (trunc d.2 - d.2)) then some false
    else some true

/-! ### ClassGridProjection -/

/-- the loop over the cells, ClassGridProjection.hpp l.44-56: the array, and `false` if an exception is thrown -/
def classLoop (classes : V → Option W) (a : Arr V) : List (Nat × Nat) → Arr W → Arr W × Bool
  | [], o => (o, true)
  | p :: l, o =>
    match classes (a.get p.1 p.2) with
    | none => (o, false)
    | some c => classLoop classes a l { o with mem := Function.update o.mem (p.1 * o.w + p.2) c }

/-- updateAll, ClassGridProjection.hpp l.32-59, for one input and one output, with the names of their first bands (Grid.hpp
l.161-164). An array of the input that does not have the size of the grid is accessed outside of its bounds -/
def classUpdate [Inhabited V] [Inhabited W] (classes : V → Option W) (a : Grid V ℝ) (b : Grid W ℝ) (tf : Flat ℝ) (ka kb : String) : Out (Grid W ℝ) :=
  if isAlignedWith a b tf = false then .thrown b
  else
    match a.data ka with
    | none => .thrown b
    | some d =>
      let o := b.getGridData kb
      if (d.h ≠ a.ny ∨ d.w ≠ a.nx) ∨ (a.nx = 0 ∧ a.ny ≠ 0) then .ub
      else
        let r := classLoop classes d (order a.nx a.ny) o
        if r.2 then .ok (b.put kb r.1) else .thrown (b.put kb r.1)

end

end Envire.Aligned
