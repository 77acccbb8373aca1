import Verif.Maps.TravModel
import Verif.Grid.RectModel
import Verif.Tools.LookupModel

/-!
Model of the queries of a traversability grid for a rectangle: statistic, worst class and worst probability.

Source modelled: /repo/src/maps/TraversabilityGrid.cpp l.17-71 (StatisticHelper), l.81-86 (computeStatistic), l.97-153; TraversabilityGrid.hpp l.66-124.

Simplifications: as in RectModel, LookupModel and TravModel. The static lookup table is that after a history of calls of `recompute`. The table for the box is used for the
outer rectangle only. The bands are functions of the cell.
-/

namespace Envire.TravRect

open Envire.Rect Envire.Lookup

/-- TraversabilityStatistic, TraversabilityGrid.hpp l.66-124; `none` is the initial value of a distance, `numeric_limits<double>::max()` -/
structure Stat where
  total : Nat := 0
  highest : Nat := 0
  minDist : Nat → Option ℝ := fun _ => none
  counts : Nat → Nat := fun _ => 0

/-- addMeasurement, l.84-90; `none`: access outside of the arrays with 255 elements -/
noncomputable def Stat.add (s : Stat) (k : Nat) (d : ℝ) : Option Stat :=
  if k < 255 then
    some
      { total := s.total + 1
        highest := max s.highest k
        minDist := fun j => if j = k then some (match s.minDist k with | none => d | some m => min d m) else s.minDist j
        counts := fun j => if j = k then s.counts j + 1 else s.counts j }
  else none

/-- addInnerVal, TraversabilityGrid.cpp l.49-52, for the cell c with the centre in the cell m -/
noncomputable def addInner (lut : Radial) (m : Int × Int) (cls : Int × Int → Nat) (s : Stat) (c : Int × Int) : Option Stat :=
  match lut.get (c.1 - m.1) (c.2 - m.2) with
  | none => none
  | some e => s.add (cls c) e.1

/-- addInnerVal for all the cells -/
noncomputable def addAllInner (lut : Radial) (m : Int × Int) (cls : Int × Int → Nat) : Stat → List (Int × Int) → Option Stat
  | s, [] => some s
  | s, c :: l =>
    match addInner lut m cls s c with
    | none => none
    | some s' => addAllInner lut m cls s' l

/-- the cell of the centre; toGrid in the constructor l.46. It is not set if the centre is outside of the grid, then there are no calls. -/
noncomputable def centre (g : Geo) (p : Pose2) : Int × Int := (⌊(p.x - g.ox) / g.sx⌋, ⌊(p.y - g.oy) / g.sy⌋)

/-- computeStatistic l.81-86: adds to the given statistic; `none`: undefined behaviour. `hist` are the earlier calls of recompute. -/
noncomputable def computeStatistic (hist : List (ℝ × ℝ)) (g : Geo) (cls : Int × Int → Nat) (p : Pose2) (sizeX sizeY : ℝ) (s : Stat) : Option Stat :=
  match forEachInRectangle g p sizeX sizeY with
  | .outside => some s
  | .done calls => addAllInner (Radial.run ((g.sx, max sizeX sizeY) :: hist)) (centre g p) cls s calls
  | .overflow => none
  | .assertion => none

/-- getWorstTraversabilityClassInRectangle l.97-139 -/
noncomputable def worstClass (hist : List (ℝ × ℝ)) (g : Geo) (t : Trav.Table) (cls : Int × Int → Nat) (p : Pose2) (sizeX sizeY : ℝ) : Trav.Res Nat :=
  match computeStatistic hist g cls p sizeX sizeY {} with
  | none => .undefined
  | some s => Trav.worstLoop t ⟨s.counts, s.highest⟩ 0 (s.highest + 1) none

/-- getWorstProbabilityInRectangle l.141-153; `prob` is the byte of a cell -/
noncomputable def worstProbability (g : Geo) (prob : Int × Int → Nat) (p : Pose2) (sizeX sizeY : ℝ) : Trav.Res ℚ :=
  match forEachInRectangle g p sizeX sizeY with
  | .outside => .ok 1
  | .done calls => .ok (Trav.worstProb (calls.map prob))
  | .overflow => .undefined
  | .assertion => .undefined

end Envire.TravRect
