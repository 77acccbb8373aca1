import Mathlib.Data.Real.Basic
import Mathlib.Algebra.Order.Floor.Semiring
import Mathlib.Data.Real.Archimedean

/-!
Model of the settings of the visualizers that have colours: /repo/viz/MLSVisualization.cpp l.16-27, l.460-607 with the properties of MLSVisualization.hpp l.13-22, and PointcloudVisualization.cpp
l.15-23, l.197-270 with PointcloudVisualization.hpp l.13-18. A change is followed by the signal `propertyChanged`; what the listener does then is in Verif/Viz/ViewModel.

Qt by specification: the components of a QColor are integers of 16 bits; `redF` divides by 65535, `setRgbF` multiplies, rounds and refuses values outside of 0 to 1. Simplifications: rounding to
`float` and to `double` is a pair of functions on the real numbers; colours are given in RGB; there is no NaN.
-/
namespace Envire.Dial

/-- rounding to `float` and to `double` -/
structure Rounding where
  fl : ℝ → ℝ
  db : ℝ → ℝ

/-- QColor with the spec Rgb -/
structure Colour where
  red : ℕ
  green : ℕ
  blue : ℕ
  alpha : ℕ
  deriving DecidableEq

/-- osg::Vec4, of floats -/
structure Vec4 where
  x : ℝ
  y : ℝ
  z : ℝ
  w : ℝ

/-- QColor::redF and the others -/
noncomputable def partF (R : Rounding) (c : ℕ) : ℝ := R.db (c / 65535)

/-- qRound of a number that is not negative -/
noncomputable def qRound (R : Rounding) (d : ℝ) : ℕ := ⌊R.db (d + 1 / 2)⌋₊

/-- QColor::setRgbF; none: not a valid colour -/
noncomputable def setRgbF (R : Rounding) (v : Vec4) : Option Colour :=
  if (0 ≤ v.x ∧ v.x ≤ 1) ∧ (0 ≤ v.y ∧ v.y ≤ 1) ∧ (0 ≤ v.z ∧ v.z ≤ 1) ∧ 0 ≤ v.w ∧ v.w ≤ 1 then
    some ⟨qRound R (R.db (v.x * 65535)), qRound R (R.db (v.y * 65535)), qRound R (R.db (v.z * 65535)), qRound R (R.db (v.w * 65535))⟩
  else none

/-- the four assignments of each setter, for example l.543-546 -/
noncomputable def store (R : Rounding) (c : Colour) : Vec4 := ⟨R.fl (partF R c.red), R.fl (partF R c.green), R.fl (partF R c.blue), R.fl (partF R c.alpha)⟩

/-! ### MLSVisualization -/

structure Mls where
  horizontalCellColor : Vec4
  verticalCellColor : Vec4
  negativeCellColor : Vec4
  uncertaintyColor : Vec4
  showUncertainty : Bool
  showNegative : Bool
  estimateNormals : Bool
  cycleHeightColor : Bool
  cycleColorInterval : ℝ
  showExtents : Bool

/-- the properties with two values -/
inductive Flag
  | showUncertainty
  | showNegative
  | estimateNormals
  | cycleHeightColor
  | showExtents
  deriving DecidableEq

/-- the colours -/
inductive Hue
  | horizontal
  | vertical
  | negative
  | uncertainty
  deriving DecidableEq

inductive Write
  | flag (k : Flag) (b : Bool)
  | interval (x : ℝ)
  | colour (k : Hue) (c : Colour)

/-- the READ functions l.476, l.487, l.498, l.509, l.604 -/
def Mls.flag (m : Mls) : Flag → Bool
  | .showUncertainty => m.showUncertainty
  | .showNegative => m.showNegative
  | .estimateNormals => m.estimateNormals
  | .cycleHeightColor => m.cycleHeightColor
  | .showExtents => m.showExtents

/-- l.534, l.550, l.566, l.582 -/
noncomputable def Mls.colour (R : Rounding) (m : Mls) : Hue → Option Colour
  | .horizontal => setRgbF R m.horizontalCellColor
  | .vertical => setRgbF R m.verticalCellColor
  | .negative => setRgbF R m.negativeCellColor
  | .uncertainty => setRgbF R m.uncertaintyColor

open Classical in
/-- the WRITE functions; the text is that of the signal -/
noncomputable def Mls.write (R : Rounding) (m : Mls) : Write → Mls × String
  | .flag .showUncertainty b => ({ m with showUncertainty := b }, "show_uncertainty")
  | .flag .showNegative b => ({ m with showNegative := b }, "show_negative")
  | .flag .estimateNormals b => ({ m with estimateNormals := b }, "estimate_normals")
  | .flag .cycleHeightColor b => ({ m with cycleHeightColor := b }, "cycle_height_color")
  | .flag .showExtents b => ({ m with showExtents := b }, "show_extents")
  | .interval x => (if x = 0 then { m with cycleColorInterval := 1 } else { m with cycleColorInterval := x }, "cycle_color_interval")
  | .colour .horizontal c => ({ m with horizontalCellColor := store R c }, "horizontal_cell_color")
  | .colour .vertical c => ({ m with verticalCellColor := store R c }, "vertical_cell_color")
  | .colour .negative c => ({ m with negativeCellColor := store R c }, "negative_cell_color")
  | .colour .uncertainty c => ({ m with uncertaintyColor := store R c }, "uncertainty_color")

/-- a history of changes: the settings and the signals -/
noncomputable def Mls.writes (R : Rounding) (m : Mls) : List Write → Mls × List String
  | [] => (m, [])
  | w :: ws => let r := m.write R w; let q := Mls.writes R r.1 ws; (q.1, r.2 :: q.2)

/-- the colour of the lines for the uncertainty, l.463-472 -/
noncomputable def Mls.lines (R : Rounding) (m : Mls) : Option Vec4 :=
  if m.showUncertainty then some ⟨R.fl (1 / 2), R.fl (1 / 10), R.fl (8 / 10), R.fl 1⟩ else none

/-! ### PointcloudVisualization -/

structure Cloud where
  vertexColor : Vec4
  normalColor : Vec4
  normalScaling : ℝ
  showNormals : Bool
  showFeatures : Bool
  colorCycling : Bool

inductive CFlag
  | showNormals
  | showFeatures
  | colorCycling
  deriving DecidableEq

inductive CHue
  | vertex
  | normal
  deriving DecidableEq

inductive CWrite
  | flag (k : CFlag) (b : Bool)
  | scaling (x : ℝ)
  | colour (k : CHue) (c : Colour)

def Cloud.flag (m : Cloud) : CFlag → Bool
  | .showNormals => m.showNormals
  | .showFeatures => m.showFeatures
  | .colorCycling => m.colorCycling

/-- l.241-246, l.257-262 -/
noncomputable def Cloud.colour (R : Rounding) (m : Cloud) : CHue → Option Colour
  | .vertex => setRgbF R m.vertexColor
  | .normal => setRgbF R m.normalColor

/-- l.202-270 -/
noncomputable def Cloud.write (R : Rounding) (m : Cloud) : CWrite → Cloud × String
  | .flag .showNormals b => ({ m with showNormals := b }, "show_normals")
  | .flag .showFeatures b => ({ m with showFeatures := b }, "show_features")
  | .flag .colorCycling b => ({ m with colorCycling := b }, "color_cycling")
  | .scaling x => ({ m with normalScaling := x }, "normal_scaling")
  | .colour .normal c => ({ m with normalColor := store R c }, "normal_color")
  | .colour .vertex c => ({ m with vertexColor := store R c }, "vertex_color")

noncomputable def Cloud.writes (R : Rounding) (m : Cloud) : List CWrite → Cloud × List String
  | [] => (m, [])
  | w :: ws => let r := m.write R w; let q := Cloud.writes R r.1 ws; (q.1, r.2 :: q.2)

end Envire.Dial
