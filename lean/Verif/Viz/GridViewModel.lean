import Verif.Grid.GridModel
import Verif.Maps.TravModel
import Mathlib.Data.Rat.Floor

/-!
Model of the pictures that the visualization makes of grids.

Source modelled: /repo/viz/GridVisualization.cpp l.11-32 (colours), l.46-57 (copyGridData), l.59-120 (updateNode);
/repo/viz/GridVisualizationBase.cpp l.31-85 (loadImageAsRectangle), l.87-130 (showGridAsImage);
/repo/viz/TraversabilityGridVisualization.cpp l.31-86 (colorForCoordinate), l.88-100 (updateNode);
/repo/viz/ImageRGB24Visualization.cpp l.25-71 (updateNode).

Simplifications: exact arithmetic instead of float and double; an infinite scale is kept apart (`scaleFor`). The picture is
sampled at the nearest pixel (OpenSceneGraph interpolates). The number of bytes of a picture fits into an int. The
assertions are active.
-/
namespace Envire.GridView

/-- the result of a drawing function -/
inductive Out (A : Type) where
  | ok (a : A)
  /-- a failed assertion -/
  | aborts
  /-- undefined behaviour: a conversion outside of the range of the type, a read behind the end of an array -/
  | undefined
deriving DecidableEq

def Out.bind {A B : Type} (o : Out A) (f : A → Out B) : Out B :=
  match o with
  | .ok a => f a
  | .aborts => .aborts
  | .undefined => .undefined

/-- the conversion of a floating point number to unsigned char: truncation, undefined outside of the range -/
def toByte (q : ℚ) : Out Nat :=
  let t : Int := if 0 ≤ q then ⌊q⌋ else ⌈q⌉
  if 0 ≤ t ∧ t ≤ 255 then .ok t.toNat else .undefined

abbrev Rgb := Nat × Nat × Nat
abbrev Rgba := Nat × Nat × Nat × Nat

/-- the colours, GridVisualization.cpp l.13-31 -/
def colours : List (ℚ × ℚ × ℚ) := [(1, 1, 1), (1, 0, 0), (0, 1, 0), (0, 0, 1), (0, 1, 1), (1, 1, 0), (1, 0, 1)]

/-- the colour of a grid, l.65-67; `cycle` is cycleGridColor, `id` the numerical suffix of the id of the item -/
def colourFor (cycle : Bool) (id : Nat) : ℚ × ℚ × ℚ := if cycle then colours.getD (id % 6 + 1) (0, 0, 0) else colours.getD 0 (0, 0, 0)

/-- the transparency of a cell, l.55: `data` has been advanced already, so the value that is tested is the next one; `behind`
is what is behind the end of the array (`none`: reading it is undefined) -/
def alpha (hide : Bool) (behind : Option ℚ) (v : Nat) (rest : List ℚ) : Out Nat :=
  if hide then
    match (rest.head?).or behind with
    | none => .undefined
    | some n => if n = 0 then .ok 0 else toByte (128 + v / 2)
  else .ok 255

/-- copyGridData, GridVisualization.cpp l.46-57; `hide` is empty_grid_invisible -/
def copyGridData (scale : ℚ) (colour : ℚ × ℚ × ℚ) (hide : Bool) (behind : Option ℚ) : List ℚ → Out (List Rgba)
  | [] => .ok []
  | d :: rest =>
    (toByte (d * scale)).bind fun v =>
    (toByte (colour.1 * v)).bind fun r =>
    (toByte (colour.2.1 * v)).bind fun g =>
    (toByte (colour.2.2 * v)).bind fun b =>
    (alpha hide behind v rest).bind fun a =>
    (copyGridData scale colour hide behind rest).bind fun l => .ok ((r, g, b, a) :: l)

/-- the largest value as getMinMaxValues returns it, src/maps/Grid.hpp l.179-193; `tiny` is numeric_limits<T>::min() -/
def maxValue (tiny : ℚ) (data : List ℚ) : ℚ := data.foldl (fun m v => if v > m then v else m) tiny

/-- the largest float -/
def floatMax : ℚ := (2 ^ 24 - 1) * 2 ^ 104

/-- `255.0 / max` as a float, l.86 and l.96; `none`: it is not finite -/
def scaleFor (m : ℚ) : Option ℚ := if 255 / m ≤ floatMax then some (255 / m) else none

/-- GridVisualization::updateNode for a grid of float or double, l.59-98: the pixels, row by row. With an infinite scale all
products are infinite or NaN, and the conversion to unsigned char is undefined. -/
def drawGrid (tiny : ℚ) (colour : ℚ × ℚ × ℚ) (showEmpty : Bool) (data : List ℚ) : Out (List Rgba) :=
  match scaleFor (maxValue tiny data) with
  | some s => copyGridData s colour (!showEmpty) none data
  | none => if data = [] then .ok [] else .undefined

/-- GridVisualization::updateNode for a grid of unsigned char, l.100-104 -/
def drawBytes (colour : ℚ × ℚ × ℚ) (showEmpty : Bool) (data : List Nat) : Out (List Rgba) :=
  copyGridData 1 colour (!showEmpty) none (data.map fun n : Nat => (n : ℚ))

/-- ImageRGB24Visualization::updateNode, l.50-56 -/
def drawImage (r g b : List Nat) : List Rgb := List.zipWith (fun x (y : Nat × Nat) => (x, y.1, y.2)) r (List.zip g b)

/-- colorForCoordinate, TraversabilityGridVisualization.cpp l.31-86, for a cell with the given class and stored probability -/
def colorForCoordinate (t : Trav.Table) (x y : Nat) (prob value : Nat) : Out Rgb :=
  if ¬ (x < 1600 ∧ y < 1600) then .aborts
  else if Trav.loadProb prob < 1 / 1000 then .ok (0, 0, 255)
  else if value = 0 then .ok (0, 0, 255)
  else if value = 1 then .ok (255, 0, 0)
  else
    match Trav.getClass t value with
    | .ok c =>
      (toByte (255 - 255 * c.getDrivability)).bind fun r =>
      (toByte (255 * c.getDrivability)).bind fun g => .ok (r, g, 0)
    | _ =>
      if value < 13 then
        (toByte (255 - 240 * (value / 12 + 1))).bind fun r =>
        (toByte (255 * (value / 12))).bind fun g => .ok (r, g, 0)
      else .aborts

/-- a row of showGridAsImage, GridVisualizationBase.cpp l.103-113: the pixels from column x on, `n` are left -/
def rowPixels (f : Nat → Out Rgb) : Nat → Nat → Out (List Rgb)
  | _, 0 => .ok []
  | x, n + 1 => (f x).bind fun c => (rowPixels f (x + 1) n).bind fun l => .ok (c :: l)

/-- showGridAsImage, GridVisualizationBase.cpp l.101-114: the pixels row by row, from row y on, `n` are left -/
def imagePixels (f : Nat → Nat → Out Rgb) (w : Nat) : Nat → Nat → Out (List Rgb)
  | _, 0 => .ok []
  | y, n + 1 => (rowPixels (fun x => f x y) 0 w).bind fun r => (imagePixels f w (y + 1) n).bind fun l => .ok (r ++ l)

/-- TraversabilityGridVisualization::updateNode l.88-100; `prob x y` and `value x y` are the bytes of the two bands -/
def drawTraversability (t : Trav.Table) (w h : Nat) (prob value : Nat → Nat → Nat) : Out (List Rgb) :=
  imagePixels (fun x y => colorForCoordinate t x y (prob x y) (value x y)) w 0 h

/-- the rectangle of a picture, GridVisualization.cpp l.117-119, GridVisualizationBase.cpp l.127-129, ImageRGB24Visualization.cpp l.68-70 -/
def rect (g : Grid.GridBase ℚ) : Grid.Box ℚ := ⟨g.ox, g.oy, g.nx * g.sx + g.ox, g.ny * g.sy + g.oy⟩

/-- the column and row of the pixel that is seen at a point of the plane of the grid: the texture coordinates are (0, 0) at the first
corner and (1, 1) at the opposite one, GridVisualizationBase.cpp l.49-62; pixel (0, 0) is the first in memory -/
def seenPixel (w h : Nat) (b : Grid.Box ℚ) (px py : ℚ) : Option (Nat × Nat) :=
  if b.xmin ≤ px ∧ px < b.xmax ∧ b.ymin ≤ py ∧ py < b.ymax then
    some (⌊(px - b.xmin) / (b.xmax - b.xmin) * w⌋.toNat, ⌊(py - b.ymin) / (b.ymax - b.ymin) * h⌋.toNat)
  else none

end Envire.GridView
