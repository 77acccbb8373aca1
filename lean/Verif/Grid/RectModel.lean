import Verif.Tools.BresenhamModel
import Mathlib.Analysis.SpecialFunctions.Trigonometric.Basic

/-!
Model of the iteration over the cells of a rectangle, GridBase::forEachInRectangle and forEachInRectangles (src/maps/GridBase.cpp).

Simplifications: real numbers for `double`; the numbers of cells are integers, those that do not fit into `size_t` (negative ones in particular) are
outside of the grid (C29 is about this conversion). The division by the multiplier 10, a `double`, and the conversion back to `size_t` is the integer division, which
is exact for numbers below 2^53. The calls of a callback are listed in order.
-/

namespace Envire.Rect

/-- scale, offset and size of the grid -/
structure Geo where
  sx : ℝ
  sy : ℝ
  ox : ℝ
  oy : ℝ
  w : Nat
  h : Nat

/-- `base::Pose2D` -/
structure Pose2 where
  x : ℝ
  y : ℝ
  θ : ℝ

abbrev Pt := Int × Int

/-- `toGridTimesX` with the multiplier 10; GridBase.cpp l.416-435 -/
noncomputable def toGrid10 (g : Geo) (v : ℝ × ℝ) : Option Pt :=
  let am := ⌊(v.1 - g.ox) / g.sx * 10⌋
  let an := ⌊(v.2 - g.oy) / g.sy * 10⌋
  if 0 ≤ am ∧ am < g.w * 10 ∧ 0 ≤ an ∧ an < g.h * 10 then some (am, an) else none

structure Corners (α : Type) where
  ul : α
  ur : α
  dl : α
  dr : α

/-- a vector turned by the orientation and added to the position -/
noncomputable def place (p : Pose2) (u v : ℝ) : ℝ × ℝ := (p.x + (Real.cos p.θ * u - Real.sin p.θ * v), p.y + (Real.sin p.θ * u + Real.cos p.θ * v))

/-- the first exchange; l.69-73 -/
noncomputable def swap1 (c : Corners (ℝ × ℝ)) : Corners (ℝ × ℝ) :=
  if c.ul.1 < c.dl.1 then { ul := c.dl, ur := c.dr, dl := c.ul, dr := c.ur } else c

/-- the second exchange; l.75-79 -/
noncomputable def swap2 (c : Corners (ℝ × ℝ)) : Corners (ℝ × ℝ) :=
  if c.ur.2 < c.ul.2 then { ul := c.ur, ur := c.ul, dl := c.dr, dr := c.dl } else c

/-- the corners; l.60-79 -/
noncomputable def corners (p : Pose2) (sizeX sizeY : ℝ) : Corners (ℝ × ℝ) :=
  swap2 (swap1
    { ul := place p (sizeX / 2) (-(sizeY / 2))
      ur := place p (sizeX / 2) (sizeY / 2)
      dr := place p (-(sizeX / 2)) (sizeY / 2)
      dl := place p (-(sizeX / 2)) (-(sizeY / 2)) })

/-- `getRectPoints`; l.58-113 -/
noncomputable def getRectPoints (g : Geo) (p : Pose2) (sizeX sizeY : ℝ) : Option (Corners Pt) :=
  let c := corners p sizeX sizeY
  match toGrid10 g c.ul with
  | none => none
  | some ul =>
    match toGrid10 g c.ur with
    | none => none
    | some ur =>
      match toGrid10 g c.dl with
      | none => none
      | some dl =>
        match toGrid10 g c.dr with
        | none => none
        | some dr => some { ul := ul, ur := ur, dl := dl, dr := dr }

/-- `lineBresenham`, with enough iterations; `none` is an overflow (C32) -/
def line (p q : Pt) : Option (List Pt) := Bresenham.lineBresenham (max (q.1 - p.1).natAbs (q.2 - p.2).natAbs + 2) p q

/-- two lines, appended to the same vector -/
def path (p q r : Pt) : Option (List Pt) :=
  match line p q, line q r with
  | some a, some b => some (a ++ b)
  | _, _ => none

/-- the points of the left and the right side; l.318-340. `up` is the condition `ur.y > dr.y`. -/
def sides (up : Bool) (c : Corners Pt) : Option (List Pt × List Pt) :=
  match (if up then path c.ur c.ul c.dl else path c.dr c.ur c.ul), (if up then path c.ur c.dr c.dl else path c.dr c.dl c.ul) with
  | some l, some r => some (l, r)
  | _, _ => none

/-- the point is in the row of cells Y -/
def inRow (Y : Int) (p : Pt) : Bool := p.2 / 10 == Y

/-- least and greatest x, starting with the limits of `size_t` and 0 -/
def minX (l : List Pt) : Int := l.foldl (fun m p => min m p.1) (2 ^ 64 - 1)
def maxX (l : List Pt) : Int := l.foldl (fun m p => max m p.1) 0

/-- the loop over the rows; l.345-386: the row with its least and greatest x. `none` if the assertion of l.355 fails. -/
def sweep : List Pt → List Pt → Option (List (Int × Int × Int))
  | [], _ => some []
  | _, [] => some []
  | p :: l, q :: r =>
    if q.2 ≠ p.2 then none
    else
      let Y := p.2 / 10
      let pts := (p :: l).takeWhile (inRow Y) ++ (q :: r).takeWhile (inRow Y)
      match sweep ((p :: l).dropWhile (inRow Y)) ((q :: r).dropWhile (inRow Y)) with
      | none => none
      | some rest => some ((Y, minX pts / 10, maxX pts / 10) :: rest)
termination_by l => l.length
decreasing_by
  have : inRow Y p = true := by simp [inRow, Y]
  rw [List.dropWhile_cons_of_pos this]
  have := (List.dropWhile_suffix (l := l) (inRow Y)).length_le
  simp only [List.length_cons]
  omega

/-- `for(size_t x = a; x <= b; x++) if(x < cellSizeX) callback(x, Y)`; l.380-384 -/
def rowCalls (w : Nat) (a b Y : Int) : List (Int × Int) :=
  (((List.range (b - a + 1).toNat).map fun i : Nat => a + (i : Int)).filter fun x : Int => x < (w : Int)).map fun x => (x, Y)

inductive Outcome (α : Type) where
  /-- the result true and the calls of the callbacks -/
  | done (calls : α)
  /-- the result false, without any call -/
  | outside
  | overflow
  | assertion

/-- the calls of the rows; l.377-384 -/
def allCalls (g : Geo) (rows : List (Int × Int × Int)) : List (Int × Int) :=
  rows.flatMap fun e => if e.1 ≥ (g.h : Int) then [] else rowCalls g.w e.2.1 e.2.2 e.1

/-- `forEachInRectangle`; l.302-388 -/
noncomputable def forEachInRectangle (g : Geo) (p : Pose2) (sizeX sizeY : ℝ) : Outcome (List (Int × Int)) :=
  match getRectPoints g p sizeX sizeY with
  | none => .outside
  | some c =>
    match sides (c.ur.2 > c.dr.2) c with
    | none => .overflow
    | some (l, r) =>
      match sweep l r with
      | none => .assertion
      | some rows => .done (allCalls g rows)

end Envire.Rect
