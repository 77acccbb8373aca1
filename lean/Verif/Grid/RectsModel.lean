import Verif.Grid.RectModel

/-!
Model of GridBase::forEachInRectangles (src/maps/GridBase.cpp l.116-300); simplifications as in RectModel.
-/

namespace Envire.Rect

/-- one iteration of the loop over the rows: the row, its range for the outer rectangle and, if `inY == outY`, its range for the inner rectangle -/
structure Row where
  y : Int
  lo : Int
  hi : Int
  inner : Option (Int × Int)
deriving DecidableEq, Repr

/-- the loop over the rows; l.201-295. `iy` is `inY` from the iteration before, it is set in the first iteration as the sides are never empty. Each iteration consumes
a point of the outer left side, hence its length is the number of iterations at most. -/
def sweep2 : Nat → List Pt → List Pt → List Pt → List Pt → Int → List Row
  | 0, _, _, _, _, _ => []
  | n + 1, li, ri, lo, ro, iy =>
    match lo, ro with
    | [], _ => []
    | _, [] => []
    | p :: lo', q :: ro' =>
      let inY := match li with
        | c :: _ => c.2 / 10
        | [] => iy
      let Y := p.2 / 10
      let pin := li.takeWhile (inRow Y) ++ ri.takeWhile (inRow Y)
      let pout := (p :: lo').takeWhile (inRow Y) ++ (q :: ro').takeWhile (inRow Y)
      { y := Y, lo := minX pout / 10, hi := maxX pout / 10, inner := if inY = Y then some (minX pin / 10, maxX pin / 10) else none } ::
        sweep2 n (li.dropWhile (inRow Y)) (ri.dropWhile (inRow Y)) ((p :: lo').dropWhile (inRow Y)) ((q :: ro').dropWhile (inRow Y)) inY

/-- the calls of a row, with `true` for the inner callback; l.263-293 -/
def rowCalls2 (g : Geo) (e : Row) : List (Bool × (Int × Int)) :=
  if e.y ≥ (g.h : Int) then []
  else
    match e.inner with
    | some (a, b) => (rowCalls g.w e.lo (a - 1) e.y).map (fun c => (false, c)) ++ (rowCalls g.w a b e.y).map (fun c => (true, c)) ++
        (rowCalls g.w (b + 1) e.hi e.y).map fun c => (false, c)
    | none => (rowCalls g.w e.lo e.hi e.y).map fun c => (false, c)

/-- the calls for given corners; l.135-297. The condition of l.140 is about the corners of the inner rectangle. -/
def calls2 (g : Geo) (ci co : Corners Pt) : Option (List (Bool × (Int × Int))) :=
  match sides (ci.ur.2 > ci.dr.2) ci, sides (ci.ur.2 > ci.dr.2) co with
  | some (li, ri), some (lo, ro) => some ((sweep2 lo.length li ri lo ro 0).flatMap (rowCalls2 g))
  | _, _ => none

/-- `forEachInRectangles`; l.116-300 -/
noncomputable def forEachInRectangles (g : Geo) (p : Pose2) (innerX innerY outerX outerY : ℝ) : Outcome (List (Bool × (Int × Int))) :=
  match getRectPoints g p innerX innerY with
  | none => .outside
  | some ci =>
    match getRectPoints g p outerX outerY with
    | none => .outside
    | some co =>
      match calls2 g ci co with
      | none => .overflow
      | some calls => .done calls

end Envire.Rect
