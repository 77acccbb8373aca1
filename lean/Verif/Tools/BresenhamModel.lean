/-!
Model of the Bresenham line iterator.

Source modelled: /repo/src/tools/BresenhamLine.cpp l.18-28 (init), l.44-63 (getNextPoint), l.65-71 (getLine), l.74-79 (lineBresenham);
/repo/src/tools/BresenhamLine.hpp.

`int` arithmetic is checked: a result that does not fit into 32 bits is undefined behaviour (`none`). The conversion of a
GridBase::Position (size_t) to int on entry and back on output is the identity on the numbers of the theorems.
Not modelled: the overload of getNextPoint for Position copies two uninitialised ints into the caller's variable when the line
is exhausted.
-/
namespace Envire.Bresenham

/-- result of an `int` operation -/
def chk (n : Int) : Option Int := if -2 ^ 31 ≤ n ∧ n < 2 ^ 31 then some n else none

/-- members of class Bresenham, BresenhamLine.hpp l.50-55 -/
structure State where
  x0 : Int
  y0 : Int
  x1 : Int
  y1 : Int
  dx : Int
  dy : Int
  sx : Int
  sy : Int
  err : Int
  hasP : Bool

/-- Bresenham::init l.18-28 -/
def init (startX startY endX endY : Int) : Option State :=
  (chk (endX - startX)).bind fun ddx => (chk ddx.natAbs).bind fun dx =>
  (chk (endY - startY)).bind fun ddy => (chk ddy.natAbs).bind fun ady =>
  (chk (dx + -ady)).bind fun err =>
  some { x0 := startX, y0 := startY, x1 := endX, y1 := endY, dx := dx, dy := -ady, sx := if startX < endX then 1 else -1,
         sy := if startY < endY then 1 else -1, err := err, hasP := true }

/-- `if (e2 > dy) { err += dy; x0 += sx; }` -/
def stepX (e2 : Int) (s : State) : Option State :=
  if e2 > s.dy then (chk (s.err + s.dy)).bind fun e => (chk (s.x0 + s.sx)).bind fun x => some { s with err := e, x0 := x } else some s

/-- `if (e2 < dx) { err += dx; y0 += sy; }` -/
def stepY (e2 : Int) (s : State) : Option State :=
  if e2 < s.dx then (chk (s.err + s.dx)).bind fun e => (chk (s.y0 + s.sy)).bind fun y => some { s with err := e, y0 := y } else some s

/-- Bresenham::getNextPoint l.44-63; `some none` is the result false -/
def next (s : State) : Option (Option ((Int × Int) × State)) :=
  if s.hasP = false then some none
  else if s.x0 = s.x1 ∧ s.y0 = s.y1 then some (some ((s.x0, s.y0), { s with hasP := false }))
  else (chk (2 * s.err)).bind fun e2 => (stepX e2 s).bind fun s1 => (stepY e2 s1).bind fun s2 => some (some ((s.x0, s.y0), s2))

/-- Bresenham::getLine l.65-71; the number of loop iterations is limited by `fuel`, `none` when it does not suffice -/
def getLine : Nat → State → Option (List (Int × Int))
  | 0, _ => none
  | fuel + 1, s => (next s).bind fun
    | none => some []
    | some (p, s') => (getLine fuel s').bind fun l => some (p :: l)

/-- lineBresenham l.74-79 -/
def lineBresenham (fuel : Nat) (p q : Int × Int) : Option (List (Int × Int)) := (init p.1 p.2 q.1 q.2).bind fun s => getLine fuel s

end Envire.Bresenham
