import Mathlib.Data.Rat.Defs
import Mathlib.Algebra.Order.Ring.Rat
import Mathlib.Algebra.Order.Ring.Abs
/-!
Model of the search of TraversabilityGrassfire.

Source modelled: /repo/src/operators/TraversabilityGrassfire.cpp l.167-219 (checkRecursive, addNeightboursToSearchList), l.294-295 (start),
l.300-394 (getNearestPatchWhereRobotFits), l.452-459 (main loop), l.149-152 and l.437-444 (classes).

Simplifications: rational numbers; the unsigned sums x + xi that wrap around are integers here, both versions reject the cells outside (grids with
fewer than 2^64 - 1 columns and rows); patches are values, not addresses; the search for the start cell (l.246-292) is a parameter.
-/
namespace Envire.Grassfire

abbrev Cell := Nat × Nat

/-- the cell (x + xi, y + yi) if it is in the grid, l.211-213 -/
def shift (w h : Nat) (c : Cell) (xi yi : Int) : Option Cell :=
  let nx := (c.1 : Int) + xi
  let ny := (c.2 : Int) + yi
  if 0 ≤ nx ∧ nx < w ∧ 0 ≤ ny ∧ ny < h then some (nx.toNat, ny.toNat) else none

/-- the offsets in the order of the loops l.204-209 -/
def offsets : List (Int × Int) := [(-1, -1), (0, -1), (1, -1), (-1, 0), (1, 0), (-1, 1), (0, 1), (1, 1)]

def neighbours (w h : Nat) (c : Cell) : List Cell := offsets.filterMap fun o => shift w h c o.1 o.2

/-- visited, bestPatchMap, searchList; `evals` is a ghost: the calls of getNearestPatchWhereRobotFits (cell, origin), newest first -/
structure St (P : Type) where
  visited : Cell → Bool
  best : Cell → Option P
  queue : List (Cell × P)
  evals : List (Cell × P)

variable {P : Type}

/-- addNeightboursToSearchList l.199-219 -/
def St.addNeighbours (w h : Nat) (s : St P) (c : Cell) (p : P) : St P :=
  { s with
    best := fun d => if d = c then some p else s.best d
    visited := fun d => if d = c then true else s.visited d
    queue := s.queue ++ (neighbours w h c).map fun d => (d, p) }

/-- checkRecursive l.167-197; `fits` is getNearestPatchWhereRobotFits for the height of the origin: patch and isKnownObstacle -/
def St.check (w h : Nat) (fits : Cell → P → Option (P × Bool)) (s : St P) (c : Cell) (origin : P) : St P :=
  if s.visited c then s
  else
    let s1 : St P := { s with visited := fun d => if d = c then true else s.visited d, evals := (c, origin) :: s.evals }
    match fits c origin with
    | some (p, true) => { s1 with best := fun d => if d = c then some p else s1.best d, visited := fun d => if d = c then true else s1.visited d }
    | some (p, false) => s1.addNeighbours w h c p
    | none => { s1 with best := fun d => if d = c then none else s1.best d }

/-- one iteration of the main loop l.452-459 -/
def St.step (w h : Nat) (fits : Cell → P → Option (P × Bool)) (s : St P) : St P :=
  match s.queue with
  | [] => s
  | (c, p) :: q => { s with queue := q }.check w h fits c p

/-- the state after determineDrivePlane l.235-239, l.295 -/
def start (w h : Nat) (c : Cell) (p : P) : St P :=
  St.addNeighbours w h { visited := fun _ => false, best := fun _ => none, queue := [], evals := [] } c p

/-! getNearestPatchWhereRobotFits -/

structure Patch where
  mean : ℚ
  stdev : ℚ
  count : Int
deriving DecidableEq

structure Config where
  maxStep : ℚ
  robotHeight : ℚ
  minMeasurements : Int
  maxStdDev : ℚ

def Patch.top (p : Patch) : ℚ := p.mean + p.stdev
def Patch.bottom (p : Patch) : ℚ := p.mean - p.stdev

/-- l.312, l.376 -/
def Config.outlier (c : Config) (p : Patch) : Bool := decide (p.count < c.minMeasurements) && decide (p.stdev > c.maxStdDev)

/-- the tests for a blocking patch l.331, l.339 -/
def Config.blocks (c : Config) (height : ℚ) (p : Patch) : Bool :=
  (decide (p.bottom < height + c.robotHeight) && decide (p.top > height + c.robotHeight)) ||
    (decide (p.bottom < height + c.maxStep) && decide (p.top > height + c.maxStep))

/-- the first loop l.309-352: `Sum.inl` returns at once with a blocking patch -/
def scan (c : Config) (height : ℚ) : List Patch → Option Patch → Patch ⊕ Option Patch
  | [], best => .inr best
  | p :: l, best =>
    if c.outlier p then scan c height l best
    else if p.bottom > height + c.robotHeight + c.maxStep then scan c height l best
    else if c.blocks height p then .inl p
    else if (match best with
        | none => true
        | some b => decide (|p.top - height| < |b.top - height|)) then scan c height l (some p)
    else scan c height l best

/-- the patch that makes the gap too small l.373-389 -/
def ceiling (c : Config) (cell : List Patch) (p : Patch) : Option Patch :=
  cell.find? fun q => !c.outlier q && (decide (p.top < q.bottom) && decide (q.bottom - p.top < c.robotHeight))

/-- the second loop l.360-391; `none`: not finished after `fuel` rounds -/
def climb (c : Config) (height : ℚ) (cell : List Patch) : Nat → Patch → Option (Patch × Bool)
  | 0, _ => none
  | n + 1, p =>
    if p.top - height > c.maxStep then some (p, true)
    else match ceiling c cell p with
      | some q => climb c height cell n q
      | none => some (p, false)

/-- getNearestPatchWhereRobotFits l.300-394: patch and isObstacle; the outer `none`: not finished -/
def nearest (c : Config) (height : ℚ) (cell : List Patch) (fuel : Nat) : Option (Option (Patch × Bool)) :=
  match scan c height cell none with
  | .inl p => some (some (p, true))
  | .inr none => some none
  | .inr (some p) => (climb c height cell fuel p).map some

end Envire.Grassfire
