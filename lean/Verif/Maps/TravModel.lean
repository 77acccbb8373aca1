import Mathlib.Algebra.Order.Floor.Ring
import Mathlib.Data.Rat.Floor
/-!
Model of the traversability grid: class table, statistics, probabilities.

Source modelled: /repo/src/maps/TraversabilityGrid.hpp l.11-61 (TraversabilityClass), l.66-124 (TraversabilityStatistic);
/repo/src/maps/TraversabilityGrid.cpp l.97-139 (getWorstTraversabilityClassInRectangle), l.141-153 (worst probability), l.173-199 (class
table), l.233-247 (probabilities), l.249-270 (serialize, unserialize of the class table).

Simplifications: rational numbers instead of double; `numeric_limits<double>::max()` is larger than every drivability (`none`); the cells
that forEachInRectangle visits are a list; a cell of the grid is a number below 256; a stream of keys and values is a function.
-/
namespace Envire.Trav

/-- an outcome of a call -/
inductive Res (A : Type) where
  | ok (a : A)
  | throws
  /-- access outside of an array -/
  | undefined
deriving DecidableEq, Repr

/-- TraversabilityClass, TraversabilityGrid.hpp l.11-61: the member drivability, -1 for the default constructor l.27 -/
structure Class where
  drivability : ℚ
deriving DecidableEq

/-- TraversabilityClass(), TraversabilityGrid.hpp l.27-29 -/
def Class.empty : Class := ⟨-1⟩

/-- TraversabilityClass( drivability ), TraversabilityGrid.hpp l.19-25 -/
def Class.make (d : ℚ) : Res Class := if d < 0 ∨ d ≥ 1000001 / 1000000 then .throws else .ok ⟨d⟩

/-- isSet, TraversabilityGrid.hpp l.35-37 -/
def Class.isSet (c : Class) : Bool := decide (c.drivability < 0)

/-- isTraversable, TraversabilityGrid.hpp l.42-44 -/
def Class.isTraversable (c : Class) : Bool := decide (c.drivability > 0)

/-- getDrivability, TraversabilityGrid.hpp l.51-57 -/
def Class.getDrivability (c : Class) : ℚ := if c.drivability < 0 then 0 else c.drivability

/-- the member traversabilityClasses -/
abbrev Table := List Class

/-- setTraversabilityClass, TraversabilityGrid.cpp l.183-189: resize to num + 1 if needed, then assign -/
def setClass (t : Table) (num : Nat) (c : Class) : Table :=
  let t1 := if t.length ≤ num then t ++ List.replicate (num + 1 - t.length) Class.empty else t
  t1.set num c

/-- registerNewTraversabilityClass, TraversabilityGrid.cpp l.173-181: the id (a uint8_t) and the table; `none`: returns false -/
def register (t : Table) (c : Class) : Option (Nat × Table) :=
  if t.length ≥ 255 then none
  else
    let id := (t.length + 1) % 256
    some (id, setClass t id c)

/-- getTraversabilityClass, TraversabilityGrid.cpp l.191-199 -/
def getClass (t : Table) (k : Nat) : Res Class :=
  match t[k]? with
  | some c => .ok c
  | none => .throws

/-- TraversabilityStatistic, TraversabilityGrid.hpp l.66-124: counts for the classes 0 to 254, highest class -/
structure Stat where
  counts : Nat → Nat
  highest : Nat

/-- addMeasurement, TraversabilityGrid.hpp l.84-90; the arrays have 255 elements -/
def Stat.add (s : Stat) (k : Nat) : Res Stat :=
  if k < 255 then .ok { counts := fun j => if j = k then s.counts j + 1 else s.counts j, highest := max s.highest k } else .undefined

/-- addMeasurement for all cells, TraversabilityGrid.cpp l.102-103 -/
def Stat.addAll (s : Stat) : List Nat → Res Stat
  | [] => .ok s
  | k :: l => match s.add k with
    | .ok s' => s'.addAll l
    | .throws => .throws
    | .undefined => .undefined

/-- curDrivability > drivability l.113; initially curDrivability is the largest double -/
def worse : Option (Nat × ℚ) → ℚ → Bool
  | none, _ => true
  | some (_, d), e => decide (d > e)

/-- the loop of getWorstTraversabilityClassInRectangle, TraversabilityGrid.cpp l.105-122, from class i on, n classes are left; cur: class and drivability found so far -/
def worstLoop (t : Table) (s : Stat) : Nat → Nat → Option (Nat × ℚ) → Res Nat
  | _, 0, some (k, _) => .ok k
  | _, 0, none => .throws
  | i, n + 1, cur =>
    if s.counts i ≠ 0 then
      match getClass t i with
      | .ok c =>
        if worse cur c.getDrivability then
          if c.isTraversable then worstLoop t s (i + 1) n (some (i, c.getDrivability)) else .ok i
        else worstLoop t s (i + 1) n cur
      | .throws => .throws
      | .undefined => .undefined
    else worstLoop t s (i + 1) n cur

/-- getWorstTraversabilityClassInRectangle, TraversabilityGrid.cpp l.97-139 for the cells of the rectangle: the number of the class that is returned -/
def worst (t : Table) (cells : List Nat) : Res Nat :=
  match Stat.addAll ⟨fun _ => 0, 0⟩ cells with
  | .ok s => worstLoop t s 0 (s.highest + 1) none
  | .throws => .throws
  | .undefined => .undefined

/-- setProbability, TraversabilityGrid.cpp l.233-240: the byte that is stored; the conversion to uint32_t is undefined outside of its range -/
def storeProb (p : ℚ) : Res Nat :=
  if p * 255 ≤ -1 ∨ p * 255 ≥ 4294967296 then .undefined else .ok (min 255 (⌊p * 255⌋.toNat) % 256)

/-- getProbability, TraversabilityGrid.cpp l.242-247 -/
def loadProb (v : Nat) : ℚ := (v : ℚ) / 255

/-- getWorstProbabilityInRectangle, TraversabilityGrid.cpp l.141-153 for the bytes in the rectangle -/
def worstProb (cells : List Nat) : ℚ := cells.foldl (fun w v => if w > loadProb v then loadProb v else w) 1

/-- what serialize writes for the class table, TraversabilityGrid.cpp l.249-257 -/
structure Stored where
  count : Nat
  drivability : Nat → Option ℚ

/-- serialize, TraversabilityGrid.cpp l.249-257 -/
def storeTable (t : Table) : Stored := { count := t.length, drivability := fun i => (t[i]?).map Class.getDrivability }

/-- unserialize, TraversabilityGrid.cpp l.259-270: `none` where the key is missing; an exception leaves the table as it is then -/
def loadTable (t : Table) (s : Stored) : Res Table :=
  (List.range s.count).foldl (fun r i => match r with
    | .ok t => match s.drivability i with
      | none => .ok t
      | some d => match Class.make d with
        | .ok c => .ok (setClass t (i % 256) c)
        | .throws => .throws
        | .undefined => .undefined
    | r => r) (.ok t)

end Envire.Trav
