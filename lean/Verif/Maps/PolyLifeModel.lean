/-!
Model of the life of polygons and of sets of polygons: /repo/src/maps/PolygonMap.cpp l.44-61 (Polygon), l.99-118 (PolygonSet, add), l.125-175 and l.183-219 (queries), PolygonMap.hpp l.17-66, with the
implicit copy constructors and assignments, and `clone` and `set` of /repo/src/core/EnvironmentItem.hpp l.18-30.

Simplifications: objects and their data are numbers that are never used twice. A map with its three sets is three sets. A query looks at polygons whose boxes meet that of the polygon, until it
finds a collision, or only at the one it found before; `near` says which. What queries answer is the matter of Verif/Maps/PolygonModel.
-/
namespace Envire.PolyLife

structure State where
  /-- the sets that live and the numbers of their data -/
  sets : Nat → Option Nat
  /-- the data that was allocated and not deleted, with its polygons -/
  data : Nat → Option (List Nat)
  /-- the polygons that live -/
  polys : Nat → Bool
  /-- the number of the next data -/
  next : Nat

def upd {A : Type} (f : Nat → A) (i : Nat) (a : A) : Nat → A := fun j => if j = i then a else f j

inductive Op
  | newSet (i : Nat)
  /-- the copy constructor: clone of a map -/
  | copy (i j : Nat)
  /-- `j = i`: set of a map -/
  | assign (i j : Nat)
  | destroy (i : Nat)
  | newPoly (p : Nat)
  | destroyPoly (p : Nat)
  | add (i p : Nat)
  | query (i p : Nat) (near : List Nat)

/-- none: memory that was deleted is used or deleted. Operations on objects that do not exist are not possible and do nothing -/
def step (s : State) : Op → Option State
  | .newSet i => if s.sets i = none then some { s with sets := upd s.sets i (some s.next), data := upd s.data s.next (some []), next := s.next + 1 } else some s
  | .copy i j =>
    match s.sets i, s.sets j with
    | some d, none => some { s with sets := upd s.sets j (some d) }
    | _, _ => some s
  | .assign i j =>
    match s.sets i, s.sets j with
    | some d, some _ => some { s with sets := upd s.sets j (some d) }
    | _, _ => some s
  | .destroy i =>
    match s.sets i with
    | none => some s
    | some d => match s.data d with
      | none => none
      | some _ => some { s with sets := upd s.sets i none, data := upd s.data d none }
  | .newPoly p => some { s with polys := upd s.polys p true }
  | .destroyPoly p => some { s with polys := upd s.polys p false }
  | .add i p =>
    match s.sets i with
    | none => some s
    | some d => if s.polys p = false then some s else match s.data d with
      | none => none
      | some l => some { s with data := upd s.data d (some (l ++ [p])) }
  | .query i p near =>
    match s.sets i with
    | none => some s
    | some d => if s.polys p = false then some s else match s.data d with
      | none => none
      | some l => if l.all (fun q => s.polys q || !near.contains q) then some s else none

def run : State → List Op → Option State
  | s, [] => some s
  | s, o :: l => (step s o).bind fun s => run s l

def start : State := ⟨fun _ => none, fun _ => none, fun _ => false, 0⟩

end Envire.PolyLife
