/-!
Model of the cells of a traversability grid: /repo/src/maps/TraversabilityGrid.cpp l.155-171 (setTraversabilityAndProbability, setTraversability, getTraversability), l.183-189 (setTraversabilityClass), l.201-247
(setProbabilityArray, setTraversabilityArray, setProbability, getProbability), TraversabilityGrid.hpp l.133-155, and removeData (Layer.cpp l.147-167).

Simplifications: the arrays of both bands are functions of the cell; a probability is the byte that is stored for it (C42 treats the conversion). The grid keeps its size. Copies are the matter of C60. Access
beyond an array or a vector, or through a pointer to removed data, is undefined behaviour: `none`.
-/
namespace Envire.TravCell

inductive Band
  | trav
  | prob
  deriving DecidableEq

/-- the pointers probabilityArray and traversabilityArray: NULL, to the data of the layer, or to data that was removed -/
inductive Pointer
  | null
  | live
  | dangling
  deriving DecidableEq

/-- one band: the metadata of the layer, if it exists, and the pointer -/
structure Store where
  data : Option (Nat → Nat → Nat)
  ptr : Pointer

/-- `K` is TraversabilityClass -/
structure State (K : Type) where
  trav : Store
  prob : Store
  classes : List K

def State.get {K : Type} (s : State K) : Band → Store
  | .trav => s.trav
  | .prob => s.prob

def State.put {K : Type} (s : State K) (b : Band) (t : Store) : State K :=
  match b with
  | .trav => { s with trav := t }
  | .prob => { s with prob := t }

/-- a new grid, TraversabilityGrid.hpp l.143-153 -/
def State.start (K : Type) : State K := ⟨⟨none, .null⟩, ⟨none, .null⟩, []⟩

/-- setProbabilityArray, setTraversabilityArray, l.201-218: getData makes the data if it is missing, with zeros, and resize keeps what is there -/
def Store.array (t : Store) : Store :=
  match t.ptr with
  | .null => ⟨some (t.data.getD fun _ _ => 0), .live⟩
  | _ => t

def Store.write (w h : Nat) (t : Store) (v x y : Nat) : Option Store :=
  match t.array.ptr, t.array.data with
  | .live, some d => if x < w ∧ y < h then some ⟨some fun i j => if i = x ∧ j = y then v else d i j, .live⟩ else none
  | _, _ => none

def Store.read (w h : Nat) (t : Store) (x y : Nat) : Option (Store × Nat) :=
  match t.array.ptr, t.array.data with
  | .live, some d => if x < w ∧ y < h then some (t.array, d x y) else none
  | _, _ => none

/-- setTraversabilityClass, l.183-189; `d` is a TraversabilityClass without arguments -/
def setClass {K : Type} (d : K) (l : List K) (n : Nat) (k : K) : List K :=
  (if l.length ≤ n then l ++ List.replicate (n + 1 - l.length) d else l).set n k

inductive Op (K : Type)
  | setTraversability (k x y : Nat)
  | setProbability (p x y : Nat)
  | setBoth (k p x y : Nat)
  | setClass (n : Nat) (k : K)
  | getTraversability (x y : Nat)
  | getProbability (x y : Nat)
  | removeData (b : Band)

/-- getTraversability, l.167-171 -/
def getTraversability {K : Type} (w h : Nat) (s : State K) (x y : Nat) : Option (State K × K) :=
  match s.trav.read w h x y with
  | none => none
  | some (t, v) =>
    match s.classes[v]? with
    | none => none
    | some k => some (s.put .trav t, k)

/-- getProbability, l.242-247: the byte -/
def getProbability {K : Type} (w h : Nat) (s : State K) (x y : Nat) : Option (State K × Nat) :=
  match s.prob.read w h x y with
  | none => none
  | some (t, v) => some (s.put .prob t, v)

def write {K : Type} (w h : Nat) (s : State K) (b : Band) (v x y : Nat) : Option (State K) :=
  match (s.get b).write w h v x y with
  | none => none
  | some t => some (s.put b t)

def step {K : Type} (d : K) (w h : Nat) (s : State K) : Op K → Option (State K)
  | .setTraversability k x y => write w h s .trav k x y
  | .setProbability p x y => write w h s .prob p x y
  | .setBoth k p x y =>
    match write w h s .prob p x y with
    | none => none
    | some s' => write w h s' .trav k x y
  | .setClass n k => some { s with classes := setClass d s.classes n k }
  | .getTraversability x y =>
    match getTraversability w h s x y with
    | none => none
    | some (s', _) => some s'
  | .getProbability x y =>
    match getProbability w h s x y with
    | none => none
    | some (s', _) => some s'
  | .removeData b => some (s.put b ⟨none, match (s.get b).ptr with
    | .null => .null
    | .live => .dangling
    | .dangling => .dangling⟩)

def run {K : Type} (d : K) (w h : Nat) (s : State K) : List (Op K) → Option (State K)
  | [] => some s
  | o :: r =>
    match step d w h s o with
    | none => none
    | some s' => run d w h s' r

end Envire.TravCell
