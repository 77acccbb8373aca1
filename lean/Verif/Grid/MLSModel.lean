import Verif.Grid.ListGridProps
import Verif.Grid.PatchModel
import Verif.Serial.FileModel
/-!
Model of the multi level surface grid.

Source modelled: /repo/src/maps/MLSGrid.cpp l.30-37 (clear), l.49-62 (operator=), l.155-205 (unserialize), l.233-296 (records), l.299-377
(writeMap, readMap), l.398-415 (insertHead, insertTail, erase), l.482-521 (updateCell), l.570-624 (merge), l.732-765 (addCell,
generateIndex, initIndex, move).

Simplifications:
* the cells are the specification of ListGrid, one sequence per cell (C33); iterators into a cell are positions;
* `m p o` is MLSGrid::mergePatch, any function: it says whether the patches were merged and what both are afterwards;
* `count` is an integer, the code has a size_t;
* the index is a list of positions (std::set), the extents are an optional box (Eigen::AlignedBox of int);
* a record in the file is a sequence of bytes of fixed length, its layout (reinterpret_cast of the struct) is a parameter.
-/
namespace Envire.MLS

open Envire.ListGrid (Seqs)

/-- Eigen::AlignedBox, min and max corner -/
structure Box where
  x1 : Nat
  y1 : Nat
  x2 : Nat
  y2 : Nat
deriving DecidableEq, Repr

def Box.has (b : Box) (x y : Nat) : Prop := b.x1 ≤ x ∧ x ≤ b.x2 ∧ b.y1 ≤ y ∧ y ≤ b.y2

instance (b : Box) (x y : Nat) : Decidable (b.has x y) := by unfold Box.has; infer_instance

/-- AlignedBox::extend, from the empty box too -/
def extendBox (b : Option Box) (x y : Nat) : Option Box :=
  match b with
  | none => some ⟨x, y, x, y⟩
  | some b => some ⟨min b.x1 x, min b.y1 y, max b.x2 x, max b.y2 y⟩

structure MLS (P : Type) where
  cells : Seqs P
  count : Int
  index : Option (List (Nat × Nat))
  extents : Option Box

variable {P : Type}

/-- the constructor -/
def MLS.init (w h : Nat) : MLS P := { cells := { w := w, h := h, cells := fun _ _ => [] }, count := 0, index := none, extents := none }

/-- addCell l.732-740 -/
def MLS.addCell (g : MLS P) (x y : Nat) : MLS P :=
  { g with count := g.count + 1, index := g.index.map ((x, y) :: ·), extents := extendBox g.extents x y }

/-- insertHead l.398-402; `none` outside of the grid -/
def MLS.insertHead (g : MLS P) (x y : Nat) (v : P) : Option (MLS P) :=
  (g.cells.step (.insertHead x y v)).map fun c => MLS.addCell { g with cells := c } x y

/-- insertTail l.404-408 -/
def MLS.insertTail (g : MLS P) (x y : Nat) (v : P) : Option (MLS P) :=
  (g.cells.step (.insertTail x y v)).map fun c => MLS.addCell { g with cells := c } x y

/-- erase l.410-415 -/
def MLS.erase (g : MLS P) (x y i : Nat) : Option (MLS P) :=
  (g.cells.step (.erase x y i)).map fun c => { g with cells := c, count := g.count - 1 }

/-- clear l.30-37 -/
def MLS.clear (g : MLS P) : MLS P :=
  { cells := { g.cells with cells := fun _ _ => [] }, count := 0, index := g.index.map fun _ => [], extents := none }

/-- first loop of updateCell l.489-494: merge o into each patch, remember which ones were merged -/
def mergeAll (m : P → P → Bool × P × P) : List P → P → List (Bool × P) × P
  | [], o => ([], o)
  | p :: l, o =>
    let r := m p o
    let s := mergeAll m l r.2.2
    ((r.1, r.2.1) :: s.1, s.2)

/-- inner loop of updateCell l.508-517: the first merged patch p takes in the later merged ones; number of patches erased -/
def absorb (m : P → P → Bool × P × P) : P → List (Bool × P) → P × List (Bool × P) × Nat
  | p, [] => (p, [], 0)
  | p, (false, q) :: l =>
    let r := absorb m p l
    (r.1, (false, q) :: r.2.1, r.2.2)
  | p, (true, q) :: l =>
    let r := m p q
    let s := absorb m r.2.1 l
    if r.1 then (s.1, s.2.1, s.2.2 + 1) else (s.1, (true, r.2.2) :: s.2.1, s.2.2)

theorem absorb_length (m : P → P → Bool × P × P) (l : List (Bool × P)) : ∀ p, (absorb m p l).2.1.length + (absorb m p l).2.2 = l.length := by
  induction l with
  | nil => intro p; rfl
  | cons a l ih =>
    intro p
    obtain ⟨b, q⟩ := a
    cases b with
    | false =>
      simp only [absorb, List.length_cons]
      have := ih p
      omega
    | true =>
      simp only [absorb]
      split
      · simp only [List.length_cons]
        have := ih (m p q).2.1
        omega
      · simp only [List.length_cons]
        have := ih (m p q).2.1
        omega

/-- outer loop of updateCell l.505-519; also the number of patches erased -/
def mergeRest (m : P → P → Bool × P × P) : List (Bool × P) → List P × Nat
  | [] => ([], 0)
  | (false, p) :: l =>
    let r := mergeRest m l
    (p :: r.1, r.2)
  | (true, p) :: l =>
    let a := absorb m p l
    let r := mergeRest m a.2.1
    (a.1 :: r.1, a.2.2 + r.2)
termination_by l => l.length
decreasing_by
  · simp
  · have := absorb_length m l p
    simp only [List.length_cons]
    omega

/-- updateCell l.482-521 -/
def MLS.updateCell (m : P → P → Bool × P × P) (g : MLS P) (x y : Nat) (co : P) : Option (MLS P) :=
  if x < g.cells.w ∧ y < g.cells.h then
    let r := mergeAll m (g.cells.cells x y) co
    if r.1.any (·.1) then
      let s := mergeRest m r.1
      some { g with cells := g.cells.set x y s.1, count := g.count - s.2 }
    else MLS.insertHead { g with cells := g.cells.set x y (r.1.map (·.2)) } x y r.2
  else none

/-- generateIndex l.742-756: the cells with a patch, one entry per patch -/
def MLS.generateIndex (g : MLS P) : List (Nat × Nat) :=
  (List.range g.cells.w).flatMap fun x => (List.range g.cells.h).flatMap fun y => (g.cells.cells x y).map fun _ => (x, y)

/-- initIndex l.758-763 -/
def MLS.initIndex (g : MLS P) : MLS P := { g with index := some (if g.count > 0 then g.generateIndex else []) }

/-- move l.765-768 -/
def MLS.move (g : MLS P) (xd yd : Int) : MLS P := { g with cells := (g.cells.step (.move xd yd)).getD g.cells }

/-- operator= l.49-62 (of another object) -/
def MLS.assign (g o : MLS P) : MLS P := { g with cells := o.cells, extents := o.extents, count := o.count }

/-- merge l.570-624: `conv` takes the centre of a cell to the cell of this grid, `f` adds the offset to a patch -/
def MLS.merge (m : P → P → Bool × P × P) (g o : MLS P) (conv : Nat × Nat → Option (Nat × Nat)) (f : Nat × Nat → P → P) (order : List (Nat × Nat)) : Option (MLS P) :=
  order.foldlM (fun g e => match conv e with
    | none => some g
    | some c => (o.cells.cells e.1 e.2).foldlM (fun g p => g.updateCell m c.1 c.2 (f e p)) g) g

/-! ### Files -/

/-- SurfacePatch with all members (MLSPatch.hpp l.439-462), F: float, C: color -/
structure Rec (F C : Type) where
  mean : F
  stdev : F
  height : F
  plane : List F
  min : F
  max : F
  n : F
  normsq : F
  updateIdx : Nat
  color : C
  kind : Patch.Kind
deriving DecidableEq

/-- SurfacePatchStore l.290-298, equal in memory to SurfacePatchStore13 l.258-288 -/
structure Store (F C : Type) where
  patch : Rec F C
  xi : Nat
  yi : Nat
deriving DecidableEq

/-- SurfacePatchStore13::toSurfacePatch l.274-286. `make` is the constructor that is called first, the members are set after that -/
def Store.toSurfacePatch {F C : Type} (make : F → F → F → Patch.Kind → Rec F C) (d : Store F C) : Rec F C :=
  let p := make d.patch.mean d.patch.stdev d.patch.height d.patch.kind
  { p with updateIdx := d.patch.updateIdx, plane := d.patch.plane, n := d.patch.n, normsq := d.patch.normsq, min := d.patch.min, max := d.patch.max, color := d.patch.color }

/-- the layout of a struct in memory -/
structure Codec (S : Type) where
  size : Nat
  enc : S → List Char
  dec : List Char → S

/-- a stream; `none`: it has failed -/
abbrev Stream := Option (List Char)

/-- istream::getline( c, 20 ): the line (at most 19 characters) and the rest -/
def getline (s : Stream) : List Char × Stream :=
  match s with
  | none => ([], none)
  | some l =>
    let a := l.takeWhile (· ≠ '\n')
    if a.length ≤ 19 then
      match l.drop a.length with
      | [] => (a, none)
      | _ :: r => (a, some r)
    else (a.take 19, none)

/-- the records that `while( is.read( … ) )` gets -/
def readAll {S : Type} (c : Codec S) : Nat → List Char → List S
  | 0, _ => []
  | fuel + 1, l => if c.size ≤ l.length ∧ 0 < c.size then c.dec (l.take c.size) :: readAll c fuel (l.drop c.size) else []

/-- writeMap l.299-317 -/
def writeMap {F C : Type} (c : Codec (Store F C)) (g : MLS (Rec F C)) : List Char :=
  "mls\n".toList ++ "1.3\n".toList ++ Nat.toDigits 10 c.size ++ "\nbin\n".toList ++
  (List.range g.cells.w).flatMap fun x => (List.range g.cells.h).flatMap fun y => (g.cells.cells x y).flatMap fun p => c.enc ⟨p, x, y⟩

inductive ReadRes (A : Type) where
  | ok (a : A)
  | throws
  /-- a record for a cell outside of the grid -/
  | undefined
deriving DecidableEq

/-- readMap l.319-377; `old v d` is the content of the older format v (1.0, 1.1, 1.2) with structs of size `oldSize v` -/
def readMap {F C : Type} (make : F → F → F → Patch.Kind → Rec F C) (c : Codec (Store F C)) (old : List Char → Codec (Store F C)) (g : MLS (Rec F C)) (file : List Char) :
    ReadRes (MLS (Rec F C)) :=
  let l1 := getline (some file)
  if l1.1 ≠ "mls".toList then .throws else
  let l2 := getline l1.2
  if l2.1 ≠ "1.0".toList ∧ l2.1 ≠ "1.1".toList ∧ l2.1 ≠ "1.2".toList ∧ l2.1 ≠ "1.3".toList then .throws else
  let l3 := getline l2.2
  match (parseLong l3.1).filter fun n => decide (-2 ^ 31 ≤ n ∧ n < 2 ^ 31) with
  | none => .throws
  | some sz =>
    let l4 := getline l3.2
    if l4.1 ≠ "bin".toList then .throws else
    let k := if l2.1 = "1.3".toList then c else old l2.1
    if sz ≠ k.size then .throws else
    match (readAll k (l4.2.getD []).length (l4.2.getD [])).foldlM (fun (g : MLS (Rec F C)) d => g.insertTail d.xi d.yi (d.toSurfacePatch make)) g with
    | some g' => .ok g'
    | none => .undefined

/-- unserialize l.155-205 of a map of size w * h, the part behind the GridBase: cells.resize and readMap -/
def unserialize {F C : Type} (make : F → F → F → Patch.Kind → Rec F C) (c : Codec (Store F C)) (old : List Char → Codec (Store F C)) (w h : Nat) (g : MLS (Rec F C)) (file : List Char) :
    ReadRes (MLS (Rec F C)) :=
  readMap make c old { g with cells := { w := w, h := h, cells := fun _ _ => [] } } file

end Envire.MLS
