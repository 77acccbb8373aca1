/-!
Model of the grid of lists used by the multi level surface maps.

Source modelled: /repo/src/tools/ListGrid.hpp l.21-29 (Item), l.66-73 (constructors), l.79-83 (copy constructor), l.85-117 (operator=),
l.125-168 (move), l.172-176 (resize), l.181-204 (beginCell, endCell), l.208-219 (insertHead), l.223-247 (insertTail), l.250-262 (erase),
l.264-272 (clear).

Memory: items live at addresses; `items a = none` says that there is no live item at a, and every access to such an item is undefined
behaviour (`none` as the result of an operation, as are an index out of range, an endless loop and the use of an uninitialised
memory pool). The pointer-to-pointer `pthis` is a location: a slot of the cell array or the `next` member of an item. The memory pool
is an arbitrary allocator `alloc time live` that returns an address which is not live (freed addresses may be used again).
`cells` keeps its storage when it is swapped (boost::multi_array has no own swap, its elements are copied), so locations
of slots stay valid and refer to the slot of the same index.
-/
namespace Envire.ListGrid

/-- what an `Item**` can point to -/
inductive Loc where
  | cell (x y : Nat)
  | next (a : Nat)
deriving DecidableEq

/-- ListGrid::Item l.21-29 -/
structure Item (V : Type) where
  val : V
  next : Option Nat
  pthis : Loc

structure Grid (V : Type) where
  w : Nat
  h : Nat
  cells : Nat → Nat → Option Nat
  items : Nat → Option (Item V)
  /-- state of the memory pool: addresses of live items, number of calls so far, whether the pointer to the pool is initialised -/
  live : List Nat
  time : Nat
  pool : Bool

abbrev Alloc := Nat → List Nat → Nat

variable {V : Type}

def setCell (f : Nat → Nat → Option Nat) (x y : Nat) (p : Option Nat) : Nat → Nat → Option Nat := fun x' y' => if x' = x ∧ y' = y then p else f x' y'

def setItem (f : Nat → Option (Item V)) (a : Nat) (i : Option (Item V)) : Nat → Option (Item V) := fun b => if b = a then i else f b

/-- ListGrid( sizeX, sizeY ) l.68-72 -/
def Grid.init (w h : Nat) : Grid V := { w := w, h := h, cells := fun _ _ => none, items := fun _ => none, live := [], time := 0, pool := true }

/-- mem_pool->malloc() and the assignment of the value -/
def Grid.malloc (alloc : Alloc) (g : Grid V) (i : Item V) : Option (Nat × Grid V) :=
  if g.pool = false then none
  else
    let n := alloc g.time g.live
    some (n, { g with items := setItem g.items n (some i), live := n :: g.live, time := g.time + 1 })

/-- mem_pool->free( a ) -/
def Grid.free (g : Grid V) (a : Nat) : Option (Grid V) :=
  (g.items a).bind fun _ => some { g with items := setItem g.items a none, live := g.live.filter (· ≠ a) }

/-- `a->pthis = l` -/
def Grid.setPthis (g : Grid V) (a : Nat) (l : Loc) : Option (Grid V) :=
  (g.items a).bind fun i => some { g with items := setItem g.items a (some { i with pthis := l }) }

/-- `*l = p` -/
def Grid.store (g : Grid V) (l : Loc) (p : Option Nat) : Option (Grid V) :=
  match l with
  | .cell x y => if x < g.w ∧ y < g.h then some { g with cells := setCell g.cells x y p } else none
  | .next a => (g.items a).bind fun i => some { g with items := setItem g.items a (some { i with next := p }) }

/-- ListGrid::insertHead l.208-219 -/
def Grid.insertHead (alloc : Alloc) (g : Grid V) (x y : Nat) (v : V) : Option (Grid V) :=
  if x < g.w ∧ y < g.h then
    (g.malloc alloc { val := v, next := g.cells x y, pthis := .cell x y }).bind fun (n, g1) =>
    (match g.cells x y with
      | some b => g1.setPthis b (.next n)
      | none => some g1).bind fun g2 =>
    g2.store (.cell x y) (some n)
  else none

/-- the loop of insertTail l.225-231 -/
def lastLoop (items : Nat → Option (Item V)) : Nat → Option Nat → Option Nat → Option (Option Nat)
  | 0, _, _ => none
  | _ + 1, last, none => some last
  | fuel + 1, _, some a => (items a).bind fun i => lastLoop items fuel (some a) i.next

/-- ListGrid::insertTail l.223-247 -/
def Grid.insertTail (alloc : Alloc) (g : Grid V) (x y : Nat) (v : V) : Option (Grid V) :=
  if x < g.w ∧ y < g.h then
    (lastLoop g.items (g.live.length + 1) (g.cells x y) (g.cells x y)).bind fun last =>
    match last with
    | some b => (g.malloc alloc { val := v, next := none, pthis := .next b }).bind fun (n, g1) => g1.store (.next b) (some n)
    | none => (g.malloc alloc { val := v, next := none, pthis := .cell x y }).bind fun (n, g1) => g1.store (.cell x y) (some n)
  else none

/-- ListGrid::erase l.250-262, for the item at address a; returns the iterator to the next element -/
def Grid.eraseAt (g : Grid V) (a : Nat) : Option (Option Nat × Grid V) :=
  (g.items a).bind fun p =>
  (g.store p.pthis p.next).bind fun g1 =>
  (match p.next with
    | some b => g1.setPthis b p.pthis
    | none => some g1).bind fun g2 =>
  (g2.free a).bind fun g3 => some (p.next, g3)

/-- beginCell and i increments: the iterator to element i -/
def walk (items : Nat → Option (Item V)) : Nat → Option Nat → Option (Option Nat)
  | 0, p => some p
  | _ + 1, none => none
  | i + 1, some a => (items a).bind fun it => walk items i it.next

/-- erase of element i of a cell; the returned iterator and the new grid -/
def Grid.erase (g : Grid V) (x y i : Nat) : Option (Option Nat × Grid V) :=
  if x < g.w ∧ y < g.h then
    (walk g.items i (g.cells x y)).bind fun p => p.bind fun a => g.eraseAt a
  else none

/-- iteration over a cell from beginCell to endCell -/
def collect (items : Nat → Option (Item V)) : Nat → Option Nat → Option (List V)
  | 0, _ => none
  | _ + 1, none => some []
  | fuel + 1, some a => (items a).bind fun i => (collect items fuel i.next).bind fun l => some (i.val :: l)

def Grid.toList (g : Grid V) (x y : Nat) : Option (List V) :=
  if x < g.w ∧ y < g.h then collect g.items (g.live.length + 1) (g.cells x y) else none

/-- ListGrid::clear l.264-272 -/
def Grid.clear (g : Grid V) : Option (Grid V) :=
  if g.pool = false then none else some { g with cells := fun _ _ => none, items := fun _ => none, live := [] }

/-- ListGrid::resize l.172-176 -/
def Grid.resize (g : Grid V) (w h : Nat) : Option (Grid V) := g.clear.bind fun g => some { g with w := w, h := h }

/-- the loop over the entries of a dropped cell l.152-158 -/
def freeChain : Nat → Option Nat → Grid V → Option (Grid V)
  | 0, _, _ => none
  | _ + 1, none, g => some g
  | fuel + 1, some a, g => (g.items a).bind fun i => (g.free a).bind fun g => freeChain fuel i.next g

/-- the body of the loops of move l.145-165 -/
def moveCell (tmp : Nat → Nat → Option Nat) (xd yd : Int) (g : Grid V) (c : Nat × Nat) : Option (Grid V) :=
  let newX : Int := c.1 + xd
  let newY : Int := c.2 + yd
  if newX < 0 ∨ newX ≥ g.w ∨ newY < 0 ∨ newY ≥ g.h then freeChain (g.live.length + 1) (tmp c.1 c.2) g
  else g.store (.cell newX.toNat newY.toNat) (tmp c.1 c.2)

/-- the cells in the order of the loops -/
def cellsOf (w h : Nat) : List (Nat × Nat) := (List.range w).flatMap fun x => (List.range h).map fun y => (x, y)

/-- ListGrid::move l.125-168 -/
def Grid.move (g : Grid V) (xd yd : Int) : Option (Grid V) :=
  if xd.natAbs ≥ g.w ∨ yd.natAbs ≥ g.h then g.clear
  else (cellsOf g.w g.h).foldlM (moveCell g.cells xd yd) { g with cells := fun _ _ => none }

/-- the loop of operator= over the items of a cell of the other grid -/
def copyChain (alloc : Alloc) (other : Grid V) (x y : Nat) : Nat → Option Nat → Grid V → Option (Grid V)
  | 0, _, _ => none
  | _ + 1, none, g => some g
  | fuel + 1, some a, g => (other.items a).bind fun i => (g.insertTail alloc x y i.val).bind fun g => copyChain alloc other x y fuel i.next g

/-- ListGrid::operator= l.85-117, for a different grid -/
def Grid.assign (alloc : Alloc) (g other : Grid V) : Option (Grid V) :=
  ({ g with w := other.w, h := other.h } : Grid V).clear.bind fun g =>
  (cellsOf other.w other.h).foldlM (fun g c => copyChain alloc other c.1 c.2 (other.live.length + 1) (other.cells c.1 c.2) { g with cells := setCell g.cells c.1 c.2 none }) g

/-- ListGrid( const ListGrid& ) l.79-83: the pointer to the memory pool is not initialised -/
def Grid.copyConstruct (alloc : Alloc) (other : Grid V) : Option (Grid V) := Grid.assign alloc { Grid.init 0 0 with pool := false } other

end Envire.ListGrid
