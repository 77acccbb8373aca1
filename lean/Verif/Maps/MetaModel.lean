import Mathlib.Data.List.Nodup
/-!
Model of the metadata of layers (key, typed value), with the heap made explicit, and of the array pointer that a TraversabilityGrid keeps.

Source modelled: /repo/src/core/Layer.hpp l.119-195, /repo/src/core/Layer.cpp l.21-43 (copy constructor, assignment), l.59-62 (destructor),
l.147-167 (hasData, removeData); /repo/src/core/Holder.hpp l.12-74; /repo/src/maps/TraversabilityGrid.cpp l.161-171, l.211-218, l.272-285;
implicit copy constructor of TraversabilityGrid, used by clone() of /repo/src/core/EnvironmentItem.hpp l.27-30.

Simplifications: a holder and the object that it owns are one heap object (type, value); the std::map is an association list (order of keys not
modelled); layers have numbers instead of addresses; one array of the TraversabilityGrid (the other one is handled alike). Every allocation
takes an arbitrary address that is not live, freed addresses may be used again. `none` is undefined behaviour.
-/
namespace Envire.Meta

variable {K Ty V : Type} [DecidableEq K] [DecidableEq Ty]

/-- an allocator: an address for the list of the live addresses -/
abbrev Alloc := List Nat → Nat

structure Heap (Ty V : Type) where
  obj : Nat → Option (Ty × V)
  live : List Nat

/-- `new Holder<T>( value )`, Holder.hpp l.33-41 -/
def Heap.new (h : Heap Ty V) (alloc : Alloc) (o : Ty × V) : Nat × Heap Ty V :=
  let a := alloc h.live
  (a, { obj := fun b => if b = a then some o else h.obj b, live := a :: h.live })

/-- `delete holder`, Holder.hpp l.43-46 -/
def Heap.delete (h : Heap Ty V) (a : Nat) : Option (Heap Ty V) :=
  match h.obj a with
  | none => none
  | some _ => some { obj := fun b => if b = a then none else h.obj b, live := h.live.filter (· ≠ a) }

/-- writing through a reference -/
def Heap.write (h : Heap Ty V) (a : Nat) (v : V) : Option (Heap Ty V) :=
  match h.obj a with
  | none => none
  | some o => some { h with obj := fun b => if b = a then some (o.1, v) else h.obj b }

/-- data_map.find, Layer.hpp l.129, l.170 -/
def find : List (K × Nat) → K → Option Nat
  | [], _ => none
  | (k, a) :: m, k' => if k = k' then some a else find m k'

/-- the heap and the data_map of every existing layer, Layer.hpp l.22-25 -/
structure World (K Ty V : Type) where
  heap : Heap Ty V
  maps : Nat → Option (List (K × Nat))

def World.setMap (w : World K Ty V) (h : Heap Ty V) (l : Nat) (m : Option (List (K × Nat))) : World K Ty V :=
  { heap := h, maps := fun j => if j = l then m else w.maps j }

/-- Layer( id ), Layer.cpp l.16-19 -/
def World.create (w : World K Ty V) (l : Nat) : Option (World K Ty V) :=
  match w.maps l with
  | some _ => none
  | none => some (w.setMap w.heap l (some []))

/-- hasData( key ), Layer.cpp l.147-150 -/
def World.hasData (w : World K Ty V) (l : Nat) (k : K) : Option Bool := (w.maps l).map fun m => (find m k).isSome

/-- hasData<T>( key ), Layer.hpp l.126-133 -/
def World.hasDataOf (w : World K Ty V) (l : Nat) (k : K) (ty : Ty) : Option Bool :=
  (w.maps l).bind fun m => match find m k with
    | none => some false
    | some a => (w.heap.obj a).map fun o => decide (o.1 = ty)

/-- getData<T>( key ), Layer.hpp l.139-161: a reference. For an object of another type the null pointer of the dynamic_cast is
dereferenced, Holder.hpp l.65-68 -/
def World.getData (w : World K Ty V) (alloc : Alloc) (dflt : Ty → V) (l : Nat) (k : K) (ty : Ty) : Option (Nat × World K Ty V) :=
  (w.maps l).bind fun m => match find m k with
    | some a => (w.heap.obj a).bind fun o => if o.1 = ty then some (a, w) else none
    | none =>
      let r := w.heap.new alloc (ty, dflt ty)
      some (r.1, w.setMap r.2 l (some ((k, r.1) :: m)))

/-- result of a function that may throw -/
inductive Res (A : Type) where
  | ok (a : A)
  | throws
deriving DecidableEq

/-- getData<T>( key ) const, Layer.hpp l.167-187 -/
def World.getConst (w : World K Ty V) (l : Nat) (k : K) (ty : Ty) : Option (Res V) :=
  (w.maps l).bind fun m => match find m k with
    | none => some .throws
    | some a => (w.heap.obj a).bind fun o => if o.1 = ty then some (.ok o.2) else none

/-- removeData( key ), Layer.cpp l.152-159 -/
def World.removeData (w : World K Ty V) (l : Nat) (k : K) : Option (World K Ty V) :=
  (w.maps l).bind fun m => match find m k with
    | none => some w
    | some a => (w.heap.delete a).map fun h => w.setMap h l (some (m.filter fun e => e.1 ≠ k))

/-- the loop of removeData(), Layer.cpp l.163-164 -/
def deleteAll : List (K × Nat) → Heap Ty V → Option (Heap Ty V)
  | [], h => some h
  | (_, a) :: m, h => (h.delete a).bind (deleteAll m)

/-- removeData(), Layer.cpp l.161-167 -/
def World.removeAll (w : World K Ty V) (l : Nat) : Option (World K Ty V) :=
  (w.maps l).bind fun m => (deleteAll m w.heap).map fun h => w.setMap h l (some [])

/-- the loops of copy constructor and assignment, Layer.cpp l.27-28, l.39-40, Holder.hpp l.53-57 -/
def cloneAll (alloc : Alloc) : List (K × Nat) → Heap Ty V → Option (List (K × Nat) × Heap Ty V)
  | [], h => some ([], h)
  | (k, a) :: m, h => (h.obj a).bind fun o =>
    let r := h.new alloc o
    (cloneAll alloc m r.2).map fun q => ((k, r.1) :: q.1, q.2)

/-- Layer( other ), Layer.cpp l.21-29 -/
def World.copy (w : World K Ty V) (alloc : Alloc) (l src : Nat) : Option (World K Ty V) :=
  match w.maps l with
  | some _ => none
  | none => (w.maps src).bind fun m => (cloneAll alloc m w.heap).map fun q => w.setMap q.2 l (some q.1)

/-- operator=, Layer.cpp l.31-43 -/
def World.assign (w : World K Ty V) (alloc : Alloc) (l src : Nat) : Option (World K Ty V) :=
  if l = src then (w.maps l).map fun _ => w
  else (w.removeAll l).bind fun w1 => (w1.maps src).bind fun m => (cloneAll alloc m w1.heap).map fun q => w1.setMap q.2 l (some q.1)

/-- ~Layer, Layer.cpp l.59-62 -/
def World.destroy (w : World K Ty V) (l : Nat) : Option (World K Ty V) := (w.removeAll l).map fun w1 => w1.setMap w1.heap l none

/-! TraversabilityGrid: the member traversabilityArray of every grid -/

structure TWorld (K Ty V : Type) where
  base : World K Ty V
  ptr : Nat → Option Nat

/-- setTraversabilityArray, TraversabilityGrid.cpp l.211-218 -/
def TWorld.fetch (w : TWorld K Ty V) (alloc : Alloc) (dflt : Ty → V) (band : K) (ty : Ty) (l : Nat) : Option (Nat × TWorld K Ty V) :=
  match w.ptr l with
  | some a => some (a, w)
  | none => (w.base.getData alloc dflt l band ty).map fun r => (r.1, { base := r.2, ptr := fun j => if j = l then some r.1 else w.ptr j })

/-- setTraversability, TraversabilityGrid.cpp l.161-165: f changes the array -/
def TWorld.setTrav (w : TWorld K Ty V) (alloc : Alloc) (dflt : Ty → V) (band : K) (ty : Ty) (l : Nat) (f : V → V) : Option (TWorld K Ty V) :=
  (w.fetch alloc dflt band ty l).bind fun r => (r.2.base.heap.obj r.1).bind fun o => (r.2.base.heap.write r.1 (f o.2)).map fun h =>
    { r.2 with base := { r.2.base with heap := h } }

/-- getTraversability, TraversabilityGrid.cpp l.167-171: the array that is read -/
def TWorld.getTrav (w : TWorld K Ty V) (alloc : Alloc) (dflt : Ty → V) (band : K) (ty : Ty) (l : Nat) : Option (V × TWorld K Ty V) :=
  (w.fetch alloc dflt band ty l).bind fun r => (r.2.base.heap.obj r.1).map fun o => (o.2, r.2)

/-- TraversabilityGrid(), TraversabilityGrid.hpp l.144-146 -/
def TWorld.create (w : TWorld K Ty V) (l : Nat) : Option (TWorld K Ty V) :=
  (w.base.create l).map fun b => { base := b, ptr := fun j => if j = l then none else w.ptr j }

/-- clone(): the implicit copy constructor copies the pointer -/
def TWorld.clone (w : TWorld K Ty V) (alloc : Alloc) (l src : Nat) : Option (TWorld K Ty V) :=
  (w.base.copy alloc l src).map fun b => { base := b, ptr := fun j => if j = l then w.ptr src else w.ptr j }

/-- operator=, TraversabilityGrid.cpp l.272-285 -/
def TWorld.assign (w : TWorld K Ty V) (alloc : Alloc) (l src : Nat) : Option (TWorld K Ty V) :=
  (w.base.assign alloc l src).map fun b => { base := b, ptr := fun j => if j = l then none else w.ptr j }

/-- ~TraversabilityGrid, TraversabilityGrid.hpp l.155 -/
def TWorld.destroy (w : TWorld K Ty V) (l : Nat) : Option (TWorld K Ty V) :=
  (w.base.destroy l).map fun b => { base := b, ptr := fun j => if j = l then none else w.ptr j }

end Envire.Meta
