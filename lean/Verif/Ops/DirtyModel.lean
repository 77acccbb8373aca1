import Verif.Ops.UpdateModel

/-!
Model of the flags of layers and of the update of one layer: /repo/src/core/Layer.cpp l.16-43 (constructors, assignment), l.76-124, with getGenerator (Environment.cpp l.718-727), itemModified (l.399-402)
and updateOperators (l.729-742, Verif/Ops/UpdateModel).

Simplifications: as in Verif/Ops/UpdateModel. All layers are attached. The operators are in the order in which getGenerator finds them; if a layer is the output of several ones, the first counts. Metadata
of layers is the matter of Verif/Maps/MetaModel.
-/
namespace Envire.Dirty

open Envire.Update

structure State (C : Type) where
  content : Nat → C
  dirty : Nat → Bool
  immutable : Nat → Bool

/-- the layers when they are new, l.16-19 -/
def State.start {C : Type} (c : Nat → C) : State C := ⟨c, fun _ => false, fun _ => false⟩

inductive Op (C : Type)
  | setDirty (x : Nat)
  | resetDirty (x : Nat)
  | setImmutable (x : Nat)
  /-- the user changes the content and calls itemModified -/
  | modify (x : Nat) (v : C)
  /-- `x = y`, l.31-43 -/
  | assign (x y : Nat)
  | updateFromOperator (x : Nat)
  | updateOperators

def set {A : Type} (f : Nat → A) (x : Nat) (a : A) : Nat → A := fun y => if y = x then a else f y

/-- getGenerator -/
def generator {C : Type} (l : List (Oper C)) (x : Nat) : Option (Oper C) := l.find? fun o => o.outs.contains x

/-- updateAll of one operator; an exception reaches the user and leaves the contents -/
def State.run {C : Type} (s : State C) (o : Oper C) : State C :=
  match o.compute s.content with
  | .wrote v => { s with content := put s.content o.outs v }
  | _ => s

def step {C : Type} (l : List (Oper C)) (s : State C) : Op C → State C
  | .setDirty x => { s with dirty := set s.dirty x true }
  | .resetDirty x => { s with dirty := set s.dirty x false }
  | .setImmutable x => { s with immutable := set s.immutable x true }
  | .modify x v => { s with content := set s.content x v }
  | .assign x y => ⟨set s.content x (s.content y), set s.dirty x (s.dirty y), set s.immutable x (s.immutable y)⟩
  | .updateFromOperator x =>
    match generator l x with
    | none => s
    | some o => if s.dirty x then s.run o else s
  | .updateOperators => { s with content := (update l ⟨s.content, []⟩).1.content }

def run {C : Type} (l : List (Oper C)) (s : State C) (h : List (Op C)) : State C := h.foldl (step l) s

end Envire.Dirty
