/-!
Model of Environment::updateOperators, /repo/src/core/Environment.cpp l.729-742, with getItems (Environment.hpp l.307-318) over the map of the items, which is ordered by their ids.

Simplifications: a layer is a number with a content. An operator gets the contents of all layers, and `updateAll` writes its outputs only. What the operators compute is the matter of other models. The
events are those of itemModified (Environment.cpp l.399-402), one for each output.
-/
namespace Envire.Update

/-- what updateAll does: it writes new contents of the outputs, returns false, or throws -/
inductive Res (C : Type)
  | wrote (v : Nat → C)
  | refused
  | thrown

structure Oper (C : Type) where
  id : String
  ins : List Nat
  outs : List Nat
  compute : (Nat → C) → Res C

structure State (C : Type) where
  content : Nat → C
  /-- the layers of the events, the last one at the end -/
  events : List Nat

/-- the outputs get the contents, the other layers keep theirs -/
def put {C : Type} (c : Nat → C) (outs : List Nat) (v : Nat → C) : Nat → C := fun x => if outs.contains x then v x else c x

/-- one pass of the loop l.733-741; none: the exception leaves the loop. The result of updateAll is not looked at -/
def one {C : Type} (s : State C) (o : Oper C) : Option (State C) :=
  match o.compute s.content with
  | .wrote v => some ⟨put s.content o.outs v, s.events ++ o.outs⟩
  | .refused => some ⟨s.content, s.events ++ o.outs⟩
  | .thrown => none

/-- updateOperators for the operators in the order of the map: the state, and if there was no exception -/
def update {C : Type} : List (Oper C) → State C → State C × Bool
  | [], s => (s, true)
  | o :: l, s => match one s o with
    | none => (s, false)
    | some s => update l s

/-- several calls -/
def updates {C : Type} (l : List (Oper C)) : Nat → State C → State C
  | 0, s => s
  | k + 1, s => updates l k (update l s).1

end Envire.Update
