import Verif.Core.EnvModel

/-!
Model of the queries for items and layers of one class: /repo/src/core/Environment.hpp l.105-142 (getItem), l.181-201 (getInput), l.216-236 (getOutput), l.262-274 (getGeneratedFrom), l.303-318 (getItems),
Operator.hpp l.88-116 (the same for an operator), and Layer::getGenerator (Layer.cpp l.114-118).

Simplifications: `is o` says whether the dynamic_cast of the item at address `o` succeeds. The pointers of the environment are never NULL.
-/
namespace Envire.Typed

/-- the item, or one of the two exceptions (l.124-125 and l.131, l.193 and l.199, l.228 and l.234) -/
inductive Answer
  | found (o : Obj)
  | several
  | missing
  deriving DecidableEq

/-- the loop, l.117-132, l.185-200, l.220-235 -/
def only (is : Obj → Bool) : Option Obj → List Obj → Answer
  | none, [] => .missing
  | some r, [] => .found r
  | none, x :: l => if is x then only is (some x) l else only is none l
  | some r, x :: l => if is x then .several else only is (some r) l

/-- l.113-133 -/
def getItem (s : Env) (is : Obj → Bool) : Answer := only is none (s.items.map (·.2))

/-- l.135-142 -/
def getItemById (s : Env) (is : Obj → Bool) (id : Uid) : Option Obj :=
  match look id s.items with
  | none => none
  | some o => if is o then some o else none

/-- l.306-318 -/
def getItems (s : Env) (is : Obj → Bool) : List Obj := (s.items.map (·.2)).filter is

/-- l.181-201 -/
def getInput (s : Env) (is : Obj → Bool) (op : Obj) : Answer := only is none (s.getInputs op)

/-- l.216-236 -/
def getOutput (s : Env) (is : Obj → Bool) (op : Obj) : Answer := only is none (s.getOutputs op)

/-- l.262-274 -/
def getGeneratedFrom (s : Env) (is : Obj → Bool) (l : Obj) : List Obj := (s.getLayersGeneratedFrom l).filter is

/-- Layer::getGenerator, Layer.cpp l.114-118; `none` inside is NULL -/
def layerGenerator (s : Env) (l : Obj) : Except Fault (Option Obj) :=
  match s.owner l with
  | .here => .ok (s.getGenerator l)
  | _ => .error .assertion

end Envire.Typed
