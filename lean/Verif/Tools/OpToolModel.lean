import Verif.Core.CloneModel
/-! Model of the tools that add an operator to an environment: /repo/tools/env_grid_to_mls.cpp l.26-42, env_mls_to_grid.cpp l.26-42, env_grid_illumination.cpp
l.26-48, with src/operators/GridFloatToMLS.cpp l.7-9, l.24-47, MLSToGrid.cpp l.10-12, l.28-32, src/core/Environment.hpp l.133-142.

Simplifications: the environment that was read is a state of the model of the core; what `updateAll` does to the contents of the maps is the matter of other
models, here it is `runs`, which says whether it ends without exception. Number of arguments and the numbers of the light source are not modelled. -/
namespace Envire.OpTool
open Envire Envire.Env

/-- what `dynamic_cast` sees of an item; MLSGrid is derived from GridBase too -/
inductive Class where
  | gridDouble
  | gridFloat
  | otherGrid
  | mls
  | other
  deriving DecidableEq, Repr

def Class.isGridBase : Class → Bool
  | .other => false
  | _ => true

/-- how a tool ends -/
inductive End where
  /-- the environment is written to its directory, the id of the item is printed -/
  | written (s : Env) (op : Obj)
  /-- an exception; nothing is written -/
  | exception
  /-- use of a null pointer; nothing is written -/
  | crash

def lift : Res Env → (Env → End) → End
  | .ok s, f => f s
  | .throw _, _ => .exception
  | .fault _, _ => .crash

/-- `new` of an operator with its arities, at an unused address -/
def new (s : Env) (o : Obj) (ia oa : Nat) : Env :=
  { s with kind := upd s.kind o .op, uid := upd s.uid o [], owner := upd s.owner o .free, held := upd s.held o true, inArity := upd s.inArity o ia, outArity := upd s.outArity o oa }

/-- Environment::getItem<T>( id ), Environment.hpp l.133-142 -/
def find (s : Env) (cls : Obj → Class) (p : Class → Bool) (id : Uid) : Option Obj := (s.getItem id).filter (fun o => p (cls o))

/-- Operator::addInput of a pointer: `layer->isAttached()` of a null pointer, Environment.cpp l.619 -/
def addIn (s : Env) (o : Obj) (l : Option Obj) (f : Env → End) : End :=
  match l with
  | none => .crash
  | some l => lift (s.opAddInput o l) f

def addOut (s : Env) (o : Obj) (l : Option Obj) (f : Env → End) : End :=
  match l with
  | none => .crash
  | some l => lift (s.opAddOutput o l) f

/-- `op->updateAll(); env->serialize( env_path ); std::cout << op->getUniqueId()` -/
def finish (runs : Env → Bool) (o : Obj) (s : Env) : End := if runs s then .written s o else .exception

/-- env_grid_to_mls -/
def gridToMls (cls : Obj → Class) (runs : Env → Bool) (s : Env) (o : Obj) (gridId mlsId : Uid) : End :=
  let input := find s cls Class.isGridBase gridId
  let output := find s cls (fun c => c == .mls) mlsId
  lift ((new s o 1 1).attachItem o) fun s =>
    -- GridFloatToMLS::setInput l.24-30
    if input.any (fun g => cls g == .gridDouble || cls g == .gridFloat) then
      addIn s o input fun s =>
        -- GridFloatToMLS::setOutput l.42-47
        if 0 < (s.getOutputs o).length then .exception
        else addOut s o output (finish runs o)
    else .exception

/-- env_mls_to_grid: Operator::setInput and setOutput remove the old ones first -/
def mlsToGrid (cls : Obj → Class) (runs : Env → Bool) (s : Env) (o : Obj) (mlsId gridId : Uid) : End :=
  let input := find s cls (fun c => c == .mls) mlsId
  let output := find s cls (fun c => c == .gridDouble) gridId
  lift ((new s o 1 1).attachItem o) fun s =>
    addIn (s.removeInputs o) o input fun s => addOut (s.removeOutputs o) o output (finish runs o)

/-- env_grid_illumination -/
def illumination (cls : Obj → Class) (runs : Env → Bool) (s : Env) (o : Obj) (gridId : Uid) : End :=
  let grid := find s cls Class.isGridBase gridId
  lift ((new s o 0 0).attachItem o) fun s => addOut s o grid (finish runs o)

end Envire.OpTool
