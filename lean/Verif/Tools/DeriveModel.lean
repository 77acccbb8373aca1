import Verif.Tools.OpToolModel

/-!
Model of the tools that make a new map of one in an environment: /repo/tools/env_mls_slopes.cpp l.23-56, env_mls_to_pointcloud.cpp l.24-64, env_traversability.cpp l.23-65, with Environment::getItem<T>,
/repo/src/core/Environment.hpp l.113-141, getOutput l.219-238, MLSSlope::updateAll, /repo/src/operators/MLSSlope.cpp l.67-74, and SimpleTraversability::setSlope, setMaxStep and setOutput,
/repo/src/operators/SimpleTraversability.cpp l.90-112.

Simplifications: the environment that was read is a state of the model of the core. `updates` says whether updateOperators ends without exception; it changes the contents of maps only. What the new map
contains is the matter of other models (C68, C89, C166); `runs` says whether SimpleTraversability::updateAll ends without exception. The numbers of env_traversability are the matter of C162. The
addresses of the new objects are given. An exception that nobody catches ends the program.
-/
namespace Envire.Derive
open Envire Envire.Env
open Envire.OpTool (Class)

inductive End where
  /-- the environment is written to its directory -/
  | written (s : Env)
  /-- the usage or an error is printed; nothing is written -/
  | message
  /-- an exception; nothing is written -/
  | exception
  /-- use of a null pointer; nothing is written -/
  | crash

def lift : Res Env → (Env → End) → End
  | .ok s, f => f s
  | .throw _, _ => .exception
  | .fault _, _ => .crash

/-- getItem<T>() l.113-131; none: it throws because there is not exactly one -/
def only (s : Env) (cls : Obj → Class) (c : Class) : Option Obj :=
  match (s.items.map (·.2)).filter (fun o => cls o == c) with
  | [o] => some o
  | _ => none

/-- env_mls_slopes l.27-41, env_mls_to_pointcloud l.28-42: `argc == 3` with an id -/
def withSource (cls : Obj → Class) (s : Env) (args : List Uid) (f : Obj → End) : End :=
  match args with
  | [id] => match OpTool.find s cls (fun c => c == .mls) id with
    | none => .message
    | some m => f m
  | _ => match only s cls .mls with
    | none => .exception
    | some m => f m

/-- getOutput<T>: exactly one of the outputs has the class -/
def getOutput (s : Env) (cls : Obj → Class) (c : Class) (op : Obj) : Option Obj :=
  match (s.getOutputs op).filter (fun o => cls o == c) with
  | [o] => some o
  | _ => none

/-- the new map: attachItem and setFrameNode, env_mls_slopes l.46-47, env_traversability l.38-39 -/
def place (s : Env) (src map : Obj) (f : Env → End) : End :=
  lift ((Clone.alloc s map .cmap).attachMap map none) fun s =>
    match s.getFrameNode src with
    | none => .crash
    | some fn => lift (s.setFrameNode map fn) f

/-- env_mls_slopes; `args`: the words after the name of the environment. The new grid is a Grid<double> l.43 -/
def slopes (cls : Obj → Class) (updates : Env → Bool) (s : Env) (args : List Uid) (grid op : Obj) : End :=
  if updates s then
    withSource cls s args fun mls =>
      place s mls grid fun s =>
        lift ((OpTool.new s op 0 0).attachItem op) fun s =>
          lift (s.opAddInput op mls) fun s =>
            lift (s.opAddOutput op grid) fun s =>
              -- MLSSlope::updateAll l.67-74
              if (s.getInputs op).length ≠ 1 ∨ (s.getOutputs op).length ≠ 1 then .exception
              else match getOutput s (upd cls grid .gridDouble) .gridFloat op with
                | none => .exception
                | some _ => .written s
  else .exception

/-- env_mls_to_pointcloud: the new cloud is attached by setFrameNode -/
def cloud (cls : Obj → Class) (updates : Env → Bool) (s : Env) (args : List Uid) (pc : Obj) : End :=
  if updates s then
    withSource cls s args fun mls =>
      match s.getFrameNode mls with
      | none => .crash
      | some fn => lift ((Clone.alloc s pc .cmap).setFrameNode pc fn) .written
  else .exception

/-- `if (input->hasBand(..)) op->setSlope(..)` -/
def addIf (b : Bool) (s : Env) (op input : Obj) (f : Env → End) : End := if b then lift (s.opAddInput op input) f else f s

/-- env_traversability; `slope`, `step`: the input has the band mean_slope, corrected_max_step. The operator may have one output,
SimpleTraversability.cpp l.30 -/
def trav (cls : Obj → Class) (updates runs : Env → Bool) (slope step : Obj → Bool) (s : Env) (map op : Obj) : End :=
  match only s cls .gridFloat with
  | none => .exception
  | some input =>
    if updates s then
      place s input map fun s =>
        lift ((OpTool.new s op 0 1).attachItem op) fun s =>
          addIf (slope input) s op input fun s =>
            addIf (step input) s op input fun s =>
              lift ((s.removeOutputs op).opAddOutput op map) fun s => if runs s then .written s else .exception
    else .exception

end Envire.Derive
