import Verif.Core.EnvModel

/-!
Model of CartesianMap::cloneTo, src/core/Layer.cpp l.194-223.

Simplifications: the contents of the map are not modelled; `clone()` (EnvironmentItem.hpp l.27-30) makes an item of the same class with an empty id (Environment.cpp l.38-41), a clone of a frame has the same
transform. The addresses of the new objects are given. A map or a frame that is NULL and dereferenced is the fault `useAfterFree`.
-/

namespace Envire.Clone

open Envire Envire.Env

/-- `new` with the copy constructor, at an unused address -/
def alloc (s : Env) (o : Obj) (k : Kind) : Env :=
  { s with kind := upd s.kind o k, uid := upd s.uid o [], owner := upd s.owner o .free, held := upd s.held o false, inArity := upd s.inArity o 0, outArity := upd s.outArity o 0 }

/-- the loop l.202-208: the frames from `frame` up to the root node, which is not included. The loop of the code is unbounded: `diverge` if it is out of fuel. -/
def stack (s : Env) : Nat → Option Obj → Except Fault (List Obj)
  | 0, _ => .error .diverge
  | fuel + 1, frame =>
    if frame = some s.rootNode then .ok []
    else match frame with
      | none => .error .useAfterFree
      | some f => match stack s fuel (s.getParent f) with
        | .ok l => .ok (f :: l)
        | .error e => .error e

/-- the loop l.214-220: for each frame its clone at the given address becomes a child of the last one -/
def build {T : Type} (s : Env) (tf : Obj → T) (frame : Obj) : List (Obj × Obj) → Res (Env × (Obj → T))
  | [] => .ok (s, tf)
  | (o, a) :: l =>
    match (alloc s a .frame).addChildF frame a with
    | .ok s => build s (upd tf a (tf o)) a l
    | .throw s => .throw (s, tf)
    | .fault e => .fault e

/-- `frame` after the loop -/
def last (frame : Obj) : List (Obj × Obj) → Obj
  | [] => frame
  | (_, a) :: l => last a l

/-- cloneTo of the map m into the environment t, l.194-223. `source` is the environment of the map, none if it is the environment t itself; tf: the transforms of all frames. -/
def cloneTo {T : Type} (source : Option Env) (t : Env) (tf : Obj → T) (m copy : Obj) (new : Nat → Obj) : Res (Env × (Obj → T)) :=
  match (alloc t copy .cmap).attachMap copy none with
  | .throw t => .throw (t, tf)
  | .fault e => .fault e
  | .ok t1 =>
    let s := source.getD t1
    match stack s (s.ftree.length + 2) (s.getFrameNode m) with
    | .error e => .fault e
    | .ok l =>
      let pairs := l.reverse.zip ((List.range l.length).map new)
      match build t1 tf t1.rootNode pairs with
      | .throw r => .throw r
      | .fault e => .fault e
      | .ok (t2, tf2) =>
        match t2.setFrameNode copy (last t1.rootNode pairs) with
        | .throw t => .throw (t, tf2)
        | .fault e => .fault e
        | .ok t3 => .ok (t3, tf2)

end Envire.Clone
