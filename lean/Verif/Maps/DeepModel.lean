import Verif.Core.EnvModel
import Verif.Serial.FileModel

/-!
Model of copies of MLSMaps: copy constructor, operator= and cloneDeep, /repo/src/maps/MLSMap.cpp l.29-60, l.173-202.

Simplifications: the contents of the grids are not modelled. The addresses of the new objects are given. A pointer that is NULL and dereferenced is the fault `useAfterFree`.
`attachItem( res )` is the overload for CartesianMap, as for setFrameNode.
-/
namespace Envire.Deep

open Envire Envire.Env

/-- the members of MLSMap; MLSMap.hpp l.76-91 -/
structure Members where
  grids : List Obj
  active : Option Obj
  deriving DecidableEq

/-- a clone, with the id `getUniqueIdPrefix() + "/"`; `held`: a Ptr to it is stored -/
def fresh (s : Env) (o : Obj) (id : Uid) (held : Bool) : Env :=
  { s with kind := upd s.kind o .cmap, uid := upd s.uid o id, owner := upd s.owner o .free, held := upd s.held o held, inArity := upd s.inArity o 0, outArity := upd s.outArity o 0 }

/-- `*std::find( grids.begin(), grids.end(), a ) = b` -/
def replace (a b : Obj) : List Obj → List Obj
  | [] => []
  | g :: gs => if g = a then b :: gs else g :: replace a b gs

/-- MLSMap::cloneDeep of the map m with the members `mm`, l.173-202; `copy` and `grid` are the addresses of the clones -/
def cloneDeep (s : Env) (m : Obj) (mm : Members) (copy grid : Obj) : Res (Env × Members) :=
  let id := idPrefix (s.uid m) ++ ['/']
  let s := fresh s copy id false
  if s.owner m ≠ .here then .ok (s, mm)
  else match mm.active with
    | none => .fault .useAfterFree
    | some a =>
      let s := fresh s grid id true
      if a ∉ mm.grids then .fault .assertion
      else
        let mm : Members := ⟨replace a grid mm.grids, some grid⟩
        -- active->getFrameNode(): `env` of a grid that is not attached is NULL, and so may be the frame
        if s.owner a ≠ .here then .fault .useAfterFree
        else match s.getFrameNode a with
          | none => .fault .useAfterFree
          | some f =>
            match (s.setFrameNode grid f).bind fun s => (s.attachMap copy none).bind fun s => foldRes (fun s g => s.addChildL copy g) mm.grids s with
            | .ok s => .ok (s, mm)
            | .throw s => .throw (s, mm)
            | .fault e => .fault e

/-- MLSMap::operator= of the map m from a map with the members `other`, l.34-60, for `this != &other` -/
def assign (s : Env) (m : Obj) (other : Members) : Res (Env × Members) :=
  if s.owner m ≠ .here then .ok (s, other)
  else match (foldRes (fun s g => s.removeChildL m g) (s.getLayerChildren m) s).bind fun s => foldRes (fun s g => s.addChildL m g) other.grids s with
    | .ok s => .ok (s, other)
    | .throw s => .throw (s, other)
    | .fault e => .fault e

end Envire.Deep
