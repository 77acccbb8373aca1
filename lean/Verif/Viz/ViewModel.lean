import Verif.Core.EnvModel
/-! Model of the visualization client of the event protocol: /repo/viz/EnvireEventListener.cpp and .hpp (whole
files). `EnvireNode` keeps the groups of one item in a front and a back version, `EnvireEventListener` maps
items to nodes and follows the events of an Environment.

Simplifications:
* `osg::Group` is its list of children (`addChild` appends, `removeChild` removes the first occurrence or does
  nothing); what a visualizer draws into a group is an abstract content of type `C`, `none` for a group nobody
  has drawn into; `updateNode` replaces the content and leaves the children added by others alone;
* the groups `children.front` and `children.back` never change their identity (they are not swapped), so only
  their child lists are kept;
* which visualizer handles an item and what an item looks like at a moment are inputs of each step;
* calls are atomic; a node whose mutex is taken while `apply` runs is skipped (`try_lock`, l.63), these nodes
  are an input. A second lock of the listener's non-recursive mutex by the same thread is the outcome
  `deadlock`; a call through a null `EnvireNode` pointer is `ub`. -/
namespace Envire
namespace View

/-- EnvireNode, EnvireEventListener.hpp l.35-51 -/
structure Node (C : Type) where
  item : Obj
  /-- viz -/
  viz : Nat
  /-- which of the two groups made by the visualizer is `node.front`; the other one is `node.back` -/
  front : Bool
  /-- what was drawn last into each of the two groups -/
  shows : Bool → Option C
  /-- how often `children.front` is a child of each of the two groups -/
  carries : Bool → Nat
  /-- children of the EnvireNode itself -/
  own : List Bool
  /-- children of children.front and children.back: other EnvireNodes -/
  kidsFront : List Nat
  kidsBack : List Nat
  nodeDirty : Bool
  kidsDirty : Bool
  enabled : Bool

namespace Node
variable {C : Type}

/-- getBack l.22-25 -/
def back (N : Node C) : Bool := !N.front

/-- update l.53-59; `c` is what the item looks like -/
def update (N : Node C) (c : C) : Node C :=
  { N with shows := fun b => if b = N.back then some c else N.shows b, nodeDirty := true }

/-- EnvireNode::EnvireNode l.6-20 -/
def make (o : Obj) (viz : Nat) (c : C) : Node C :=
  update { item := o, viz := viz, front := false, shows := fun _ => none, carries := fun _ => 0, own := [],
           kidsFront := [], kidsBack := [], nodeDirty := false, kidsDirty := false, enabled := true } c

/-- setEnable l.32-36 -/
def setEnable (N : Node C) (e : Bool) : Node C := { N with enabled := e }

/-- addChildNode l.38-44; a null pointer is not added -/
def addKid (N : Node C) (k : Option Nat) : Node C :=
  { N with kidsBack := match k with
             | some m => N.kidsBack ++ [m]
             | none => N.kidsBack
           kidsDirty := true }

/-- removeChildNode l.46-51 -/
def removeKid (N : Node C) (k : Option Nat) : Node C :=
  { N with kidsBack := match k with
             | some m => N.kidsBack.erase m
             | none => N.kidsBack
           kidsDirty := true }

/-- l.65-67: `node.front->removeChild( children.front )` -/
def dropKids (N : Node C) : Node C :=
  { N with carries := fun b => if b = N.front then N.carries b - 1 else N.carries b }

/-- l.69-78 -/
def syncKids (N : Node C) : Node C :=
  if N.kidsDirty then { N with kidsFront := N.kidsBack, kidsDirty := false } else N

/-- l.80-92 -/
def swapNode (N : Node C) : Node C :=
  if N.nodeDirty then { N with front := N.back, own := N.own.erase N.front ++ [N.back], nodeDirty := false } else N

/-- l.94-96 -/
def hide (N : Node C) : Node C :=
  if N.enabled then N else { N with own := N.own.erase N.front }

/-- l.98-100 -/
def hangKids (N : Node C) : Node C :=
  { N with carries := fun b => if b = N.front then N.carries b + 1 else N.carries b }

/-- apply l.61-104, when the lock is available -/
def apply (N : Node C) : Node C := N.dropKids.syncKids.swapNode.hide.hangKids

end Node

/-- EnvireEventListener.hpp l.108-116 -/
structure View (C : Type) where
  /-- environmentToNode; `none` is a null pointer, made by `operator[]` for a key that is not there -/
  map : List (Obj × Option Nat)
  /-- all EnvireNodes ever made, by address -/
  nodes : Nat → Option (Node C)
  next : Nat
  /-- what osgAddNode was given and osgRemoveNode not yet -/
  scene : List (Option Nat)
  /-- visualizers, oldest first -/
  vizs : List Nat

/-- outcome of a call -/
inductive Out (σ : Type) where
  | ok (s : σ)
  | throw (s : σ)
  | deadlock
  | ub

def Out.bind {σ : Type} : Out σ → (σ → Out σ) → Out σ
  | .ok s, f => f s
  | .throw s, _ => .throw s
  | .deadlock, _ => .deadlock
  | .ub, _ => .ub

variable {C : Type}

/-- a listener before the first call, l.121-125 -/
def View.empty : View C := ⟨[], fun _ => none, 0, [], []⟩

namespace View

/-- a call of a method of the node a map entry points to -/
def onNode (V : View C) (p : Option Nat) (f : Node C → Node C) : Out (View C) :=
  match p with
  | none => .ub
  | some n => match V.nodes n with
    | none => .ub
    | some N => .ok { V with nodes := fun m => if m = n then some (f N) else V.nodes m }

/-- getVisualizerForItem l.226-235: the visualizer added last wins -/
def vizFor (V : View C) (handles : Nat → Obj → Bool) (o : Obj) : Option Nat :=
  V.vizs.reverse.find? (fun z => handles z o)

/-- addVisualizer l.161-164 -/
def addViz (V : View C) (z : Nat) : View C := { V with vizs := V.vizs ++ [z] }

/-- removeVisualizer l.166-173; `erase( end() )` is undefined -/
def removeViz (V : View C) (z : Nat) : Out (View C) :=
  if z ∈ V.vizs then .ok { V with vizs := V.vizs.erase z } else .ub

/-- itemAttached l.238-255; `locked` says that the caller holds `mu` -/
def itemAttached (V : View C) (locked : Bool) (v : Option Nat) (o : Obj) (c : C) : Out (View C) :=
  if (look o V.map).isSome then .throw V
  else match v with
    | none => .ok V
    | some z =>
      if locked then .deadlock
      else .ok { V with map := (o, some V.next) :: V.map
                        nodes := fun m => if m = V.next then some (Node.make o z c) else V.nodes m
                        next := V.next + 1 }

/-- itemDetached l.257-265 -/
def itemDetached (V : View C) (o : Obj) : View C := { V with map := eraseKey o V.map }

/-- itemModified l.267-274 -/
def itemModified (V : View C) (o : Obj) (c : C) : Out (View C) :=
  match look o V.map with
  | none => .ok V
  | some p => V.onNode p (fun N => N.update c)

/-- addChild l.175-184 -/
def addChild (V : View C) (p c : Obj) : Out (View C) :=
  match look p V.map, look c V.map with
  | some x, some y => V.onNode x (fun N => N.addKid y)
  | _, _ => .ok V

/-- removeChild l.186-194 -/
def removeChild (V : View C) (p c : Obj) : Out (View C) :=
  match look p V.map, look c V.map with
  | some x, some y => V.onNode x (fun N => N.removeKid y)
  | _, _ => .ok V

/-- l.151: `environmentToNode[root]` inserts a null pointer for a key that is not there -/
def addScene (V : View C) (o : Obj) : View C :=
  match look o V.map with
  | some p => { V with scene := V.scene ++ [p] }
  | none => { V with map := (o, none) :: V.map, scene := V.scene ++ [none] }

/-- setRootNode l.145-152 -/
def setRootNode (V : View C) (v : Option Nat) (o : Obj) (c : C) : Out (View C) :=
  (if (look o V.map).isSome then .ok V else V.itemAttached true v o c).bind fun V => .ok (V.addScene o)

/-- removeRootNode l.154-159 -/
def removeRootNode (V : View C) (o : Obj) : View C :=
  match look o V.map with
  | some p => { V with scene := V.scene.erase p }
  | none => V

/-- EventListener::handle and EventDispatcher::dispatch, EventHandler.cpp l.42-73, with the callbacks of the
listener l.196-224; `handles z o`: visualizer `z` handles item `o`; `now o`: what the item looks like -/
def handle (V : View C) (handles : Nat → Obj → Bool) (now : Obj → C) (e : Ev) : Out (View C) :=
  match e.ty, e.op, e.b with
  | .item, .add, _ => V.itemAttached false (V.vizFor handles e.a) e.a (now e.a)
  | .item, .remove, _ => .ok (V.itemDetached e.a)
  | .item, .update, _ => V.itemModified e.a (now e.a)
  | .frameTree, .add, some b => V.addChild e.a b
  | .frameTree, .remove, some b => V.removeChild e.a b
  | .layerTree, .add, some b => V.addChild e.a b
  | .layerTree, .remove, some b => V.removeChild e.a b
  | .frameNode, .add, some b => V.addChild b e.a
  | .frameNode, .remove, some b => V.removeChild b e.a
  | .root, .add, _ => V.setRootNode (V.vizFor handles e.a) e.a (now e.a)
  | .root, .remove, _ => .ok (V.removeRootNode e.a)
  -- `throw std::runtime_error("Event message not handled")`
  | _, .update, _ => .throw V
  -- a null pointer is in no map
  | _, _, none => .ok V

/-- one iteration of the loop of apply l.114-118 -/
def applyOne (busy : List Nat) (V : View C) (p : Option Nat) : Out (View C) :=
  V.onNode p (fun N => if (match p with | some n => busy.contains n | none => false) then N else N.apply)

/-- a loop over the entries of the map -/
def loop (f : View C → Option Nat → Out (View C)) : List (Option Nat) → View C → Out (View C)
  | [], V => .ok V
  | p :: ps, V => (f V p).bind (loop f ps)

/-- apply l.111-119; `busy` are the nodes whose mutex is taken -/
def applyAll (V : View C) (busy : List Nat) : Out (View C) := loop (applyOne busy) (V.map.map (·.2)) V

/-- one iteration of l.282-291; `en` is the new value when the property is "enabled" -/
def propOne (z : Nat) (en : Option Bool) (now : Obj → C) (V : View C) (p : Option Nat) : Out (View C) :=
  V.onNode p (fun N => if N.viz = z then
    (match en with | some b => N.setEnable b | none => N).update (now N.item) else N)

/-- propertyChangedInVizualization l.276-293 -/
def propertyChanged (V : View C) (z : Nat) (en : Option Bool) (now : Obj → C) : Out (View C) :=
  loop (propOne z en now) (V.map.map (·.2)) V

/-- getNodeForItem l.127-134: the node and which of its groups is returned -/
def getNodeForItem (V : View C) (o : Obj) : Option (Nat × Bool) :=
  match look o V.map with
  | some (some n) => (V.nodes n).map (fun N => (n, N.back))
  | _ => none

end View

/-- what can happen to a listener -/
inductive Act (C : Type) where
  | ev (e : Ev) (handles : Nat → Obj → Bool) (now : Obj → C)
  | apply (busy : List Nat)
  | prop (z : Nat) (en : Option Bool) (now : Obj → C)
  | addViz (z : Nat)
  | removeViz (z : Nat)

def View.step (V : View C) : Act C → Out (View C)
  | .ev e handles now => V.handle handles now e
  | .apply busy => V.applyAll busy
  | .prop z en now => V.propertyChanged z en now
  | .addViz z => .ok (V.addViz z)
  | .removeViz z => V.removeViz z

def View.run (V : View C) : List (Act C) → Out (View C)
  | [] => .ok V
  | a :: as => (V.step a).bind (fun V => V.run as)

end View
end Envire
