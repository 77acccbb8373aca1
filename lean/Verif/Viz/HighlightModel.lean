import Verif.Viz.ViewModel

/-!
Model of highlighting and of the manipulation of items in the tree widget.

Source modelled: /repo/viz/ItemManipulator.cpp l.30-61, l.105-155; /repo/viz/FrameNodeVisualization.cpp l.83-132 (highlightNode,
unHighlightNode, hideNode, unHideNode); the groups they work on are those of EnvireNode in Verif/Viz/ViewModel.

Simplifications: a visualizer paints a group by a function on what is drawn in it; updateNode is such a function too (constant if it
draws everything anew). The items are kept alive by somebody else after they were detached.
-/
namespace Envire.Highlight
open View (Node)

/-- highlightNode or unHighlightNode on the group of getNodeForItem, EnvireEventListener.cpp l.127-134, ItemManipulator.cpp l.39-40, l.53-54 -/
def paint {C : Type} (N : Node C) (f : C → C) : Node C := { N with shows := fun b => if b = N.back then (N.shows b).map f else N.shows b }

/-- EnvireNode::update, EnvireEventListener.cpp l.53-59, with a visualizer that may keep parts of the group -/
def refresh {C : Type} (N : Node C) (f : C → C) : Node C := { paint N f with nodeDirty := true }

/-- what happens to a node -/
inductive Act (C : Type)
  | redraw
  | change (f : C → C)
  | paint (f : C → C)

def step {C : Type} (N : Node C) : Act C → Node C
  | .redraw => N.apply
  | .change f => refresh N f
  | .paint f => paint N f

def run {C : Type} (N : Node C) (as : List (Act C)) : Node C := as.foldl step N

/-- the group of a frame: its pose and how many coordinate crosses hang in it -/
structure Frame (P : Type) where
  pose : P
  crosses : Nat

/-- FrameNodeVisualization::highlightNode l.83-102 -/
def cross {P : Type} (x : Frame P) : Frame P := { x with crosses := x.crosses + 1 }

/-- FrameNodeVisualization::unHighlightNode l.104-116: the first cross is removed -/
def uncross {P : Type} (x : Frame P) : Frame P := { x with crosses := x.crosses - 1 }

/-- FrameNodeVisualization::updateNode l.39-81 -/
def move {P : Type} (p : P) (x : Frame P) : Frame P := { x with pose := p }

/-! ### ItemManipulator -/

/-- calls of a visualizer -/
inductive Call
  | highlight (o : Obj)
  | unhighlight (o : Obj)
deriving DecidableEq

/-- activeItem, frameManipulator and the calls made so far, the last one first -/
structure Man where
  active : Option Obj
  handles : Option Obj
  calls : List Call

def Man.start : Man := ⟨none, none, []⟩

/-- the visualization: which items have a visualizer, which have a node, which are frames, and which visualizers use the group they get -/
structure Scene where
  viz : Obj → Bool
  node : Obj → Bool
  frame : Obj → Bool
  uses : Obj → Bool

inductive Out (A : Type)
  | ok (a : A)
  | undefined

/-- itemActivated l.36-46: the item that was active -/
def leave (S : Scene) (m : Man) : Out Man :=
  match m.active with
  | none => .ok m
  | some a =>
    if S.viz a then
      -- unHighlightNode with a null pointer
      if S.uses a && !S.node a then .undefined else .ok { m with handles := none, calls := .unhighlight a :: m.calls }
    else .ok m

/-- itemActivated l.48-60; `item` is the activated entry of the tree, with the item that belongs to it -/
def enter (S : Scene) (m : Man) (item : Option (Option Obj)) : Out Man :=
  match item with
  | none => .ok m
  | some none => .ok { m with active := none }
  | some (some o) =>
    if S.viz o then
      if (S.uses o || S.frame o) && !S.node o then .undefined
      else .ok { active := some o, handles := if S.frame o then some o else m.handles, calls := .highlight o :: m.calls }
    else .ok { m with active := some o }

/-- itemActivated l.30-61 -/
def activate (S : Scene) (m : Man) (item : Option (Option Obj)) : Out Man :=
  match leave S m with
  | .undefined => .undefined
  | .ok m => enter S m item

def activates (S : Scene) (m : Man) : List (Option (Option Obj)) → Out Man
  | [] => .ok m
  | i :: l => match activate S m i with
    | .undefined => .undefined
    | .ok m => activates S m l

end Envire.Highlight
