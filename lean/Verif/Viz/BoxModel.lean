import Verif.Viz.TreeModel
/-! Model of the check boxes beside the frames of the tree: /repo/viz/ItemManipulator.cpp l.63-138, FrameNodeVisualization.cpp l.118-132,
TreeViewListener.cpp l.47-53, EnvireVisualization.cpp l.74-90, EnvireEventListener.cpp l.136-143.

Qt by specification: the box of a new line is checked (l.52, set before the line belongs to a tree, so without a signal); `setCheckState` sends
`itemChanged` if the state is another one, and then `itemChanged` does once more what the caller is doing, so that nothing else happens; a click on
the box changes the state and sends `itemChanged`. Lines of maps have no box.

Simplifications: lines are never made at the place of a deleted one, so the states of all boxes, made or not, are a function that is `true` in the
beginning. Of a scene graph node only the mask is kept (`true` for VISIBLE_MASK, the mask of a new node); frames are drawn by FrameNodeVisualization if
by anything; `viz` says which items a visualizer handles. Both listeners see the events in the same order. -/
namespace Envire
namespace Box
open View (Out)
open TreeView

/-- the tree of items, its boxes, and the masks of the EnvireNodes in `environmentToNode` -/
structure Panel where
  tree : Tree
  /-- `checkState( 0 )` of a line -/
  check : Nat → Bool
  mask : Obj → Option Bool

/-- viz->hideNode / unHideNode of the EnvireNode, ItemManipulator.cpp l.112-117 and l.131-136, FrameNodeVisualization.cpp l.121-132; without a node
`group` is a null pointer -/
def setMask (viz : Obj → Bool) (b : Bool) (P : Panel) (o : Obj) : Out Panel :=
  if viz o then
    match P.mask o with
    | none => .ub
    | some _ => .ok { P with mask := upd P.mask o (some b) }
  else .ok P

/-- hideItem l.105-119 (`b = false`) and unhideItem l.124-138 (`b = true`) -/
def put (fr viz : Obj → Bool) (b : Bool) (P : Panel) (w : Nat) : Out Panel :=
  match P.tree.owner w with
  | none => .ok P
  | some o => if fr o then setMask viz b { P with check := upd P.check w b } o else .ok P

/-- hideSelectedItems l.81-88, unhideSelectedItems l.93-100 -/
def putAll (fr viz : Obj → Bool) (b : Bool) : Panel → List Nat → Out Panel
  | P, [] => .ok P
  | P, w :: ws => (put fr viz b P w).bind (fun P => putAll fr viz b P ws)

/-- a click on the box of a line, itemChanged l.63-76 -/
def toggle (fr viz : Obj → Bool) (P : Panel) (w : Nat) : Out Panel :=
  let b := !P.check w
  put fr viz b { P with check := upd P.check w b } w

/-- what becomes of the nodes: itemAttached, itemDetached, EnvireEventListener.cpp l.238-265 -/
def nodes (viz : Obj → Bool) (m : Obj → Option Bool) (e : Ev) : Obj → Option Bool :=
  match e.ty, e.op with
  | .item, .add => if viz e.a then upd m e.a (some true) else m
  | .item, .remove => upd m e.a none
  | _, _ => m

/-- events, and what the user does with the lines of items -/
inductive Step where
  | ev (e : Ev)
  /-- a click on the box of an item -/
  | click (o : Obj)
  /-- "hide item" for the selected lines -/
  | hide (os : List Obj)
  | unhide (os : List Obj)

def Panel.step (fr viz : Obj → Bool) (P : Panel) : Step → Out Panel
  | .ev e => match P.tree.handle fr e with
    | .ok T => .ok { tree := T, check := P.check, mask := nodes viz P.mask e }
    | .throw T => .throw { P with tree := T }
    | .deadlock => .deadlock
    | .ub => .ub
  | .click o => match P.tree.map o with
    | none => .ok P
    | some w => if fr o then toggle fr viz P w else .ok P
  | .hide os => putAll fr viz false P (os.filterMap P.tree.map)
  | .unhide os => putAll fr viz true P (os.filterMap P.tree.map)

def Panel.run (fr viz : Obj → Bool) (P : Panel) : List Step → Out Panel
  | [] => .ok P
  | a :: as => (P.step fr viz a).bind (fun P => P.run fr viz as)

def Panel.empty : Panel := ⟨Tree.empty, fun _ => true, fun _ => none⟩

end Box
end Envire
