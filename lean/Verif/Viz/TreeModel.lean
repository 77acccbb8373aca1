import Verif.Viz.ViewModel
/-! Model of the tree of items beside the visualization: /repo/viz/TreeViewListener.cpp and .hpp (whole files, without the
selection).

Qt by specification: `QTreeWidgetItem::addChild` does nothing if the child has a parent or is shown at the top of a
tree; `removeChild` compares pointers only; deleting an item deletes everything below it and takes it out of its
parent and of the tree. `none` in `widgets` is an item that was deleted or never made; every use of such an item
except a comparison is `ub`. Memory of deleted items is not used again. `delete` of a null pointer does nothing. -/
namespace Envire
namespace TreeView
open View (Out)

/-- QTreeWidgetItem -/
structure Widget where
  par : Option Nat
  kids : List Nat
  top : Bool
  deriving DecidableEq, Repr

/-- TreeViewListener.hpp l.38-53 -/
structure Tree where
  /-- nodeToWidget -/
  map : Obj → Option Nat
  /-- widgetToNode -/
  owner : Nat → Option Obj
  widgets : Nat → Option Widget
  next : Nat
  /-- the items at the top of `tw` -/
  tops : List Nat

def Tree.empty : Tree := ⟨fun _ => none, fun _ => none, fun _ => none, 0, []⟩

/-- `new QTreeWidgetItem`, l.43-58 -/
def Tree.make (T : Tree) (o : Obj) (top : Bool) : Tree :=
  { map := upd T.map o (some T.next), owner := upd T.owner T.next (some o),
    widgets := upd T.widgets T.next (some ⟨none, [], top⟩), next := T.next + 1,
    tops := if top then T.tops ++ [T.next] else T.tops }

/-- getWidgetForEnvItem l.38-64: the item is made if there is none; the pointer follows with `ptr` -/
def Tree.get (T : Tree) (o : Obj) (top : Bool) : Tree :=
  match T.map o with
  | some _ => T
  | none => T.make o top

/-- the pointer getWidgetForEnvItem returns -/
def Tree.ptr (T : Tree) (o : Obj) : Nat := (T.map o).getD 0

/-- QTreeWidgetItem::addChild -/
def Tree.addChild (T : Tree) (p c : Nat) : Out Tree :=
  match T.widgets p, T.widgets c with
  | some P, some W =>
    if W.par.isSome || W.top then .ok T
    else .ok { T with widgets := upd (upd T.widgets c (some { W with par := some p })) p (some { P with kids := P.kids ++ [c] }) }
  | _, _ => .ub

/-- QTreeWidgetItem::removeChild -/
def Tree.removeChild (T : Tree) (p c : Nat) : Out Tree :=
  match T.widgets p with
  | none => .ub
  | some P =>
    if c ∈ P.kids then
      .ok { T with widgets := fun w => if w = p then some { P with kids := P.kids.erase c }
                                       else if w = c then (T.widgets c).map (fun W => { W with par := none })
                                       else T.widgets w }
    else .ok T

/-- everything at and below `w` is gone; `fuel` bounds the depth -/
def kill : Nat → Nat → (Nat → Option Widget) → Nat → Option Widget
  | 0, _, W => W
  | n + 1, w, W => match W w with
    | none => W
    | some x => x.kids.foldl (fun W k => kill n k W) (upd W w none)

/-- a widget is taken out of the list of its parent -/
def unhook (W : Nat → Option Widget) (w : Nat) : Option Nat → Nat → Option Widget
  | none => W
  | some v => fun k => if k = v then (W v).map (fun P => { P with kids := P.kids.erase w }) else W k

/-- `delete` of a QTreeWidgetItem -/
def Tree.delete (T : Tree) (w : Nat) : Out Tree :=
  match T.widgets w with
  | none => .ub
  | some x => .ok { T with widgets := kill T.next w (unhook T.widgets w x.par), tops := T.tops.erase w }

/-- `nodeToWidget.erase( item ); widgetToNode.erase( widget )` -/
def Tree.forget (T : Tree) (o : Obj) (w : Nat) : Tree := { T with map := upd T.map o none, owner := upd T.owner w none }

/-- setRootNode l.15-18 -/
def Tree.setRoot (T : Tree) (r : Obj) : Tree := T.get r true

/-- removeRootNode l.20-28 -/
def Tree.removeRoot (T : Tree) (r : Obj) : Out Tree :=
  match T.map r with
  | none => .ok T
  | some w => match T.widgets w with
    -- `tw->removeItemWidget( rootW, 0 )`
    | none => .ub
    | some _ => (T.forget r w).delete w

/-- childAdded l.30-36 -/
def Tree.childAdded (T : Tree) (p c : Obj) : Out Tree :=
  let T := (T.get p true).get c false
  T.addChild (T.ptr p) (T.ptr c)

/-- frameNodeSet l.66-71 -/
def Tree.frameNodeSet (T : Tree) (m f : Obj) : Out Tree :=
  let T := (T.get m false).get f false
  T.addChild (T.ptr f) (T.ptr m)

/-- childRemoved l.86-97 -/
def Tree.childRemoved (T : Tree) (p c : Obj) : Out Tree :=
  let T := (T.get c false).get p false
  let w := T.ptr c
  (T.removeChild (T.ptr p) w).bind fun T => (T.forget c w).delete w

/-- frameNodeDetached l.73-84 -/
def Tree.frameNodeDetached (T : Tree) (m f : Obj) : Out Tree :=
  let T := (T.get f false).get m false
  let w := T.ptr m
  (T.removeChild (T.ptr f) w).bind fun T => (T.forget m w).delete w

/-- dispatch, EventHandler.cpp l.47-73, with the callbacks of the listener; layer links, new and modified items are
ignored (EventHandler.cpp l.30-40). `rootFrame o`: the item is a FrameNode and `isRoot()` (l.99-105, FrameNode.cpp l.57-60) -/
def Tree.handle (T : Tree) (rootFrame : Obj → Bool) (e : Ev) : Out Tree :=
  match e.ty, e.op, e.b with
  | .item, .remove, _ => if rootFrame e.a then T.removeRoot e.a else .ok T
  | .frameTree, .add, some b => T.childAdded e.a b
  | .frameTree, .remove, some b => T.childRemoved e.a b
  | .frameNode, .add, some b => T.frameNodeSet e.a b
  | .frameNode, .remove, some b => T.frameNodeDetached e.a b
  | .root, .add, _ => .ok (T.setRoot e.a)
  | .root, .remove, _ => T.removeRoot e.a
  | .item, _, _ => .ok T
  | .layerTree, .add, _ => .ok T
  | .layerTree, .remove, _ => .ok T
  -- `throw std::runtime_error("Event message not handled")`
  | _, .update, _ => .throw T
  -- null pointers: `item->getClassName()`
  | _, _, none => .ub

def Tree.run (T : Tree) (rootFrame : Obj → Bool) : List Ev → Out Tree
  | [] => .ok T
  | e :: es => (T.handle rootFrame e).bind (fun T => T.run rootFrame es)

end TreeView
end Envire
