import Verif.Core.EnvModel

/-!
Model of the removal of the selected items, /repo/viz/ItemManipulator.cpp l.145-155, and of the drawing of frames,
/repo/viz/FrameNodeVisualization.cpp l.30-81.

Simplifications: an entry of the tree belongs to its item as long as the item is attached to the environment
(TreeViewListener::getItemForWidget returns NULL for entries that are gone; see C148 for when this holds). The poses of
frames are rigid, so a quaternion and a position represent them; they are elements of a group here.
-/
namespace Envire.RemoveSel
open Env

/-- FrameNode::isRoot, /repo/src/core/FrameNode.cpp l.57-60, for items that are frames -/
def rootFrame (s : Env) (o : Obj) : Bool := decide (s.kind o = .frame) && (s.getParent o).isNone

/-- removeSelectedItems l.145-155 -/
def removeSelected (s : Env) : List Obj → Res Env
  | [] => .ok s
  | o :: os =>
    if s.owner o = .here ∧ rootFrame s o = false then
      match s.step (.detach o true) with
      | .ok s1 => removeSelected s1 os
      | .throw s1 => .throw s1
      | .fault f => .fault f
    else removeSelected s os

/-! ### frames -/

/-- the group of a frame: the transform, and the group of the uncertainty with its transform and its ellipse -/
structure FrameGroup (G E : Type) where
  pose : G
  unc : Option (G × Option E)

/-- FrameNodeVisualization::getNodeForItem l.18-23 and updateNode l.39-81; `cov`: the ellipse of a frame that has an uncertainty -/
def updateNode {G E : Type} [Inv G] (showUncertainty : Bool) (t : G) (cov : Option E) (g : FrameGroup G E) : FrameGroup G E :=
  { pose := t
    unc := match cov with
      | some e => some (t⁻¹, if showUncertainty then some e else none)
      | none => g.unc }

end Envire.RemoveSel
