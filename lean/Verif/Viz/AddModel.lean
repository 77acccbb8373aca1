import Verif.Core.CloneModel
import Verif.Maps.MapSetModel

/-!
Model of the actions of enview that add data, /repo/viz/enview/ApplicationWindow.cpp l.113-135 (addFromCsvDialog), l.171-179 (pickedPoint), with /repo/viz/TreeViewListener.cpp l.10-13, l.107-113,
EnvireVisualization.hpp l.42 (the selected item) and /repo/src/maps/Pointcloud.cpp l.113-129 (importCsv).

Simplifications: the environment is a state of the model of the core; the addresses of new objects are given. A file can be opened or not: which points are read is the matter of
Verif/Maps/CloudTextModel. The point that is picked is given in the coordinates of the scene, as vizkit3d does. An exception in an action of the window is passed on to Qt.
-/
namespace Envire.Add
open Envire Envire.Env
open Envire.MapSet (Pose)

/-- Pointcloud::importCsv l.113-129; `fn->getEnvironment()` of a frame without environment is null -/
def importCsv (s : Env) (opens : Bool) (fn pc : Obj) : Res Env :=
  if opens = false then .throw s
  else if s.owner fn ≠ .here then .fault .assertion
  else ((Clone.alloc s pc .cmap).attachMap pc none).bind fun s => s.setFrameNode pc fn

/-- the member `selected` of the tree: the last item that was clicked; nothing resets it -/
abbrev Selected := Option Obj

/-- `dynamic_cast<FrameNode*>(getSelectedItem())`, l.121-124: the outer option is undefined behaviour, a pointer to memory that was freed -/
def selectedFrame (s : Env) : Selected → Option (Option Obj)
  | none => some none
  | some x => if s.owner x = .dead then none else if s.kind x = .frame then some (some x) else some none

/-- addFromCsvDialog l.113-135; `dialog` is the path, none if the dialog is cancelled or has no path; `fm` and `pc` are the addresses of the new frame and the new cloud -/
def addCsv (s : Env) (sel : Selected) (dialog : Option Bool) (fm pc : Obj) : Res Env :=
  match dialog with
  | none => .ok s
  | some opens =>
    match selectedFrame s sel with
    | none => .fault .useAfterFree
    | some (some fn) => importCsv s opens fn pc
    | some none => ((Clone.alloc s fm .frame).addChildF s.rootNode fm).bind fun s => importCsv s opens fm pc

/-! ### picked points -/

/-- the vertices of a cloud and its other data, one element for each vertex -/
structure Cloud where
  vertices : List (Fin 3 → ℝ)
  colors : List (Fin 3 → ℝ)

/-- pickedPoint l.171-179, a cloud is selected -/
def pick (c : Cloud) (coord : Fin 3 → ℝ) : Cloud := { c with vertices := c.vertices ++ [coord] }

end Envire.Add
