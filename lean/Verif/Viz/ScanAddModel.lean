import Verif.Maps.ImportModel
import Verif.Tools.OpToolModel

/-!
Model of adding a scan in enview: /repo/viz/enview/ApplicationWindow.cpp l.74-111 (createTriMesh, addFromScanFileDialog), with ScanMeshing::addInput and addOutput, /repo/src/operators/ScanMeshing.cpp
l.48-60, updateAll l.113-118.

Simplifications: as in Verif/Maps/ImportModel and Verif/Tools/OpToolModel; what is drawn into the mesh is the matter of Verif/Ops/ScanModel and MeshModel. The addresses of the new objects are given.
-/
namespace Envire.ScanAdd
open Envire Envire.Env
open Envire.MapSet (Pose)

/-- the test at the beginning of ScanMeshing::updateAll l.116; the rest throws nothing -/
def connected (s : Env) (op : Obj) : Bool := (s.getInputs op).length == 1 && (s.getOutputs op).length == 1

/-- createTriMesh l.74-97; if `ls->getFrameNode()` is null a null pointer is used -/
def createMesh (s : Env) (ls : Option Obj) (mesh op : Obj) : Res Env :=
  match ls with
  | none => .ok s
  | some ls =>
    ((Clone.alloc s mesh .cmap).attachMap mesh none).bind fun s =>
      match s.getFrameNode ls with
      | none => .fault .assertion
      | some fn => (s.setFrameNode mesh fn).bind fun s =>
        ((OpTool.new s op 0 0).attachItem op).bind fun s =>
          (s.opAddInput op ls).bind fun s =>
            if 0 < (s.getOutputs op).length then .throw s
            else (s.opAddOutput op mesh).bind fun s =>
              if connected s op then s.emit .item .update mesh none else .throw s

/-- addFromScanFileDialog l.99-111; none: the dialog is cancelled -/
noncomputable def addScan (s : Env) (tf : Obj → Pose) (dialog : Option Import.File) (scan fm mesh op : Obj) : Res (Env × (Obj → Pose)) :=
  match dialog with
  | none => .ok (s, tf)
  | some file => match Import.importScan s tf file s.rootNode scan fm with
    | .fault e => .fault e
    | .throw r => .throw r
    | .ok (s, tf) => match createMesh s (some scan) mesh op with
      | .fault e => .fault e
      | .throw s => .throw (s, tf)
      | .ok s => .ok (s, tf)

end Envire.ScanAdd
