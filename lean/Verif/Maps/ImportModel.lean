import Verif.Core.CloneModel
import Verif.Maps.MapSetModel

/-!
Model of LaserScan::importScanFile and of the pose in a scan file, /repo/src/maps/LaserScan.cpp l.44-108, l.116-134; and of addScanLine, l.44-71.

Simplifications: real numbers. A file is what can be read from it: not opened, a failure of parseScan (l.170-180), or the lines that concern the pose, with all their
numbers (the other lines are in Verif/Maps/ScanFileModel). The addresses of the new objects are given.
-/
namespace Envire.Import
open Envire Envire.Env
open Envire.MapSet (Pose)

noncomputable section

/-- a line with one of the two keys -/
inductive PoseLine
  /-- the four numbers, in the order of the file -/
  | orientation (x u v w : ℝ)
  | origin (x y z : ℝ)

/-- Quaterniond(w, x, y, z).toRotationMatrix() of Eigen, which does not normalise -/
def matrix (w x y z : ℝ) : Matrix (Fin 3) (Fin 3) ℝ :=
  !![1 - 2 * (y * y + z * z), 2 * (x * y - w * z), 2 * (x * z + w * y);
     2 * (x * y + w * z), 1 - 2 * (x * x + z * z), 2 * (y * z - w * x);
     2 * (x * z - w * y), 2 * (y * z + w * x), 1 - 2 * (x * x + y * y)]

/-- l.125-134: `rotate` multiplies on the right, `pretranslate` adds on the left -/
def poseLine (t : Pose) : PoseLine → Pose
  | .orientation x u v w => ⟨t.R * matrix x u v w, t.t⟩
  | .origin x y z => ⟨t.R, ![x, y, z] + t.t⟩

/-- the transform after parseScan, from l.81 on -/
def pose (l : List PoseLine) : Pose := l.foldl poseLine ⟨1, 0⟩

/-- what is found at the path -/
inductive File
  | missing
  | broken
  | lines (l : List PoseLine)

/-- importScanFile l.73-108; `tf`: the transforms of the frames -/
def importScan (s : Env) (tf : Obj → Pose) (file : File) (node scan fm : Obj) : Res (Env × (Obj → Pose)) :=
  if s.owner node ≠ .here then .throw (s, tf)
  else
    let s1 := Clone.alloc s scan .cmap
    match file with
    | .missing => .throw (s1, tf)
    -- delete scan
    | .broken => .throw ({ s1 with owner := upd s1.owner scan .dead }, tf)
    | .lines l =>
      match s1.attachMap scan none with
      | .fault e => .fault e
      | .throw s => .throw (s, tf)
      | .ok s =>
        let tf := upd tf fm ⟨1, 0⟩
        match (Clone.alloc s fm .frame).addChildF node fm with
        | .fault e => .fault e
        | .throw s => .throw (s, tf)
        | .ok s => match s.setFrameNode scan fm with
          | .fault e => .fault e
          | .throw s => .throw (s, tf)
          -- FrameNode::setTransform reports the change
          | .ok s => match s.emit .item .update fm none with
            | .ok s => .ok (s, upd tf fm (pose l))
            | .throw s => .throw (s, tf)
            | .fault e => .fault e

/-! ### addScanLine -/

/-- base::samples::LaserScan -/
structure Sample where
  start : ℝ
  resolution : ℝ
  ranges : List Nat
  remission : List Nat

structure Line where
  phi : ℝ
  ranges : List Nat
  remissions : List Nat

/-- LaserScan, the members that addScanLine uses; the first three have no value in a new scan, LaserScan.cpp l.15-18 -/
structure Scan where
  originPsi : Option ℝ
  deltaPsi : Option ℝ
  perLine : Option Nat
  lines : List Line

def Scan.new : Scan := ⟨none, none, none, []⟩

/-- addScanLine l.44-71; mismatches are logged only -/
def addLine (s : Scan) (tilt : ℝ) (x : Sample) : Scan :=
  let s := if s.lines = [] then { s with originPsi := some x.start, deltaPsi := some x.resolution, perLine := some x.ranges.length } else s
  { s with lines := s.lines ++ [⟨tilt, x.ranges, x.remission⟩] }

end

end Envire.Import
