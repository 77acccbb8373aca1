import Mathlib.Analysis.Real.Sqrt
import Mathlib.Data.Matrix.Mul

/-!
Model of the matrices of the handles with which a frame is moved, /repo/viz/FrameNodeManipulator.cpp: the constructor of FrameNodeUpdate l.15-27, receive l.43-47, handle l.55-59, updateOSG l.71-83,
DraggerContainer::traverse l.115-135, and the constructor of FrameNodeManipulator l.144-193.

Simplifications: real numbers. A matrix of OSG is the pair of its upper left block and of its last row; OSG multiplies rows from the left, so that the transposed block of Eigen is stored. The matrices
of new draggers are the identity. `pix` is the value of CullVisitor::pixelSize for the centre of the handles and the radius 0.48: the size in pixels that they have with the scale 1. Dragging changes
the place of the handle for translations and turns the handle for rotations, whatever is dragged; the selection gets a new matrix, which is written to the frame and comes back as an event.
-/
namespace Envire.Dragger
open Matrix

/-- block and last row of a matrix of OSG -/
structure Mat where
  lin : Matrix (Fin 3) (Fin 3) ℝ
  trans : Fin 3 → ℝ

/-- transform of a frame: column vectors from the left -/
structure Pose where
  lin : Matrix (Fin 3) (Fin 3) ℝ
  trans : Fin 3 → ℝ

/-- osg::Matrixd( t.matrix().data() ) -/
def ofPose (t : Pose) : Mat := ⟨t.lin.transpose, t.trans⟩

/-- osg::Matrix::scale( v ) * m -/
def scaled (v : Fin 3 → ℝ) (m : Mat) : Mat := ⟨Matrix.diagonal v * m.lin, m.trans⟩

/-- the product of OSG: first `a`, then `b` -/
def mul (a b : Mat) : Mat := ⟨a.lin * b.lin, a.trans ᵥ* b.lin + b.trans⟩

/-- getScale: the lengths of the columns -/
noncomputable def getScale (m : Mat) : Fin 3 → ℝ := fun j => Real.sqrt (m.lin 0 j ^ 2 + m.lin 1 j ^ 2 + m.lin 2 j ^ 2)

structure State where
  frame : Pose
  translate : Mat
  rotate : Mat

/-- updateOSG l.71-83 -/
noncomputable def updateOSG (s : State) : State :=
  { s with
    rotate := scaled (getScale s.rotate) (ofPose ⟨s.frame.lin, 0⟩)
    translate := scaled (getScale s.translate) (ofPose ⟨1, s.frame.trans⟩) }

/-- constructor l.144-193: the rotation handle is made smaller, then l.21 sets the matrices -/
noncomputable def start (t : Pose) : State :=
  let one : Mat := ⟨1, 0⟩
  updateOSG { frame := t, translate := one, rotate := scaled (fun j => getScale one j * (6 / 10)) ⟨1, one.trans⟩ }

/-- DraggerContainer::traverse l.115-135 while drawing, _draggerSize = 240 -/
noncomputable def draw (s : State) (pix : ℝ) : State :=
  if pix ≠ 240 then
    let pixelScale := if 0 < pix then 240 / pix else 1
    { s with translate := scaled (fun _ => pixelScale) ⟨1, s.translate.trans⟩ }
  else s

inductive Op
  /-- the frame gets a transform: event UPDATE -/
  | move (t : Pose)
  /-- the handles are dragged: the handle for translations to a place, the other is turned; the frame gets the new transform -/
  | drag (place : Fin 3 → ℝ) (turn : Matrix (Fin 3) (Fin 3) ℝ) (t : Pose)
  | draw (pix : ℝ)

noncomputable def step (s : State) : Op → State
  | .move t => updateOSG { s with frame := t }
  | .drag place turn t => updateOSG { frame := t, translate := ⟨s.translate.lin, place⟩, rotate := ⟨s.rotate.lin * turn, s.rotate.trans⟩ }
  | .draw pix => draw s pix

noncomputable def run (s : State) (l : List Op) : State := l.foldl step s

end Envire.Dragger
