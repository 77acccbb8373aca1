/-!
Model of the handles with which a frame is moved, /repo/viz/FrameNodeManipulator.cpp: FrameNodeUpdate l.8-81, constructor l.141-192, destructor l.194-200,
with ItemManipulator::itemActivated, /repo/viz/ItemManipulator.cpp l.30-61, and FrameNode::setTransform, /repo/src/core/FrameNode.cpp l.95-102.

Simplifications: the matrix of the selection is a value of a type `M`; scales and the matrices of the draggers are left out. Objects of OSG are freed when the last
reference is gone; references are pairs. The group of the frame is one object, `scene`, that stays.
-/
namespace Envire.Handles

inductive Obj
  | scene
  | manipulator (i : Nat)
  | container (i : Nat)
  | selection (i : Nat)
  | translate (i : Nat)
  | rotate (i : Nat)
  | callback (i : Nat)
  deriving DecidableEq

/-- references after the constructor l.141-192 -/
def refsOf (i : Nat) : List (Obj × Obj) :=
  [(.manipulator i, .selection i), (.scene, .selection i),
   (.translate i, .rotate i), (.container i, .translate i), (.manipulator i, .container i), (.scene, .container i),
   (.translate i, .selection i), (.rotate i, .selection i),
   -- FrameNodeUpdate l.15-27: members, and addDraggerCallback
   (.callback i, .selection i), (.callback i, .translate i), (.callback i, .rotate i), (.translate i, .callback i), (.rotate i, .callback i),
   (.manipulator i, .callback i)]

structure State (M C : Type) where
  /-- transform of each frame, and its uncertainty -/
  pose : Nat → M
  cov : Nat → Option C
  /-- references between the objects that are there -/
  refs : List (Obj × Obj)
  /-- callbacks that are registered as event handlers -/
  live : List Nat
  /-- frame and matrix of the selection of each callback -/
  frameOf : Nat → Nat
  tf : Nat → M
  /-- number of manipulators that were made -/
  made : Nat
  active : Option Nat

variable {M C : Type}

/-- frees an object that is no longer referenced: its own references go away; the destructor of FrameNodeUpdate l.29-35 removes the event handler -/
def State.freeObj (s : State M C) (o : Obj) : State M C :=
  if s.refs.any (fun e => decide (e.2 = o)) then s
  else { s with refs := s.refs.filter (fun e => decide (e.1 ≠ o)), live := s.live.filter (fun i => decide (o ≠ .callback i)) }

/-- the objects of a manipulator that may be freed after it -/
def parts (i : Nat) : List Obj := [.container i, .selection i, .translate i, .rotate i, .callback i]

/-- ~FrameNodeManipulator l.194-200 and its members; each part is tried as often as there are parts -/
def State.deleteManipulator (s : State M C) (i : Nat) : State M C :=
  let s1 := { s with refs := s.refs.filter (fun e => decide (e.1 ≠ .manipulator i ∧ e ≠ (.scene, .container i) ∧ e ≠ (.scene, .selection i))), active := none }
  ((List.replicate 5 (parts i)).flatten).foldl State.freeObj s1

/-- the event UPDATE of a frame reaches all handlers: handle l.53-57, updateOSG l.69-80 -/
def State.updateOSG (s : State M C) (f : Nat) : State M C :=
  { s with tf := fun i => if i ∈ s.live ∧ s.frameOf i = f then s.pose f else s.tf i }

/-- FrameNode::setTransform: with the transform alone the uncertainty is gone -/
def State.setTransform (s : State M C) (f : Nat) (m : M) (c : Option C) : State M C :=
  { s with pose := fun k => if k = f then m else s.pose k, cov := fun k => if k = f then c else s.cov k }.updateOSG f

inductive Op (M C : Type)
  /-- a frame is activated (`some`), or something else -/
  | activate (f : Option Nat)
  /-- the handles are dragged: the matrix of the selection is set and receive l.43-47 called -/
  | drag (m : M)
  /-- the frame is moved in the environment -/
  | move (f : Nat) (m : M) (c : Option C)

def State.step (s : State M C) : Op M C → State M C
  | .activate f =>
    let s1 := match s.active with
      | some i => s.deleteManipulator i
      | none => s
    match f with
    | none => s1
    | some f => { s1 with refs := refsOf s1.made ++ s1.refs, live := s1.live ++ [s1.made], frameOf := fun k => if k = s1.made then f else s1.frameOf k,
                          tf := fun k => if k = s1.made then s1.pose f else s1.tf k, made := s1.made + 1, active := some s1.made }
  | .drag m =>
    match s.active with
    | none => s
    | some i => { s with tf := fun k => if k = i then m else s.tf k }.setTransform (s.frameOf i) m none
  | .move f m c => s.setTransform f m c

/-- no handles are there -/
def start (pose : Nat → M) (cov : Nat → Option C) (m : M) : State M C :=
  { pose := pose, cov := cov, refs := [], live := [], frameOf := fun _ => 0, tf := fun _ => m, made := 0, active := none }

def run (s : State M C) (ops : List (Op M C)) : State M C := ops.foldl State.step s

end Envire.Handles
