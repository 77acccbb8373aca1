/-!
Model of the environments of the visualization, /repo/viz/EnvireVisualization.cpp: constructor l.23-55, destructor l.57-61, load l.64-68,
updateBinaryEvent l.123-156, updateDataIntern l.158-174, with the parts of EnvireEventListener.cpp (setRootNode l.145-152, itemAttached l.237-254,
itemDetached l.256-265) and Environment.cpp (destructor l.149-158, addEventHandler l.177-199) they use.

Simplifications: an environment is a number, with its root node and its other items all together; without a tree widget and without a filter. updateData of vizkit3d
calls updateDataIntern at once. Changes of environments are events that reach every handler that is registered.
-/
namespace Envire.Shown

/-- who made an environment and frees it -/
inductive Maker | user | viz
  deriving DecidableEq

structure State where
  /-- `env` -/
  env : Option Nat
  /-- `m_ownsEnvironment` -/
  owns : Bool
  /-- the makers of the environments, which are numbered in the order in which they were made -/
  made : List Maker
  /-- environments that are freed -/
  freed : List Nat
  /-- roots below `ownNode` -/
  scene : List Nat
  /-- environments whose items are in `environmentToNode` -/
  known : List Nat
  /-- environments in which the listener is registered -/
  watched : List Nat
  /-- the visualization itself is there -/
  up : Bool
  deriving DecidableEq

def start : State := { env := none, owns := false, made := [], freed := [], scene := [], known := [], watched := [], up := true }

inductive Out
  | ok (s : State)
  | throw (s : State)
  /-- use of an object that was freed -/
  | fault
  deriving DecidableEq

/-- an environment is made -/
def State.make (s : State) (m : Maker) : State := { s with made := s.made ++ [m] }

/-- ~Environment l.149-158: all items are detached, which the listener is told about -/
def State.free (s : State) (n : Nat) : Out :=
  if n ∈ s.freed then .fault
  else if n ∈ s.watched ∧ s.up = false then .fault
  else .ok { s with freed := n :: s.freed, known := s.known.filter (fun k => decide (k ≠ n)), watched := s.watched.filter (fun k => decide (k ≠ n)) }

/-- addEventHandler of environment `n`: each item is announced, and an item that is known is an error (itemAttached l.239-241); then the root is added to the scene -/
def State.watch (s : State) (n : Nat) : Out :=
  if n ∈ s.freed then .fault
  else if n ∈ s.known then .throw s
  else .ok { s with known := n :: s.known, scene := n :: s.scene, watched := n :: s.watched }

/-- updateDataIntern l.158-174. The node that is removed from the scene is the back node of the root (getNodeForItem l.127-134), which is no child of `ownNode`: the scene stays. The root is asked of the old environment. -/
def State.updateData (s : State) (n : Nat) : Out :=
  match s.env with
  | none => { s with owns := false, env := some n }.watch n
  | some m =>
    if m ∈ s.freed then .fault
    else if s.owns then
      match s.free m with
      | .ok s1 => { s1 with owns := false, env := some n }.watch n
      | .throw s1 => .throw s1
      | .fault => .fault
    else { s with owns := false, env := some n }.watch n

/-- updateData of a new environment that the visualization then owns: load l.64-68, updateBinaryEvent l.130-134 -/
def State.own (s : State) : Out :=
  match (s.make .viz).updateData s.made.length with
  | .ok s1 => .ok { s1 with owns := true }
  | .throw s1 => .throw s1
  | .fault => .fault

inductive Op
  /-- the user makes an environment -/
  | new
  /-- the user frees an environment -/
  | free (n : Nat)
  /-- the user changes an environment -/
  | change (n : Nat)
  /-- updateData -/
  | update (n : Nat)
  | load
  | binary
  /-- the visualization is destroyed -/
  | destroy

def State.step (s : State) : Op → Out
  | .new => .ok (s.make .user)
  | .free n => s.free n
  | .change n => if n ∈ s.freed then .fault else if n ∈ s.watched ∧ s.up = false then .fault else .ok s
  | .update n => s.updateData n
  | .load => s.own
  | .binary =>
    match s.env with
    | none => s.own
    | some n => if s.owns then (if n ∈ s.freed then .fault else .ok s) else .throw s
  | .destroy =>
    if s.owns then
      match s.env with
      | some n =>
        match s.free n with
        | .ok s1 => .ok { s1 with up := false }
        | .throw s1 => .throw s1
        | .fault => .fault
      | none => .ok { s with up := false }
    else .ok { s with up := false }

end Envire.Shown
