/-!
Model of the serialization of transforms and covariances.

Source modelled: /repo/src/core/Serialization.cpp l.172-200 (write of Transform and Covariance), l.234-288 (read);
/repo/src/core/FrameNode.cpp l.33-56 (FrameNode::serialize, unserialize); /repo/src/core/Transform.hpp l.99-104.

Simplifications: a number is printed and parsed by `boost::lexical_cast`; this is a parameter (`Codec`), of which the properties
assume that parsing gives back what was printed. A matrix is a total function of row and column; the yaml map of one item is
a partial function from keys to values.
-/
namespace Envire.Serial

/-- boost::lexical_cast between double and std::string; `none`: bad_lexical_cast -/
structure Codec (α : Type) where
  print : α → List Char
  parse : List Char → Option α

/-- a yaml node -/
inductive Node where
  | scalar (s : List Char)
  | seq (l : List Node)

/-- a call: value, exception (with the value at the throw), undefined behaviour -/
inductive Out (σ : Type) where
  | ok (v : σ)
  | throw (v : σ)
  | fault

abbrev Mat (α : Type) := Nat → Nat → α

/-- assignment of one element -/
def Mat.set {α : Type} (m : Mat α) (i j : Nat) (x : α) : Mat α := fun a b => if a = i ∧ b = j then x else m a b

/-- write(key, Transform) l.172-185, write(key, Covariance) l.187-200, n × n elements row by row -/
def writeMat {α : Type} (c : Codec α) (n : Nat) (m : Mat α) : Node :=
  .seq ((List.range n).flatMap fun i => (List.range n).map fun j => .scalar (c.print (m i j)))

/-- the loop of read(key, Transform) l.242-252 and read(key, Covariance) l.270-280; `i` elements are done. An element outside of
the matrix is an access out of bounds. -/
def readLoop {α : Type} (c : Codec α) (n : Nat) : List Node → Nat → Mat α → Out (Nat × Mat α)
  | [], i, m => .ok (i, m)
  | .seq _ :: _, i, m => .throw (i, m)
  | .scalar t :: rest, i, m =>
    if n ≤ i / n then .fault
    else match c.parse t with
      | none => .throw (i, m)
      | some x => readLoop c n rest (i + 1) (m.set (i / n) (i % n) x)

/-- read(key, Transform) l.234-258, read(key, Covariance) l.262-286. Without the key the NULL node is dereferenced. -/
def readMat {α : Type} (c : Codec α) (n : Nat) (x : Option Node) (m : Mat α) : Out (Mat α) :=
  match x with
  | none => .fault
  | some (.scalar _) => .throw m
  | some (.seq l) =>
    match readLoop c n l 0 m with
    | .ok (i, m) => if i ≠ n * n then .throw m else .ok m
    | .throw (_, m) => .throw m
    | .fault => .fault

/-- TransformWithUncertainty, Transform.hpp l.99-109 -/
structure Frame (α : Type) where
  trans : Mat α
  cov : Mat α
  uncertain : Bool

/-- what FrameNode::serialize l.33-40 adds to the map of the item -/
structure FrameRec where
  transform : Option Node
  covariance : Option Node

def Frame.write {α : Type} (c : Codec α) (f : Frame α) : FrameRec :=
  ⟨some (writeMat c 4 f.trans), if f.uncertain then some (writeMat c 6 f.cov) else none⟩

/-- FrameNode::unserialize l.42-56; `t0` and `c0` are the uninitialised local variables -/
def Frame.read {α : Type} (c : Codec α) (t0 c0 : Mat α) (r : FrameRec) (f : Frame α) : Out (Frame α) :=
  match readMat c 4 r.transform t0 with
  | .fault => .fault
  | .throw _ => .throw f
  | .ok t =>
    let f := { f with trans := t }
    match r.covariance with
    | none => .ok f
    | some x =>
      match readMat c 6 (some x) c0 with
      | .fault => .fault
      | .throw _ => .throw f
      | .ok v => .ok { f with cov := v, uncertain := true }

end Envire.Serial
