/-!
Model of SimplifyPointcloud::updateAll (src/operators/SimplifyPointcloud.cpp l.62-168).

The algorithms of CGAL (grid_simplify_point_set l.96, compute_average_spacing l.107,
remove_outliers l.121, jet_smooth_point_set l.132) are inputs of the model; `none` is an
exception thrown by one of them (a failed precondition). What is assumed of them is said in
the theorems.

Simplifications: points are of any type `V`, the conversion to the CGAL point and back is the
identity (both hold three doubles); indices fit into int (l.88 stores a size_t in an int); the
input and the output are different clouds; normals and colours have the expected type; the
messages on the standard output are left out.
-/

namespace Envire.Simplify

/-- vertices and the two kinds of vertex data the operator handles; `none` is absent data
(hasData, l.81-82) -/
structure Cloud (V : Type) where
  vertices : List V
  normals : Option (List V)
  colors : Option (List V)
  deriving DecidableEq, Repr

/-- SimplifyPointcloud.hpp l.32-35 -/
structure Settings where
  computeSpacing : Bool
  simplifyCellSize : Rat
  outlierPercentage : Rat
  smoothNeighbours : Nat
  deriving DecidableEq, Repr

/-- the tuples of an index and a point, l.76-77 -/
abbrev Points (V : Type) := List (Nat × V)

/-- the functions of CGAL the operator calls -/
structure Cgal (V : Type) where
  simplify : Rat → Points V → Option (Points V)
  /-- number of neighbours; the result is only printed -/
  spacing : Nat → Points V → Option Unit
  /-- number of neighbours, percentage -/
  outliers : Nat → Rat → Points V → Option (Points V)
  /-- number of neighbours -/
  smooth : Nat → Points V → Option (Points V)

/-- the loop of l.85-89 -/
def index {V : Type} (i : Nat) : List V → Points V
  | [] => []
  | v :: l => (i, v) :: index (i + 1) l

/-- l.93-102 -/
def stepSimplify {V : Type} (g : Cgal V) (s : Settings) (p : Points V) : Option (Points V) :=
  if s.simplifyCellSize > 0 then g.simplify s.simplifyCellSize p else some p

/-- l.104-114 -/
def stepSpacing {V : Type} (g : Cgal V) (s : Settings) (p : Points V) : Option (Points V) :=
  if s.computeSpacing then (g.spacing 6 p).map (fun _ => p) else some p

/-- l.116-128 -/
def stepOutliers {V : Type} (g : Cgal V) (s : Settings) (p : Points V) : Option (Points V) :=
  if s.outlierPercentage > 0 then g.outliers 24 s.outlierPercentage p else some p

/-- l.130-138 -/
def stepSmooth {V : Type} (g : Cgal V) (s : Settings) (p : Points V) : Option (Points V) :=
  if s.smoothNeighbours > 0 then g.smooth 24 p else some p

/-- l.85-138 -/
def steps {V : Type} (g : Cgal V) (s : Settings) (vertices : List V) : Option (Points V) :=
  (((stepSimplify g s (index 0 vertices)).bind (stepSpacing g s)).bind (stepOutliers g s)).bind
    (stepSmooth g s)

inductive Outcome (V : Type) where
  /-- the output cloud afterwards -/
  | done (out : Cloud V)
  /-- an exception, and the output cloud it leaves -/
  | thrown (out : Cloud V)
  /-- the first element of an empty list is dereferenced, l.67 and l.70 -/
  | undefined
  deriving DecidableEq, Repr

/-- getVertexData of the output creates the data if there is none, l.144-153; only called when
the input has the data -/
def touch {V : Type} (input out : Option (List V)) : Option (List V) :=
  match input with
  | none => out
  | some _ => some (out.getD [])

/-- `data->push_back( data_in->at( i ) )` if the input has the data; `none` if `at` throws,
l.160-163 -/
def pushData {V : Type} (input out : Option (List V)) (i : Nat) : Option (Option (List V)) :=
  match input with
  | none => some out
  | some l => (l[i]?).map (fun x => some (out.getD [] ++ [x]))

/-- the loop of l.155-164 -/
def copyBack {V : Type} (inp : Cloud V) : Points V → Cloud V → Outcome V
  | [], out => .done out
  | (i, v) :: l, out =>
    let out1 : Cloud V := { out with vertices := out.vertices ++ [v] }
    match pushData inp.normals out.normals i with
    | none => .thrown out1
    | some n =>
      let out2 : Cloud V := { out1 with normals := n }
      match pushData inp.colors out.colors i with
      | none => .thrown out2
      | some c => copyBack inp l { out2 with colors := c }

/-- the body of updateAll after the lookups, l.72-167 -/
def run {V : Type} (g : Cgal V) (s : Settings) (inp out : Cloud V) : Outcome V :=
  match steps g s inp.vertices with
  | none => .thrown out
  | some p =>
    copyBack inp p { out with normals := touch inp.normals out.normals,
                              colors := touch inp.colors out.colors }

/-- updateAll, l.62-168, for the inputs and the outputs of the operator -/
def updateAll {V : Type} (g : Cgal V) (s : Settings) (ins outs : List (Cloud V)) : Outcome V :=
  match ins, outs with
  | inp :: _, out :: _ => run g s inp out
  | _, _ => .undefined

end Envire.Simplify
