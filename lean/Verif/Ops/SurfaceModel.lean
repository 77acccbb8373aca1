/-!
Model of SurfaceReconstruction, /repo/src/operators/SurfaceReconstruction.cpp l.33-47, l.70-221.

Simplifications: the reconstruction by CGAL is a parameter that gives a polyhedron (its points and, for each facet, the numbers of its points in order) or fails (l.136-137). The
normals that calcVertexNormals writes at the end are in Verif/Maps/NormalModel. Points are of any type.
-/
namespace Envire.Surface

/-- a triangle mesh -/
structure Mesh (V : Type) where
  vertices : List V
  faces : List (Nat × Nat × Nat)
deriving DecidableEq

/-- CGAL::Polyhedron_3: the points, and the facets by the numbers of their points -/
structure Poly (V : Type) where
  points : List V
  facets : List (List Nat)

/-- a point cloud: the points and the normals, if there is data of that name -/
structure Cloud (V : Type) where
  vertices : List V
  normals : Option (List V)

/-- the outcome of updateAll -/
inductive Out (A : Type)
  /-- `return false` -/
  | failed (a : A)
  /-- the end of the function is reached without a `return`, l.221 -/
  | noReturn (a : A)
  /-- access out of range, use of numbers without a value, or a null pointer -/
  | undefined
deriving DecidableEq

/-- the points for CGAL, l.86-108; without normals the constructor of Vector leaves its numbers without a value -/
def points {V : Type} (c : Cloud V) : Option (List (V × V)) :=
  match c.normals with
  | none => if c.vertices = [] then some [] else none
  | some n => if n.length < c.vertices.length then none else some (c.vertices.zip n)

/-- one facet, l.192-217: the first three numbers; `z` stands for what was in `face` before -/
def face (z : Nat) (f : List Nat) : Nat × Nat × Nat := (f.getD 0 z, f.getD 1 z, f.getD 2 z)

/-- l.175-217: points and faces are appended to the mesh -/
def copy {V : Type} (m : Mesh V) (p : Poly V) (z : Nat) : Mesh V :=
  ⟨p.points.foldl (fun l v => l ++ [v]) m.vertices, p.facets.foldl (fun l f => l ++ [face z f]) m.faces⟩

variable {V : Type} [DecidableEq V]

/-- updateAll l.70-221; `inputs` and `outputs` are what the environment knows of the operator -/
def update (poisson : List (V × V) → Option (Poly V)) (inputs : List (Cloud V)) (outputs : List (Mesh V)) (z : Nat) : Out (Mesh V) :=
  match inputs, outputs with
  | c :: _, m :: _ => match points c with
    | none => .undefined
    | some l => match poisson l with
      | none => .failed m
      | some p => .noReturn (copy m p z)
  | _, _ => .undefined

/-- addInput and addOutput, l.33-47: `none` is the exception -/
def add {A : Type} (l : List A) (a : A) : Option (List A) := if l.length > 0 then none else some (l ++ [a])

end Envire.Surface
