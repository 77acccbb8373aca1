import Mathlib.Data.Real.Sqrt

/-!
Model of TriMesh::calcVertexNormals, src/maps/TriMesh.cpp l.27-67.

Simplifications: real numbers for `double`. `normalized` and `normalize` leave the zero vector as it is (Eigen 3.3 and later). `isApprox` with the zero vector holds for the zero vector only (Eigen compares with the
smaller norm of both).
-/

namespace Envire.Normal

abbrev Vec : Type := ℝ × ℝ × ℝ

def cross (a b : Vec) : Vec := (a.2.1 * b.2.2 - a.2.2 * b.2.1, a.2.2 * b.1 - a.1 * b.2.2, a.1 * b.2.1 - a.2.1 * b.1)

noncomputable def len (a : Vec) : ℝ := Real.sqrt (a.1 ^ 2 + a.2.1 ^ 2 + a.2.2 ^ 2)

open Classical in
noncomputable def normalized (a : Vec) : Vec := if len a = 0 then a else (a.1 / len a, a.2.1 / len a, a.2.2 / len a)

/-- vertices[ i ]; `none`: outside of the array. A negative index becomes a large one. -/
def get (vs : List Vec) (i : Int) : Option Vec := if 0 ≤ i then vs[i.toNat]? else none

/-- the loop body l.36-54; `none` is undefined behaviour -/
noncomputable def face (vs : List Vec) (normals : List Vec) (f : Int × Int × Int) : Option (List Vec) :=
  match get vs f.1, get vs f.2.1, get vs f.2.2 with
  | some a0, some a1, some a2 =>
    let n := normalized (cross (a0 - a1) (a2 - a1))
    some (((normals.set f.1.toNat n).set f.2.1.toNat n).set f.2.2.toNat n)
  | _, _, _ => none

open Classical in
/-- l.57-66 -/
noncomputable def finish (n : Vec) : Vec := if n = 0 then 0 else normalized n

/-- calcVertexNormals l.27-67 -/
noncomputable def calcNormals (vs : List Vec) (faces : List (Int × Int × Int)) : Option (List Vec) := (faces.foldlM (face vs) (List.replicate vs.length 0)).map fun l => l.map finish

end Envire.Normal
