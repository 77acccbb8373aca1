import Verif.Ops.SurfaceModel

/-! C189: the mesh of SurfaceReconstruction. -/

namespace Envire.Surface

/-! ### specification -/

/-- the corners of a face of a mesh -/
def corners {V : Type} (m : Mesh V) (f : Nat × Nat × Nat) : Option V × Option V × Option V := (m.vertices[f.1]?, m.vertices[f.2.1]?, m.vertices[f.2.2]?)

/-- the triangles of a mesh, as points -/
def triangles {V : Type} (m : Mesh V) : List (Option V × Option V × Option V) := m.faces.map (corners m)

/-- a polyhedron of triangles -/
def Triangular {V : Type} (p : Poly V) : Prop := ∀ f ∈ p.facets, ∃ a b c, f = [a, b, c] ∧ a < p.points.length ∧ b < p.points.length ∧ c < p.points.length

/-- the triangles of a polyhedron, as points -/
def surface {V : Type} (p : Poly V) : List (Option V × Option V × Option V) := p.facets.map fun f => ((f[0]?).bind (p.points[·]?), (f[1]?).bind (p.points[·]?), (f[2]?).bind (p.points[·]?))

/-! ### copying -/

theorem fold_append {A B : Type} (f : A → B) (l : List A) (k : List B) : l.foldl (fun k a => k ++ [f a]) k = k ++ l.map f := by
  induction l generalizing k with
  | nil => simp
  | cons a l ih => rw [List.foldl_cons, ih]; simp

theorem copy_eq {V : Type} (m : Mesh V) (p : Poly V) (z : Nat) : copy m p z = ⟨m.vertices ++ p.points, m.faces ++ p.facets.map (face z)⟩ := by
  unfold copy
  have := fold_append (fun v : V => v) p.points m.vertices
  rw [this, fold_append, List.map_id']

theorem surface_eq {V : Type} {p : Poly V} (h : Triangular p) (z : Nat) (rest : List V) :
    (p.facets.map (face z)).map (corners ⟨p.points ++ rest, []⟩) = surface p := by
  unfold surface
  rw [List.map_map]
  refine List.map_congr_left fun f hf => ?_
  obtain ⟨a, b, c, rfl, ha, hb, hc⟩ := h f hf
  simp [face, corners, List.getElem?_append_left ha, List.getElem?_append_left hb, List.getElem?_append_left hc]

variable {V : Type} [DecidableEq V]

/-- C189 (partial: a cloud with normals and an empty output) The output has the points of the surface that was reconstructed, and its triangles are those of the surface. All corners of faces exist. -/
theorem C189_mesh_partial (poisson : List (V × V) → Option (Poly V)) (c : Cloud V) (n : List V) (hn : c.normals = some n) (hl : c.vertices.length = n.length) (p : Poly V)
    (hp : poisson (c.vertices.zip n) = some p) (ht : Triangular p) (z : Nat) :
    ∃ m, update poisson [c] [⟨[], []⟩] z = .noReturn m ∧ m.vertices = p.points ∧ triangles m = surface p ∧
      ∀ f ∈ m.faces, f.1 < m.vertices.length ∧ f.2.1 < m.vertices.length ∧ f.2.2 < m.vertices.length := by
  refine ⟨copy ⟨[], []⟩ p z, ?_, ?_, ?_, ?_⟩
  · unfold update points
    dsimp only
    rw [hn]
    dsimp only
    rw [if_neg (by omega)]
    dsimp only
    rw [hp]
  · rw [copy_eq]; rfl
  · have := surface_eq ht z []
    rw [List.append_nil] at this
    rw [← this, copy_eq]
    rfl
  · rw [copy_eq]
    intro f hf
    simp only [List.nil_append, List.mem_map] at hf
    obtain ⟨g, hg, rfl⟩ := hf
    obtain ⟨a, b, d, rfl, ha, hb, hd⟩ := ht g hg
    exact ⟨ha, hb, hd⟩

/-- C189: if the reconstruction fails the output is unchanged and the result is false -/
theorem C189_failed (poisson : List (V × V) → Option (Poly V)) (c : Cloud V) (n : List V) (hn : c.normals = some n) (hl : c.vertices.length = n.length) (m : Mesh V)
    (hp : poisson (c.vertices.zip n) = none) (z : Nat) : update poisson [c] [m] z = .failed m := by
  unfold update points
  dsimp only
  rw [hn]
  dsimp only
  rw [if_neg (by omega)]
  dsimp only
  rw [hp]

/-- C189, the code violates the property: there is no `return true`, so each call that reconstructs a surface has no defined result -/
theorem C189_return_deviation (poisson : List (V × V) → Option (Poly V)) (c : Cloud V) (n : List V) (hn : c.normals = some n) (hl : c.vertices.length = n.length) (m : Mesh V) (p : Poly V)
    (hp : poisson (c.vertices.zip n) = some p) (z : Nat) : ∃ m', update poisson [c] [m] z = .noReturn m' := by
  unfold update points
  dsimp only
  rw [hn]
  dsimp only
  rw [if_neg (by omega)]
  dsimp only
  rw [hp]
  exact ⟨_, rfl⟩

/-- C189, the code violates the property: an update of a mesh that has points keeps the old surface, and the triangles that are added are those of the new surface drawn with the
points that were there before, as far as there are enough -/
theorem C189_again_deviation (poisson : List (V × V) → Option (Poly V)) (c : Cloud V) (n : List V) (hn : c.normals = some n) (hl : c.vertices.length = n.length) (m : Mesh V) (p : Poly V)
    (hp : poisson (c.vertices.zip n) = some p) (ht : Triangular p) (hm : p.points.length ≤ m.vertices.length) (z : Nat) :
    ∃ m', update poisson [c] [m] z = .noReturn m' ∧ m'.vertices = m.vertices ++ p.points ∧
      (m'.faces.drop m.faces.length).map (corners m') = surface ⟨m.vertices, p.facets⟩ := by
  refine ⟨copy m p z, ?_, by rw [copy_eq], ?_⟩
  · unfold update points
    dsimp only
    rw [hn]
    dsimp only
    rw [if_neg (by omega)]
    dsimp only
    rw [hp]
  · have ht' : Triangular (⟨m.vertices, p.facets⟩ : Poly V) := by
      intro f hf
      obtain ⟨a, b, d, e, ha, hb, hd⟩ := ht f hf
      exact ⟨a, b, d, e, by show a < m.vertices.length; omega, by show b < m.vertices.length; omega, by show d < m.vertices.length; omega⟩
    have h := surface_eq ht' z p.points
    rw [← h, copy_eq]
    simp only [List.drop_left]
    rfl

/-- C189, the code violates the property: a cloud without normals, or with fewer normals than points, or no input at all, leads to undefined behaviour -/
theorem C189_normals_deviation (poisson : List (V × V) → Option (Poly V)) (c : Cloud V) (m : Mesh V) (z : Nat) :
    (c.normals = none → c.vertices ≠ [] → update poisson [c] [m] z = .undefined) ∧
    (∀ n, c.normals = some n → n.length < c.vertices.length → update poisson [c] [m] z = .undefined) ∧ update poisson [] [m] z = .undefined := by
  refine ⟨fun h h' => ?_, fun n h h' => ?_, rfl⟩
  · unfold update points
    dsimp only
    rw [h]
    dsimp only
    rw [if_neg h']
  · unfold update points
    dsimp only
    rw [h]
    dsimp only
    rw [if_pos h']

/-- C189, the code violates the property: of a facet with more than three corners only the first three are kept -/
theorem C189_facet_deviation (z a b c : Nat) (f : List Nat) : face z (a :: b :: c :: f) = (a, b, c) := rfl

/-- C189: an operator has at most one input and at most one output, whatever is added in whatever order -/
theorem C189_one {A : Type} (as : List A) : (as.foldl (fun l a => (add l a).getD l) []) = as.take 1 := by
  have h : ∀ (as : List A) (x : A), as.foldl (fun l a => (add l a).getD l) [x] = [x] := by
    intro as x
    induction as with
    | nil => rfl
    | cons a as ih => rw [List.foldl_cons]; exact ih
  cases as with
  | nil => rfl
  | cons a as =>
    rw [List.foldl_cons]
    show as.foldl _ [a] = _
    rw [h]
    rfl

/-! ### examples -/

/-- a tetrahedron without its ground, and a second one -/
example : update (fun _ => some ⟨["a", "b", "c", "d"], [[0, 1, 3], [1, 2, 3], [2, 0, 3]]⟩) [⟨["p"], some ["n"]⟩] [⟨[], []⟩] 9 =
    .noReturn ⟨["a", "b", "c", "d"], [(0, 1, 3), (1, 2, 3), (2, 0, 3)]⟩ := by decide

example : update (fun _ => some ⟨["e", "f", "g"], [[0, 1, 2]]⟩) [⟨["p"], some ["n"]⟩] [⟨["a", "b", "c"], [(0, 1, 2)]⟩] 9 =
    .noReturn ⟨["a", "b", "c", "e", "f", "g"], [(0, 1, 2), (0, 1, 2)]⟩ := by decide

#print axioms C189_mesh_partial
#print axioms C189_failed
#print axioms C189_return_deviation
#print axioms C189_again_deviation
#print axioms C189_normals_deviation
#print axioms C189_facet_deviation
#print axioms C189_one

end Envire.Surface
