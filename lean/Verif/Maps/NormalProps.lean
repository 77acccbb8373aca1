import Verif.Maps.NormalModel
import Mathlib.Tactic.Linarith
import Mathlib.Tactic.FieldSimp
import Mathlib.Tactic.LinearCombination
import Mathlib.Tactic.Ring

/-!
C105: normals of the vertices of a mesh.
-/

namespace Envire.Normal

/-! ### specification -/

def dot (a b : Vec) : ℝ := a.1 * b.1 + a.2.1 * b.2.1 + a.2.2 * b.2.2

/-- a face of the mesh: its indices are those of vertices -/
def Valid (vs : List Vec) (f : Int × Int × Int) : Prop := (0 ≤ f.1 ∧ f.1 < vs.length) ∧ (0 ≤ f.2.1 ∧ f.2.1 < vs.length) ∧ (0 ≤ f.2.2 ∧ f.2.2 < vs.length)

/-- the vertex belongs to the face -/
def has (i : Nat) (f : Int × Int × Int) : Bool := f.1 == i || f.2.1 == i || f.2.2 == i

/-- a vertex by its index -/
def at' (vs : List Vec) (i : Int) : Vec := vs.getD i.toNat 0

/-- n is the unit normal of the face: perpendicular to its edges, of length 1, on the side from which the vertices are in counterclockwise order -/
def IsNormal (vs : List Vec) (f : Int × Int × Int) (n : Vec) : Prop :=
  dot n (at' vs f.1 - at' vs f.2.1) = 0 ∧ dot n (at' vs f.2.2 - at' vs f.2.1) = 0 ∧ dot n n = 1 ∧ 0 < dot n (cross (at' vs f.1 - at' vs f.2.1) (at' vs f.2.2 - at' vs f.2.1))

/-- the direction of the sum of the normals of faces, given the normal of each face -/
def IsMean (fs : List (Int × Int × Int)) (normal : Int × Int × Int → Vec) (n : Vec) : Prop := dot n n = 1 ∧ ∃ k : ℝ, 0 < k ∧ (fs.map normal).sum = (k * n.1, k * n.2.1, k * n.2.2)

/-! ### proofs -/

/-- the normal of a face as the code computes it -/
noncomputable def normalOf (vs : List Vec) (f : Int × Int × Int) : Vec := normalized (cross (at' vs f.1 - at' vs f.2.1) (at' vs f.2.2 - at' vs f.2.1))

theorem get_valid {vs : List Vec} {i : Int} (h : 0 ≤ i ∧ i < vs.length) : get vs i = some (at' vs i) := by
  unfold get at'
  rw [if_pos h.1]
  have : i.toNat < vs.length := by omega
  simp [this]

theorem face_valid {vs : List Vec} {f : Int × Int × Int} (h : Valid vs f) (normals : List Vec) :
    face vs normals f = some (((normals.set f.1.toNat (normalOf vs f)).set f.2.1.toNat (normalOf vs f)).set f.2.2.toNat (normalOf vs f)) := by
  unfold face
  rw [get_valid h.1, get_valid h.2.1, get_valid h.2.2]
  rfl

theorem has_iff {vs : List Vec} {f : Int × Int × Int} (h : Valid vs f) (i : Nat) : has i f = true ↔ i = f.1.toNat ∨ i = f.2.1.toNat ∨ i = f.2.2.toNat := by
  obtain ⟨⟨h1, -⟩, ⟨h2, -⟩, ⟨h3, -⟩⟩ := h
  simp only [has, Bool.or_eq_true, beq_iff_eq]
  omega

theorem fold_get {vs : List Vec} (faces : List (Int × Int × Int)) (h : ∀ f ∈ faces, Valid vs f) : ∀ (normals : List Vec), normals.length = vs.length →
    ∃ ns, faces.foldlM (face vs) normals = some ns ∧ ns.length = vs.length ∧ ∀ i < vs.length, ns[i]? = match faces.reverse.find? (has i) with
      | none => normals[i]?
      | some f => some (normalOf vs f) := by
  induction faces with
  | nil =>
    intro normals hn
    exact ⟨normals, rfl, hn, fun i _ => rfl⟩
  | cons f fs ih =>
    intro normals hn
    have hf := h f (by simp)
    rw [List.foldlM_cons, face_valid hf]
    obtain ⟨ns, e, hl, hg⟩ := ih (fun g hg => h g (by simp [hg])) (((normals.set f.1.toNat (normalOf vs f)).set f.2.1.toNat (normalOf vs f)).set f.2.2.toNat (normalOf vs f)) (by simpa using hn)
    refine ⟨ns, e, hl, ?_⟩
    intro i hi
    rw [hg i hi, List.reverse_cons, List.find?_append]
    cases hfind : fs.reverse.find? (has i) with
    | some g => rfl
    | none =>
      simp only [Option.none_or]
      by_cases hh : has i f = true
      · simp only [List.find?_cons, hh]
        rw [has_iff hf] at hh
        simp only [List.getElem?_set, List.length_set, hn]
        by_cases h3 : f.2.2.toNat = i
        · rw [if_pos h3, if_pos (by omega)]
        · rw [if_neg h3]
          by_cases h2 : f.2.1.toNat = i
          · rw [if_pos h2, if_pos (by omega)]
          · rw [if_neg h2, if_pos (by omega), if_pos (by omega)]
      · simp only [List.find?_cons, List.find?_nil, hh]
        rw [has_iff hf] at hh
        push Not at hh
        simp only [List.getElem?_set]
        rw [if_neg (fun h => hh.2.2 h.symm), if_neg (fun h => hh.2.1 h.symm), if_neg (fun h => hh.1 h.symm)]

theorem len_sq (a : Vec) : len a ^ 2 = dot a a := by
  unfold len dot
  rw [Real.sq_sqrt (by positivity)]
  ring

theorem len_eq_zero {a : Vec} : len a = 0 ↔ a = 0 := by
  constructor
  · intro h
    have := len_sq a
    rw [h] at this
    obtain ⟨x, y, z⟩ := a
    simp only [dot] at this
    have h1 : x = 0 := by nlinarith [mul_self_nonneg x, mul_self_nonneg y, mul_self_nonneg z]
    have h2 : y = 0 := by nlinarith [mul_self_nonneg x, mul_self_nonneg y, mul_self_nonneg z]
    have h3 : z = 0 := by nlinarith [mul_self_nonneg x, mul_self_nonneg y, mul_self_nonneg z]
    rw [h1, h2, h3]
    rfl
  · rintro rfl
    simp [len]

theorem len_nonneg (a : Vec) : 0 ≤ len a := Real.sqrt_nonneg _

theorem normalized_unit {a : Vec} (h : a ≠ 0) : dot (normalized a) (normalized a) = 1 := by
  have h0 : len a ≠ 0 := fun h' => h (len_eq_zero.1 h')
  unfold normalized
  rw [if_neg h0]
  have := len_sq a
  simp only [dot] at *
  field_simp
  linarith

theorem normalized_zero : normalized 0 = 0 := by
  unfold normalized
  rw [if_pos (len_eq_zero.2 rfl)]

theorem normalized_of_unit {a : Vec} (h : dot a a = 1) : normalized a = a := by
  have h1 : len a = 1 := by
    unfold len
    rw [Real.sqrt_eq_one]
    simp only [dot] at h
    linarith
  unfold normalized
  rw [if_neg (by rw [h1]; norm_num), h1]
  simp

theorem finish_normalized (a : Vec) : finish (normalized a) = normalized a := by
  unfold finish
  split_ifs with h
  · exact h.symm
  · by_cases ha : a = 0
    · rw [ha, normalized_zero] at h
      exact absurd rfl h
    · exact normalized_of_unit (normalized_unit ha)

theorem finish_zero : finish 0 = 0 := by
  unfold finish
  rw [if_pos rfl]

/-- C105, what the code does: for a mesh with valid faces each vertex gets the normal of the last one of its faces, and zero if it has no face -/
theorem C105_last (vs : List Vec) (faces : List (Int × Int × Int)) (h : ∀ f ∈ faces, Valid vs f) :
    ∃ ns, calcNormals vs faces = some ns ∧ ns.length = vs.length ∧ ∀ i < vs.length, ns[i]? = some (match faces.reverse.find? (has i) with
      | none => 0
      | some f => normalOf vs f) := by
  obtain ⟨ns, e, hl, hg⟩ := fold_get faces h (List.replicate vs.length 0) (by simp)
  refine ⟨ns.map finish, ?_, by simpa using hl, ?_⟩
  · unfold calcNormals
    rw [e]
    rfl
  · intro i hi
    rw [List.getElem?_map, hg i hi]
    cases faces.reverse.find? (has i) with
    | none => simp [hi, finish_zero]
    | some f =>
      simp only [Option.map_some]
      rw [normalOf, finish_normalized]

theorem normalOf_spec {vs : List Vec} {f : Int × Int × Int} (h : cross (at' vs f.1 - at' vs f.2.1) (at' vs f.2.2 - at' vs f.2.1) ≠ 0) : IsNormal vs f (normalOf vs f) := by
  unfold normalOf IsNormal
  generalize at' vs f.1 - at' vs f.2.1 = a at *
  generalize at' vs f.2.2 - at' vs f.2.1 = b at *
  have h0 : len (cross a b) ≠ 0 := fun h' => h (len_eq_zero.1 h')
  have hp : 0 < len (cross a b) := lt_of_le_of_ne (len_nonneg _) (Ne.symm h0)
  have hsq := len_sq (cross a b)
  have hu := normalized_unit h
  refine ⟨?_, ?_, hu, ?_⟩
  · unfold normalized
    rw [if_neg h0]
    generalize len (cross a b) = l at *
    simp only [dot, cross]
    field_simp
    ring
  · unfold normalized
    rw [if_neg h0]
    generalize len (cross a b) = l at *
    simp only [dot, cross]
    field_simp
    ring
  · have : dot (normalized (cross a b)) (cross a b) = len (cross a b) := by
      unfold normalized
      rw [if_neg h0]
      generalize cross a b = c at *
      simp only [dot] at *
      field_simp
      linarith
    rw [this]
    exact hp

theorem IsNormal.unique {vs : List Vec} {f : Int × Int × Int} {n m : Vec} (hn : IsNormal vs f n) (hm : IsNormal vs f m) : n = m := by
  obtain ⟨n1, n2, n3, n4⟩ := hn
  obtain ⟨m1, m2, m3, m4⟩ := hm
  generalize at' vs f.1 - at' vs f.2.1 = a at *
  generalize at' vs f.2.2 - at' vs f.2.1 = b at *
  -- both are multiples of the cross product
  have key : ∀ v : Vec, dot v a = 0 → dot v b = 0 → ∀ w : Vec, dot (cross a b) (cross a b) * dot v w = dot v (cross a b) * dot (cross a b) w := by
    intro v h1 h2 w
    obtain ⟨a1, a2, a3⟩ := a
    obtain ⟨b1, b2, b3⟩ := b
    obtain ⟨v1, v2, v3⟩ := v
    obtain ⟨w1, w2, w3⟩ := w
    simp only [dot, cross] at *
    linear_combination ((b1 ^ 2 + b2 ^ 2 + b3 ^ 2) * (a1 * w1 + a2 * w2 + a3 * w3) - (a1 * b1 + a2 * b2 + a3 * b3) * (b1 * w1 + b2 * w2 + b3 * w3)) * h1 +
      ((a1 ^ 2 + a2 ^ 2 + a3 ^ 2) * (b1 * w1 + b2 * w2 + b3 * w3) - (a1 * b1 + a2 * b2 + a3 * b3) * (a1 * w1 + a2 * w2 + a3 * w3)) * h2
  have comm : ∀ v w : Vec, dot v w = dot w v := by
    intro v w
    simp only [dot]
    ring
  have hn := key n n1 n2
  have hm := key m m1 m2
  have en := hn n
  have em := hm m
  rw [n3, comm (cross a b) n] at en
  rw [m3, comm (cross a b) m] at em
  have e : dot n (cross a b) = dot m (cross a b) := by nlinarith
  have hpos : 0 < dot (cross a b) (cross a b) := by nlinarith
  have hw : ∀ w, dot n w = dot m w := by
    intro w
    have h1 := hn w
    rw [e, ← hm w] at h1
    exact mul_left_cancel₀ hpos.ne' h1
  have w1 := hw (1, 0, 0)
  have w2 := hw (0, 1, 0)
  have w3 := hw (0, 0, 1)
  simp [dot] at w1 w2 w3
  exact Prod.ext w1 (Prod.ext w2 w3)

theorem IsNormal.cross_ne {vs : List Vec} {f : Int × Int × Int} {n : Vec} (hn : IsNormal vs f n) : cross (at' vs f.1 - at' vs f.2.1) (at' vs f.2.2 - at' vs f.2.1) ≠ 0 := by
  intro h
  have := hn.2.2.2
  rw [h] at this
  simp [dot] at this

/-- C105 for vertices whose faces have the same normal: it is the normal of the vertex, and has the direction of the sum of the normals; the normal of a vertex without faces is zero. -/
theorem C105_normals_partial (vs : List Vec) (faces : List (Int × Int × Int)) (h : ∀ f ∈ faces, Valid vs f) :
    ∃ ns, calcNormals vs faces = some ns ∧ ns.length = vs.length ∧ ∀ i < vs.length, ∃ n, ns[i]? = some n ∧ ((∀ f ∈ faces, has i f = false) → n = 0) ∧
      ∀ normal : Int × Int × Int → Vec, (∃ f ∈ faces, has i f = true) → (∀ f ∈ faces, has i f = true → IsNormal vs f (normal f)) → (∀ f ∈ faces, ∀ g ∈ faces, has i f = true → has i g = true → normal f = normal g) →
        (∀ f ∈ faces, has i f = true → n = normal f) ∧ IsMean (faces.filter (has i)) normal n := by
  obtain ⟨ns, e, hl, hg⟩ := C105_last vs faces h
  refine ⟨ns, e, hl, ?_⟩
  intro i hi
  refine ⟨_, hg i hi, ?_, ?_⟩
  · intro hno
    rw [List.find?_eq_none.2 (by simpa using hno)]
  · intro normal ⟨f0, hf0, hh0⟩ hnorm hsame
    cases hfind : faces.reverse.find? (has i) with
    | none =>
      rw [List.find?_eq_none] at hfind
      exact absurd hh0 (hfind f0 (by simpa using hf0))
    | some g =>
      have hgm : g ∈ faces := by simpa using List.mem_of_find?_eq_some hfind
      have hgh : has i g = true := List.find?_some hfind
      have hgn : normalOf vs g = normal g := (normalOf_spec (hnorm g hgm hgh).cross_ne).unique (hnorm g hgm hgh)
      have hall : ∀ f ∈ faces, has i f = true → normalOf vs g = normal f := fun f hf hh => hgn.trans (hsame g hgm f hf hgh hh)
      refine ⟨hall, ?_, (faces.filter (has i)).length, ?_, ?_⟩
      · dsimp only
        rw [hgn]
        exact (hnorm g hgm hgh).2.2.1
      · have : 0 < (faces.filter (has i)).length := List.length_pos_of_mem (List.mem_filter.2 ⟨hgm, hgh⟩)
        exact_mod_cast this
      · have : (faces.filter (has i)).map normal = (faces.filter (has i)).map fun _ => normalOf vs g := by
          apply List.map_congr_left
          intro f hf
          rw [List.mem_filter] at hf
          exact (hall f hf.1 hf.2).symm
        rw [this, List.map_const', List.sum_replicate]
        simp only [nsmul_eq_mul]
        generalize normalOf vs g = v
        obtain ⟨x, y, z⟩ := v
        simp [Prod.ext_iff]

/-- C105: each normal is zero or a unit vector, and perpendicular to the edges of a face of the vertex -/
theorem C105_unit (vs : List Vec) (faces : List (Int × Int × Int)) (h : ∀ f ∈ faces, Valid vs f) :
    ∃ ns, calcNormals vs faces = some ns ∧ ∀ i n, ns[i]? = some n → n = 0 ∨ ∃ f ∈ faces, has i f = true ∧ IsNormal vs f n := by
  obtain ⟨ns, e, hl, hg⟩ := C105_last vs faces h
  refine ⟨ns, e, ?_⟩
  intro i n hn
  have hi : i < vs.length := by
    rw [← hl]
    exact (List.getElem?_eq_some_iff.1 hn).1
  rw [hg i hi] at hn
  simp only [Option.some.injEq] at hn
  subst hn
  cases hfind : faces.reverse.find? (has i) with
  | none => exact .inl rfl
  | some g =>
    dsimp only
    by_cases hc : cross (at' vs g.1 - at' vs g.2.1) (at' vs g.2.2 - at' vs g.2.1) = 0
    · left
      rw [normalOf, hc, normalized_zero]
    · right
      exact ⟨g, by simpa using List.mem_of_find?_eq_some hfind, List.find?_some hfind, normalOf_spec hc⟩

/-- C105, invalid meshes: a face with an index that is not that of a vertex is undefined behaviour -/
theorem C105_invalid (vs : List Vec) (faces : List (Int × Int × Int)) (h : ∃ f ∈ faces, ¬ Valid vs f) : calcNormals vs faces = none := by
  have key : ∀ normals, faces.foldlM (face vs) normals = none := by
    induction faces with
    | nil => simp at h
    | cons f fs ih =>
      intro normals
      rw [List.foldlM_cons]
      by_cases hf : Valid vs f
      · rw [face_valid hf]
        exact ih (by
          obtain ⟨g, hg, hg'⟩ := h
          rcases List.mem_cons.1 hg with rfl | hg
          · exact absurd hf hg'
          · exact ⟨g, hg, hg'⟩) _
      · have bad : ∀ i : Int, ¬ (0 ≤ i ∧ i < vs.length) → get vs i = none := by
          intro i hi
          unfold get
          split_ifs with h0
          · rw [List.getElem?_eq_none]
            omega
          · rfl
        have : face vs normals f = none := by
          unfold face
          unfold Valid at hf
          by_cases h1 : 0 ≤ f.1 ∧ f.1 < vs.length
          · by_cases h2 : 0 ≤ f.2.1 ∧ f.2.1 < vs.length
            · rw [bad f.2.2 (by tauto)]
              split <;> simp_all
            · rw [bad f.2.1 h2]
              split <;> simp_all
          · rw [bad f.1 h1]
        rw [this]
        rfl
  unfold calcNormals
  rw [key]
  rfl

/-- a face in the plane z = 0 and one in the plane y = 0, with an edge in common -/
noncomputable def roof : List Vec := [(0, 0, 0), (1, 0, 0), (0, 1, 0), (0, 0, 1)]

def roofFaces : List (Int × Int × Int) := [(0, 2, 1), (0, 1, 3)]

theorem roof_valid : ∀ f ∈ roofFaces, Valid roof f := by
  intro f hf
  simp only [roofFaces, List.mem_cons, List.not_mem_nil, or_false] at hf
  rcases hf with rfl | rfl <;> simp [Valid, roof]

theorem roof_normals : IsNormal roof (0, 2, 1) (0, 0, 1) ∧ IsNormal roof (0, 1, 3) (0, 1, 0) := by
  constructor <;> simp [IsNormal, roof, at', dot, cross]

/-- an example for `C105_normals_partial`: the vertices 2 and 3 have one face each -/
example : (∀ f ∈ roofFaces, Valid roof f) ∧ (∀ f ∈ roofFaces, has 2 f = true → IsNormal roof f (0, 0, 1)) ∧ ∃ f ∈ roofFaces, has 2 f = true := by
  refine ⟨roof_valid, ?_, (0, 2, 1), by simp [roofFaces], by decide⟩
  intro f hf hh
  simp only [roofFaces, List.mem_cons, List.not_mem_nil, or_false] at hf
  rcases hf with rfl | rfl
  · exact roof_normals.1
  · exact absurd hh (by decide)

/-- the code violates C105: at an edge the normal is that of the last face, not that of both -/
theorem C105_edge : ∃ ns, calcNormals roof roofFaces = some ns ∧ ns[0]? = some (0, 1, 0) ∧
    ∀ normal : Int × Int × Int → Vec, (∀ f ∈ roofFaces, IsNormal roof f (normal f)) → ¬ IsMean (roofFaces.filter (has 0)) normal (0, 1, 0) := by
  obtain ⟨ns, e, -, hg⟩ := C105_last roof roofFaces roof_valid
  refine ⟨ns, e, ?_, ?_⟩
  · rw [hg 0 (by simp [roof])]
    have : roofFaces.reverse.find? (has 0) = some (0, 1, 3) := by decide
    rw [this]
    dsimp only
    rw [(normalOf_spec roof_normals.2.cross_ne).unique roof_normals.2]
  · intro normal hn ⟨_, k, hk, hs⟩
    have h1 := (hn (0, 2, 1) (by simp [roofFaces])).unique roof_normals.1
    have h2 := (hn (0, 1, 3) (by simp [roofFaces])).unique roof_normals.2
    have hf : roofFaces.filter (has 0) = [(0, 2, 1), (0, 1, 3)] := by decide
    rw [hf] at hs
    simp [h1, h2] at hs

#print axioms C105_last
#print axioms C105_normals_partial
#print axioms C105_unit
#print axioms C105_invalid
#print axioms C105_edge

end Envire.Normal
