import Verif.Maps.PlyModel

/-!
C115: point clouds and meshes as PLY files.
-/

namespace Envire.Ply

/-! ### specification -/

/-- what is read back of a number -/
noncomputable def Stored (k : Codec) (double : Bool) (x : ℝ) : ℝ := if double then x else k.round x

def MapV (f : ℝ → ℝ) (v : V3) : V3 := (f v.1, f v.2.1, f v.2.2)

/-- the component of a color is one of 256 steps -/
noncomputable def Quant (x : ℝ) : ℝ := (⌊x * 255⌋ : ℝ) / 255

def AllV (P : ℝ → Prop) (v : V3) : Prop := P v.1 ∧ P v.2.1 ∧ P v.2.2

/-- one normal and one color per point; the numbers are doubles, the components of colors between 0 and 1, and the indices of type `int` -/
structure Proper (k : Codec) (c : Cloud) : Prop where
  normals : ∀ l, c.normals = some l → l.length = c.vertices.length ∧ ∀ v ∈ l, AllV k.isDouble v
  colors : ∀ l, c.colors = some l → l.length = c.vertices.length ∧ ∀ v ∈ l, AllV (fun x => 0 ≤ x ∧ x ≤ 1) v
  vertices : ∀ v ∈ c.vertices, AllV k.isDouble v
  faces : ∀ l, c.faces = some l → ∀ t ∈ l, ∀ i, i = t.1 ∨ i = t.2.1 ∨ i = t.2.2 → -2147483648 ≤ i ∧ i < 2147483648

/-! ### numbers -/

theorem dec_enc_int {i : Int} (h1 : -2147483648 ≤ i) (h2 : i < 2147483648) : decInt (encInt i) = i := by
  unfold encInt decInt
  dsimp only
  have h3 : 0 ≤ i % 4294967296 := Int.emod_nonneg _ (by norm_num)
  have h4 : i % 4294967296 < 4294967296 := Int.emod_lt_of_pos _ (by norm_num)
  obtain ⟨n, hn⟩ : ∃ n : Nat, i % 4294967296 = n := ⟨(i % 4294967296).toNat, by omega⟩
  rw [hn]
  simp only [Int.toNat_natCast]
  have e : n % 256 + 256 * (n / 256 % 256) + 65536 * (n / 65536 % 256) + 16777216 * (n / 16777216 % 256) = n := by omega
  rw [e]
  split <;> omega

theorem read_append (k : Codec) (ty : Ty) (b r : List Nat) (h : b.length = size ty) : readScalar k ty (b ++ r) = some (decode k ty b, r) := by
  unfold readScalar
  rw [if_neg (by simp [h])]
  rw [← h]
  simp

theorem read_number (k : Codec) (double : Bool) (x : ℝ) (hx : k.isDouble x) (r : List Nat) : readScalar k (precision double) (writeNumber k double x ++ r) = some (Stored k double x, r) := by
  cases double
  · rw [read_append _ _ _ _ (by simp [writeNumber, precision, size, k.len32])]
    simp [writeNumber, precision, decode, Stored, k.dec_enc32]
  · rw [read_append _ _ _ _ (by simp [writeNumber, precision, size, k.len64])]
    simp [writeNumber, precision, decode, Stored, k.dec_enc64 x hx]

theorem read_byte (k : Codec) (n : Nat) (r : List Nat) : readScalar k .u8 (n :: r) = some ((n : ℝ), r) := by
  have := read_append k .u8 [n] r rfl
  simpa [decode] using this

theorem read_int (k : Codec) {i : Int} (h1 : -2147483648 ≤ i) (h2 : i < 2147483648) (r : List Nat) : readScalar k .i32 (encInt i ++ r) = some ((i : ℝ), r) := by
  rw [read_append _ _ _ _ (by simp [encInt, size])]
  simp [decode, dec_enc_int h1 h2]

/-! ### vectors -/

/-- a vector that is read for an element -/
theorem read_vector (k : Codec) (ty : Ty) (name p0 p1 p2 : String) (t : Target) (scale : Bool) (d0 : definition name p0 = some (t, 0, scale)) (d1 : definition name p1 = some (t, 1, scale)) (d2 : definition name p2 = some (t, 2, scale))
    (b0 b1 b2 : List Nat) (x y z : ℝ) (h0 : ∀ r, readScalar k ty (b0 ++ r) = some (x, r)) (h1 : ∀ r, readScalar k ty (b1 ++ r) = some (y, r)) (h2 : ∀ r, readScalar k ty (b2 ++ r) = some (z, r)) (s : State) (r : List Nat) :
    readProperties k name [.scalar ty p0, .scalar ty p1, .scalar ty p2] (s, b0 ++ b1 ++ b2 ++ r) =
      some ({ s with vec := MapV (fun x => if scale then x / 255 else x) (x, y, z), cloud := push s.cloud t (MapV (fun x => if scale then x / 255 else x) (x, y, z)) }, r) := by
  rw [List.append_assoc, List.append_assoc]
  simp only [readProperties, readProperty, h0, h1, h2, Option.map_some, Option.bind_some, scalarCallback, d0, d1, d2, vectorCallback]
  simp [setV, MapV]

def pushAll (c : Cloud) (t : Target) (l : List V3) : Cloud := l.foldl (fun c v => push c t v) c

theorem pushAll_vertices (c : Cloud) (l : List V3) : pushAll c .vertices l = { c with vertices := c.vertices ++ l } := by
  induction l generalizing c with
  | nil => simp [pushAll]
  | cons v l ih =>
    show pushAll (push c .vertices v) .vertices l = _
    rw [ih]
    simp [push]

theorem pushAll_normals (c : Cloud) (m l : List V3) (h : c.normals = some m) : pushAll c .normals l = { c with normals := some (m ++ l) } := by
  induction l generalizing c m with
  | nil => cases c; simp at h; simp [pushAll, h]
  | cons v l ih =>
    show pushAll (push c .normals v) .normals l = _
    rw [ih _ (m ++ [v]) (by simp [push, h])]
    simp [push]

theorem pushAll_colors (c : Cloud) (m l : List V3) (h : c.colors = some m) : pushAll c .colors l = { c with colors := some (m ++ l) } := by
  induction l generalizing c m with
  | nil => cases c; simp at h; simp [pushAll, h]
  | cons v l ih =>
    show pushAll (push c .colors v) .colors l = _
    rw [ih _ (m ++ [v]) (by simp [push, h])]
    simp [push]

/-- the vectors of an element -/
theorem read_vectors (k : Codec) (e : Element) (t : Target) (w : V3 → List Nat) (f : V3 → V3) (l : List V3)
    (h : ∀ v ∈ l, ∀ (s : State) r, readProperties k e.name e.props (s, w v ++ r) = some ({ s with vec := f v, cloud := push s.cloud t (f v) }, r)) (s : State) (r : List Nat) :
    ∃ v, readElement k e l.length (s, l.flatMap w ++ r) = some ({ s with vec := v, cloud := pushAll s.cloud t (l.map f) }, r) := by
  induction l generalizing s with
  | nil => exact ⟨s.vec, by simp [readElement, pushAll]⟩
  | cons a l ih =>
    obtain ⟨v, hv⟩ := ih (fun v hv => h v (List.mem_cons_of_mem _ hv)) { s with vec := f a, cloud := push s.cloud t (f a) }
    refine ⟨v, ?_⟩
    rw [List.length_cons, readElement, List.flatMap_cons, List.append_assoc, h a List.mem_cons_self, Option.bind_some, hv]
    simp [pushAll]

theorem read_xyz (k : Codec) (double : Bool) (name : String) (t : Target) (n : Nat) (d0 : definition name "x" = some (t, 0, false)) (d1 : definition name "y" = some (t, 1, false)) (d2 : definition name "z" = some (t, 2, false))
    (l : List V3) (hl : ∀ v ∈ l, AllV k.isDouble v) (s : State) (r : List Nat) :
    ∃ v, readElement k (xyz name n double) l.length (s, l.flatMap (writeVector k double) ++ r) = some ({ s with vec := v, cloud := pushAll s.cloud t (l.map (MapV (Stored k double))) }, r) := by
  refine read_vectors k _ t _ _ l (fun v hv s r => ?_) s r
  obtain ⟨h0, h1, h2⟩ := hl v hv
  have := read_vector k (precision double) name "x" "y" "z" t false d0 d1 d2 _ _ _ _ _ _ (read_number k double v.1 h0) (read_number k double v.2.1 h1) (read_number k double v.2.2 h2) s r
  simpa [MapV, writeVector, xyz] using this

/-! ### colors -/

theorem color_byte {x : ℝ} (h0 : 0 ≤ x) (h1 : x ≤ 1) : ∃ n : Nat, n ≤ 255 ∧ colorByte x = some n ∧ (n : ℝ) / 255 = Quant x := by
  have hf : 0 ≤ ⌊x * 255⌋ := Int.floor_nonneg.2 (by positivity)
  refine ⟨⌊x * 255⌋.toNat, ?_, ?_, ?_⟩
  · have : ⌊x * 255⌋ ≤ 255 := by
      have h := Int.floor_le (x * 255)
      have : (⌊x * 255⌋ : ℝ) ≤ 255 := by linarith
      exact_mod_cast this
    omega
  · unfold colorByte
    rw [if_pos ⟨by linarith [mul_nonneg h0 (by norm_num : (0 : ℝ) ≤ 255)], by linarith⟩]
  · unfold Quant
    congr 1
    have : ((⌊x * 255⌋.toNat : Int) : ℝ) = (⌊x * 255⌋ : ℝ) := by rw [Int.toNat_of_nonneg hf]
    exact_mod_cast this

noncomputable def colorBytes (v : V3) : List Nat := (writeColor v).getD []

theorem write_colors (l : List V3) (hl : ∀ v ∈ l, AllV (fun x => 0 ≤ x ∧ x ≤ 1) v) : writeColors l = some (l.flatMap colorBytes) := by
  induction l with
  | nil => rfl
  | cons v l ih =>
    obtain ⟨h0, h1, h2⟩ := hl v List.mem_cons_self
    obtain ⟨a, -, ha, -⟩ := color_byte h0.1 h0.2
    obtain ⟨b, -, hb, -⟩ := color_byte h1.1 h1.2
    obtain ⟨c, -, hc, -⟩ := color_byte h2.1 h2.2
    rw [writeColors, ih fun v hv => hl v (List.mem_cons_of_mem _ hv)]
    simp [colorBytes, writeColor, ha, hb, hc]

theorem read_colors (k : Codec) (n : Nat) (l : List V3) (hl : ∀ v ∈ l, AllV (fun x => 0 ≤ x ∧ x ≤ 1) v) (s : State) (r : List Nat) :
    ∃ v, readElement k ⟨"color", n, [.scalar .u8 "red", .scalar .u8 "green", .scalar .u8 "blue"]⟩ l.length (s, l.flatMap colorBytes ++ r) =
      some ({ s with vec := v, cloud := pushAll s.cloud .colors (l.map (MapV Quant)) }, r) := by
  refine read_vectors k _ .colors _ _ l (fun v hv s r => ?_) s r
  obtain ⟨h0, h1, h2⟩ := hl v hv
  obtain ⟨a, -, ha, ha'⟩ := color_byte h0.1 h0.2
  obtain ⟨b, -, hb, hb'⟩ := color_byte h1.1 h1.2
  obtain ⟨c, -, hc, hc'⟩ := color_byte h2.1 h2.2
  have := read_vector k .u8 "color" "red" "green" "blue" .colors true (by decide) (by decide) (by decide) [a] [b] [c] a b c (read_byte k a) (read_byte k b) (read_byte k c) s r
  have e : MapV (fun x => if true = true then x / 255 else x) ((a : ℝ), (b : ℝ), (c : ℝ)) = MapV Quant v := by
    simp [MapV, ha', hb', hc']
  rw [e] at this
  simpa [colorBytes, writeColor, ha, hb, hc] using this

/-! ### faces -/

theorem read_face (k : Codec) (t : Tri) (ht : ∀ i, i = t.1 ∨ i = t.2.1 ∨ i = t.2.2 → -2147483648 ≤ i ∧ i < 2147483648) (s : State) (m : List Tri) (hs : s.cloud.faces = some m) (r : List Nat) :
    readProperties k "face" [.list .i32 "vertex_index"] (s, writeFace t ++ r) = some ({ s with tri := t, triIdx := 3, cloud := { s.cloud with faces := some (m ++ [t]) } }, r) := by
  have a := ht t.1 (Or.inl rfl)
  have b := ht t.2.1 (Or.inr (Or.inl rfl))
  have c := ht t.2.2 (Or.inr (Or.inr rfl))
  have e : writeFace t ++ r = 3 :: (encInt t.1 ++ (encInt t.2.1 ++ (encInt t.2.2 ++ r))) := by simp [writeFace]
  rw [e]
  simp only [readProperties, readProperty, hs, Option.isSome_some, and_self, decide_true, if_true]
  simp only [readItems, read_int k a.1 a.2, read_int k b.1 b.2, read_int k c.1 c.2, Option.bind_some, if_true, Option.map_some, elementCallback, endCallback, Int.floor_intCast]
  simp [setT, hs]

theorem read_faces (k : Codec) (n : Nat) (l : List Tri) (hl : ∀ t ∈ l, ∀ i, i = t.1 ∨ i = t.2.1 ∨ i = t.2.2 → -2147483648 ≤ i ∧ i < 2147483648) (s : State) (m : List Tri) (hs : s.cloud.faces = some m) (r : List Nat) :
    ∃ t i, readElement k ⟨"face", n, [.list .i32 "vertex_index"]⟩ l.length (s, l.flatMap writeFace ++ r) = some ({ s with tri := t, triIdx := i, cloud := { s.cloud with faces := some (m ++ l) } }, r) := by
  induction l generalizing s m with
  | nil =>
    refine ⟨s.tri, s.triIdx, ?_⟩
    obtain ⟨cl, v, t, i⟩ := s
    cases cl
    simp at hs
    simp [readElement, hs]
  | cons a l ih =>
    obtain ⟨t, i, h⟩ := ih (fun t ht => hl t (List.mem_cons_of_mem _ ht)) { s with tri := a, triIdx := 3, cloud := { s.cloud with faces := some (m ++ [a]) } } (m ++ [a]) rfl
    refine ⟨t, i, ?_⟩
    rw [List.length_cons, readElement, List.flatMap_cons, List.append_assoc, read_face k a (hl a List.mem_cons_self) s m hs, Option.bind_some, h]
    simp

/-! ### round trip -/

/-- an object of the same kind without data -/
def Blank (c : Cloud) : Cloud := { vertices := [], normals := none, colors := none, variance := none, faces := c.faces.map fun _ => [] }

/-- the object c0 with the data of c appended -/
noncomputable def Appended (k : Codec) (double : Bool) (c0 c : Cloud) : Cloud :=
  { vertices := c0.vertices ++ c.vertices.map (MapV (Stored k double))
    normals := match c.normals with | some l => some (c0.normals.getD [] ++ l.map (MapV (Stored k double))) | none => c0.normals
    colors := match c.colors with | some l => some (c0.colors.getD [] ++ l.map (MapV Quant)) | none => c0.colors
    variance := c0.variance
    faces := match c.faces with | some l => c0.faces.map (· ++ l) | none => c0.faces }

def facesHeader (c : Cloud) : List Element :=
  match c.faces with
  | some f => if f.isEmpty then [] else [⟨"face", f.length, [.list .i32 "vertex_index"]⟩]
  | none => []

theorem read_facesHeader (k : Codec) {c : Cloud} (hc : Proper k c) (s : State) (hs : c.faces.isSome = true → s.cloud.faces.isSome = true) :
    ∃ s', readBody k (facesHeader c) (s, (c.faces.getD []).flatMap writeFace) = some (s', []) ∧ s'.cloud = { s.cloud with faces := match c.faces with | some l => s.cloud.faces.map (· ++ l) | none => s.cloud.faces } := by
  unfold facesHeader
  cases hf : c.faces with
  | none => exact ⟨s, by simp [readBody], rfl⟩
  | some f =>
    obtain ⟨m, hm⟩ := Option.isSome_iff_exists.1 (hs (by simp [hf]))
    by_cases he : f = []
    · subst he
      refine ⟨s, by simp [readBody], ?_⟩
      simp
    · obtain ⟨t, i, h⟩ := read_faces k f.length f (hc.faces f hf) s m hm []
      simp only [List.isEmpty_iff, he, if_false, Option.getD_some, readBody]
      rw [List.append_nil] at h
      rw [h]
      refine ⟨_, rfl, ?_⟩
      simp [hm]

theorem body_append (k : Codec) (l l' : List Element) (sb : State × List Nat) : readBody k (l ++ l') sb = (readBody k l sb).bind (readBody k l') := by
  induction l generalizing sb with
  | nil => rfl
  | cons e l ih =>
    rw [List.cons_append, readBody, readBody]
    cases readElement k e e.count sb with
    | none => rfl
    | some x => simp [ih]

theorem body_one (k : Codec) (e : Element) (sb : State × List Nat) : readBody k [e] sb = readElement k e e.count sb := by
  rw [readBody]
  cases readElement k e e.count sb <;> rfl

/-- the data that is created by the header -/
theorem define_header (c : Cloud) (double : Bool) (c0 : Cloud) :
    (header c double).foldl define c0 = { c0 with normals := if c.normals.isSome then some (c0.normals.getD []) else c0.normals, colors := if c.colors.isSome then some (c0.colors.getD []) else c0.colors } := by
  have e : ∀ cl : Cloud, (facesHeader c).foldl define cl = cl := by
    intro cl
    unfold facesHeader
    cases c.faces with
    | none => rfl
    | some f => by_cases h : f.isEmpty <;> simp [h, define]
  have eh : header c double = [xyz "vertex" c.vertices.length double] ++ (if c.normals.isSome then [xyz "normal" c.vertices.length double] else []) ++
      (if c.colors.isSome then [⟨"color", c.vertices.length, [.scalar .u8 "red", .scalar .u8 "green", .scalar .u8 "blue"]⟩] else []) ++ facesHeader c := rfl
  rw [eh, List.foldl_append, e]
  cases c.normals <;> cases c.colors <;> simp [define, xyz]

theorem body_trip (k : Codec) (double : Bool) {c : Cloud} (hc : Proper k c) (s : State) (hs : c.faces.isSome = true → s.cloud.faces.isSome = true) :
    ∃ f s', serialize k c double = .ok f ∧ readBody k f.1 ({ s with cloud := f.1.foldl define s.cloud }, f.2) = some (s', []) ∧ s'.cloud = Appended k double s.cloud c := by
  have hcol : writeColors (c.colors.getD []) = some ((c.colors.getD []).flatMap colorBytes) := by
    cases h : c.colors with
    | none => rfl
    | some l => exact write_colors l (hc.colors l h).2
  have hser : serialize k c double = .ok (header c double,
      c.vertices.flatMap (writeVector k double) ++ (c.normals.getD []).flatMap (writeVector k double) ++ (c.colors.getD []).flatMap colorBytes ++ (c.faces.getD []).flatMap writeFace) := by
    unfold serialize
    rw [if_neg (by rintro ⟨l, h1, h2⟩; exact h2 (hc.normals l h1).1), if_neg (by rintro ⟨l, h1, h2⟩; exact h2 (hc.colors l h1).1), hcol]
  suffices H : ∃ s', readBody k (header c double) ({ s with cloud := (header c double).foldl define s.cloud },
      c.vertices.flatMap (writeVector k double) ++ (c.normals.getD []).flatMap (writeVector k double) ++ (c.colors.getD []).flatMap colorBytes ++ (c.faces.getD []).flatMap writeFace) = some (s', []) ∧ s'.cloud = Appended k double s.cloud c by
    obtain ⟨s', h1, h2⟩ := H
    exact ⟨_, s', hser, h1, h2⟩
  rw [define_header]
  set c1 : Cloud := { s.cloud with normals := if c.normals.isSome then some (s.cloud.normals.getD []) else s.cloud.normals, colors := if c.colors.isSome then some (s.cloud.colors.getD []) else s.cloud.colors } with hc1
  have eh : header c double = [xyz "vertex" c.vertices.length double] ++ (if c.normals.isSome then [xyz "normal" c.vertices.length double] else []) ++
      (if c.colors.isSome then [⟨"color", c.vertices.length, [.scalar .u8 "red", .scalar .u8 "green", .scalar .u8 "blue"]⟩] else []) ++ facesHeader c := rfl
  rw [eh, body_append, body_append, body_append, body_one]
  -- points
  obtain ⟨v1, h1⟩ := read_xyz k double "vertex" .vertices c.vertices.length (by decide) (by decide) (by decide) c.vertices hc.vertices { s with cloud := c1 }
    ((c.normals.getD []).flatMap (writeVector k double) ++ ((c.colors.getD []).flatMap colorBytes ++ (c.faces.getD []).flatMap writeFace))
  rw [List.append_assoc, List.append_assoc]
  rw [show (xyz "vertex" c.vertices.length double).count = c.vertices.length from rfl, h1, Option.bind_some, pushAll_vertices]
  -- normals
  have h2 : ∃ v, readBody k (if c.normals.isSome then [xyz "normal" c.vertices.length double] else [])
      ({ s with vec := v1, cloud := { c1 with vertices := c1.vertices ++ c.vertices.map (MapV (Stored k double)) } }, (c.normals.getD []).flatMap (writeVector k double) ++ ((c.colors.getD []).flatMap colorBytes ++ (c.faces.getD []).flatMap writeFace)) =
      some ({ s with vec := v, cloud := { c1 with vertices := c1.vertices ++ c.vertices.map (MapV (Stored k double)), normals := match c.normals with | some l => some (s.cloud.normals.getD [] ++ l.map (MapV (Stored k double))) | none => s.cloud.normals } },
        (c.colors.getD []).flatMap colorBytes ++ (c.faces.getD []).flatMap writeFace) := by
    cases hn : c.normals with
    | none => exact ⟨v1, by simp [readBody, hc1, hn]⟩
    | some l =>
      obtain ⟨v, h⟩ := read_xyz k double "normal" .normals c.vertices.length (by decide) (by decide) (by decide) l (hc.normals l hn).2
        { s with vec := v1, cloud := { c1 with vertices := c1.vertices ++ c.vertices.map (MapV (Stored k double)) } } ((c.colors.getD []).flatMap colorBytes ++ (c.faces.getD []).flatMap writeFace)
      refine ⟨v, ?_⟩
      rw [if_pos (Option.isSome_some : (some l).isSome = true), body_one, show (xyz "normal" c.vertices.length double).count = l.length from (hc.normals l hn).1.symm, Option.getD_some, h, pushAll_normals _ (s.cloud.normals.getD []) _ (by simp [hc1, hn])]
  obtain ⟨v2, h2⟩ := h2
  rw [h2, Option.bind_some]
  -- colors
  obtain ⟨c2, hc2⟩ : ∃ c2, c2 = ({ c1 with vertices := c1.vertices ++ c.vertices.map (MapV (Stored k double)), normals := match c.normals with | some l => some (s.cloud.normals.getD [] ++ l.map (MapV (Stored k double))) | none => s.cloud.normals } : Cloud) := ⟨_, rfl⟩
  have hcc : c2.colors = if c.colors.isSome then some (s.cloud.colors.getD []) else s.cloud.colors := by rw [hc2]
  rw [← hc2]
  have h3 : ∃ v, readBody k (if c.colors.isSome then [⟨"color", c.vertices.length, [.scalar .u8 "red", .scalar .u8 "green", .scalar .u8 "blue"]⟩] else [])
      ({ s with vec := v2, cloud := c2 }, (c.colors.getD []).flatMap colorBytes ++ (c.faces.getD []).flatMap writeFace) =
      some ({ s with vec := v, cloud := { c2 with colors := match c.colors with | some l => some (s.cloud.colors.getD [] ++ l.map (MapV Quant)) | none => s.cloud.colors } }, (c.faces.getD []).flatMap writeFace) := by
    cases hn : c.colors with
    | none =>
      refine ⟨v2, ?_⟩
      rw [hn] at hcc
      simp only [Option.isSome_none, Bool.false_eq_true, if_false] at hcc
      simp [readBody, ← hcc]
    | some l =>
      obtain ⟨v, h⟩ := read_colors k c.vertices.length l (hc.colors l hn).2 { s with vec := v2, cloud := c2 } ((c.faces.getD []).flatMap writeFace)
      refine ⟨v, ?_⟩
      rw [if_pos (Option.isSome_some : (some l).isSome = true), body_one]
      dsimp only
      rw [← (hc.colors l hn).1, Option.getD_some]
      rw [← (hc.colors l hn).1] at h
      rw [h, pushAll_colors _ (s.cloud.colors.getD []) _ (by simp [hcc, hn])]
  obtain ⟨v3, h3⟩ := h3
  rw [h3, Option.bind_some]
  obtain ⟨s', h4, h5⟩ := read_facesHeader k hc { s with vec := v3, cloud := { c2 with colors := match c.colors with | some l => some (s.cloud.colors.getD [] ++ l.map (MapV Quant)) | none => s.cloud.colors } } (by simpa [hc2, hc1] using hs)
  refine ⟨s', h4, ?_⟩
  rw [h5, hc2, hc1]
  rfl

theorem round_trip (k : Codec) (double : Bool) {c : Cloud} (hc : Proper k c) (s : State) (hs : c.faces.isSome = true → s.cloud.faces.isSome = true) :
    ∃ f s', serialize k c double = .ok f ∧ unserialize k s f = .ok s' ∧ s'.cloud = Appended k double s.cloud c := by
  obtain ⟨f, s', h1, h2, h3⟩ := body_trip k double hc s hs
  refine ⟨f, s', h1, ?_, h3⟩
  unfold unserialize
  rw [h2]

/-! ### more bytes do not change what is read -/

theorem scalar_more (k : Codec) (ty : Ty) (b e : List Nat) (x : ℝ) (r : List Nat) (h : readScalar k ty b = some (x, r)) : readScalar k ty (b ++ e) = some (x, r ++ e) := by
  unfold readScalar at *
  split at h
  · cases h
  · rename_i hl
    have hl := not_lt.1 hl
    cases h
    rw [if_neg (by simp; omega), List.take_append_of_le_length hl, List.drop_append_of_le_length hl]

theorem items_more (k : Codec) (ty : Ty) (use : Bool) (n : Nat) (s : State) (b e : List Nat) (s' : State) (r : List Nat) (h : readItems k ty use n (s, b) = some (s', r)) : readItems k ty use n (s, b ++ e) = some (s', r ++ e) := by
  induction n generalizing s b with
  | zero =>
    cases h
    rfl
  | succ n ih =>
    rw [readItems] at *
    cases hr : readScalar k ty b with
    | none => rw [hr] at h; cases h
    | some x =>
      rw [hr] at h
      rw [scalar_more k ty b e x.1 x.2 hr]
      exact ih _ _ h

theorem property_more (k : Codec) (element : String) (p : Property) (s : State) (b e : List Nat) (s' : State) (r : List Nat) (h : readProperty k element p (s, b) = some (s', r)) : readProperty k element p (s, b ++ e) = some (s', r ++ e) := by
  cases p with
  | scalar ty name =>
    unfold readProperty at *
    dsimp only at *
    cases hr : readScalar k ty b with
    | none => rw [hr] at h; cases h
    | some x =>
      rw [hr] at h
      rw [scalar_more k ty b e x.1 x.2 hr]
      cases h
      rfl
  | list ty name =>
    unfold readProperty at *
    dsimp only at *
    cases b with
    | nil => cases h
    | cons n b =>
      rw [List.cons_append]
      dsimp only at *
      rw [Option.map_eq_some_iff] at *
      obtain ⟨q, hq, hq2⟩ := h
      refine ⟨(q.1, q.2 ++ e), items_more k ty _ n _ b e q.1 q.2 hq, ?_⟩
      cases hq2
      rfl

theorem properties_more (k : Codec) (element : String) (l : List Property) (s : State) (b e : List Nat) (s' : State) (r : List Nat) (h : readProperties k element l (s, b) = some (s', r)) : readProperties k element l (s, b ++ e) = some (s', r ++ e) := by
  induction l generalizing s b with
  | nil =>
    cases h
    rfl
  | cons p l ih =>
    rw [readProperties] at *
    cases hr : readProperty k element p (s, b) with
    | none => rw [hr] at h; cases h
    | some x =>
      rw [hr] at h
      rw [property_more k element p s b e x.1 x.2 hr]
      exact ih _ _ h

theorem element_more (k : Codec) (el : Element) (n : Nat) (s : State) (b e : List Nat) (s' : State) (r : List Nat) (h : readElement k el n (s, b) = some (s', r)) : readElement k el n (s, b ++ e) = some (s', r ++ e) := by
  induction n generalizing s b with
  | zero =>
    cases h
    rfl
  | succ n ih =>
    rw [readElement] at *
    cases hr : readProperties k el.name el.props (s, b) with
    | none => rw [hr] at h; cases h
    | some x =>
      rw [hr] at h
      rw [properties_more k el.name el.props s b e x.1 x.2 hr]
      exact ih _ _ h

theorem body_more (k : Codec) (l : List Element) (s : State) (b e : List Nat) (s' : State) (r : List Nat) (h : readBody k l (s, b) = some (s', r)) : readBody k l (s, b ++ e) = some (s', r ++ e) := by
  induction l generalizing s b with
  | nil =>
    cases h
    rfl
  | cons p l ih =>
    rw [readBody] at *
    cases hr : readElement k p p.count (s, b) with
    | none => rw [hr] at h; cases h
    | some x =>
      rw [hr] at h
      rw [element_more k p p.count s b e x.1 x.2 hr]
      exact ih _ _ h

/-- C115: a file that ends early, at any byte after the header, is rejected -/
theorem C115_truncated (k : Codec) (double : Bool) {c : Cloud} (hc : Proper k c) (s : State) (hs : c.faces.isSome = true → s.cloud.faces.isSome = true) :
    ∃ f, serialize k c double = .ok f ∧ ∀ n, n < f.2.length → unserialize k s (f.1, f.2.take n) = .throws := by
  obtain ⟨f, s', h1, h2, -⟩ := body_trip k double hc s hs
  refine ⟨f, h1, fun n hn => ?_⟩
  unfold unserialize
  cases h : readBody k f.1 ({ s with cloud := f.1.foldl define s.cloud }, f.2.take n) with
  | none => rfl
  | some x =>
    exfalso
    have := body_more k f.1 _ _ (f.2.drop n) x.1 x.2 h
    rw [List.take_append_drop, h2] at this
    have h3 := congrArg List.length (congrArg Prod.snd (Option.some.inj this))
    simp at h3
    omega

/-- C115: an object that is written and read again into an object without data is the same: points, normals and faces exactly (rounded to floats if this was asked for), colors in 256 steps. Missing: variances (C115_variance);
objects that have data (C115_append); colors outside of [0, 1] (C115_colour_range). -/
theorem C115_ply_partial (k : Codec) (double : Bool) {c : Cloud} (hc : Proper k c) (s : State) (hs : s.cloud = Blank c) :
    ∃ f s', serialize k c double = .ok f ∧ unserialize k s f = .ok s' ∧ s'.cloud.vertices = c.vertices.map (MapV (Stored k double)) ∧ s'.cloud.normals = c.normals.map (List.map (MapV (Stored k double))) ∧
      s'.cloud.colors = c.colors.map (List.map (MapV Quant)) ∧ s'.cloud.faces = c.faces := by
  obtain ⟨f, s', h1, h2, h3⟩ := round_trip k double hc s (by rw [hs]; simp [Blank])
  refine ⟨f, s', h1, h2, ?_⟩
  rw [h3, hs]
  unfold Appended Blank
  refine ⟨by simp, ?_, ?_, ?_⟩
  · cases c.normals <;> simp
  · cases c.colors <;> simp
  · cases c.faces <;> simp

theorem stored_double (k : Codec) : MapV (Stored k true) = id := by
  funext v
  simp [MapV, Stored]

/-- C115: with doubles, points and normals are exactly the same -/
theorem C115_double (k : Codec) {c : Cloud} (hc : Proper k c) (s : State) (hs : s.cloud = Blank c) :
    ∃ f s', serialize k c true = .ok f ∧ unserialize k s f = .ok s' ∧ s'.cloud.vertices = c.vertices ∧ s'.cloud.normals = c.normals ∧ s'.cloud.faces = c.faces := by
  obtain ⟨f, s', h1, h2, h3, h4, -, h5⟩ := C115_ply_partial k true hc s hs
  rw [stored_double] at h3 h4
  exact ⟨f, s', h1, h2, by simpa using h3, by simpa using h4, h5⟩

/-- C115: a step of a color is less than 1/255 below the component, and steps stay as they are -/
theorem C115_colour (x : ℝ) (h0 : 0 ≤ x) (h1 : x ≤ 1) : x - 1 / 255 < Quant x ∧ Quant x ≤ x ∧ 0 ≤ Quant x ∧ Quant x ≤ 1 ∧ Quant (Quant x) = Quant x := by
  have a := Int.floor_le (x * 255)
  have b := Int.lt_floor_add_one (x * 255)
  have h : Quant x ≤ x := by unfold Quant; rw [div_le_iff₀ (by norm_num)]; exact a
  have hn : 0 ≤ Quant x := by
    unfold Quant
    have : (0 : ℝ) ≤ ⌊x * 255⌋ := by exact_mod_cast Int.floor_nonneg.2 (by positivity)
    positivity
  refine ⟨?_, h, hn, h.trans h1, ?_⟩
  · unfold Quant
    rw [lt_div_iff₀ (by norm_num)]
    linarith
  · unfold Quant
    rw [div_mul_cancel₀ _ (by norm_num), Int.floor_intCast]

/-- C115: an object that was read from a file is written to the same file again -/
theorem C115_again (k : Codec) {c : Cloud} (hc : Proper k c) (s : State) (hs : s.cloud = Blank c) :
    ∃ f s', serialize k c true = .ok f ∧ unserialize k s f = .ok s' ∧ serialize k s'.cloud true = .ok f := by
  obtain ⟨f, s', h1, h2, h3, h4, h5, h6⟩ := C115_ply_partial k true hc s hs
  refine ⟨f, s', h1, h2, ?_⟩
  rw [← h1]
  rw [stored_double] at h3 h4
  simp only [List.map_id_fun, List.map_id, id_eq, Option.map_id_fun] at h3 h4
  have hcb : ∀ l : List V3, (∀ v ∈ l, AllV (fun x => 0 ≤ x ∧ x ≤ 1) v) → writeColors (l.map (MapV Quant)) = writeColors l := by
    intro l hl
    induction l with
    | nil => rfl
    | cons v l ih =>
      have hb : ∀ x : ℝ, 0 ≤ x ∧ x ≤ 1 → colorByte (Quant x) = colorByte x := by
        rintro x ⟨h0, h1⟩
        obtain ⟨-, -, q0, q1, -⟩ := C115_colour x h0 h1
        unfold colorByte
        rw [if_pos ⟨by linarith, by linarith⟩, if_pos ⟨by linarith, by linarith⟩]
        unfold Quant
        rw [div_mul_cancel₀ _ (by norm_num), Int.floor_intCast]
      obtain ⟨a, b, d⟩ := hl v List.mem_cons_self
      rw [List.map_cons, writeColors, writeColors, ih fun v hv => hl v (List.mem_cons_of_mem _ hv)]
      unfold writeColor MapV
      dsimp only
      rw [hb _ a, hb _ b, hb _ d]
  have hh : header s'.cloud true = header c true := by
    unfold header
    rw [h3, h4, h6, h5, Option.isSome_map]
  have hw : writeColors (s'.cloud.colors.getD []) = writeColors (c.colors.getD []) := by
    rw [h5]
    cases hcc : c.colors with
    | none => rfl
    | some l => exact hcb l (hc.colors l hcc).2
  unfold serialize
  rw [hh, hw, h3, h4, h6]
  congr 1
  · congr 1
    rw [h5]
    cases c.colors <;> simp

/-- C115: an object with another number of normals or colors than points is rejected -/
theorem C115_sizes (k : Codec) (double : Bool) (c : Cloud) (h : (∃ l, c.normals = some l ∧ l.length ≠ c.vertices.length) ∨ ∃ l, c.colors = some l ∧ l.length ≠ c.vertices.length) : serialize k c double = .throws := by
  unfold serialize
  by_cases hn : ∃ l, c.normals = some l ∧ l.length ≠ c.vertices.length
  · rw [if_pos hn]
  · rw [if_neg hn, if_pos (h.resolve_left hn)]

/-- Violation: the file of an object is appended to the data of the object into which it is read. -/
theorem C115_append (k : Codec) (double : Bool) {c : Cloud} (hc : Proper k c) (s : State) (hs : c.faces.isSome = true → s.cloud.faces.isSome = true) :
    ∃ f s', serialize k c double = .ok f ∧ unserialize k s f = .ok s' ∧ s'.cloud.vertices = s.cloud.vertices ++ c.vertices.map (MapV (Stored k double)) ∧ (∀ l m, c.faces = some l → s.cloud.faces = some m → s'.cloud.faces = some (m ++ l)) := by
  obtain ⟨f, s', h1, h2, h3⟩ := round_trip k double hc s hs
  refine ⟨f, s', h1, h2, by rw [h3]; rfl, fun l m hl hm => ?_⟩
  rw [h3]
  simp [Appended, hl, hm]

/-- Violation: the variances of the points are not written. -/
theorem C115_variance (k : Codec) (double : Bool) {c : Cloud} (hc : Proper k c) (s : State) (hs : s.cloud = Blank c) : ∃ f s', serialize k c double = .ok f ∧ unserialize k s f = .ok s' ∧ s'.cloud.variance = none := by
  obtain ⟨f, s', h1, h2, h3⟩ := round_trip k double hc s (by rw [hs]; simp [Blank])
  exact ⟨f, s', h1, h2, by rw [h3, hs]; rfl⟩

/-- Violation: a color that is brighter than white, or darker than black, is converted to a byte that cannot hold it. -/
theorem C115_colour_range (k : Codec) (double : Bool) (p : V3) (x g b : ℝ) (hx : 256 / 255 ≤ x ∨ x ≤ -1 / 255) :
    serialize k { vertices := [p], normals := none, colors := some [(x, g, b)], variance := none, faces := none } double = .undefined := by
  have h : colorByte x = none := by
    unfold colorByte
    rw [if_neg]
    rintro ⟨h1, h2⟩
    rcases hx with hx | hx <;> linarith
  unfold serialize
  rw [if_neg (by simp), if_neg (by simp)]
  simp [writeColors, writeColor, h]

/-- Violation: in a file the properties of a point may have any order. The point is taken when its z is read, with what x and y were before. -/
theorem C115_order (k : Codec) (x y z : ℝ) (hx : k.isDouble x) (hy : k.isDouble y) (hz : k.isDouble z) (s : State) :
    ∃ s', unserialize k s ([⟨"vertex", 1, [.scalar .f64 "z", .scalar .f64 "y", .scalar .f64 "x"]⟩], k.enc64 z ++ k.enc64 y ++ k.enc64 x) = .ok s' ∧ s'.cloud.vertices = s.cloud.vertices ++ [(s.vec.1, s.vec.2.1, z)] := by
  have r : ∀ a, k.isDouble a → ∀ r, readScalar k .f64 (k.enc64 a ++ r) = some (a, r) := by
    intro a ha r
    have := read_number k true a ha r
    simpa [precision, writeNumber, Stored] using this
  have rx := r x hx []
  rw [List.append_nil] at rx
  have dx : definition "vertex" "x" = some (.vertices, 0, false) := by decide
  have dy : definition "vertex" "y" = some (.vertices, 1, false) := by decide
  have dz : definition "vertex" "z" = some (.vertices, 2, false) := by decide
  have hd : define s.cloud ⟨"vertex", 1, [.scalar .f64 "z", .scalar .f64 "y", .scalar .f64 "x"]⟩ = s.cloud := by simp [define]
  unfold unserialize
  dsimp only
  rw [List.foldl_cons, List.foldl_nil, hd, body_one, List.append_assoc]
  dsimp only
  simp only [readElement, readProperties, readProperty, r z hz, r y hy, rx, Option.map_some, Option.bind_some, scalarCallback, dx, dy, dz, vectorCallback]
  refine ⟨_, rfl, ?_⟩
  simp [push, setV]

/-- Violation: of a face with four corners only the first three are read; there is a message on std::cerr (left out in the model), but no error is reported to the caller. -/
theorem C115_quad (k : Codec) (s : State) (m : List Tri) (hs : s.cloud.faces = some m) :
    ∃ s', unserialize k s ([⟨"face", 1, [.list .i32 "vertex_index"]⟩], [4] ++ encInt 0 ++ encInt 1 ++ encInt 2 ++ encInt 3) = .ok s' ∧ s'.cloud.faces = some (m ++ [(0, 1, 2)]) := by
  have hd : define s.cloud ⟨"face", 1, [.list .i32 "vertex_index"]⟩ = s.cloud := by simp [define]
  unfold unserialize
  dsimp only
  rw [List.foldl_cons, List.foldl_nil, hd, body_one]
  simp only [List.append_assoc, List.cons_append, List.nil_append]
  simp only [readElement, readProperties, readProperty, hs, Option.isSome_some, and_self, decide_true, if_true]
  have e : encInt 0 ++ (encInt 1 ++ (encInt 2 ++ encInt 3)) = encInt 0 ++ (encInt 1 ++ (encInt 2 ++ (encInt 3 ++ []))) := by simp
  rw [e]
  simp only [readItems, read_int k (i := 0) (by norm_num) (by norm_num), read_int k (i := 1) (by norm_num) (by norm_num), read_int k (i := 2) (by norm_num) (by norm_num), read_int k (i := 3) (by norm_num) (by norm_num), Option.bind_some,
    if_true, Option.map_some]
  refine ⟨_, rfl, ?_⟩
  simp [setT, hs, elementCallback, endCallback]

/-! ### example -/

/-- a codec for small natural numbers -/
noncomputable def smallCodec : Codec where
  isDouble x := ∃ n : Nat, x = n
  enc64 x := [⌊x⌋.toNat, 0, 0, 0, 0, 0, 0, 0]
  dec64 b := (b.headD 0 : ℝ)
  len64 _ := rfl
  dec_enc64 := by
    rintro x ⟨n, rfl⟩
    simp
  round x := (⌊x⌋.toNat : ℝ)
  enc32 x := [⌊x⌋.toNat, 0, 0, 0]
  dec32 b := (b.headD 0 : ℝ)
  len32 _ := rfl
  dec_enc32 x := by simp; omega

/-- a coloured triangle -/
noncomputable def triangle : Cloud := { vertices := [(0, 0, 0), (1, 0, 0), (0, 1, 2)], normals := some [(0, 0, 1), (0, 0, 1), (1, 0, 0)], colors := some [(1, 1 / 2, 0), (0, 0, 0), (1, 1, 1)], variance := none, faces := some [(0, 1, 2)] }

theorem triangle_proper : Proper smallCodec triangle := by
  have hn : ∀ n : Nat, smallCodec.isDouble n := fun n => ⟨n, rfl⟩
  have h0 : smallCodec.isDouble 0 := by simpa using hn 0
  have h1 : smallCodec.isDouble 1 := by simpa using hn 1
  have h2 : smallCodec.isDouble 2 := by simpa using hn 2
  constructor
  · intro l hl
    simp only [triangle, Option.some.injEq] at hl
    subst hl
    refine ⟨rfl, ?_⟩
    intro v hv
    simp at hv
    rcases hv with rfl | rfl <;> simp [AllV, h0, h1]
  · intro l hl
    simp only [triangle, Option.some.injEq] at hl
    subst hl
    refine ⟨rfl, ?_⟩
    intro v hv
    simp at hv
    rcases hv with rfl | rfl | rfl <;> norm_num [AllV]
  · intro v hv
    simp [triangle] at hv
    rcases hv with rfl | rfl | rfl <;> simp [AllV, h0, h1, h2]
  · intro l hl t ht i hi
    simp only [triangle, Option.some.injEq] at hl
    subst hl
    simp at ht
    subst ht
    simp at hi
    omega

example : ∃ f s', serialize smallCodec triangle true = .ok f ∧ unserialize smallCodec ⟨Blank triangle, (7, 7, 7), (0, 0, 0), 0⟩ f = .ok s' ∧ s'.cloud.vertices = triangle.vertices ∧ s'.cloud.faces = some [(0, 1, 2)] := by
  obtain ⟨f, s', h1, h2, h3, -, h5⟩ := C115_double smallCodec triangle_proper ⟨Blank triangle, (7, 7, 7), (0, 0, 0), 0⟩ rfl
  exact ⟨f, s', h1, h2, h3, h5⟩

example : ∃ f s', serialize smallCodec triangle true = .ok f ∧ unserialize smallCodec ⟨triangle, (7, 7, 7), (0, 0, 0), 0⟩ f = .ok s' ∧ s'.cloud.vertices.length = 6 := by
  obtain ⟨f, s', h1, h2, h3, -⟩ := C115_append smallCodec true triangle_proper ⟨triangle, (7, 7, 7), (0, 0, 0), 0⟩ (fun _ => rfl)
  exact ⟨f, s', h1, h2, by rw [h3]; rfl⟩

/-- the file of the triangle has 166 bytes after the header -/
example : ∃ f, serialize smallCodec triangle true = .ok f ∧ unserialize smallCodec ⟨Blank triangle, (7, 7, 7), (0, 0, 0), 0⟩ (f.1, f.2.take 100) = .throws := by
  obtain ⟨f, h1, h2⟩ := C115_truncated smallCodec true triangle_proper ⟨Blank triangle, (7, 7, 7), (0, 0, 0), 0⟩ (fun _ => rfl)
  refine ⟨f, h1, h2 100 ?_⟩
  have hcol := write_colors _ (triangle_proper.colors _ rfl).2
  unfold serialize at h1
  rw [if_neg (by rintro ⟨l, a, b⟩; exact b (triangle_proper.normals l a).1), if_neg (by rintro ⟨l, a, b⟩; exact b (triangle_proper.colors l a).1)] at h1
  rw [show triangle.colors.getD [] = [(1, 1 / 2, 0), (0, 0, 0), (1, 1, 1)] from rfl, hcol] at h1
  cases h1
  simp [triangle, writeVector, writeNumber, smallCodec]

end Envire.Ply

#print axioms Envire.Ply.C115_ply_partial
#print axioms Envire.Ply.C115_truncated
#print axioms Envire.Ply.C115_double
#print axioms Envire.Ply.C115_colour
#print axioms Envire.Ply.C115_again
#print axioms Envire.Ply.C115_sizes
#print axioms Envire.Ply.C115_append
#print axioms Envire.Ply.C115_variance
#print axioms Envire.Ply.C115_colour_range
#print axioms Envire.Ply.C115_order
#print axioms Envire.Ply.C115_quad
