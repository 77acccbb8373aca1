import Verif.Maps.CloudFilesModel
import Verif.Maps.PlyProps

/-!
C155: point clouds, meshes and feature clouds in saved scenes. See CloudFilesModel.lean.
-/

namespace Envire.CloudFiles

open Envire.Ply (Cloud Codec State File Res V3 Tri Proper Blank MapV Quant)

/-! ### specification -/

/-- the item is a point cloud or a mesh, with the data PLY files can hold -/
structure Savable {T K D : Type} (k : Codec) (i : Item T K D) : Prop where
  kind : i.kind = .cloud ∧ i.cloud.faces = none ∨ i.kind = .mesh ∧ i.cloud.faces.isSome = true
  proper : Proper k i.cloud

/-- what comes back of an item: everything but the steps between the colours -/
structure Back {T K D : Type} (i j : Item T K D) : Prop where
  kind : j.kind = i.kind
  id : j.id = i.id
  origin : j.origin = i.origin
  vertices : j.cloud.vertices = i.cloud.vertices
  normals : j.cloud.normals = i.cloud.normals
  faces : j.cloud.faces = i.cloud.faces
  colors : j.cloud.colors = i.cloud.colors.map (List.map (MapV Quant))

/-! ### names -/

theorem plain_eq_of {a b : List Char} (ha : '_' ∉ a) (hb : '_' ∉ b) (h : a.map plain = b.map plain) :
    a = b := by
  induction a generalizing b with
  | nil => cases b with
    | nil => rfl
    | cons y b => simp at h
  | cons x a ih => cases b with
    | nil => simp at h
    | cons y b =>
      rw [List.map_cons, List.map_cons, List.cons.injEq] at h
      simp only [List.mem_cons, not_or] at ha hb
      have e : x = y := by
        have := h.1
        unfold plain at this
        split at this <;> split at this
        · simp_all
        · exact absurd this hb.1
        · exact absurd this.symm ha.1
        · exact this
      rw [e, ih ha.2 hb.2 h.2]

def letter : Kind → Char
  | .cloud => 'P'
  | .mesh => 'T'
  | .features => 'F'

theorem className_letter (a : Kind) : (className a)[8]? = some (letter a) := by
  cases a <;> decide

theorem className_long (a : Kind) : 8 < (className a).length := by
  cases a <;> decide

theorem plyName_inj {a b : Kind} {i j : List Char} :
    plyName a i = plyName b j ↔ a = b ∧ i.map plain = j.map plain := by
  constructor
  · intro h
    unfold plyName at h
    have h := List.append_cancel_right h
    unfold fileName at h
    have e : a = b := by
      have h8 := congrArg (fun l => l[8]?) h
      rw [List.getElem?_append_left (className_long a), List.getElem?_append_left (className_long b),
        className_letter, className_letter] at h8
      have h9 := Option.some.inj h8
      cases a <;> cases b <;> first | rfl | (revert h9; decide)
    subst e
    exact ⟨rfl, List.append_cancel_left h⟩
  · rintro ⟨rfl, h⟩
    unfold plyName fileName
    rw [h]

/-! ### saving and loading one item -/

theorem Dir.write_same (d : Dir) (n : List Char) (f : File) : (d.write n f).ply n = some f := if_pos rfl

theorem Dir.write_other (d : Dir) {n m : List Char} (f : File) (h : m ≠ n) :
    (d.write n f).ply m = d.ply m := if_neg h

/-- the file of the item is in the directory -/
def Holds {T K D : Type} (k : Codec) (d : Dir) (i : Item T K D) : Prop :=
  ∃ f, Ply.serialize k i.cloud true = .ok f ∧ d.ply (plyName i.kind i.id) = some f

theorem save_ok {T K D : Type} {k : Codec} {i : Item T K D} (h : Savable k i) (d : Dir) :
    ∃ f, Ply.serialize k i.cloud true = .ok f ∧
      save k i d = .ok (⟨i.kind, i.id, some i.origin⟩, d.write (plyName i.kind i.id) f) := by
  obtain ⟨f, s', h1, -, -⟩ := Ply.round_trip k true h.proper ⟨i.cloud, (0, 0, 0), (0, 0, 0), 0⟩ (fun h => h)
  refine ⟨f, h1, ?_⟩
  unfold save
  rcases h.kind with ⟨hk, -⟩ | ⟨hk, -⟩
  · simp [hk, serializeCloud, writeFile, h1]
  · simp [hk, serializeCloud, writeFile, h1]

theorem load_back {T K D : Type} {k : Codec} {i : Item T K D} (h : Savable k i)
    (text : List Char → Cloud → Cloud) (unit : T) (v : V3) (t : Tri) (n : Nat) (d : Dir)
    (hd : Holds k d i) :
    ∃ j : Item T K D, load k text unit v t n ⟨i.kind, i.id, some i.origin⟩ d = .ok j ∧ Back i j := by
  obtain ⟨f, hf, hp⟩ := hd
  have hb : (fresh i.kind v t n).cloud = Blank i.cloud := by
    unfold fresh Blank
    rcases h.kind with ⟨hk, hn⟩ | ⟨hk, hn⟩
    · simp [hk, hn]
    · cases hx : i.cloud.faces with
      | none => rw [hx] at hn; cases hn
      | some l => simp [hk]
  obtain ⟨f', s', h1, h2, h3, h4, h5, h6⟩ := Ply.C115_ply_partial k true h.proper (fresh i.kind v t n) hb
  rw [hf] at h1
  cases h1
  rw [Ply.stored_double] at h3 h4
  have hr : load (K := K) (D := D) k text unit v t n ⟨i.kind, i.id, some i.origin⟩ d =
      .ok ⟨i.kind, i.id, i.origin, s'.cloud, [], []⟩ := by
    rcases h.kind with ⟨hk, -⟩ | ⟨hk, -⟩
    · rw [hk] at hp h2
      simp [load, hk, readMap, readFile, hp, readPly, h2]
    · rw [hk] at hp h2
      simp [load, hk, readMesh, readFile, hp, readPly, h2]
  refine ⟨_, hr, ⟨rfl, rfl, rfl, ?_, ?_, h6, h5⟩⟩
  · simpa using h3
  · simpa using h4

/-! ### saving all items -/

theorem saveAll_ok {T K D : Type} {k : Codec} (l : List (Item T K D)) (h : ∀ i ∈ l, Savable k i)
    (hn : (l.map fun i => plyName i.kind i.id).Nodup) (d : Dir) :
    ∃ d', saveAll k l d = .ok (l.map fun i => ⟨i.kind, i.id, some i.origin⟩, d') ∧
      (∀ i ∈ l, Holds k d' i) ∧
      (∀ n, (∀ i ∈ l, n ≠ plyName i.kind i.id) → d'.ply n = d.ply n) ∧ d'.text = d.text := by
  induction l generalizing d with
  | nil => exact ⟨d, rfl, fun i hi => (List.not_mem_nil hi).elim, fun n _ => rfl, rfl⟩
  | cons i l ih =>
    rw [List.map_cons, List.nodup_cons] at hn
    obtain ⟨f, hf, hs⟩ := save_ok (h i (by simp)) d
    obtain ⟨d', h1, h2, h3, h4⟩ := ih (fun j hj => h j (by simp [hj])) hn.2 (d.write (plyName i.kind i.id) f)
    have hi : ∀ j ∈ l, plyName i.kind i.id ≠ plyName j.kind j.id := by
      intro j hj e
      exact hn.1 (List.mem_map.2 ⟨j, hj, e.symm⟩)
    refine ⟨d', ?_, ?_, ?_, ?_⟩
    · rw [saveAll, hs]
      dsimp only
      rw [h1]
      rfl
    · intro j hj
      rw [List.mem_cons] at hj
      rcases hj with rfl | hj
      · exact ⟨f, hf, by rw [h3 _ hi]; exact Dir.write_same _ _ _⟩
      · exact h2 j hj
    · intro n hm
      rw [h3 n fun j hj => hm j (by simp [hj])]
      exact Dir.write_other _ _ (hm i (by simp))
    · rw [h4]
      rfl

/-! ### C155 -/

/-- C155: point clouds and meshes of any number that are saved into a directory, with any files in
it, are saved without error and each of them comes back: its points, normals, faces and sensor
origin exactly, its colours up to the step of PLY files, whatever the order of loading. The ids do
not contain underscores. Missing: ids with underscores (C155_collision), feature clouds
(C155_features), variances and colours out of range (C115). -/
theorem C155_scene_partial {T K D : Type} (k : Codec) (l : List (Item T K D))
    (h : ∀ i ∈ l, Savable k i) (hu : ∀ i ∈ l, '_' ∉ i.id) (hn : (l.map Item.id).Nodup) (d : Dir)
    (text : List Char → Cloud → Cloud) (unit : T) :
    ∃ docs d', saveAll k l d = .ok (docs, d') ∧ docs.length = l.length ∧
      ∀ (m : Nat) (i : Item T K D) (doc : Doc T), l[m]? = some i → docs[m]? = some doc →
        ∀ v t n, ∃ j : Item T K D, load k text unit v t n doc d' = .ok j ∧ Back i j := by
  have hp : (l.map fun i => plyName i.kind i.id).Nodup := by
    have hw : l.Pairwise fun i j => i.id ≠ j.id := by
      rw [List.Nodup, List.pairwise_map] at hn
      exact hn
    rw [List.Nodup, List.pairwise_map]
    refine hw.imp_of_mem fun {i j} hi hj hij e => hij ?_
    exact plain_eq_of (hu i hi) (hu j hj) (plyName_inj.1 e).2
  obtain ⟨d', h1, h2, -, -⟩ := saveAll_ok l h hp d
  refine ⟨_, d', h1, by simp, ?_⟩
  intro m i doc hm hdoc v t n
  rw [List.getElem?_map, hm] at hdoc
  cases hdoc
  have hi : i ∈ l := List.mem_of_getElem? hm
  exact load_back (h i hi) text unit v t n d' (h2 i hi)

/-- C155: saving does not touch other files -/
theorem C155_other_files {T K D : Type} (k : Codec) (i : Item T K D) (d d' : Dir) (doc : Doc T)
    (h : save k i d = .ok (doc, d')) (n : List Char) (hn : n ≠ plyName i.kind i.id) :
    d'.ply n = d.ply n ∧ d'.text = d.text := by
  have hw : ∀ r, writeFile k i d = .ok r → r.ply n = d.ply n ∧ r.text = d.text := by
    intro r hr
    unfold writeFile at hr
    cases hs : Ply.serialize k i.cloud true with
    | ok f => rw [hs] at hr; cases hr; exact ⟨Dir.write_other d f hn, rfl⟩
    | throws => rw [hs] at hr; cases hr
    | undefined => rw [hs] at hr; cases hr
  unfold save at h
  dsimp only at h
  cases hk : i.kind with
  | features =>
    simp [hk, serializeCloud] at h
    rw [← h.2]
    exact ⟨rfl, rfl⟩
  | cloud =>
    cases hr : writeFile k i d with
    | ok r =>
      simp [hk, serializeCloud, hr] at h
      rw [← h.2]
      exact hw r hr
    | throws => simp [hk, serializeCloud, hr] at h
    | undefined => simp [hk, serializeCloud, hr] at h
  | mesh =>
    cases hr : writeFile k i d with
    | ok r =>
      simp [hk, serializeCloud, hr] at h
      rw [← h.2]
      exact hw r hr
    | throws => simp [hk, serializeCloud, hr] at h
    | undefined => simp [hk, serializeCloud, hr] at h

/-- C155: clouds whose ids differ only in `/` and `_` have the same file, so that whatever is in
the directory, the same points are loaded for both -/
theorem C155_collision {T K D : Type} (k : Codec) (d : Dir) (text : List Char → Cloud → Cloud)
    (unit : T) (o o' : Option T) (v : V3) (t : Tri) (n : Nat) (j j' : Item T K D)
    (h : load k text unit v t n ⟨.cloud, "/a/1".toList, o⟩ d = .ok j)
    (h' : load k text unit v t n ⟨.cloud, "/a_1".toList, o'⟩ d = .ok j') :
    j.id ≠ j'.id ∧ j.cloud = j'.cloud := by
  have e : readMap k text (⟨.cloud, "/a/1".toList, o⟩ : Doc T) (fresh .cloud v t n) d =
      readMap k text (⟨.cloud, "/a_1".toList, o'⟩ : Doc T) (fresh .cloud v t n) d := rfl
  unfold load at h h'
  dsimp only at h h'
  rw [e] at h
  cases hr : readMap k text (⟨.cloud, "/a_1".toList, o'⟩ : Doc T) (fresh .cloud v t n) d with
  | ok s =>
    rw [hr] at h h'
    cases h
    cases h'
    refine ⟨?_, rfl⟩
    show "/a/1".toList ≠ "/a_1".toList
    decide
  | throws => rw [hr] at h; cases h
  | undefined => rw [hr] at h; cases h

/-- C155: a feature cloud is saved without error and without its points, key points and
descriptors: the directory is left as it was, and without a file of that name there, loading
throws -/
theorem C155_features {T K D : Type} (k : Codec) (i : Item T K D) (hk : i.kind = .features) (d : Dir)
    (text : List Char → Cloud → Cloud) (unit : T) (v : V3) (t : Tri) (n : Nat) :
    save k i d = .ok (⟨.features, i.id, some i.origin⟩, d) ∧
      (d.ply (plyName .features i.id) = none →
        (load k text unit v t n ⟨.features, i.id, some i.origin⟩ d : Res (Item T K D)) = .throws) := by
  constructor
  · simp [save, hk, serializeCloud]
  · intro h
    simp [load, readMap, readFile, h]

/-- C155: key points and descriptors are never loaded -/
theorem C155_descriptors {T K D : Type} (k : Codec) (doc : Doc T) (d : Dir)
    (text : List Char → Cloud → Cloud) (unit : T) (v : V3) (t : Tri) (n : Nat) (j : Item T K D)
    (h : load k text unit v t n doc d = .ok j) : j.keypoints = [] ∧ j.descriptors = [] := by
  unfold load at h
  dsimp only at h
  split at h
  · cases h
    exact ⟨rfl, rfl⟩
  · cases h
  · cases h

/-- C155: text files are never read, and without a PLY file loading throws even if there is a
text file -/
theorem C155_text {T K D : Type} (k : Codec) (doc : Doc T) (d : Dir)
    (text : List Char → Cloud → Cloud) (unit : T) (v : V3) (t : Tri) (n : Nat) :
    (∀ files text', (load k text unit v t n doc d : Res (Item T K D)) =
      load k text' unit v t n doc { d with text := files }) ∧
    (d.ply (plyName doc.kind doc.id) = none →
      (load k text unit v t n doc d : Res (Item T K D)) = .throws) := by
  have key : ∀ (s : State) (a : State × Bool), readFile k (plyName doc.kind doc.id) s d = .ok a → a.2 = true := by
    intro s a h
    unfold readFile at h
    cases hd : d.ply (plyName doc.kind doc.id) with
    | none => rw [hd] at h; cases h
    | some f =>
      rw [hd] at h
      dsimp only at h
      unfold readPly at h
      cases hu : Ply.unserialize k s f with
      | ok s' => rw [hu] at h; cases h; rfl
      | throws => rw [hu] at h; cases h
      | undefined => rw [hu] at h; cases h
  have hm : ∀ files text' s, readMap k text doc s d = readMap k text' doc s { d with text := files } := by
    intro files text' s
    have e : readFile k (plyName doc.kind doc.id) s { d with text := files } =
        readFile k (plyName doc.kind doc.id) s d := rfl
    unfold readMap
    rw [e]
    cases hr : readFile k (plyName doc.kind doc.id) s d with
    | ok a =>
      obtain ⟨s', b⟩ := a
      have hb := key s _ hr
      dsimp only at hb
      subst hb
      rfl
    | throws => rfl
    | undefined => rfl
  constructor
  · intro files text'
    unfold load
    cases hk : doc.kind with
    | cloud => dsimp only; rw [hm files text']
    | mesh => rfl
    | features => dsimp only; rw [hm files text']
  · intro h
    cases hk : doc.kind with
    | cloud => rw [hk] at h; simp [load, hk, readMap, readFile, h]
    | mesh => rw [hk] at h; simp [load, hk, readMesh, readFile, h]
    | features => rw [hk] at h; simp [load, hk, readMap, readFile, h]

/-- C155: an entry without a sensor origin, of an older version, has the identity -/
theorem C155_origin {T K D : Type} (k : Codec) (kind : Kind) (id : List Char) (d : Dir)
    (text : List Char → Cloud → Cloud) (unit : T) (v : V3) (t : Tri) (n : Nat) (j : Item T K D)
    (h : load k text unit v t n ⟨kind, id, none⟩ d = .ok j) : j.origin = unit := by
  unfold load at h
  dsimp only at h
  split at h
  · cases h
    rfl
  · cases h
  · cases h

/-- C155: a cloud or a mesh with a number of normals or colours other than that of its points is
not saved, there is an exception instead -/
theorem C155_sizes {T K D : Type} (k : Codec) (i : Item T K D) (hk : i.kind ≠ .features) (d : Dir)
    (h : (∃ l, i.cloud.normals = some l ∧ l.length ≠ i.cloud.vertices.length) ∨
      ∃ l, i.cloud.colors = some l ∧ l.length ≠ i.cloud.vertices.length) :
    save k i d = .throws := by
  have hs := Ply.C115_sizes k true i.cloud h
  cases hi : i.kind with
  | features => exact absurd hi hk
  | cloud => simp [save, hi, serializeCloud, writeFile, hs]
  | mesh => simp [save, hi, serializeCloud, writeFile, hs]

/-! ### an example -/

/-- a mesh and a cloud -/
noncomputable def exMesh : Item Nat Nat Nat := ⟨.mesh, "/env/1".toList, 5, Ply.triangle, [], []⟩

noncomputable def exCloud : Item Nat Nat Nat :=
  ⟨.cloud, "/env/2".toList, 6, { Ply.triangle with faces := none }, [], []⟩

theorem exMesh_savable : Savable Ply.smallCodec exMesh := ⟨Or.inr ⟨rfl, rfl⟩, Ply.triangle_proper⟩

theorem exCloud_savable : Savable Ply.smallCodec exCloud :=
  ⟨Or.inl ⟨rfl, rfl⟩, ⟨Ply.triangle_proper.normals, Ply.triangle_proper.colors, Ply.triangle_proper.vertices, fun _ h => nomatch h⟩⟩

example :=
  C155_scene_partial Ply.smallCodec [exMesh, exCloud]
    (by simp only [List.mem_cons, List.not_mem_nil, or_false, forall_eq_or_imp, forall_eq]; exact ⟨exMesh_savable, exCloud_savable⟩)
    (by simp only [List.mem_cons, List.not_mem_nil, or_false, forall_eq_or_imp, forall_eq]; decide)
    (by show ["/env/1".toList, "/env/2".toList].Nodup; decide) ⟨fun _ => none, fun _ => none⟩ (fun _ c => c) 0

example : fileName .cloud "/a/1".toList = "envire::Pointcloud_a_1".toList := by decide

#print axioms C155_scene_partial
#print axioms C155_other_files
#print axioms C155_collision
#print axioms C155_features
#print axioms C155_descriptors
#print axioms C155_text
#print axioms C155_origin
#print axioms C155_sizes

end Envire.CloudFiles
