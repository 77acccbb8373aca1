import Verif.Viz.DispatchModel

/-!
C167: which visualizer shows an item.
-/
namespace Envire.Dispatch

/-- specification: `d` is the class `c` or one of its base classes -/
inductive IsA : Cls → Cls → Prop
  | refl (c : Cls) : IsA c c
  | step {c b d : Cls} : base c = some b → IsA b d → IsA c d

/-- the classes that the visualizers are made for: their names, for GridVisualization the value types that it draws -/
def special : List (Cls × Viz) :=
  [(.gridFloat, .grid), (.gridDouble, .grid), (.gridByte, .grid), (.laserScan, .laserScan), (.frameNode, .frameNode), (.triMesh, .triMesh),
   (.pointcloud, .pointcloud), (.elevationGrid, .elevationGrid), (.mlsGrid, .mls), (.imageRGB24, .imageRGB24),
   (.traversabilityGrid, .traversabilityGrid), (.mapSegment, .mapSegment)]

/-- specification: `z` is the visualizer for the nearest class above `c` that has one -/
def Expected (c : Cls) (z : Viz) : Prop :=
  ∃ d, (d, z) ∈ special ∧ IsA c d ∧ ∀ d' z', (d', z') ∈ special → IsA c d' → IsA d d'

theorem castN_sound {n : Nat} {c d : Cls} (h : castN n c d = true) : IsA c d := by
  induction n generalizing c with
  | zero =>
    have : c = d := by simpa [castN] using h
    exact this ▸ .refl c
  | succ n ih =>
    cases hb : base c with
    | none =>
      have : c = d := by simpa [castN, hb] using h
      exact this ▸ .refl c
    | some b =>
      have h' : c = d ∨ castN n b d = true := by simpa [castN, hb] using h
      rcases h' with h' | h'
      · exact h' ▸ .refl c
      · exact .step hb (ih h')

theorem castN_mono {n : Nat} {c d : Cls} (h : castN n c d = true) : castN (n + 1) c d = true := by
  induction n generalizing c with
  | zero =>
    have : c = d := by simpa [castN] using h
    simp [castN, this]
  | succ n ih =>
    cases hb : base c with
    | none =>
      have : c = d := by simpa [castN, hb] using h
      simp [castN, this]
    | some b =>
      have h' : c = d ∨ castN n b d = true := by simpa [castN, hb] using h
      rcases h' with h' | h'
      · simp [castN, h']
      · rw [castN, hb]
        simp [ih h']

theorem castN_le {n m : Nat} (hm : n ≤ m) {c d : Cls} (h : castN n c d = true) : castN m c d = true := by
  induction m with
  | zero => rwa [Nat.le_zero.1 hm] at h
  | succ m ih =>
    rcases Nat.lt_or_ge n (m + 1) with h' | h'
    · exact castN_mono (ih (Nat.le_of_lt_succ h'))
    · rwa [Nat.le_antisymm hm h'] at h

/-- the number of base classes of a class of the library -/
def height : Cls → Nat
  | .item => 0
  | .layer => 1
  | .frameNode => 1
  | .operator => 1
  | .cartesianMap => 2
  | .gridBase => 3
  | .bandedGrid => 4
  | .gridFloat => 5
  | .gridDouble => 5
  | .gridByte => 5
  | .gridShort => 5
  | .elevationGrid => 6
  | .distanceGrid => 6
  | .confidenceGrid => 6
  | .occupancyGrid => 6
  | .imageRGB24 => 6
  | .traversabilityGrid => 6
  | .mlsGrid => 4
  | .mlsMap => 3
  | .mapSegment => 3
  | .pointcloud => 3
  | .featurecloud => 4
  | .triMesh => 4
  | .polygonMap => 3
  | .laserScan => 3
  | .derived _ c => height c + 1

theorem height_base {c b : Cls} (h : base c = some b) : height c = height b + 1 := by
  cases c <;> cases h <;> rfl

theorem height_le (c : Cls) : height c ≤ depth c := by
  induction c with
  | derived n c ih => exact Nat.succ_le_succ ih
  | _ => decide

theorem castN_complete {c d : Cls} (h : IsA c d) : castN (height c) c d = true := by
  induction h with
  | refl c => cases hc : height c <;> simp [castN]
  | step hb _ ih =>
    rw [height_base hb, castN, hb]
    simp [ih]

theorem cast_iff {c d : Cls} : cast c d = true ↔ IsA c d :=
  ⟨castN_sound, fun h => castN_le (height_le c) (castN_complete h)⟩

theorem isA_derived {n : Nat} {c d : Cls} : IsA (.derived n c) d ↔ d = .derived n c ∨ IsA c d := by
  constructor
  · intro h
    cases h with
    | refl => exact .inl rfl
    | step hb h =>
      cases hb
      exact .inr h
  · rintro (rfl | h)
    · exact .refl _
    · exact .step rfl h

/-- a class of the library -/
def plain : Cls → Bool
  | .derived _ _ => false
  | _ => true

theorem cast_derived {n : Nat} {c d : Cls} (hd : plain d = true) : cast (.derived n c) d = cast c d := by
  rw [Bool.eq_iff_iff, cast_iff, cast_iff, isA_derived]
  refine ⟨fun h => h.resolve_left ?_, .inr⟩
  rintro rfl
  cases hd

theorem any_derived {n : Nat} {c : Cls} {l : List Cls} (hl : ∀ d ∈ l, plain d = true) : l.any (cast (.derived n c)) = l.any (cast c) := by
  induction l with
  | nil => rfl
  | cons d l ih =>
    rw [List.any_cons, List.any_cons, cast_derived (hl d (by simp)), ih fun e he => hl e (by simp [he])]

theorem handles_derived (z : Viz) (n : Nat) (c : Cls) : handles z (.derived n c) = handles z c :=
  any_derived (by cases z <;> decide)

theorem draws_derived (z : Viz) (n : Nat) (c : Cls) : draws z (.derived n c) = draws z c :=
  any_derived (by cases z <;> decide)

/-- classes that users derive are shown like their base class -/
theorem attach_derived (n : Nat) (c : Cls) : attach (.derived n c) = attach c := by
  have h : visualizerFor (.derived n c) = visualizerFor c := by
    unfold visualizerFor
    congr 1
    funext z
    exact handles_derived z n c
  unfold attach
  rw [h]
  cases visualizerFor c with
  | none => rfl
  | some z => dsimp only; rw [draws_derived]

theorem special_plain {d : Cls} {z : Viz} (h : (d, z) ∈ special) : plain d = true := by
  have : ∀ p ∈ special, plain p.1 = true := by decide
  exact this _ h

theorem special_isA {n : Nat} {c d : Cls} {z : Viz} (h : (d, z) ∈ special) : IsA (.derived n c) d ↔ IsA c d := by
  rw [← cast_iff, ← cast_iff, cast_derived (special_plain h)]

theorem expected_derived (n : Nat) (c : Cls) (z : Viz) : Expected (.derived n c) z ↔ Expected c z := by
  constructor
  · rintro ⟨d, h1, h2, h3⟩
    exact ⟨d, h1, (special_isA h1).1 h2, fun d' z' h h' => h3 d' z' h ((special_isA h).2 h')⟩
  · rintro ⟨d, h1, h2, h3⟩
    exact ⟨d, h1, (special_isA h1).2 h2, fun d' z' h h' => h3 d' z' h ((special_isA h).1 h')⟩

/-- the specification as a test -/
def expectedTest (c : Cls) (z : Viz) : Bool :=
  special.any fun p => p.2 == z && cast c p.1 && special.all fun q => !cast c q.1 || cast p.1 q.1

theorem expected_iff (c : Cls) (z : Viz) : Expected c z ↔ expectedTest c z = true := by
  unfold expectedTest
  rw [List.any_eq_true]
  constructor
  · rintro ⟨d, h1, h2, h3⟩
    refine ⟨(d, z), h1, ?_⟩
    rw [Bool.and_eq_true, Bool.and_eq_true, List.all_eq_true]
    refine ⟨⟨by simp, cast_iff.2 h2⟩, fun q hq => ?_⟩
    cases hc : cast c q.1 with
    | false => rfl
    | true => exact cast_iff.2 (h3 q.1 q.2 hq (cast_iff.1 hc))
  · rintro ⟨p, hp, h⟩
    rw [Bool.and_eq_true, Bool.and_eq_true, List.all_eq_true] at h
    obtain ⟨⟨h1, h2⟩, h3⟩ := h
    have h1' : p.2 = z := by simpa using h1
    subst h1'
    refine ⟨p.1, hp, cast_iff.1 h2, fun d' z' hd h => ?_⟩
    have := h3 (d', z') hd
    rw [cast_iff.2 h] at this
    exact cast_iff.1 this

/-- **C167** (partial) Every item is shown by the visualizer that is made for its class, or for the nearest base class that has
one; items without such a class are not shown. This holds for all classes of the library and all classes that users derive
from them (in any number of steps), except for meshes and grids of bytes that are no traversability grids.
Missing: those two (C167_mesh_deviation, C167_byte_deviation). -/
theorem C167_shown_partial (c : Cls) (hm : ¬ IsA c .triMesh) (hb : IsA c .gridByte → IsA c .traversabilityGrid) :
    (∀ z, attach c = .by z ↔ Expected c z) ∧ (attach c = .ignored ↔ ∀ z, ¬ Expected c z) := by
  induction c with
  | derived n c ih =>
    have h1 : ∀ d, plain d = true → (IsA (.derived n c) d ↔ IsA c d) := fun d hd => by rw [← cast_iff, ← cast_iff, cast_derived hd]
    rw [attach_derived]
    have := ih (fun h => hm ((h1 _ rfl).2 h)) (fun h => (h1 _ rfl).1 (hb ((h1 _ rfl).2 h)))
    simp only [expected_derived]
    exact this
  | _ =>
    rw [← cast_iff] at hm
    rw [← cast_iff, ← cast_iff] at hb
    simp only [expected_iff]
    revert hm hb
    refine fun hm hb => ⟨fun z => ?_, ?_⟩
    · cases z <;> revert hm hb <;> decide
    · constructor
      · intro h z
        cases z <;> revert h <;> decide
      · intro h
        have h' : registered.all (fun z => !expectedTest _ z) = true := List.all_eq_true.2 fun z _ => by simpa using h z
        clear h
        revert hm hb h'
        decide

example : ¬ IsA (.derived 3 .elevationGrid) .triMesh ∧ ¬ IsA (.derived 3 .elevationGrid) .gridByte ∧
    attach (.derived 3 .elevationGrid) = .by .elevationGrid ∧ Expected (.derived 3 .elevationGrid) .elevationGrid := by
  refine ⟨fun h => ?_, fun h => ?_, by decide, (expected_iff _ _).2 (by decide)⟩
  · exact absurd (cast_iff.2 h) (by decide)
  · exact absurd (cast_iff.2 h) (by decide)

example : attach .traversabilityGrid = .by .traversabilityGrid ∧ attach (.derived 0 (.derived 1 .featurecloud)) = .by .pointcloud ∧
    attach .polygonMap = .ignored := by decide

/-- Violation: meshes, and all classes derived from them, are made for TriMeshVisualization but are shown as points by
PointcloudVisualization, which is registered after it: the triangles are never drawn. -/
theorem C167_mesh_deviation (c : Cls) (h : IsA c .triMesh) : Expected c .triMesh ∧ attach c = .by .pointcloud := by
  induction c with
  | derived n c ih =>
    rw [expected_derived, attach_derived]
    exact ih ((isA_derived.1 h).resolve_left (by intro h; cases h))
  | _ =>
    rw [← cast_iff] at h
    rw [expected_iff]
    revert h
    decide

/-- Violation: images, occupancy grids, confidence grids and all other grids of bytes that are no traversability grid are
claimed by TraversabilityGridVisualization, and its assertion fails when it draws them. -/
theorem C167_byte_deviation (c : Cls) (h : IsA c .gridByte) (hn : ¬ IsA c .traversabilityGrid) : attach c = .aborts ∧ ∃ z, Expected c z := by
  induction c with
  | derived n c ih =>
    have h1 : ∀ d, plain d = true → (IsA (.derived n c) d ↔ IsA c d) := fun d hd => by rw [← cast_iff, ← cast_iff, cast_derived hd]
    rw [attach_derived]
    simp only [expected_derived]
    exact ih ((h1 _ rfl).1 h) (fun h' => hn ((h1 _ rfl).2 h'))
  | imageRGB24 => exact ⟨by decide, .imageRGB24, (expected_iff _ _).2 (by decide)⟩
  | gridByte => exact ⟨by decide, .grid, (expected_iff _ _).2 (by decide)⟩
  | confidenceGrid => exact ⟨by decide, .grid, (expected_iff _ _).2 (by decide)⟩
  | occupancyGrid => exact ⟨by decide, .grid, (expected_iff _ _).2 (by decide)⟩
  | traversabilityGrid => exact absurd (.refl _) hn
  | _ => exact absurd (cast_iff.2 h) (by decide)

example : IsA .imageRGB24 .gridByte ∧ ¬ IsA .imageRGB24 .traversabilityGrid ∧ Expected .imageRGB24 .imageRGB24 ∧ IsA (.derived 2 .triMesh) .triMesh := by
  refine ⟨.step rfl (.refl _), fun h => absurd (cast_iff.2 h) (by decide), (expected_iff _ _).2 (by decide), .step rfl (.refl _)⟩

#print axioms C167_shown_partial
#print axioms C167_mesh_deviation
#print axioms C167_byte_deviation

end Envire.Dispatch
