import Verif.Ops.SettingsModel

/-!
C156: the settings of operators in saved scenes. See SettingsModel.lean.
-/

namespace Envire.Settings

/-! ### specification -/

/-- the setting of any saved operator is the same after loading -/
def Kept (c : Class) (v : String) : Prop :=
  ∀ o : Vars, ∃ o', c.load (c.save o) = some o' ∧ o' v = o v

/-- the setting of any saved operator has its default value after loading -/
def Lost (c : Class) (v : String) : Prop :=
  ∀ o : Vars, ∃ o', c.load (c.save o) = some o' ∧ o' v = c.fresh v

/-- the settings that are kept -/
def kept : List (String × String) :=
  [("ScanMeshing", "maxEdgeLength"), ("ScanMeshing", "minRange"), ("MLSToGrid", "outLayerName"),
    ("GridFloatToMLS", "band")]

/-! ### lemmas -/

theorem foldl_other (d : Doc) (l : List (String × String)) (o : Vars) (v : String)
    (h : ∀ p ∈ l, p.2 ≠ v) : l.foldl (read d) o v = o v := by
  induction l generalizing o with
  | nil => rfl
  | cons p l ih =>
    rw [List.foldl_cons, ih _ fun q hq => h q (List.mem_cons_of_mem _ hq)]
    unfold read
    cases find p.1 d with
    | none => rfl
    | some x => exact if_neg fun e => h p (List.mem_cons_self ..) e.symm

theorem lost_of {c : Class} {v : String} (hr : c.registered = true) (h : ∀ p ∈ c.reads, p.2 ≠ v) :
    Lost c v := by
  intro o
  refine ⟨c.unserialize (c.save o), ?_, foldl_other _ _ _ _ h⟩
  unfold Class.load
  rw [if_pos hr]

/-- a condition that can be computed -/
theorem table : ∀ c ∈ classes, ∀ v ∈ c.defaults.map Prod.fst, (c.name, v) ∉ kept →
    c.registered = true ∧ (∀ p ∈ c.reads, p.2 ≠ v) ∧ c.fresh v ≠ .num 77 := by
  decide +kernel

theorem kept_maxEdgeLength : Kept scanMeshing "maxEdgeLength" := fun o =>
  ⟨_, rfl, by
    simp [Class.unserialize, scanMeshing, Class.save, read, find, assign]⟩

theorem kept_minRange : Kept scanMeshing "minRange" := fun o =>
  ⟨_, rfl, by
    simp [Class.unserialize, scanMeshing, Class.save, read, find, assign]⟩

theorem kept_outLayerName : Kept mlsToGrid "outLayerName" := fun o =>
  ⟨_, rfl, by
    simp [Class.unserialize, mlsToGrid, Class.save, read, find, assign]⟩

theorem kept_band : Kept gridFloatToMLS "band" := fun o =>
  ⟨_, rfl, by
    simp [Class.unserialize, gridFloatToMLS, Class.save, read, find, assign]⟩

/-! ### C156 -/

/-- C156: the settings of ScanMeshing for the length of edges and the smallest range, the layer of
MLSToGrid and the band of GridFloatToMLS are the same after saving and loading, for all values.
Missing: the other settings (C156_lost), SurfaceReconstruction (C156_not_registered). -/
theorem C156_kept_partial :
    Kept scanMeshing "maxEdgeLength" ∧ Kept scanMeshing "minRange" ∧
      Kept mlsToGrid "outLayerName" ∧ Kept gridFloatToMLS "band" :=
  ⟨kept_maxEdgeLength, kept_minRange, kept_outLayerName, kept_band⟩

/-- C156: all other settings of the operators have their default values after loading, so that they
are not kept -/
theorem C156_lost (c : Class) (hc : c ∈ classes) (v : String) (hv : v ∈ c.defaults.map Prod.fst)
    (h : (c.name, v) ∉ kept) : Lost c v ∧ ¬ Kept c v := by
  obtain ⟨h1, h2, h3⟩ := table c hc v hv h
  refine ⟨lost_of h1 h2, fun hk => ?_⟩
  obtain ⟨a, ha, ea⟩ := lost_of h1 h2 (fun _ => .num 77)
  obtain ⟨b, hb, eb⟩ := hk (fun _ => .num 77)
  rw [ha] at hb
  cases hb
  rw [ea] at eb
  exact h3 eb

/-- the default values, from the constructors -/
def expected : List (String × String × Val) :=
  [("ScanMeshing", "maxEdgeAngle", .num 85), ("ScanMeshing", "remissionScaleFactor", .num 10000),
    ("ScanMeshing", "remissionMarkerThreshold", .num 16000), ("ScanMeshing", "maxRange", .num 1000000000),
    ("ScanMeshing", "extractMarkers", .num 0), ("ScanMeshing", "useRemission", .num 0),
    ("SimplifyPointcloud", "computeSpacing", .num 0), ("SimplifyPointcloud", "simplifyCellSize", .num (1 / 20)),
    ("SimplifyPointcloud", "outlierPercentage", .num 5), ("SimplifyPointcloud", "smoothNeighbours", .num 24),
    ("MLSProjection", "withUncertainty", .num 1), ("MLSProjection", "negativeInformation", .num 0),
    ("MLSProjection", "defaultUncertainty", .num (1 / 100)), ("MLSProjection", "useBoundaryBox", .num 0),
    ("DistanceGridToPointcloud", "uncertaintyFactor", .num (1 / 10)), ("DistanceGridToPointcloud", "maxDistance", .num 10),
    ("CutPointcloud", "exclusionBoxes", .boxes []), ("MergePointcloud", "clearOutput", .num 1),
    ("MLSSlope", "correctedStepThreshold", .num (1 / 4)), ("MLSSlope", "useStddev", .num 0),
    ("MLSSlope", "requiredMeasurementsPerPatch", .num 0), ("MLSSlope", "windowSize", .num 1),
    ("MergeMLS", "reverse", .num 0), ("GridIllumination", "lightSource", .vec 0 0 0),
    ("GridIllumination", "lightDiameter", .num 0), ("GridIllumination", "band", .str "illumination"),
    ("TraversabilityGrowClasses", "radius", .num 0), ("TraversabilityGrassfire", "maxStepHeight", .num 0),
    ("TraversabilityGrassfire", "maxSlope", .num 0), ("TraversabilityGrassfire", "robotHeight", .num 0),
    ("TraversabilityGrassfire", "numTraversabilityClasses", .num 0),
    ("TraversabilityGrassfire", "numNominalMeasurements", .num 1),
    ("TraversabilityGrassfire", "outliertFilterMinMeasurements", .num 0),
    ("TraversabilityGrassfire", "outliertFilterMaxStdDev", .num 0), ("DoubleFoldOperator", "neighbourhood", .num 0)]

theorem defaults_table : ∀ c ∈ classes, ∀ v ∈ c.defaults.map Prod.fst, (c.name, v) ∉ kept →
    (c.name, v, c.fresh v) ∈ expected := by
  decide +kernel

/-- C156: these are the values after loading, whatever was saved -/
theorem C156_defaults (c : Class) (hc : c ∈ classes) (v : String) (hv : v ∈ c.defaults.map Prod.fst)
    (h : (c.name, v) ∉ kept) (o : Vars) :
    ∃ o', c.load (c.save o) = some o' ∧ (c.name, v, o' v) ∈ expected := by
  obtain ⟨o', e, e'⟩ := (C156_lost c hc v hv h).1 o
  exact ⟨o', e, e' ▸ defaults_table c hc v hv h⟩

/-- each setting has one default value -/
theorem expected_unique : (expected.map fun x => (x.1, x.2.1)).Nodup := by decide +kernel

theorem find_last (k : String) (x : Val) (d : Doc) : find k (d ++ [(k, x)]) = some x := by
  induction d with
  | nil => simp [find]
  | cons p d ih => rw [List.cons_append, find, ih]

/-- C156: of two entries with the same key the last one counts -/
theorem C156_repeated (d : Doc) (x : Val) :
    (∃ o, mlsToGrid.load (d ++ [("out_layer_name", x)]) = some o ∧ o "outLayerName" = x) ∧
      ∃ o, gridFloatToMLS.load (d ++ [("band_name", x)]) = some o ∧ o "band" = x := by
  refine ⟨⟨_, rfl, ?_⟩, ⟨_, rfl, ?_⟩⟩ <;>
    simp [Class.unserialize, mlsToGrid, gridFloatToMLS, read, find_last, assign]

/-- C156: what is written as the scale of remissions is the length of edges -/
theorem C156_remission (o : Vars) :
    find "remissionScaleFactor" (scanMeshing.save o) = some (o "maxEdgeLength") ∧
      Lost scanMeshing "remissionScaleFactor" := by
  refine ⟨?_, (C156_lost scanMeshing (List.mem_cons_self ..) _ (by decide +kernel) (by decide +kernel)).1⟩
  simp [scanMeshing, Class.save, find]

/-- C156: in a document with a proper scale of remissions, this scale is taken for the length of
edges -/
theorem C156_remission_read (l s r : Rat) :
    ∃ o, scanMeshing.load [("maxEdgeLength", .num l), ("remissionScaleFactor", .num s),
      ("minRange", .num r)] = some o ∧ o "maxEdgeLength" = .num s ∧
      o "remissionScaleFactor" = .num 10000 := by
  refine ⟨_, rfl, ?_, ?_⟩
  · simp [Class.unserialize, scanMeshing, read, find, assign]
  · simp [Class.unserialize, scanMeshing, read, find, assign, Class.fresh, List.lookup]

/-- C156: a SurfaceReconstruction is saved, but cannot be loaded -/
theorem C156_not_registered (o : Vars) :
    surfaceReconstruction.load (surfaceReconstruction.save o) = none := rfl

theorem keys_distinct : inputKey 0 ≠ inputKey 1 ∧ inputKey 0 ≠ bandKey 1 ∧ bandKey 0 ≠ inputKey 1 ∧
    bandKey 0 ≠ bandKey 1 ∧ inputKey 0 ≠ bandKey 0 ∧ inputKey 1 ≠ bandKey 1 := by
  decide +kernel

/-- an input that is set, with a band, or not set at all -/
def Whole (x : Input) : Prop := x.1 ≠ "" ∧ x.2 ≠ "" ∨ x = ("", "")

/-- C156: the inputs of SimpleTraversability are the same after saving and loading if each of them
is a map with the name of a band or is not set -/
theorem C156_inputs (slope step : Input) (h0 : Whole slope) (h1 : Whole step) :
    loadInputs (saveInputs slope step) = (slope, step) := by
  obtain ⟨k1, k2, k3, k4, k5, k6⟩ := keys_distinct
  obtain ⟨a, b⟩ := slope
  obtain ⟨c, d⟩ := step
  unfold loadInputs saveInputs saveInput loadInput readString
  rcases h0 with h0 | h0 <;> rcases h1 with h1 | h1
  · rw [if_pos h0, if_pos h1]
    simp [find, k1, k2, k3, k4, k5, k6, k1.symm, k2.symm, k3.symm, k4.symm, k5.symm, k6.symm]
  · cases h1
    rw [if_pos h0, if_neg (by simp)]
    simp [find, k1, k2, k3, k4, k5, k6, k1.symm, k2.symm, k3.symm, k4.symm, k5.symm, k6.symm]
  · cases h0
    rw [if_neg (by simp), if_pos h1]
    simp [find, k1, k2, k3, k4, k5, k6, k1.symm, k2.symm, k3.symm, k4.symm, k5.symm, k6.symm]
  · cases h0
    cases h1
    rw [if_neg (by simp), if_neg (by simp)]
    rfl

/-- C156: a map that is the input with its unnamed band, or without a band, is no longer the input
after loading -/
theorem C156_unnamed_band (id : String) (step : Input) (h1 : Whole step) :
    loadInputs (saveInputs (id, "") step) = (("", ""), step) := by
  have h : saveInputs (id, "") step = saveInputs ("", "") step := by
    unfold saveInputs saveInput
    simp
  rw [h]
  exact C156_inputs _ _ (Or.inr rfl) h1

example : Whole ("/env/3", "slope") := Or.inl (by decide)

/-- there are 39 settings in 14 classes -/
example : classes.length = 14 ∧ (classes.flatMap fun c => c.defaults).length = 39 := by decide +kernel

#print axioms C156_kept_partial
#print axioms C156_lost
#print axioms C156_defaults
#print axioms C156_repeated
#print axioms C156_remission
#print axioms C156_remission_read
#print axioms C156_not_registered
#print axioms C156_inputs
#print axioms C156_unnamed_band

end Envire.Settings
