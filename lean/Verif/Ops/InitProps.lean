import Verif.Ops.InitModel
import Verif.Ops.InclineProps

/-! C201: settings of new operators. -/
namespace Envire.Init

variable {V : Type}

/-- specification: the value that was written last -/
def lastOf (l : List (String × V)) (x : String) : Option V := ((l.filter fun e => decide (e.1 = x)).getLast?).map (·.2)

theorem foldl_put (m : Members V) (l : List (String × V)) (x : String) : l.foldl put m x = (lastOf l x).or (m x) := by
  induction l using List.reverseRecOn with
  | nil => rfl
  | append_singleton l e ih =>
    rw [List.foldl_append]
    show put (l.foldl put m) e x = _
    show (if x = e.1 then some e.2 else l.foldl put m x) = _
    rw [ih]
    unfold lastOf
    rw [List.filter_append]
    by_cases h : e.1 = x
    · simp [h]
    · rw [if_neg (fun h' => h h'.symm)]
      simp [h]

/-- **C201 (values)** Each member has the value that was set last, else that of the constructor; a member that neither wrote has none, except that `new T()` of a class without constructor makes it
zero. -/
theorem C201_value (zero : V) (w : Way) (l calls : List (String × V)) (x : String) :
    run (make zero w (.user l)) calls x = (lastOf calls x).or (lastOf l x) ∧
    run (make zero w (.implicit l)) calls x = ((lastOf calls x).or (lastOf l x)).or (if w = .value then some zero else none) := by
  unfold run make
  constructor
  · rw [foldl_put]
    dsimp only
    rw [foldl_put]
    cases lastOf calls x <;> cases lastOf l x <;> rfl
  · rw [foldl_put]
    dsimp only
    rw [foldl_put]
    cases lastOf calls x <;> cases lastOf l x <;> rfl

theorem lastOf_isSome {l : List (String × V)} {x : String} : (lastOf l x).isSome = true ↔ x ∈ l.map (·.1) := by
  unfold lastOf
  rw [Option.isSome_map, List.getLast?_isSome]
  constructor
  · intro h
    obtain ⟨e, he⟩ := List.exists_mem_of_ne_nil _ h
    obtain ⟨a, b⟩ := List.mem_filter.1 he
    exact List.mem_map.2 ⟨e, a, by simpa using b⟩
  · intro h
    obtain ⟨e, he, rfl⟩ := List.mem_map.1 h
    exact List.ne_nil_of_mem (List.mem_filter.2 ⟨he, by simp⟩)

/-- **C201 (defined)** With the constructors of these operators, and with MLSSlope(), every setting that updateAll reads has a value, however the operator was made and whatever was set later. -/
theorem C201_defined_partial (zero : V) (w : Way) (calls : List (String × V)) :
    (∀ d : String → V, ∀ c ∈ others d, ∀ x ∈ c.2.2, (run (make zero w c.2.1) calls x).isSome = true) ∧
    ∀ q o z n : V, ∀ x ∈ mlsSlopeReads, (run (make zero w (mlsSlope0 q o z n)) calls x).isSome = true := by
  have key : ∀ (l : List (String × V)) x, x ∈ l.map (·.1) → (run (make zero w (.user l)) calls x).isSome = true := by
    intro l x hx
    rw [(C201_value zero w l calls x).1, Option.isSome_or, lastOf_isSome.2 hx, Bool.or_true]
  constructor
  · intro d c hc x hx
    simp only [others, List.mem_cons, List.not_mem_nil, or_false] at hc
    have hm : ∀ l : List String, x ∈ l → x ∈ (l.map fun x => (x, d x)).map (·.1) := fun l h => by simpa using h
    rcases hc with rfl | rfl | rfl | rfl | rfl | rfl | rfl | rfl | rfl <;> exact key _ _ (hm _ hx)
  · intro q o z n x hx
    exact key _ _ hx

/-- **C201 (set by hand)** Of the other constructors exactly these settings are without value until they are set: the window, and with two arguments the required measurements, of MLSSlope; the radius
of TraversabilityGrowClasses and the start of TraversabilityGrassfire if they are made with `new T`. -/
theorem C201_missing_deviation (zero : V) (calls : List (String × V)) :
    (∀ t b w x, x ∈ mlsSlopeReads → (run (make zero w (mlsSlope2 t b)) calls x = none ↔ (x = "required" ∨ x = "window") ∧ x ∉ calls.map (·.1))) ∧
    (∀ t b r w x, x ∈ mlsSlopeReads → (run (make zero w (mlsSlope3 t b r)) calls x = none ↔ x = "window" ∧ x ∉ calls.map (·.1))) ∧
    (∀ w x, x ∈ growClassesReads → (run (make zero w growClasses) calls x = none ↔ w = .plain ∧ x ∉ calls.map (·.1))) ∧
    (∀ conf w x, x ∈ grassfireReads → (run (make zero w (grassfire conf)) calls x = none ↔ w = .plain ∧ x = "startPos" ∧ x ∉ calls.map (·.1))) := by
  have hn : ∀ {l : List (String × V)} {x : String}, lastOf l x = none ↔ x ∉ l.map (·.1) := fun {l x} => by
    rw [← lastOf_isSome]
    cases lastOf l x <;> simp
  have hv : ∀ w : Way, (if w = .value then some zero else none) = none ↔ w = .plain := fun w => by cases w <;> simp
  refine ⟨fun t b w x hx => ?_, fun t b r w x hx => ?_, fun w x hx => ?_, fun conf w x hx => ?_⟩
  · unfold mlsSlope2
    rw [(C201_value zero w _ calls x).1, Option.or_eq_none_iff, hn, hn]
    simp only [mlsSlopeReads, List.mem_cons, List.not_mem_nil, or_false] at hx
    rcases hx with rfl | rfl | rfl | rfl <;> simp
  · unfold mlsSlope3
    rw [(C201_value zero w _ calls x).1, Option.or_eq_none_iff, hn, hn]
    simp only [mlsSlopeReads, List.mem_cons, List.not_mem_nil, or_false] at hx
    rcases hx with rfl | rfl | rfl | rfl <;> simp
  · unfold growClasses
    rw [(C201_value zero w _ calls x).2, Option.or_eq_none_iff, Option.or_eq_none_iff, hn, hn, hv]
    simp [and_comm]
  · unfold grassfire
    rw [(C201_value zero w _ calls x).2, Option.or_eq_none_iff, Option.or_eq_none_iff, hn, hn, hv]
    simp only [grassfireReads, List.mem_cons, List.not_mem_nil, or_false] at hx
    rcases hx with rfl | rfl <;> simp [and_comm]

/-- **C201 (effect, deviation)** The result depends on what happens to be in the memory of the window: for the same map the slope of a cell is known with one value and unknown with another. -/
theorem C201_window_deviation (S : Fit.Solver) : ∃ g : Incline.Tops, (Incline.meanSlope S g 3 3 0 1 1 1 1 1).isSome = true ∧ Incline.meanSlope S g 3 3 0 0 1 1 1 1 = none := by
  refine ⟨Incline.ramp, (Incline.C192_known S Incline.ramp 3 3 0 1 1 1 1 1 (by norm_num) (by norm_num)).2 ⟨by norm_num, ⟨_, rfl, by norm_num⟩, Incline.ramp_five⟩, ?_⟩
  unfold Incline.meanSlope
  rw [if_neg (by norm_num)]
  have : Incline.near Incline.ramp 3 3 0 1 1 = [] := by
    unfold Incline.near
    rw [show Incline.offsets 0 = [] from by decide]
    rfl
  show (if _ then _ else _) = _
  rw [if_neg (by norm_num), this]
  rfl

/-! ### examples -/

example : run (make 0 .plain (mlsSlope2 7 1)) [("required", 5)] "window" = none ∧ run (make 0 .plain (mlsSlope2 7 1)) [("required", 5)] "required" = some 5 ∧
    run (make 0 .plain (mlsSlope2 7 1)) [("required", 5)] "threshold" = some 7 := by decide

example : run (make 0 .value growClasses) [] "radius" = some 0 ∧ run (make 0 .plain growClasses) [] "radius" = none := by decide

#print axioms C201_value
#print axioms C201_defined_partial
#print axioms C201_missing_deviation
#print axioms C201_window_deviation
end Envire.Init
