import Verif.Serial.ClassModel

/-!
C209: names of classes.
-/
namespace Envire.Class

open Envire (Cls unqualified)

/-! ### proofs -/

theorem find_addClass (r : Registry) (p : Cls × String) (c : Cls) : find (addClass r p) c = if p.1 = c then some p.2 else find r c := by
  unfold find addClass
  rw [List.find?_cons]
  by_cases h : p.1 = c
  · simp [h]
  · rw [if_neg h]
    simp only [h, decide_false]
    congr 1
    induction r with
    | nil => rfl
    | cons q r ih =>
      by_cases hq : q.1 = p.1
      · rw [List.filter_cons_of_neg (by simp [hq]), ih, List.find?_cons]
        have : ¬ q.1 = c := fun e => h (hq ▸ e)
        simp [this]
      · rw [List.filter_cons_of_pos (by simp [hq]), List.find?_cons, List.find?_cons, ih]

/-- the class that was registered last under a name counts -/
theorem find_fold (l : List (Cls × String)) : ∀ (r : Registry) (c : Cls), find (l.foldl addClass r) c = match l.reverse.find? (fun q => q.1 = c) with
    | some q => some q.2
    | none => find r c := by
  induction l with
  | nil => intro r c; rfl
  | cons p l ih =>
    intro r c
    rw [List.foldl_cons, ih, List.reverse_cons, List.find?_append, find_addClass]
    cases l.reverse.find? (fun q => decide (q.1 = c)) with
    | some q => rfl
    | none =>
      by_cases h : p.1 = c <;> simp [h]

/-- with different names: what is in the list -/
theorem find_iff (l : List (Cls × String)) (hn : (l.map (·.1)).Nodup) (c : Cls) (k : String) : find (registerAll l) c = some k ↔ (c, k) ∈ l := by
  unfold registerAll
  rw [find_fold]
  have key : ∀ l : List (Cls × String), (l.map (·.1)).Nodup → (((l.find? (fun q => q.1 = c)).map (·.2)) = some k ↔ (c, k) ∈ l) := by
    intro l
    induction l with
    | nil => intro _; simp
    | cons q l ih =>
      intro hn
      obtain ⟨h1, h2⟩ := List.nodup_cons.1 (by simpa using hn : (q.1 :: l.map (·.1)).Nodup)
      rw [List.find?_cons]
      by_cases h : q.1 = c
      · simp only [h, decide_true, Option.map_some, Option.some.injEq, List.mem_cons]
        constructor
        · intro e; exact Or.inl (by rw [← h, ← e])
        · rintro (e | e)
          · rw [← e]
          · exact absurd (List.mem_map.2 ⟨_, e, rfl⟩) (h ▸ h1)
      · simp only [h, decide_false, List.mem_cons]
        rw [ih h2]
        constructor
        · exact Or.inr
        · rintro (e | e)
          · exact absurd (by rw [← e]) h
          · exact e
  have hr : (l.reverse.map (·.1)).Nodup := by rw [List.map_reverse]; exact (List.reverse_perm _).nodup_iff.2 hn
  have := key l.reverse hr
  rw [List.mem_reverse] at this
  rw [← this]
  cases l.reverse.find? (fun q => decide (q.1 = c)) <;> simp [find]

theorem find_perm {l l' : List (Cls × String)} (h : l.Perm l') (hn : (l.map (·.1)).Nodup) (c : Cls) : find (registerAll l) c = find (registerAll l') c := by
  have hn' : (l'.map (·.1)).Nodup := (h.map _).nodup_iff.1 hn
  apply Option.ext
  intro k
  rw [find_iff l hn, find_iff l' hn', h.mem_iff]

/-- **C209 (order)** The order in which the classes are registered does not matter, as their names are different: each name gives the same class. -/
theorem C209_order (order : List (Cls × String)) (h : order.Perm plugins) (c : Cls) : createObject (registerAll order) c = createObject (registerAll plugins) c := by
  have hn : (order.map (·.1)).Nodup := (h.map _).nodup_iff.2 (by decide +kernel)
  unfold createObject
  rw [find_perm h hn c]
  cases unqualified c with
  | none => rfl
  | some n => simp only [find_perm h hn n]

/-- **C209 (saved names)** Whatever the order of registration, the name that is saved for an item gives its own class, also the names of older versions. -/
theorem C209_saved (order : List (Cls × String)) (h : order.Perm plugins) :
    (∀ p ∈ savedNames, createObject (registerAll order) p.2.toList = some p.1) ∧
    createObject (registerAll order) "envire::MultiLevelSurfaceGrid".toList = some "MLSGrid" ∧
    createObject (registerAll order) "nav_graph_search::TraversabilityClassifier".toList = some "SimpleTraversability" ∧
    createObject (registerAll order) "envire::MLSSimpleTraversability".toList = some "SimpleTraversability" := by
  simp only [C209_order order h]
  decide +kernel

/-- **C209 (different names)** Different classes are saved under different names. -/
theorem C209_distinct : (savedNames.map (·.2)).Nodup ∧ (savedNames.map (·.1)).Nodup := by decide +kernel

theorem go_none (n : Cls) (h : ':' ∉ n) : unqualified.go n = none := by
  induction n with
  | nil => rfl
  | cons x t ih =>
    have hx : x ≠ ':' := fun c => h (c ▸ List.mem_cons_self)
    have ht : ':' ∉ t := fun c => h (List.mem_cons_of_mem _ c)
    unfold unqualified.go
    rw [ih ht]
    dsimp only
    split
    · rename_i e; exact absurd rfl hx
    · rfl

theorem go_colons (n : Cls) (h : ':' ∉ n) : unqualified.go (':' :: ':' :: n) = some n := by
  have h1 : unqualified.go (':' :: n) = none := by
    unfold unqualified.go
    rw [go_none n h]
    dsimp only
    split
    · rename_i r; exact absurd List.mem_cons_self h
    · rfl
  unfold unqualified.go
  rw [h1]
  rfl

theorem go_prefix (p n : Cls) (h : ':' ∉ n) : unqualified.go (p ++ ':' :: ':' :: n) = some n := by
  induction p with
  | nil => exact go_colons n h
  | cons x p ih =>
    show unqualified.go (x :: (p ++ ':' :: ':' :: n)) = some n
    unfold unqualified.go
    rw [ih]

theorem unqualified_prefix (p n : Cls) (h : ':' ∉ n) : unqualified (p ++ ':' :: ':' :: n) = some n := by
  have g := go_prefix p n h
  cases p with
  | nil =>
    show some ((unqualified.go (':' :: ':' :: n)).getD (':' :: n)) = some n
    rw [show unqualified.go (':' :: ':' :: n) = some n from g]; rfl
  | cons x p =>
    show some ((unqualified.go (x :: (p ++ ':' :: ':' :: n))).getD (p ++ ':' :: ':' :: n)) = some n
    rw [show unqualified.go (x :: (p ++ ':' :: ':' :: n)) = some n from g]; rfl

/-- **C209 (namespaces)** For all registered classes: a name that is registered without a namespace is found with each namespace in front of it, unless the whole name is registered itself. -/
theorem C209_namespace (r : Registry) (p n : Cls) (h : ':' ∉ n) (k : String) (hk : find r n = some k) (hno : find r (p ++ ':' :: ':' :: n) = none) :
    createObject r (p ++ ':' :: ':' :: n) = some k := by
  unfold createObject
  rw [hno, unqualified_prefix p n h]
  exact hk

/-- **C209 (unknown, partial)** For all registered classes: a name with a namespace is refused exactly if neither the whole name nor the name without the namespace is registered; the empty name is refused if it
is not registered.
Missing: names without a namespace (C209_unknown_deviation). -/
theorem C209_unknown_partial (r : Registry) :
    (∀ p n : Cls, ':' ∉ n → (createObject r (p ++ ':' :: ':' :: n) = none ↔ find r (p ++ ':' :: ':' :: n) = none ∧ find r n = none)) ∧
    (find r [] = none → createObject r [] = none) := by
  constructor
  · intro p n h
    unfold createObject
    rw [unqualified_prefix p n h]
    cases find r (p ++ ':' :: ':' :: n) <;> simp
  · intro h
    unfold createObject
    rw [h]; rfl

/-- **C209 (unknown, deviation)** An unknown name without a namespace gives the class whose name is left if the first letter is dropped. -/
theorem C209_unknown_deviation (r : Registry) (x : Char) (n : Cls) (hx : x ≠ ':') (hn : ':' ∉ n) (k : String) (hk : find r n = some k) (hno : find r (x :: n) = none) :
    createObject r (x :: n) = some k := by
  have hc : ':' ∉ x :: n := by
    intro c
    rcases List.mem_cons.1 c with e | e
    · exact hx e.symm
    · exact hn e
  unfold createObject
  rw [hno]
  show (match some ((unqualified.go (x :: n)).getD n) with
    | none => none
    | some n => find r n) = some k
  rw [go_none _ hc]
  exact hk

/-- the hypotheses hold for the library: "xGrid_d" is loaded as a grid of doubles -/
theorem C209_letter_deviation : find (registerAll plugins) "xGrid_d".toList = none ∧ createObject (registerAll plugins) "xGrid_d".toList = some "Grid<double>" := by decide +kernel

/-- **C209 (not registered, deviation)** SurfaceReconstruction and ClassGridProjection can be attached and saved, but the saved scene cannot be loaded, whatever the order of registration. -/
theorem C209_other_deviation (order : List (Cls × String)) (h : order.Perm plugins) : ∀ p ∈ otherNames, createObject (registerAll order) p.2.toList = none := by
  simp only [C209_order order h]
  decide +kernel

/-! ### examples -/

example : plugins.reverse.Perm plugins := List.reverse_perm _
example : plugins.length = 43 ∧ savedNames.length = 40 := by decide +kernel
example : find (registerAll plugins) "Grid_d".toList = some "Grid<double>" ∧ find (registerAll plugins) "other::Grid_d".toList = none ∧ ':' ∉ "Grid_d".toList := by decide +kernel
example : createObject (registerAll plugins) "other::MLSGrid".toList = none := by decide +kernel

#print axioms C209_order
#print axioms C209_saved
#print axioms C209_distinct
#print axioms C209_namespace
#print axioms C209_unknown_partial
#print axioms C209_unknown_deviation
#print axioms C209_letter_deviation
#print axioms C209_other_deviation
end Envire.Class
