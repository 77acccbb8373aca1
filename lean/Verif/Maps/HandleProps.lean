import Verif.Maps.HandleModel
import Mathlib.Algebra.Field.Rat
import Mathlib.Algebra.Order.Ring.Rat

/-! C204: files are closed. -/
namespace Envire.Handle

open Envire.Raster

variable {V K : Type} [Inhabited V] [Field K] [LinearOrder K]

/-- with files left the calls read what they read in the model without numbers of files -/
theorem C204_same (limit n : Nat) (f : File V K) :
    (∀ g : Grid V K, ∀ keys base, n < limit → (readFile limit n g (some f) keys base).2 = g.read f keys base) ∧
    ∀ name band, n + 1 < limit → (readGdal limit n (some f) name band).2 = readGridFromGdal f name band := by
  have h1 : ∀ n, n < limit → ∀ g : Grid V K, ∀ keys base, (readFile limit n g (some f) keys base).2 = g.read f keys base := by
    intro n hn g keys base
    unfold readFile
    dsimp only
    rw [if_neg (by omega)]
    cases g.read f keys base <;> rfl
  refine ⟨fun g keys base hn => h1 n hn g keys base, fun name band hn => ?_⟩
  unfold readGdal readGridFromGdal
  dsimp only
  rw [if_neg (by omega)]
  split
  · rfl
  · split
    · next h => rw [h]
    · next b h =>
      rw [h]
      dsimp only
      rw [h1 (n + 1) hn]
      cases (Grid.empty b.ty : Grid V K).read f [name] band <;> rfl

theorem readFile_count (limit n : Nat) (g : Grid V K) (f : Option (File V K)) (keys : List String) (base : Int) :
    (∀ g', (readFile limit n g f keys base).2 = .ok g' → (readFile limit n g f keys base).1 = n) ∧
    n ≤ (readFile limit n g f keys base).1 ∧ ((readFile limit n g f keys base).1 = n ∨ n < limit ∧ (readFile limit n g f keys base).1 = n + 1) := by
  unfold readFile
  split
  · exact ⟨fun _ _ => rfl, Nat.le_refl _, .inl rfl⟩
  · split
    · exact ⟨fun _ _ => rfl, Nat.le_refl _, .inl rfl⟩
    · next hl =>
      split
      · exact ⟨fun _ _ => rfl, Nat.le_refl _, .inl rfl⟩
      · exact ⟨(fun _ h => by cases h), Nat.le_succ _, .inr ⟨by omega, rfl⟩⟩
      · exact ⟨(fun _ h => by cases h), Nat.le_succ _, .inr ⟨by omega, rfl⟩⟩

theorem items_count (limit : Nat) : ∀ (l : List Item) (n k : Nat), k ≤ n →
    n + (items limit l n k).2.1 ≤ (items limit l n k).1 + k ∧ ((items limit l n k).2.2 = true → n + (items limit l n k).2.1 = (items limit l n k).1 + k) ∧ k ≤ (items limit l n k).2.1 ∧
    (n ≤ limit → (items limit l n k).1 ≤ limit) := by
  intro l
  induction l with
  | nil => intro n k h; exact ⟨Nat.le_refl _, fun _ => rfl, Nat.le_refl _, fun h => h⟩
  | cons i l ih =>
    intro n k h
    cases i with
    | plain => exact ih n k h
    | bad => exact ⟨Nat.le_refl _, (fun h => by cases h), Nat.le_refl _, fun h => h⟩
    | stream there =>
      unfold items
      split
      · next hc =>
        have hl : n < limit := by
          rw [Bool.and_eq_true] at hc
          exact of_decide_eq_true hc.2
        obtain ⟨h1, h2, h3, h4⟩ := ih (n + 1) (k + 1) (by omega)
        refine ⟨by omega, fun hb => ?_, by omega, fun _ => h4 (by omega)⟩
        have := h2 hb
        omega
      · exact ⟨Nat.le_refl _, (fun h => by cases h), Nat.le_refl _, fun h => h⟩
    | grid fine =>
      unfold items
      split
      · exact ⟨Nat.le_refl _, (fun h => by cases h), Nat.le_refl _, fun h => h⟩
      · split
        · exact ih n k h
        · exact ⟨by dsimp only; omega, (fun h => by cases h), Nat.le_refl _, fun _ => by dsimp only; omega⟩

/-- specification: the call is not readGridFromGdal -/
def NotGdal : Op V K → Prop
  | .gdal _ _ _ => False
  | _ => True

/-- **C204 (success)** Each call but readGridFromGdal that succeeds closes all files that it opened. Missing: calls that fail, and readGridFromGdal (below). -/
theorem C204_success_partial (limit n : Nat) (o : Op V K) (ho : NotGdal o) (m : Nat) (h : step limit n o = some (m, true)) : m = n := by
  cases o with
  | gdal _ _ _ => exact ho.elim
  | read g f keys base =>
    have hc := readFile_count limit n g f keys base
    unfold step at h
    dsimp only at h
    generalize readFile limit n g f keys base = r at h hc
    obtain ⟨a, b⟩ := r
    cases b with
    | ok g' => cases h; exact hc.1 g' rfl
    | thrown _ => cases h
    | ub => cases h
  | write g frame keys =>
    unfold step writeFile at h
    dsimp only at h
    split at h
    · cases h
    · split at h
      · cases h
      · cases frame with
        | none => cases h
        | some fr => dsimp only at h; simp only [Option.some.injEq, Prod.mk.injEq] at h; omega
  | save l =>
    unfold step save at h
    dsimp only at h
    split at h
    · cases h
    · obtain ⟨h1, h2, h3⟩ := items_count limit l (n + 1) 0 (by omega)
      split at h
      · next hb =>
        have := h2 hb
        simp only [Option.some.injEq, Prod.mk.injEq] at h
        omega
      · cases h
  | load s =>
    unfold step load at h
    dsimp only at h
    split at h
    · cases h
    · split at h
      · cases h
      · split at h
        · cases h
        · split at h
          · cases h
          · obtain ⟨h1, h2, h3⟩ := items_count limit s.items (n + 1) 0 (by omega)
            split at h
            · next hb =>
              have := h2 hb
              simp only [Option.some.injEq, Prod.mk.injEq] at h
              omega
            · cases h

/-- **C204 (histories)** As long as all calls succeed and none is readGridFromGdal, no file stays open. -/
theorem C204_history_partial (limit : Nat) (l : List (Op V K)) (hl : ∀ o ∈ l, NotGdal o) : ∀ (n m : Nat) (bs : List Bool), run limit n l = some (m, bs) → (∀ b ∈ bs, b = true) → m = n := by
  induction l with
  | nil => intro n m bs h _; cases h; rfl
  | cons o l ih =>
    intro n m bs h hb
    unfold run at h
    cases hs : step limit n o with
    | none => rw [hs] at h; cases h
    | some r =>
      obtain ⟨k, b⟩ := r
      rw [hs] at h
      dsimp only at h
      cases hr : run limit k l with
      | none => rw [hr] at h; cases h
      | some q =>
        rw [hr] at h
        cases h
        have : b = true := hb b List.mem_cons_self
        subst this
        rw [ih (fun o ho => hl o (List.mem_cons_of_mem _ ho)) k q.1 q.2 hr fun b hm => hb b (List.mem_cons_of_mem _ hm)]
        exact C204_success_partial limit n o (hl o List.mem_cons_self) k hs

/-- **C204 (readGridFromGdal, deviation)** Each call of readGridFromGdal that succeeds leaves one more file open. -/
theorem C204_gdal_deviation (limit n : Nat) (f : Option (File V K)) (name : String) (band : Int) (m : Nat) (h : step limit n (.gdal f name band : Op V K) = some (m, true)) : m = n + 1 := by
  unfold step at h
  dsimp only at h
  unfold readGdal at h
  split at h
  · cases h
  · split at h
    · cases h
    · split at h
      · cases h
      · split at h
        · cases h
        · next g b _ =>
          dsimp only at h
          next f' _ _ _ =>
          have hc := readFile_count limit (n + 1) (Grid.empty b.ty) (some f') [name] band
          generalize readFile limit (n + 1) (Grid.empty b.ty) (some f') [name] band = r at h hc
          obtain ⟨a, c⟩ := r
          cases c with
          | ok g' => cases h; exact hc.1 g' rfl
          | thrown _ => cases h
          | ub => cases h

/-- **C204 (failure, deviation)** A file that is opened and cannot be read stays open; so does the file of a grid without a path to the root frame, that of a scene in which an item throws (a failing item after
`k` streams leaves them open as well), and that of a scene without items. -/
theorem C204_failure_deviation (limit n : Nat) (hn : n < limit) :
    (∀ (g g' : Grid V K) (f : File V K) (keys : List String) (base : Int), g.read f keys base = .thrown g' → step limit n (.read g (some f) keys base) = some (n + 1, false)) ∧
    (∀ (g : Grid V K) (keys : List String), g.nx ≠ 0 → g.ny ≠ 0 → keys ≠ [] → step limit n (.write g none keys) = some (n + 1, false)) ∧
    (∀ (k : Nat) (l : List Item), n + 1 + k ≤ limit → step limit n (.save (List.replicate k (.stream true) ++ .bad :: l) : Op V K) = some (n + 1 + k, false) ∧
      step limit n (.load ⟨true, true, true, List.replicate k (.stream true) ++ .bad :: l⟩ : Op V K) = some (n + 1 + k, false)) ∧
    ∀ l, step limit n (.load ⟨true, true, false, l⟩ : Op V K) = some (n + 1, false) := by
  have hit : ∀ (k m j : Nat) (l : List Item), m + k ≤ limit → (items limit (List.replicate k (.stream true) ++ .bad :: l) m j).1 = m + k ∧
      (items limit (List.replicate k (.stream true) ++ .bad :: l) m j).2.2 = false := by
    intro k
    induction k with
    | zero => intro m j l _; exact ⟨rfl, rfl⟩
    | succ k ih =>
      intro m j l h
      rw [List.replicate_succ, List.cons_append]
      unfold items
      rw [if_pos (by simp; omega)]
      obtain ⟨h1, h2⟩ := ih (m + 1) (j + 1) l (by omega)
      exact ⟨by rw [h1]; omega, h2⟩
  refine ⟨fun g g' f keys base h => ?_, fun g keys h1 h2 h3 => ?_, fun k l h => ?_, fun l => ?_⟩
  · unfold step readFile
    dsimp only
    rw [if_neg (by omega), h]
    rfl
  · unfold step writeFile
    dsimp only
    rw [if_neg (by omega), if_neg (by rintro (h | h | h) <;> contradiction)]
    rfl
  · obtain ⟨h1, h2⟩ := hit k (n + 1) 0 l (by omega)
    constructor
    · unfold step save
      dsimp only
      rw [if_neg (by omega), h2, h1]
      rfl
    · unfold step load
      dsimp only
      rw [if_neg (by simp), if_neg (by omega), if_neg (by simp), if_neg (by simp), h2, h1]
      rfl
  · unfold step load
    dsimp only
    rw [if_neg (by simp), if_neg (by omega), if_neg (by simp), if_pos rfl]

theorem full (limit : Nat) (o : Op V K) (m : Nat) (b : Bool) (h : step limit limit o = some (m, b)) : m = limit ∧ b = false := by
  cases o with
  | gdal f name band =>
    unfold step readGdal at h
    cases f with
    | none => cases h; exact ⟨rfl, rfl⟩
    | some f =>
      dsimp only at h
      rw [if_pos (Nat.le_refl _)] at h
      cases h
      exact ⟨rfl, rfl⟩
  | read g f keys base =>
    unfold step readFile at h
    cases f with
    | none => cases h; exact ⟨rfl, rfl⟩
    | some f =>
      dsimp only at h
      rw [if_pos (Nat.le_refl _)] at h
      cases h
      exact ⟨rfl, rfl⟩
  | write g frame keys =>
    unfold step writeFile at h
    dsimp only at h
    rw [if_pos (Nat.le_refl _)] at h
    cases h
    exact ⟨rfl, rfl⟩
  | save l =>
    unfold step save at h
    dsimp only at h
    rw [if_pos (Nat.le_refl _)] at h
    cases h
    exact ⟨rfl, rfl⟩
  | load s =>
    unfold step load at h
    dsimp only at h
    split at h
    · cases h; exact ⟨rfl, rfl⟩
    · rw [if_pos (Nat.le_refl _)] at h
      cases h

/-- **C204 (limit, deviation)** A program that reads one good file as often as it may open files can then neither read nor write any file: all but the last call succeed, and each later call fails. -/
theorem C204_limit_deviation (limit : Nat) (hl : 0 < limit) (f : File V K) (name : String) (band : Int) (x : Option (Grid V K × K × K)) (hf : readGridFromGdal f name band = .ok x) :
    run limit 0 (List.replicate limit (.gdal (some f) name band)) = some (limit, List.replicate (limit - 1) true ++ [false]) ∧
    ∀ (o : Op V K) (m : Nat) (b : Bool), step limit limit o = some (m, b) → m = limit ∧ b = false := by
  refine ⟨?_, full limit⟩
  have hgood : ∀ n, n + 1 < limit → step limit n (.gdal (some f) name band : Op V K) = some (n + 1, true) := by
    intro n hn
    have h2 := (C204_same limit n f).2 name band hn
    rw [hf] at h2
    have h3 : step limit n (.gdal (some f) name band : Op V K) = some ((readGdal limit n (some f) name band).1, true) := by
      unfold step
      dsimp only
      generalize readGdal limit n (some f) name band = r at h2
      obtain ⟨a, c⟩ := r
      dsimp only at h2
      subst h2
      rfl
    rw [h3, C204_gdal_deviation limit n (some f) name band _ h3]
  have hlast : ∀ n, n + 1 = limit → step limit n (.gdal (some f) name band : Op V K) = some (n + 1, false) := by
    intro n hn
    unfold readGridFromGdal at hf
    unfold step readGdal
    dsimp only
    rw [if_neg (by omega)]
    by_cases hb : (f.bands.length : Int) < band
    · rw [if_pos hb] at hf
      cases hf
    · rw [if_neg hb] at hf ⊢
      cases hk : (if band < 1 then none else f.bands[(band - 1).toNat]?) with
      | none => rw [hk] at hf; cases hf
      | some b =>
        dsimp only
        unfold readFile
        dsimp only
        rw [if_pos (by omega)]
        rfl
  have key : ∀ k n, n + (k + 1) = limit → run limit n (List.replicate (k + 1) (.gdal (some f) name band : Op V K)) = some (limit, List.replicate k true ++ [false]) := by
    intro k
    induction k with
    | zero =>
      intro n hn
      show (match step limit n _ with | none => none | some (n, b) => _) = _
      rw [hlast n hn]
      subst hn
      rfl
    | succ k ih =>
      intro n hn
      rw [List.replicate_succ]
      unfold run
      rw [hgood n (by omega)]
      dsimp only
      rw [ih (n + 1) (by omega)]
      rfl
  obtain ⟨k, rfl⟩ : ∃ k, limit = k + 1 := ⟨limit - 1, by omega⟩
  exact key k 0 (by omega)

/-- **C204 (scenes, deviation)** The streams of a scene are all open until its end: a scene with as many streams as files may be open cannot be saved at all, and each attempt leaves every file open. -/
theorem C204_scene_deviation (limit n : Nat) (hn : n < limit) (l : List Item) : save limit n (List.replicate limit (.stream true) ++ l) = (limit, false) := by
  have key : ∀ (c m k : Nat), m ≤ limit → limit ≤ m + c → 0 < c → limit < m + c → (items limit (List.replicate c (.stream true) ++ l) m k).1 = limit ∧
      (items limit (List.replicate c (.stream true) ++ l) m k).2.2 = false := by
    intro c
    induction c with
    | zero => intro m k _ _ h; omega
    | succ c ih =>
      intro m k hm hc _ hlt
      rw [List.replicate_succ, List.cons_append]
      unfold items
      by_cases h : m < limit
      · rw [if_pos (by simp [h])]
        exact ih (m + 1) (k + 1) (by omega) (by omega) (by omega) (by omega)
      · rw [if_neg (by simp [h])]
        exact ⟨by dsimp only; omega, rfl⟩
  obtain ⟨h1, h2⟩ := key limit (n + 1) 0 (by omega) (by omega) (by omega) (by omega)
  unfold save
  rw [if_neg (by omega)]
  dsimp only
  rw [h2, h1]
  rfl

/-- the number of open files never falls: what is left open stays open -/
theorem C204_monotone (limit n : Nat) (o : Op V K) (m : Nat) (b : Bool) (h : step limit n o = some (m, b)) : n ≤ m := by
  cases o with
  | read g f keys base =>
    have hc := readFile_count limit n g f keys base
    unfold step at h
    dsimp only at h
    generalize readFile limit n g f keys base = r at h hc
    obtain ⟨a, c⟩ := r
    cases c with
    | ok g' => cases h; exact hc.2.1
    | thrown _ => cases h; exact hc.2.1
    | ub => cases h
  | gdal f name band =>
    cases f with
    | none => cases h; omega
    | some f =>
      unfold step readGdal at h
      dsimp only at h
      split at h
      · cases h; omega
      · split at h
        · cases h; omega
        · split at h
          · cases h
          · next b' _ =>
            have hc := readFile_count limit (n + 1) (Grid.empty b'.ty) (some f) [name] band
            generalize readFile limit (n + 1) (Grid.empty b'.ty) (some f) [name] band = r at h hc
            obtain ⟨a, c⟩ := r
            have := hc.2.1
            cases c with
            | ok g' => cases h; dsimp only at this; omega
            | thrown _ => cases h; dsimp only at this; omega
            | ub => cases h
  | write g frame keys =>
    unfold step writeFile at h
    dsimp only at h
    split at h
    · cases h; omega
    · split at h
      · cases h; omega
      · cases frame with
        | none => dsimp only at h; cases h; omega
        | some fr => dsimp only at h; simp only [Option.some.injEq, Prod.mk.injEq] at h; omega
  | save l =>
    unfold step save at h
    dsimp only at h
    split at h
    · cases h; omega
    · obtain ⟨h1, h2, h3⟩ := items_count limit l (n + 1) 0 (by omega)
      split at h
      · next hb =>
        have := h2 hb
        simp only [Option.some.injEq, Prod.mk.injEq] at h
        omega
      · simp only [Option.some.injEq, Prod.mk.injEq] at h
        omega
  | load s =>
    unfold step load at h
    dsimp only at h
    split at h
    · cases h; omega
    · split at h
      · cases h
      · split at h
        · cases h; omega
        · split at h
          · cases h; omega
          · obtain ⟨h1, h2, h3⟩ := items_count limit s.items (n + 1) 0 (by omega)
            split at h
            · next hb =>
              have := h2 hb
              simp only [Option.some.injEq, Prod.mk.injEq] at h
              omega
            · simp only [Option.some.injEq, Prod.mk.injEq] at h
              omega

/-! ### examples -/

example : save 10 2 [.stream true, .grid true, .stream true] = (2, true) ∧ save 10 2 [.stream true, .bad] = (4, false) ∧ save 4 2 [.stream true, .stream true] = (4, false) := by decide +kernel
example : load 10 2 ⟨true, true, true, [.stream true, .plain, .grid true]⟩ = some (2, true) ∧ load 10 2 ⟨true, true, true, [.stream true, .grid false]⟩ = some (5, false) ∧
    load 10 10 ⟨true, true, true, []⟩ = none ∧ load 10 2 ⟨true, false, true, []⟩ = some (2, false) := by decide +kernel

/-- a file with one cell -/
def one : File Nat ℚ := ⟨1, 1, some ⟨5, 1, 0, 7, 0, 1⟩, [⟨.byte, fun _ _ => 42⟩], none⟩

example : step 5 0 (.gdal (some one) "z" 1) = some (1, true) ∧ step 5 0 (.read (Grid.empty .byte) (some one) ["z"] 1) = some (0, true) ∧
    step 5 0 (.read (Grid.empty .float32) (some one) ["z"] 1) = some (1, false) := by decide +kernel

#print axioms C204_same
#print axioms C204_success_partial
#print axioms C204_history_partial
#print axioms C204_gdal_deviation
#print axioms C204_failure_deviation
#print axioms C204_limit_deviation
#print axioms C204_scene_deviation
#print axioms C204_monotone
end Envire.Handle
