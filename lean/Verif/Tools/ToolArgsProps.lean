import Verif.Tools.ToolArgsModel
import Mathlib.Data.Rat.Floor
import Mathlib.Tactic.Linarith

/-!
C162: arguments that may be left out. C163: the heights along a trajectory.
-/

namespace Envire.ToolArgs

/-! ### specification -/

/-- an argument at place `i` of those that may be left out: the value of the word, or the default -/
def Given {A : Type} (parse : String → Option A) (opts : List String) (i : Nat) (default v : A) : Prop :=
  (∃ s, opts[i]? = some s ∧ parse s = some v) ∨ (opts[i]? = none ∧ v = default)

/-- the words in the places from `i` on are what they should be -/
def Fine {A : Type} (parse : String → Option A) (opts : List String) (i : Nat) : Prop := ∀ s, opts[i]? = some s → parse s ≠ none

/-! ### C162 -/

theorem bind_ok {A B : Type} {r : Res A} {f : A → Res B} {b : B} : r.bind f = .ok b ↔ ∃ a, r = .ok a ∧ f a = .ok b := by
  cases r <;> simp [Res.bind]

theorem bind_undefined {A B : Type} {r : Res A} {f : A → Res B} : r.bind f = .undefined ↔ r = .undefined ∨ ∃ a, r = .ok a ∧ f a = .undefined := by
  cases r <;> simp [Res.bind]

theorem cast_ok {A : Type} {parse : String → Option A} {o : Option String} {v : A} : cast parse o = .ok v ↔ ∃ s, o = some s ∧ parse s = some v := by
  unfold cast
  cases o with
  | none => simp
  | some s =>
    dsimp only
    cases h : parse s with
    | none => simp [h]
    | some a => simp [h]

theorem word_ok {o : Option String} {v : String} : word o = .ok v ↔ o = some v := by
  unfold word
  cases o <;> simp

/-- the condition in front of the conversion is that the word exists -/
theorem opt_ok {A : Type} {parse : String → Option A} {l : List String} {i : Nat} {g : Bool} (hg : g = decide (i < l.length)) {d v : A} : opt g parse l[i]? d = .ok v ↔ Given parse l i d v := by
  unfold opt Given
  rw [hg]
  by_cases h : i < l.length
  · rw [if_pos (decide_eq_true h), cast_ok]
    have : l[i]? ≠ none := by rw [Ne, List.getElem?_eq_none_iff]; omega
    exact ⟨.inl, fun h => h.resolve_right fun h => this h.1⟩
  · rw [if_neg (by simp only [decide_eq_true_eq]; exact h)]
    have : l[i]? = none := List.getElem?_eq_none_iff.2 (by omega)
    rw [this]
    simp [eq_comm]

theorem opt_defined {A : Type} {parse : String → Option A} {l : List String} {i : Nat} {g : Bool} (hg : g = decide (i < l.length)) {d : A} : opt g parse l[i]? d ≠ .undefined := by
  unfold opt
  rw [hg]
  by_cases h : i < l.length
  · rw [if_pos (decide_eq_true h)]
    obtain ⟨s, e⟩ : ∃ s, l[i]? = some s := ⟨_, List.getElem?_eq_getElem h⟩
    rw [e]
    unfold cast
    dsimp only
    cases parse s <;> simp
  · rw [if_neg (by simp only [decide_eq_true_eq]; exact h)]
    simp

theorem word_defined {l : List String} {i : Nat} (h : i < l.length) : word l[i]? ≠ .undefined := by
  rw [List.getElem?_eq_getElem h]
  simp [word]

theorem given_cons {A : Type} {parse : String → Option A} {a : String} {l : List String} {i : Nat} {d v : A} : Given parse (a :: l) (i + 1) d v ↔ Given parse l i d v := by
  simp [Given]

/-- **C162** env_mls: any number of the last arguments may be left out; what is given is used in the documented place, the rest has its default -/
theorem C162_mls (num : String → Option ℚ) (name i o : String) (opts : List String) (r : MlsArgs) : mlsArgs num (name :: i :: o :: opts) = .ok r ↔
    r.input = i ∧ r.output = o ∧ Given num opts 0 (1 / 20) r.res ∧ Given num opts 1 r.res r.var ∧ Given num opts 2 (1 / 2) r.gap ∧ Given num opts 3 r.res r.thickness ∧ r.area = opts[4]? := by
  have hl : ¬ (name :: i :: o :: opts).length < 3 := by simp only [List.length_cons]; omega
  have ha : ∀ a : Option String, Given (fun s => some (some s)) opts 4 none a ↔ a = opts[4]? := by
    intro a
    unfold Given
    cases h : opts[4]? with
    | none => simp
    | some s => simp [eq_comm]
  unfold mlsArgs
  dsimp only
  rw [if_neg hl]
  simp only [bind_ok, word_ok]
  constructor
  · rintro ⟨i', h1, res, h3, var, h4, gap, h5, th, h6, area, h7, o', h2, h⟩
    rw [opt_ok (by simp only [List.length_cons, decide_eq_decide]; omega)] at h3 h4 h5 h6 h7
    simp only [given_cons] at h3 h4 h5 h6 h7
    cases h
    simp only [List.getElem?_cons_succ, List.getElem?_cons_zero, Option.some.injEq] at h1 h2
    exact ⟨h1.symm, h2.symm, h3, h4, h5, h6, (ha _).1 h7⟩
  · rintro ⟨h1, h2, h3, h4, h5, h6, h7⟩
    refine ⟨i, rfl, r.res, ?_, r.var, ?_, r.gap, ?_, r.thickness, ?_, r.area, ?_, o, rfl, ?_⟩
    · rw [opt_ok (by simp only [List.length_cons, decide_eq_decide]; omega)]
      simpa only [given_cons] using h3
    · rw [opt_ok (by simp only [List.length_cons, decide_eq_decide]; omega)]
      simpa only [given_cons] using h4
    · rw [opt_ok (by simp only [List.length_cons, decide_eq_decide]; omega)]
      simpa only [given_cons] using h5
    · rw [opt_ok (by simp only [List.length_cons, decide_eq_decide]; omega)]
      simpa only [given_cons] using h6
    · rw [opt_ok (by simp only [List.length_cons, decide_eq_decide]; omega)]
      simpa only [given_cons] using (ha _).2 h7
    · rw [← h1, ← h2]

/-- **C162** asc2ply: the same -/
theorem C162_asc (num : String → Option ℚ) (int : String → Option Int) (name i o : String) (opts : List String) (r : AscArgs) : ascArgs num int (name :: i :: o :: opts) = .ok r ↔
    r.input = i ∧ r.output = o ∧ Given int opts 0 1 r.sampling ∧ Given num opts 1 0 r.cellSize := by
  have hl : ¬ (name :: i :: o :: opts).length < 3 := by simp only [List.length_cons]; omega
  unfold ascArgs
  dsimp only
  rw [if_neg hl]
  simp only [bind_ok, word_ok]
  constructor
  · rintro ⟨i', h1, o', h2, sa, h3, ce, h4, h⟩
    rw [opt_ok (by simp only [List.length_cons, decide_eq_decide]; omega)] at h3 h4
    simp only [given_cons] at h3 h4
    cases h
    simp only [List.getElem?_cons_succ, List.getElem?_cons_zero, Option.some.injEq] at h1 h2
    exact ⟨h1.symm, h2.symm, h3, h4⟩
  · rintro ⟨h1, h2, h3, h4⟩
    refine ⟨i, rfl, o, rfl, r.sampling, ?_, r.cellSize, ?_, ?_⟩
    · rw [opt_ok (by simp only [List.length_cons, decide_eq_decide]; omega)]
      simpa only [given_cons] using h3
    · rw [opt_ok (by simp only [List.length_cons, decide_eq_decide]; omega)]
      simpa only [given_cons] using h4
    · rw [← h1, ← h2]

/-- **C162** no command line of env_mls and asc2ply reads behind its end; less than two arguments give the usage -/
theorem C162_defined (num : String → Option ℚ) (int : String → Option Int) (argv : List String) :
    mlsArgs num argv ≠ .undefined ∧ ascArgs num int argv ≠ .undefined ∧ (argv.length < 3 → mlsArgs num argv = .usage ∧ ascArgs num int argv = .usage) := by
  refine ⟨?_, ?_, fun h => ⟨if_pos h, if_pos h⟩⟩
  · unfold mlsArgs
    dsimp only
    by_cases hl : argv.length < 3
    · rw [if_pos hl]; simp
    · rw [if_neg hl]
      simp only [ne_eq, bind_undefined, not_or, not_exists, not_and]
      refine ⟨word_defined (by omega), fun _ _ => ⟨opt_defined ?_, fun _ _ => ⟨opt_defined ?_, fun _ _ => ⟨opt_defined ?_, fun _ _ => ⟨opt_defined ?_, fun _ _ => ⟨opt_defined ?_, fun _ _ => ⟨word_defined (by omega), fun _ _ => by simp⟩⟩⟩⟩⟩⟩⟩
      all_goals rw [decide_eq_decide]; omega
  · unfold ascArgs
    dsimp only
    by_cases hl : argv.length < 3
    · rw [if_pos hl]; simp
    · rw [if_neg hl]
      simp only [ne_eq, bind_undefined, not_or, not_exists, not_and]
      refine ⟨word_defined (by omega), fun _ _ => ⟨word_defined (by omega), fun _ _ => ⟨opt_defined ?_, fun _ _ => ⟨opt_defined ?_, fun _ _ => by simp⟩⟩⟩⟩
      all_goals rw [decide_eq_decide]; omega

/-- **C162** env_simplify with the size of the cells. Missing: without, see `C162_simplify_deviation` -/
theorem C162_simplify_partial (num : String → Option ℚ) (name i o s : String) (more : List String) (r : SimplifyArgs) : simplifyArgs num (name :: i :: o :: s :: more) = .ok r ↔ r.input = i ∧ r.output = o ∧ num s = some r.cellSize := by
  have hl : ¬ (name :: i :: o :: s :: more).length < 3 := by simp only [List.length_cons]; omega
  unfold simplifyArgs
  dsimp only
  rw [if_neg hl]
  have hg : decide ((name :: i :: o :: s :: more).length ≥ 3) = true := by simp only [List.length_cons, decide_eq_true_eq]; omega
  rw [hg]
  simp only [bind_ok, word_ok, opt, if_true, cast_ok]
  constructor
  · rintro ⟨c, ⟨s', h3, h4⟩, i', h1, o', h2, h⟩
    cases h
    simp only [List.getElem?_cons_succ, List.getElem?_cons_zero, Option.some.injEq] at h1 h2 h3
    subst h3
    exact ⟨h1.symm, h2.symm, h4⟩
  · rintro ⟨h1, h2, h4⟩
    exact ⟨r.cellSize, ⟨s, rfl, h4⟩, i, rfl, o, rfl, by rw [← h1, ← h2]⟩

/-- **C162, deviation** env_simplify without the size of the cells, which may be left out by the usage, reads a NULL pointer -/
theorem C162_simplify_deviation (num : String → Option ℚ) (name i o : String) : simplifyArgs num [name, i, o] = .undefined := rfl

/-- **C162** env_traversability with all arguments. Missing: with less, see `C162_trav_deviation` -/
theorem C162_trav_partial (num : String → Option ℚ) (int : String → Option Int) (name i a b c d : String) (r : TravArgs) : travArgs num int [name, i, a, b, c, d] = .ok r ↔
    r.input = i ∧ num a = some r.slope ∧ int b = some r.classes ∧ num c = some r.width ∧ num d = some r.clearance := by
  unfold travArgs
  dsimp only
  rw [if_neg (by simp only [List.length_cons, List.length_nil]; omega)]
  have hg : ∀ n, n < 6 → decide ([name, i, a, b, c, d].length > n) = true := by intro n hn; simp only [List.length_cons, List.length_nil, decide_eq_true_eq]; omega
  rw [hg 2 (by omega), hg 3 (by omega), hg 4 (by omega)]
  simp only [bind_ok, word_ok, opt, if_true, cast_ok]
  constructor
  · rintro ⟨i', h1, sl, ⟨_, e2, h2⟩, cl, ⟨_, e3, h3⟩, wi, ⟨_, e4, h4⟩, ce, ⟨_, e5, h5⟩, h⟩
    cases h
    simp only [List.getElem?_cons_succ, List.getElem?_cons_zero, Option.some.injEq] at h1 e2 e3 e4 e5
    subst e2 e3 e4 e5
    exact ⟨h1.symm, h2, h3, h4, h5⟩
  · rintro ⟨h1, h2, h3, h4, h5⟩
    exact ⟨i, rfl, r.slope, ⟨a, rfl, h2⟩, r.classes, ⟨b, rfl, h3⟩, r.width, ⟨c, rfl, h4⟩, r.clearance, ⟨d, rfl, h5⟩, by rw [← h1]⟩

/-- **C162, deviation** env_traversability with less than all its arguments never works: with the input, and up to three more words that are numbers, a NULL pointer is read -/
theorem C162_trav_deviation (num : String → Option ℚ) (int : String → Option Int) (name i : String) (opts : List String) (hl : opts.length < 4) (h0 : Fine num opts 0) (h1 : Fine int opts 1) (h2 : Fine num opts 2) :
    travArgs num int (name :: i :: opts) = .undefined := by
  match opts, hl, h0, h1, h2 with
  | [], _, _, _, _ => rfl
  | [a], _, h0, _, _ =>
    obtain ⟨x, e⟩ := Option.ne_none_iff_exists'.1 (h0 a rfl)
    simp [travArgs, word, cast, opt, Res.bind, e]
  | [a, b], _, h0, h1, _ =>
    obtain ⟨x, e⟩ := Option.ne_none_iff_exists'.1 (h0 a rfl)
    obtain ⟨y, f⟩ := Option.ne_none_iff_exists'.1 (h1 b rfl)
    simp [travArgs, word, cast, opt, Res.bind, e, f]
  | [a, b, c], _, h0, h1, h2 =>
    obtain ⟨x, e⟩ := Option.ne_none_iff_exists'.1 (h0 a rfl)
    obtain ⟨y, f⟩ := Option.ne_none_iff_exists'.1 (h1 b rfl)
    obtain ⟨z, g⟩ := Option.ne_none_iff_exists'.1 (h2 c rfl)
    simp [travArgs, word, cast, opt, Res.bind, e, f, g]
  | _ :: _ :: _ :: _ :: _, hl, _, _, _ => exact absurd hl (by simp only [List.length_cons]; omega)

/-- **C162** env_mls_trajectory works with both of its arguments; with one, which should give the usage, a NULL pointer is read -/
theorem C162_trajectory (name i t : String) (more : List String) : trajectoryArgs (name :: i :: t :: more) = .ok (i, t) ∧ trajectoryArgs [name, i] = .undefined ∧ trajectoryArgs [name] = .usage := by
  refine ⟨?_, rfl, rfl⟩
  unfold trajectoryArgs
  dsimp only
  rw [if_neg (by simp only [List.length_cons]; omega)]
  rfl

/-! ### C163 -/

/-- the words of a trajectory, with the points of it -/
def wordsOf (ps : List (ℚ × ℚ × ℚ)) : List (Option ℚ) := ps.flatMap fun p => [some p.1, some p.2.1, some p.2.2]

/-- a point that is read -/
def known (p : ℚ × ℚ × ℚ) : Read := (some p.1, some p.2.1, some p.2.2)

theorem readPoint_more (p q : ℚ × ℚ × ℚ) (ps : List (ℚ × ℚ × ℚ)) (space : Bool) :
    readPoint ⟨wordsOf (p :: q :: ps), space, false, false⟩ = (known p, ⟨wordsOf (q :: ps), space, false, false⟩) := rfl

theorem readPoint_last (p : ℚ × ℚ × ℚ) (space : Bool) : readPoint ⟨wordsOf [p], space, false, false⟩ = (known p, ⟨[], space, false, !space⟩) := rfl

theorem loop_points : ∀ (ps : List (ℚ × ℚ × ℚ)) (p : ℚ × ℚ × ℚ) (space : Bool) (n : Nat),
    loop (ps.length + 1 + n) ⟨wordsOf (p :: ps), space, false, false⟩ = (loop n ⟨[], space, false, !space⟩).map ((p :: ps).map known ++ ·)
  | [], p, space, n => by
    rw [show ([] : List (ℚ × ℚ × ℚ)).length + 1 + n = n + 1 by simp only [List.length_nil]; omega]
    rw [loop]
    dsimp only
    rw [if_neg (by simp), readPoint_last]
    rfl
  | q :: ps, p, space, n => by
    rw [show (q :: ps).length + 1 + n = (ps.length + 1 + n) + 1 by simp only [List.length_cons]; omega]
    rw [loop]
    dsimp only
    rw [if_neg (by simp), readPoint_more, loop_points ps q space n, Option.map_map]
    rfl

/-- **C163** a trajectory that ends right behind its last number: one line for each point, in this order. Missing: other files, see the deviations -/
theorem C163_lines_partial (ps : List (ℚ × ℚ × ℚ)) (h : ps ≠ []) : ∃ n, loop n (openFile (some (wordsOf ps, false))) = some (ps.map known) := by
  obtain ⟨p, ps, rfl⟩ := List.exists_cons_of_ne_nil h
  refine ⟨ps.length + 1 + 1, ?_⟩
  show loop _ ⟨wordsOf (p :: ps), false, false, false⟩ = _
  rw [loop_points]
  show some ((p :: ps).map known ++ []) = _
  rw [List.append_nil]

/-- **C163, deviation** with a line break behind the last point, as text files have it, there is one more line, for coordinates that were never set -/
theorem C163_newline_deviation (ps : List (ℚ × ℚ × ℚ)) : ∃ n, loop n (openFile (some (wordsOf ps, true))) = some (ps.map known ++ [(none, none, none)]) := by
  cases ps with
  | nil => exact ⟨2, rfl⟩
  | cons p ps =>
    refine ⟨ps.length + 1 + 2, ?_⟩
    show loop _ ⟨wordsOf (p :: ps), true, false, false⟩ = _
    rw [loop_points]
    rfl

theorem failed_stays (s : Stream) (h : s.fail = true) (he : s.eof = false) : ∀ n, loop n s = none := by
  have step : (readPoint s).2 = s := by
    obtain ⟨w, sp, f, e⟩ := s
    dsimp only at h he
    subst h he
    rfl
  intro n
  induction n with
  | zero => rfl
  | succ n ih =>
    rw [loop, he, if_neg (by simp), step, ih]
    rfl

/-- **C163, deviation** the tool does not end if the trajectory cannot be opened -/
theorem C163_missing_deviation (n : Nat) : loop n (openFile none) = none := failed_stays _ rfl rfl n

/-- **C163, deviation** it does not end, either, if a point has a word that is not a number -/
theorem C163_word_deviation (ps : List (ℚ × ℚ × ℚ)) (rest : List (Option ℚ)) (space : Bool) (n : Nat) : loop n (openFile (some (wordsOf ps ++ none :: rest, space))) = none := by
  show loop n ⟨wordsOf ps ++ none :: rest, space, false, false⟩ = none
  induction ps generalizing n with
  | nil =>
    cases n with
    | zero => rfl
    | succ n =>
      rw [loop]
      dsimp only
      rw [if_neg (by simp)]
      have : (readPoint ⟨wordsOf [] ++ none :: rest, space, false, false⟩).2 = ⟨rest, space, true, false⟩ := rfl
      rw [this, failed_stays _ rfl rfl]
      rfl
  | cons p ps ih =>
    cases n with
    | zero => rfl
    | succ n =>
      rw [loop]
      dsimp only
      rw [if_neg (by simp)]
      have : (readPoint ⟨wordsOf (p :: ps) ++ none :: rest, space, false, false⟩).2 = ⟨wordsOf ps ++ none :: rest, space, false, false⟩ := by
        cases ps <;> rfl
      rw [this, ih]
      rfl

theorem fold_height (means : List ℚ) (a : ℚ) :
    a ≤ means.foldl (fun top mean => if mean > top then mean else top) a ∧ (∀ m ∈ means, m ≤ means.foldl (fun top mean => if mean > top then mean else top) a) ∧
    (means.foldl (fun top mean => if mean > top then mean else top) a = a ∨ means.foldl (fun top mean => if mean > top then mean else top) a ∈ means) := by
  induction means generalizing a with
  | nil => exact ⟨le_refl _, fun _ h => (List.not_mem_nil h).elim, .inl rfl⟩
  | cons m ms ih =>
    rw [List.foldl_cons]
    obtain ⟨h1, h2, h3⟩ := ih (if m > a then m else a)
    have e1 : a ≤ (if m > a then m else a) := by split <;> linarith
    have e2 : m ≤ (if m > a then m else a) := by split <;> linarith
    refine ⟨e1.trans h1, fun x hx => ?_, ?_⟩
    · rcases List.mem_cons.1 hx with rfl | hx
      · exact e2.trans h1
      · exact h2 x hx
    · rcases h3 with h3 | h3
      · by_cases h : m > a
        · rw [h3, if_pos h]
          exact .inr (List.mem_cons_self ..)
        · rw [h3, if_neg h]
          exact .inl rfl
      · exact .inr (List.mem_cons_of_mem _ h3)

/-- **C163** the printed height is the mean of the highest patch of the cell, and -1e9 where there is none -/
theorem C163_height (cell : Option (List ℚ)) (h : ∀ l, cell = some l → ∀ m ∈ l, -10 ^ 9 < m) :
    (∀ l, cell = some l → l ≠ [] → height cell ∈ l ∧ ∀ m ∈ l, m ≤ height cell) ∧ ((∀ l, cell = some l → l = []) → height cell = -10 ^ 9) := by
  constructor
  · rintro l rfl hl
    obtain ⟨-, h2, h3⟩ := fold_height l (-10 ^ 9)
    refine ⟨h3.resolve_left fun e => ?_, h2⟩
    obtain ⟨m, ms, rfl⟩ := List.exists_cons_of_ne_nil hl
    have a := h2 m (List.mem_cons_self ..)
    rw [e] at a
    exact absurd (h _ rfl m (List.mem_cons_self ..)) (not_lt.2 a)
  · intro hl
    cases cell with
    | none => rfl
    | some l =>
      rw [hl l rfl]
      rfl

/-! examples -/

def digits (s : String) : Option ℚ := if s = "2" then some 2 else if s = "0.1" then some (1 / 10) else none

example : ∃ r, mlsArgs digits ["env_mls", "a", "b", "0.1"] = .ok r ∧ r.res = 1 / 10 ∧ r.var = 1 / 10 ∧ r.gap = 1 / 2 := ⟨_, rfl, rfl, rfl, rfl⟩

example : mlsArgs digits ["env_mls", "a", "b", "x"] = .throws := rfl

example : Fine digits ["2"] 0 := by intro s h; cases h; decide

example : height (some [1, 3, 2]) = 3 := by decide +kernel

example : wordsOf [(1, 2, 3), (4, 5, 6)] = [some 1, some 2, some 3, some 4, some 5, some 6] := rfl

#print axioms Envire.ToolArgs.C162_mls
#print axioms Envire.ToolArgs.C162_asc
#print axioms Envire.ToolArgs.C162_defined
#print axioms Envire.ToolArgs.C162_simplify_partial
#print axioms Envire.ToolArgs.C162_simplify_deviation
#print axioms Envire.ToolArgs.C162_trav_partial
#print axioms Envire.ToolArgs.C162_trav_deviation
#print axioms Envire.ToolArgs.C162_trajectory
#print axioms Envire.ToolArgs.C163_lines_partial
#print axioms Envire.ToolArgs.C163_newline_deviation
#print axioms Envire.ToolArgs.C163_missing_deviation
#print axioms Envire.ToolArgs.C163_word_deviation
#print axioms Envire.ToolArgs.C163_height

end Envire.ToolArgs
