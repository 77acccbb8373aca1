import Verif.Maps.CloudTextModel

/-!
C119: point clouds as text.
-/

namespace Envire.CloudText

noncomputable section

/-! ### specification -/

/-- a line of numbers with blanks between them -/
def Line (print : ℝ → List Char) (l : List ℝ) : List Char := List.intercalate [' '] (l.map print)

/-- a text of lines of numbers; `last` if there is an end of line after the last one -/
def Lines (print : ℝ → List Char) (last : Bool) : List (List ℝ) → List Char
  | [] => []
  | [l] => Line print l ++ if last then ['\n'] else []
  | l :: m :: rest => Line print l ++ '\n' :: Lines print last (m :: rest)

/-- a point and its remission -/
structure Row where
  p : V3
  remission : ℝ

/-- the numbers of a line in the format XYZ, or XYZR -/
def Row.numbers (remission : Bool) (a : Row) : List ℝ := if remission then [a.p.1, a.p.2.1, a.p.2.2, a.remission] else [a.p.1, a.p.2.1, a.p.2.2]

/-- the lines that are used: all, or those for which rand() is a multiple of the sample -/
def Used (sample : Int) (r : Nat → Nat) (i : Nat) : Prop := sample = 1 ∨ sample ∣ (r i : Int)

/-! ### the stream -/

theorem number_print (N : Numbers) (x : ℝ) (pre rest : List Char) (hp : ∀ c ∈ pre, isSpace c = true) (hr : ∀ c ∈ rest.head?, isSpace c = true) :
    (Stream.of (pre ++ (N.print x ++ rest))).number N = (some (N.round x), { text := rest, eof := rest = [], fail := false }) := by
  have hd : (pre ++ (N.print x ++ rest)).dropWhile isSpace = N.print x ++ rest := by
    rw [List.dropWhile_append_of_pos hp]
    obtain ⟨c, t, hc⟩ := List.exists_cons_of_ne_nil (N.print_ne x)
    have := N.print_space x c (by rw [hc]; exact List.mem_cons_self)
    rw [hc, List.cons_append, List.dropWhile_cons_of_neg (by simp [this])]
  have hne : N.print x ++ rest ≠ [] := by simp [N.print_ne]
  simp only [Stream.number, Stream.of, Stream.good, Bool.not_false, Bool.and_self, if_true, hd, if_neg hne, N.read_print x rest hr, Option.getD_some, Option.isNone_some]

theorem chosen_one (r : Nat) : chosen 1 r = some true := rfl

theorem chosen_iff {sample : Int} (h : sample ≠ 0) (r : Nat → Nat) (i : Nat) : chosen sample (r i) = some true ∧ Used sample r i ∨ chosen sample (r i) = some false ∧ ¬ Used sample r i := by
  unfold chosen Used
  by_cases h1 : sample = 1
  · exact .inl ⟨if_pos h1, .inl h1⟩
  · rw [if_neg h1, if_neg h]
    by_cases h2 : sample ∣ (r i : Int)
    · exact .inl ⟨by simp [Int.tmod_eq_zero_of_dvd h2], .inr h2⟩
    · refine .inr ⟨?_, by simp [h1, h2]⟩
      have : ¬ (r i : Int).tmod sample = 0 := fun h3 => h2 (Int.dvd_of_tmod_eq_zero h3)
      simp [this]

theorem skip_line (l rest : List Char) (hl : ∀ c ∈ l, c ≠ '\n') : ∀ n, l.length < n → skip n (l ++ '\n' :: rest) = (rest, false) := by
  induction l with
  | nil => intro n hn; cases n with
    | zero => simp at hn
    | succ n => simp [skip]
  | cons c l ih =>
    intro n hn
    cases n with
    | zero => simp at hn
    | succ n =>
      rw [List.cons_append, skip, if_neg (hl c List.mem_cons_self)]
      exact ih (fun d hd => hl d (List.mem_cons_of_mem _ hd)) n (by simpa using hn)

theorem skip_end (l : List Char) (hl : ∀ c ∈ l, c ≠ '\n') : ∀ n, l.length < n → skip n l = ([], true) := by
  induction l with
  | nil => intro n hn; cases n with
    | zero => simp at hn
    | succ n => simp [skip]
  | cons c l ih =>
    intro n hn
    cases n with
    | zero => simp at hn
    | succ n =>
      rw [skip, if_neg (hl c List.mem_cons_self)]
      exact ih (fun d hd => hl d (List.mem_cons_of_mem _ hd)) n (by simpa using hn)

theorem line_chars (N : Numbers) (l : List ℝ) : (∀ c ∈ Line N.print l, c ≠ '\n') ∧ (Line N.print l).length ≤ 25 * l.length := by
  unfold Line
  induction l with
  | nil => simp
  | cons x l ih =>
    have hx : ∀ c ∈ N.print x, c ≠ '\n' := by
      intro c hc h
      have := N.print_space x c hc
      rw [h] at this
      cases this
    have hl := N.print_length x
    cases l with
    | nil => simpa using ⟨hx, by omega⟩
    | cons y l =>
      simp only [List.map_cons] at ih ⊢
      rw [List.intercalate_cons_cons]
      refine ⟨fun c hc => ?_, ?_⟩
      · simp only [List.mem_append, List.mem_singleton] at hc
        rcases hc with (hc | rfl) | hc
        · exact hx c hc
        · decide
        · exact ih.1 c hc
      · have := ih.2
        have e : (y :: l).length = l.length + 1 := rfl
        rw [e] at this
        rw [List.length_append, List.length_append, List.length_singleton, List.length_cons, e]
        omega

theorem of_eq {t : List Char} (h : t ≠ []) : ({ text := t, eof := decide (t = []), fail := false } : Stream) = Stream.of t := by
  unfold Stream.of
  simp [h]

/-- a point as it is read -/
def near (N : Numbers) (p : V3) : V3 := (N.round p.1, N.round p.2.1, N.round p.2.2)

/-- what a line adds -/
def plus (N : Numbers) (remission : Bool) (d : Data) (a : Row) : Data :=
  { vertices := d.vertices ++ [near N a.p], colors := if remission then d.colors.map (· ++ [(N.round a.remission / 255, 0, 0)]) else d.colors }

theorem take_row (N : Numbers) (remission : Bool) (a : Row) (tail : List Char) (ht : ∀ c ∈ tail.head?, c = '\n') (d : Data) :
    take N remission (Stream.of (Line N.print (a.numbers remission) ++ tail)) d = some (Stream.ignore { text := tail, eof := tail = [], fail := false }, plus N remission d a) := by
  have sp : ∀ c ∈ tail.head?, isSpace c = true := fun c hc => by rw [ht c hc]; rfl
  have blank : ∀ c ∈ [' '], isSpace c = true := by decide
  have head : ∀ t : List Char, ∀ c ∈ (' ' :: t).head?, isSpace c = true := by
    intro t c hc
    cases hc
    rfl
  have first : ∀ x t, (Stream.of (N.print x ++ ' ' :: t)).number N = (some (N.round x), Stream.of (' ' :: t)) := by
    intro x t
    have := number_print N x [] (' ' :: t) (by simp) (head t)
    rw [List.nil_append] at this
    rw [this, of_eq (by simp)]
  have next : ∀ x t, (Stream.of (' ' :: (N.print x ++ ' ' :: t))).number N = (some (N.round x), Stream.of (' ' :: t)) := by
    intro x t
    have := number_print N x [' '] (' ' :: t) blank (head t)
    rw [List.singleton_append] at this
    rw [this, of_eq (by simp)]
  have final : ∀ x, (Stream.of (' ' :: (N.print x ++ tail))).number N = (some (N.round x), { text := tail, eof := tail = [], fail := false }) := by
    intro x
    exact number_print N x [' '] tail blank sp
  unfold take
  cases remission with
  | false =>
    have e : Line N.print (a.numbers false) ++ tail = N.print a.p.1 ++ ' ' :: (N.print a.p.2.1 ++ ' ' :: (N.print a.p.2.2 ++ tail)) := by
      simp [Line, Row.numbers, List.intercalate_cons_cons]
    rw [e]
    simp only [first, next, final, Bool.false_eq_true, if_false]
    rfl
  | true =>
    have e : Line N.print (a.numbers true) ++ tail = N.print a.p.1 ++ ' ' :: (N.print a.p.2.1 ++ ' ' :: (N.print a.p.2.2 ++ ' ' :: (N.print a.remission ++ tail))) := by
      simp [Line, Row.numbers, List.intercalate_cons_cons]
    rw [e]
    simp only [first, next, final, if_true]
    rfl

/-- after a line that was used -/
theorem after_row (tail : List Char) : (Stream.ignore { text := '\n' :: tail, eof := decide (('\n' :: tail) = []), fail := false }).peek = { text := tail, eof := tail = [], fail := false } ∧
    ((Stream.ignore { text := [], eof := decide (([] : List Char) = []), fail := false }).peek).eof = true := by
  constructor
  · simp [Stream.ignore, Stream.good, Stream.peek, skip]
  · simp [Stream.ignore, Stream.good, Stream.peek]

/-- a line that is not used -/
theorem skip_row (N : Numbers) (l : List ℝ) (hl : l.length ≤ 4) (tail : List Char) : (Stream.ignore (Stream.of (Line N.print l ++ '\n' :: tail))).peek = { text := tail, eof := tail = [], fail := false } ∧
    ((Stream.ignore (Stream.of (Line N.print l))).peek).eof = true := by
  obtain ⟨h1, h2⟩ := line_chars N l
  have h3 : (Line N.print l).length < 255 := by omega
  constructor
  · simp [Stream.ignore, Stream.of, Stream.good, Stream.peek, skip_line _ tail h1 255 h3]
  · simp [Stream.ignore, Stream.of, Stream.good, Stream.peek, skip_end _ h1 255 h3]

theorem numbers_length (remission : Bool) (a : Row) : (a.numbers remission).length ≤ 4 := by cases remission <;> simp [Row.numbers]

open Classical in
/-- the rows that are used, the first one has the number k -/
def usedRows (sample : Int) (r : Nat → Nat) (rows : List Row) : List Row := (rows.zipIdx.filter fun a => decide (Used sample r a.2)).map (·.1)

theorem used_cons (sample : Int) (r : Nat → Nat) (a : Row) (rows : List Row) [Decidable (Used sample r 0)] :
    usedRows sample r (a :: rows) = if Used sample r 0 then a :: usedRows sample (fun i => r (i + 1)) rows else usedRows sample (fun i => r (i + 1)) rows := by
  classical
  have e : ((rows.zipIdx 1).filter fun a => decide (Used sample r a.2)).map (·.1) = usedRows sample (fun i => r (i + 1)) rows := by
    unfold usedRows
    rw [List.zipIdx_succ, List.filter_map, List.map_map]
    rfl
  unfold usedRows
  rw [List.zipIdx_cons, List.filter_cons]
  by_cases h : Used sample r 0
  · rw [if_pos (by simpa using h), if_pos h, List.map_cons, e]
    rfl
  · rw [if_neg (by simpa using h), if_neg h, e]
    rfl

theorem loop_rows (N : Numbers) (remission last : Bool) {sample : Int} (hs : sample ≠ 0) : ∀ (rows : List Row) (r : Nat → Nat) (n : Nat) (d : Data), rows ≠ [] → rows.length < n →
    loop N remission sample r n (Stream.of (Lines N.print last (rows.map (Row.numbers remission)))) d = .ok ((usedRows sample r rows).foldl (plus N remission) d)
  | [], _, _, _, h, _ => absurd rfl h
  | [a], r, n + 2, d, _, _ => by
    classical
    rw [used_cons]
    have done : ∀ (s : Stream) (d : Data), s.eof = true → loop N remission sample (fun i => r (i + 1)) (n + 1) s d = .ok d := fun s d h => by unfold loop; rw [if_pos h]
    unfold loop
    rw [if_neg (by simp [Stream.of])]
    simp only [List.map_cons, List.map_nil, Lines]
    rcases chosen_iff hs r 0 with ⟨h1, h2⟩ | ⟨h1, h2⟩
    · rw [h1, if_pos h2]
      dsimp only
      cases last with
      | true =>
        simp only [if_true]
        rw [take_row N remission a ['\n'] (by simp) d]
        dsimp only
        rw [(after_row []).1]
        exact done _ _ (by simp)
      | false =>
        simp only [Bool.false_eq_true, if_false]
        rw [take_row N remission a [] (by simp) d]
        dsimp only
        exact done _ _ (after_row []).2
    · rw [h1, if_neg h2]
      dsimp only
      cases last with
      | true =>
        simp only [if_true]
        rw [(skip_row N _ (numbers_length remission a) []).1]
        exact done _ _ (by simp)
      | false =>
        simp only [Bool.false_eq_true, if_false, List.append_nil]
        exact done _ _ (skip_row N _ (numbers_length remission a) []).2
  | a :: b :: rows, r, n + 1, d, _, hn => by
    classical
    rw [used_cons]
    have hne : Lines N.print last ((b :: rows).map (Row.numbers remission)) ≠ [] := by
      cases rows with
      | nil =>
        simp only [List.map_cons, List.map_nil, Lines]
        intro h
        have := (List.append_eq_nil_iff.1 h).1
        unfold Line at this
        cases remission <;> simp [Row.numbers, List.intercalate_cons_cons] at this
      | cons c rows => simp [Lines]
    have ih := fun d => loop_rows N remission last hs (b :: rows) (fun i => r (i + 1)) n d (by simp) (by simpa using hn)
    unfold loop
    rw [if_neg (by simp [Stream.of])]
    have e : Lines N.print last ((a :: b :: rows).map (Row.numbers remission)) = Line N.print (a.numbers remission) ++ '\n' :: Lines N.print last ((b :: rows).map (Row.numbers remission)) := rfl
    rw [e]
    rcases chosen_iff hs r 0 with ⟨h1, h2⟩ | ⟨h1, h2⟩
    · rw [h1, if_pos h2]
      dsimp only
      rw [take_row N remission a _ (by simp) d]
      dsimp only
      rw [(after_row _).1, of_eq hne, ih]
      rfl
    · rw [h1, if_neg h2]
      dsimp only
      rw [(skip_row N _ (numbers_length remission a) _).1, of_eq hne, ih]

theorem fold_plus (N : Numbers) (remission : Bool) : ∀ (l : List Row) (d : Data), l.foldl (plus N remission) d =
    { vertices := d.vertices ++ l.map fun a => near N a.p, colors := if remission then d.colors.map (· ++ l.map fun a => (N.round a.remission / 255, 0, 0)) else d.colors }
  | [], d => by cases remission <;> cases h : d.colors <;> simp [h] <;> cases d <;> simp_all
  | a :: l, d => by
    rw [List.foldl_cons, fold_plus N remission l]
    cases remission <;> simp [plus, Function.comp_def]

/-! ### C119 -/

/-- C119: lines of numbers are read completely, whether or not the last one is terminated. The points of the lines that are used (all of them if sample is 1) are appended in their order, up to the rounding of the numbers. In the format XYZR a color is appended for each of them. -/
theorem C119_read_partial (N : Numbers) (remission last : Bool) {sample : Int} (hs : sample ≠ 0) (r : Nat → Nat) (rows : List Row) (h : rows ≠ []) (n : Nat) (hn : rows.length < n) (d : Data) :
    ∃ c, readText N remission sample r n (Lines N.print last (rows.map (Row.numbers remission))) d = .ok { vertices := d.vertices ++ (usedRows sample r rows).map fun a => (N.round a.p.1, N.round a.p.2.1, N.round a.p.2.2), colors := c } ∧
      (remission = false → c = d.colors) ∧ (remission = true → ∃ l, c = some (d.colors.getD [] ++ l) ∧ l.length = (usedRows sample r rows).length) := by
  unfold readText
  rw [loop_rows N remission last hs rows r n _ h hn, fold_plus]
  cases remission with
  | false => exact ⟨_, rfl, fun _ => rfl, fun h => by cases h⟩
  | true => exact ⟨_, rfl, (fun h => by cases h), fun _ => ⟨_, rfl, by simp⟩⟩

theorem used_all (r : Nat → Nat) : ∀ rows : List Row, usedRows 1 r rows = rows := by
  intro rows
  classical
  unfold usedRows
  rw [List.filter_eq_self.2 (fun a _ => by simp [Used])]
  exact List.zipIdx_map_fst 0 rows

theorem write_lines (N : Numbers) : ∀ rows : List Row, writeText N (rows.map (·.p)) = Lines N.print true (rows.map (Row.numbers false))
  | [] => rfl
  | [a] => by simp [writeText, writeLine, Lines, Line, Row.numbers, List.intercalate_cons_cons]
  | a :: b :: rows => by
    have ih := write_lines N (b :: rows)
    have e : writeText N ((a :: b :: rows).map (·.p)) = writeLine N a.p ++ writeText N ((b :: rows).map (·.p)) := rfl
    rw [e, ih]
    simp [writeLine, Lines, Line, Row.numbers, List.intercalate_cons_cons]

/-- C119: a cloud that is written and read again with the format XYZ has the same points, up to the rounding of the numbers -/
theorem C119_round_trip_partial (N : Numbers) (l : List V3) (h : l ≠ []) (r : Nat → Nat) (n : Nat) (hn : l.length < n) (c : Option (List V3)) :
    readText N false 1 r n (writeText N l) { vertices := [], colors := c } = .ok { vertices := l.map fun p => (N.round p.1, N.round p.2.1, N.round p.2.2), colors := c } := by
  have e : (l.map fun p => (⟨p, 0⟩ : Row)).map (·.p) = l := by rw [List.map_map]; exact List.map_id l
  have w := write_lines N (l.map fun p => (⟨p, 0⟩ : Row))
  rw [e] at w
  obtain ⟨c', h1, h2, -⟩ := C119_read_partial N false true (by decide : (1 : Int) ≠ 0) r (l.map fun p => (⟨p, 0⟩ : Row)) (by simpa using h) n (by simpa using hn) { vertices := [], colors := c }
  rw [w, h1, h2 rfl, used_all, List.nil_append, List.map_map]
  rfl

/-- Violation: the color of a line of the format XYZR is not a shade of grey: only its red component depends on the remission -/
theorem C119_red (N : Numbers) (r : Nat → Nat) (p : V3) (x : ℝ) : readText N true 1 r 2 (Lines N.print true [[p.1, p.2.1, p.2.2, x]]) { vertices := [], colors := none } =
    .ok { vertices := [(N.round p.1, N.round p.2.1, N.round p.2.2)], colors := some [(N.round x / 255, 0, 0)] } := by
  have := loop_rows N true true (by decide : (1 : Int) ≠ 0) [⟨p, x⟩] r 2 { vertices := [], colors := some [] } (by simp) (by simp)
  rw [used_all] at this
  exact this

theorem first_number (N : Numbers) (x : ℝ) (t : List Char) (h : ∀ c ∈ t.head?, isSpace c = true) (hne : t ≠ []) : (Stream.of (N.print x ++ t)).number N = (some (N.round x), Stream.of t) := by
  have := number_print N x [] t (by simp) h
  rw [List.nil_append] at this
  rw [this, of_eq hne]

theorem next_number (N : Numbers) (x : ℝ) (c : Char) (hc : isSpace c = true) (t : List Char) (h : ∀ c ∈ t.head?, isSpace c = true) (hne : t ≠ []) : (Stream.of (c :: (N.print x ++ t))).number N = (some (N.round x), Stream.of t) := by
  have := number_print N x [c] t (by simpa using hc) h
  rw [List.singleton_append] at this
  rw [this, of_eq hne]

theorem no_number (N : Numbers) (t : List Char) (h : ∀ c ∈ t, isSpace c = true) : ((Stream.of t).number N).1 = none := by
  have : t.dropWhile isSpace = [] := by
    have := List.dropWhile_append_of_pos (l₂ := []) h
    simpa using this
  simp [Stream.number, Stream.of, Stream.good, this]

theorem take_none (N : Numbers) (remission : Bool) (s : Stream) (d : Data) (h : (s.number N).1 = none) : take N remission s d = none := by
  unfold take
  dsimp only
  rw [h]

theorem loop_one (N : Numbers) (remission : Bool) (r : Nat → Nat) (n : Nat) (t : List Char) (d : Data) : loop N remission 1 r (n + 1) (Stream.of t) d =
    match take N remission (Stream.of t) d with
    | none => .undefined
    | some q => loop N remission 1 (fun i => r (i + 1)) n q.1.peek q.2 := rfl

/-- Violation: a cloud of two points that is written and read again with the default format has one point only, whose color is made of the other one -/
theorem C119_default_format (N : Numbers) (r : Nat → Nat) (p q : V3) : readText N true 1 r 2 (writeText N [p, q]) { vertices := [], colors := none } =
    .ok { vertices := [(N.round p.1, N.round p.2.1, N.round p.2.2)], colors := some [(N.round q.1 / 255, 0, 0)] } := by
  have e : writeText N [p, q] = N.print p.1 ++ ' ' :: (N.print p.2.1 ++ ' ' :: (N.print p.2.2 ++ '\n' :: (N.print q.1 ++ ' ' :: (Line N.print [q.2.1, q.2.2] ++ '\n' :: [])))) := by
    simp [writeText, writeLine, Line, List.intercalate_cons_cons]
  have hh : ∀ c t, isSpace c = true → ∀ d ∈ (c :: t).head?, isSpace d = true := by
    intro c t h d hd
    cases hd
    exact h
  unfold readText
  rw [loop_one, e]
  have t : ∀ d, take N true (Stream.of (N.print p.1 ++ ' ' :: (N.print p.2.1 ++ ' ' :: (N.print p.2.2 ++ '\n' :: (N.print q.1 ++ ' ' :: (Line N.print [q.2.1, q.2.2] ++ '\n' :: [])))))) d =
      some ((Stream.of (' ' :: (Line N.print [q.2.1, q.2.2] ++ '\n' :: []))).ignore, { vertices := d.vertices ++ [(N.round p.1, N.round p.2.1, N.round p.2.2)], colors := d.colors.map (· ++ [(N.round q.1 / 255, 0, 0)]) }) := by
    intro d
    unfold take
    rw [first_number N _ _ (hh _ _ (by decide)) (by simp)]
    dsimp only
    rw [next_number N _ _ (by decide) _ (hh _ _ (by decide)) (by simp)]
    dsimp only
    rw [next_number N _ _ (by decide) _ (hh _ _ (by decide)) (by simp)]
    simp only [if_true]
    rw [next_number N _ _ (by decide) _ (hh _ _ (by decide)) (by simp)]
  rw [t]
  dsimp only
  obtain ⟨h1, h2⟩ := line_chars N [q.2.1, q.2.2]
  have sk : skip 255 (' ' :: (Line N.print [q.2.1, q.2.2] ++ '\n' :: [])) = ([], false) := by
    rw [← List.cons_append]
    apply skip_line
    · intro c hc
      rcases List.mem_cons.1 hc with rfl | hc
      · decide
      · exact h1 c hc
    · have e2 : [q.2.1, q.2.2].length = 2 := rfl
      rw [e2] at h2
      rw [List.length_cons]
      omega
  have eo : (Stream.of (' ' :: (Line N.print [q.2.1, q.2.2] ++ '\n' :: []))).ignore.peek.eof = true := by
    simp only [Stream.ignore, Stream.of, Stream.good, Bool.not_false, Bool.and_self, if_true, sk, Stream.peek, decide_true]
  unfold loop
  rw [if_pos eo]
  rfl

/-- Violation: with a single point the result is undefined -/
theorem C119_default_single (N : Numbers) (r : Nat → Nat) (p : V3) (n : Nat) (d : Data) : readText N true 1 r (n + 1) (writeText N [p]) d = .undefined := by
  have e : writeText N [p] = N.print p.1 ++ ' ' :: (N.print p.2.1 ++ ' ' :: (N.print p.2.2 ++ ['\n'])) := by simp [writeText, writeLine]
  have hh : ∀ c t, isSpace c = true → ∀ d ∈ (c :: t).head?, isSpace d = true := by
    intro c t h d hd
    cases hd
    exact h
  unfold readText
  rw [loop_one, e]
  have t : ∀ d, take N true (Stream.of (N.print p.1 ++ ' ' :: (N.print p.2.1 ++ ' ' :: (N.print p.2.2 ++ ['\n'])))) d = none := by
    intro d
    unfold take
    rw [first_number N _ _ (hh _ _ (by decide)) (by simp)]
    dsimp only
    rw [next_number N _ _ (by decide) _ (hh _ _ (by decide)) (by simp)]
    dsimp only
    rw [next_number N _ _ (by decide) _ (hh _ _ (by decide)) (by simp)]
    simp only [if_true]
    rw [no_number N ['\n'] (by decide)]
  rw [t]

/-- Violation: an empty text is not read as an empty cloud: a point of undefined coordinates is appended -/
theorem C119_empty (N : Numbers) (remission : Bool) (r : Nat → Nat) (n : Nat) (d : Data) : writeText N [] = [] ∧ readText N remission 1 r (n + 1) (writeText N []) d = .undefined := by
  refine ⟨rfl, ?_⟩
  unfold readText
  rw [loop_one, take_none N remission _ _ (no_number N _ (by intro c hc; cases hc))]

/-- Violation: the same for an empty line at the end -/
theorem C119_blank_line (N : Numbers) (l : List V3) : ∀ (r : Nat → Nat) (n : Nat) (d : Data), l.length < n → readText N false 1 r n (writeText N l ++ ['\n']) d = .undefined := by
  unfold readText
  simp only [Bool.false_eq_true, if_false]
  induction l with
  | nil =>
    intro r n d hn
    cases n with
    | zero => simp at hn
    | succ n => rw [loop_one, take_none N false _ _ (no_number N _ (by intro c hc; rw [List.mem_singleton.1 hc]; rfl))]
  | cons p l ih =>
    intro r n d hn
    cases n with
    | zero => simp at hn
    | succ n =>
      have e : writeText N (p :: l) ++ ['\n'] = Line N.print ((⟨p, 0⟩ : Row).numbers false) ++ '\n' :: (writeText N l ++ ['\n']) := by
        simp [writeText, writeLine, Line, Row.numbers, List.intercalate_cons_cons]
      rw [loop_one, e, take_row N false ⟨p, 0⟩ _ (by simp) d]
      dsimp only
      rw [(after_row _).1, of_eq (by simp)]
      exact ih _ n _ (by simpa using hn)

/-- Violation: numbers that are separated by commas cannot be read, though the function to import such files is called importCsv; the error is not reported -/
theorem C119_comma (N : Numbers) (remission : Bool) (r : Nat → Nat) (x : ℝ) (rest : List Char) (n : Nat) (d : Data) : readText N remission 1 r (n + 1) (N.print x ++ ',' :: rest) d = .undefined := by
  unfold readText
  rw [loop_one]
  have hd : (N.print x ++ ',' :: rest).dropWhile isSpace = N.print x ++ ',' :: rest := by
    obtain ⟨c, t, hc⟩ := List.exists_cons_of_ne_nil (N.print_ne x)
    have := N.print_space x c (by rw [hc]; exact List.mem_cons_self)
    rw [hc, List.cons_append, List.dropWhile_cons_of_neg (by simp [this])]
  have h1 : (Stream.of (N.print x ++ ',' :: rest)).number N = (some (N.round x), Stream.of (',' :: rest)) := by
    simp [Stream.number, Stream.of, Stream.good, hd, N.read_before x ',' rest (.inl rfl)]
  have h2 : (Stream.of (',' :: rest)).number N = (some 0, { text := ',' :: rest, eof := false, fail := true }) := by
    have : (',' :: rest).dropWhile isSpace = ',' :: rest := List.dropWhile_cons_of_neg (by decide)
    simp [Stream.number, Stream.of, Stream.good, this, N.read_other ',' rest (.inl rfl)]
  have h3 : (Stream.number N { text := ',' :: rest, eof := false, fail := true }).1 = none := by simp [Stream.number, Stream.good]
  have t : ∀ d, take N remission (Stream.of (N.print x ++ ',' :: rest)) d = none := by
    intro d
    unfold take
    rw [h1]
    dsimp only
    rw [h2]
    dsimp only
    rw [h3]
  rw [t]

/-- Violation: sample 0 is a division by zero -/
theorem C119_sample (N : Numbers) (remission : Bool) (r : Nat → Nat) (n : Nat) (text : List Char) (d : Data) : readText N remission 0 r (n + 1) text d = .undefined := by
  unfold readText loop
  simp [Stream.of, chosen]

/-! ### the hypotheses can be met -/

def digitRead : List Char → Option ℝ × List Char
  | [] => (none, [])
  | c :: t => if c = '0' then (some 0, t) else if c = '1' then (some 1, t) else (none, c :: t)

open Classical in
/-- numbers with one digit -/
def digits : Numbers where
  print x := if x = 0 then ['0'] else ['1']
  round x := if x = 0 then 0 else 1
  read := digitRead
  print_ne x := by by_cases h : x = 0 <;> simp [h]
  print_space x c hc := by
    split at hc <;> · rw [List.mem_singleton.1 hc]; rfl
  print_length x := by by_cases h : x = 0 <;> simp [h]
  read_print x rest _ := by by_cases h : x = 0 <;> simp [h, digitRead]
  read_other c rest h := by rcases h with rfl | rfl | rfl <;> simp [digitRead]
  read_before x c rest _ := by by_cases h : x = 0 <;> simp [h, digitRead]

/-- a text with the second of two points, if rand() is 1 and then 4 and sample is 2 -/
example : readText digits false 2 (fun i => if i = 0 then 1 else 4) 3 (writeText digits [(1, 0, 1), (0, 1, 1)]) { vertices := [], colors := none } = .ok { vertices := [(0, 1, 1)], colors := none } := by
  classical
  have w := write_lines digits [⟨(1, 0, 1), 0⟩, ⟨(0, 1, 1), 0⟩]
  simp only [List.map_cons, List.map_nil] at w
  obtain ⟨c, h1, h2, -⟩ := C119_read_partial digits false true (by decide : (2 : Int) ≠ 0) (fun i => if i = 0 then 1 else 4) [⟨(1, 0, 1), 0⟩, ⟨(0, 1, 1), 0⟩] (by simp) 3 (by simp) { vertices := [], colors := none }
  simp only [List.map_cons, List.map_nil] at h1
  rw [w, h1, h2 rfl]
  have u : usedRows 2 (fun i => if i = 0 then 1 else 4) [⟨(1, 0, 1), 0⟩, ⟨(0, 1, 1), 0⟩] = [⟨(0, 1, 1), 0⟩] := by
    rw [used_cons, if_neg (by unfold Used; simp), used_cons, if_pos (by right; simp)]
    rfl
  rw [u]
  simp [digits]

end

end Envire.CloudText

#print axioms Envire.CloudText.C119_read_partial
#print axioms Envire.CloudText.C119_round_trip_partial
#print axioms Envire.CloudText.C119_red
#print axioms Envire.CloudText.C119_default_format
#print axioms Envire.CloudText.C119_default_single
#print axioms Envire.CloudText.C119_empty
#print axioms Envire.CloudText.C119_blank_line
#print axioms Envire.CloudText.C119_comma
#print axioms Envire.CloudText.C119_sample
