import Verif.Maps.ScanFileModel
import Mathlib.Tactic.NormNum

/-!
C106: files of laser scans.
-/

namespace Envire.ScanFile

/-! ### specification -/

/-- what is assumed of the number format. `round x` is the number that is read from the printed one. -/
structure Lawful {F : Type} (c : Codec F) (round : F → F) : Prop where
  /-- a number is printed without whitespace -/
  word : ∀ x, c.print x ≠ [] ∧ ∀ d ∈ c.print x, isSpace d = false
  /-- a printed number is read up to its end -/
  back : ∀ x rest, (rest = [] ∨ ∃ t, rest = ' ' :: t) → c.extract (c.print x ++ rest) = (some (round x), rest)
  /-- a `float` holds the integers up to 2^24 -/
  small : ∀ n ≤ 2 ^ 24, ∀ rest, (rest = [] ∨ ∃ t, rest = ' ' :: t) → ∃ v, c.extract (Nat.toDigits 10 n ++ rest) = (some v, rest) ∧ c.toUnsigned v = some n

/-- the line as it is after saving and loading: remissions are kept if there is one for each range -/
def keptLine {F : Type} (round : F → F) (l : Line F) : Line F := ⟨round l.deltaPhi, l.ranges, if l.remissions.length = l.ranges.length then l.remissions else []⟩

/-! ### proofs -/

theorem isDigit_space {d : Char} (h : d.isDigit = true) : isSpace d = false := by
  unfold isSpace
  simp only [Bool.or_eq_false_iff, decide_eq_false_iff_not]
  refine ⟨⟨⟨⟨⟨?_, ?_⟩, ?_⟩, ?_⟩, ?_⟩, ?_⟩ <;> rintro rfl <;> revert h <;> decide

theorem digits_isDigit (n : Nat) : ∀ d ∈ Nat.toDigits 10 n, d.isDigit = true := fun _ h => Nat.isDigit_of_mem_toDigits (by decide) (by decide) h

theorem digits_ne (n : Nat) : Nat.toDigits 10 n ≠ [] := by
  intro h
  have := Nat.length_toDigits_pos (b := 10) (n := n)
  rw [h] at this
  simp at this

theorem split_line (l t : List Char) (h : ∀ d ∈ l, d ≠ '\n') : splitLines (l ++ '\n' :: t) = l :: splitLines t := by
  induction l with
  | nil => simp [splitLines]
  | cons c l ih =>
    rw [List.cons_append, splitLines, if_neg (h c (by simp)), ih fun d hd => h d (by simp [hd])]

theorem sentry_word {w rest : List Char} (hw : w ≠ []) (hs : ∀ d ∈ w, isSpace d = false) : sentry ⟨w ++ rest, false, false⟩ = (⟨w ++ rest, false, false⟩, true) := by
  cases w with
  | nil => exact absurd rfl hw
  | cons d w => simp [sentry, hs d (by simp)]

theorem sentry_space {w rest : List Char} (hw : w ≠ []) (hs : ∀ d ∈ w, isSpace d = false) : sentry ⟨' ' :: (w ++ rest), false, false⟩ = (⟨w ++ rest, false, false⟩, true) := by
  have : isSpace ' ' = true := by decide
  cases w with
  | nil => exact absurd rfl hw
  | cons d w => simp [sentry, hs d (by simp), this]

theorem readWord_key {w rest : List Char} (hw : w ≠ []) (hs : ∀ d ∈ w, isSpace d = false) : readWord ⟨w ++ ' ' :: rest, false, false⟩ = (⟨' ' :: rest, false, false⟩, w) := by
  unfold readWord
  rw [sentry_word hw hs]
  have h1 : (w ++ ' ' :: rest).dropWhile (fun c => !isSpace c) = ' ' :: rest := by
    rw [List.dropWhile_append_of_pos (by simpa using hs)]
    rfl
  have h2 : (w ++ ' ' :: rest).takeWhile (fun c => !isSpace c) = w := by
    rw [List.takeWhile_append_of_pos (by simpa using hs)]
    simp [show isSpace ' ' = true by decide]
  simp only [h1, h2, List.isEmpty_cons]

variable {F : Type} {c : Codec F} {round : F → F}

theorem readF_print (hc : Lawful c round) (x : F) {rest : List Char} (hr : rest = [] ∨ ∃ t, rest = ' ' :: t) : readF c ⟨' ' :: (c.print x ++ rest), false, false⟩ = (⟨rest, rest.isEmpty, false⟩, some (round x)) := by
  unfold readF
  rw [sentry_space (hc.word x).1 (hc.word x).2]
  dsimp only
  rw [hc.back x rest hr]

theorem takeWhile_digits (n : Nat) {rest : List Char} (hr : rest = [] ∨ ∃ t, rest = ' ' :: t) : (Nat.toDigits 10 n ++ rest).takeWhile Char.isDigit = Nat.toDigits 10 n ∧ (Nat.toDigits 10 n ++ rest).dropWhile Char.isDigit = rest := by
  rw [List.takeWhile_append_of_pos (digits_isDigit n), List.dropWhile_append_of_pos (digits_isDigit n)]
  rcases hr with rfl | ⟨t, rfl⟩
  · simp
  · simp [show Char.isDigit ' ' = false by decide]

theorem readInt_big (n : Nat) {rest : List Char} (hr : rest = [] ∨ ∃ t, rest = ' ' :: t) : readInt ⟨' ' :: (Nat.toDigits 10 n ++ rest), false, false⟩ =
    if n < 2 ^ 31 then (⟨rest, rest.isEmpty, false⟩, some (n : Int)) else (⟨rest, rest.isEmpty, true⟩, some (2 ^ 31 - 1)) := by
  unfold readInt
  rw [sentry_space (digits_ne n) (fun d hd => isDigit_space (digits_isDigit n d hd))]
  dsimp only
  have hm : sign (Nat.toDigits 10 n ++ rest) = (false, Nat.toDigits 10 n ++ rest) := by
    cases hd : Nat.toDigits 10 n with
    | nil => exact absurd hd (digits_ne n)
    | cons d t =>
      have h' := digits_isDigit n d (by rw [hd]; simp)
      rw [List.cons_append, sign, if_neg, if_neg]
      · rintro rfl
        exact absurd h' (by decide)
      · rintro rfl
        exact absurd h' (by decide)
  rw [hm]
  dsimp only
  rw [(takeWhile_digits n hr).1, (takeWhile_digits n hr).2, if_neg (digits_ne n), Nat.ofDigitChars_toDigits (by decide) (by decide)]
  simp

theorem writeNumbers_rest (l : List Nat) : writeNumbers l = [] ∨ ∃ t, writeNumbers l = ' ' :: t := by
  cases l with
  | nil => exact .inl rfl
  | cons n l => exact .inr ⟨_, rfl⟩

theorem writeNumbers_cons (n : Nat) (l : List Nat) : writeNumbers (n :: l) = ' ' :: (Nat.toDigits 10 n ++ writeNumbers l) := by
  simp [writeNumbers]

theorem writeNumbers_nil_iff (l : List Nat) : (writeNumbers l).isEmpty = l.isEmpty := by
  cases l with
  | nil => rfl
  | cons n l => rfl

theorem readRanges_write : ∀ (l : List Nat) (fuel : Nat) (acc : List Nat), (∀ n ∈ l, n < 2 ^ 31) → l.length < fuel → readRanges fuel ⟨writeNumbers l, l.isEmpty, false⟩ acc = .ok (acc ++ l) := by
  intro l
  induction l with
  | nil =>
    intro fuel acc _ hf
    obtain ⟨f, rfl⟩ : ∃ f, fuel = f + 1 := ⟨fuel - 1, by simp at hf; omega⟩
    simp [readRanges]
  | cons n l ih =>
    intro fuel acc hb hf
    obtain ⟨f, rfl⟩ : ∃ f, fuel = f + 1 := ⟨fuel - 1, by simp at hf; omega⟩
    have hn := hb n (by simp)
    rw [readRanges, if_neg (by simp), writeNumbers_cons]
    rw [show (n :: l).isEmpty = false from rfl, readInt_big n (writeNumbers_rest l), if_pos hn]
    dsimp only
    rw [writeNumbers_nil_iff, ih f _ (fun m hm => hb m (by simp [hm])) (by simp at hf; omega)]
    have : ((n : Int) % 2 ^ 32).toNat = n := by omega
    rw [this]
    simp

theorem readRemissions_write (hc : Lawful c round) : ∀ (l : List Nat) (fuel : Nat) (acc : List Nat), (∀ n ∈ l, n ≤ 2 ^ 24) → l.length < fuel →
    readRemissions c fuel ⟨writeNumbers l, l.isEmpty, false⟩ acc = .ok (acc ++ l) := by
  intro l
  induction l with
  | nil =>
    intro fuel acc _ hf
    obtain ⟨f, rfl⟩ : ∃ f, fuel = f + 1 := ⟨fuel - 1, by simp at hf; omega⟩
    simp [readRemissions]
  | cons n l ih =>
    intro fuel acc hb hf
    obtain ⟨f, rfl⟩ : ∃ f, fuel = f + 1 := ⟨fuel - 1, by simp at hf; omega⟩
    obtain ⟨v, hv, hv'⟩ := hc.small n (hb n (by simp)) (writeNumbers l) (writeNumbers_rest l)
    have hr : readF c ⟨writeNumbers (n :: l), (n :: l).isEmpty, false⟩ = (⟨writeNumbers l, (writeNumbers l).isEmpty, false⟩, some v) := by
      unfold readF
      rw [writeNumbers_cons, show (n :: l).isEmpty = false from rfl, sentry_space (digits_ne n) (fun d hd => isDigit_space (digits_isDigit n d hd))]
      dsimp only
      rw [hv]
    rw [readRemissions, if_neg (by simp), hr]
    dsimp only
    rw [hv']
    dsimp only
    rw [writeNumbers_nil_iff, ih f _ (fun m hm => hb m (by simp [hm])) (by simp at hf; omega)]
    simp

theorem writeNumbers_length (l : List Nat) : l.length ≤ (writeNumbers l).length := by
  induction l with
  | nil => simp
  | cons n l ih =>
    rw [writeNumbers_cons]
    simp
    omega

theorem writeNumbers_newline (l : List Nat) : ∀ d ∈ writeNumbers l, d ≠ '\n' := by
  intro d hd
  simp only [writeNumbers, List.mem_flatMap, List.mem_cons] at hd
  obtain ⟨n, -, rfl | hd⟩ := hd
  · decide
  · have := digits_isDigit n d hd
    rintro rfl
    revert this
    decide

theorem print_newline (hc : Lawful c round) (x : F) : ∀ d ∈ c.print x, d ≠ '\n' := by
  intro d hd
  have := (hc.word x).2 d hd
  rintro rfl
  revert this
  decide

theorem parse_float (hc : Lawful c round) (x : F) : readF c ⟨' ' :: c.print x, false, false⟩ = (⟨[], true, false⟩, some (round x)) := by
  have := readF_print hc x (rest := []) (.inl rfl)
  simpa using this

variable {G : Type} {g : Codec G} {roundG : G → G} [DecidableEq F]

theorem parse_key (w t : List Char) (hw : w ≠ []) (hs : ∀ d ∈ w, isSpace d = false) : readWord ⟨w ++ ' ' :: t, false, false⟩ = (⟨' ' :: t, false, false⟩, w) := readWord_key hw hs

theorem parse_line (hc : Lawful c round) (s : Scan F G) (l : Line F) (hb : ∀ n ∈ l.ranges, n < 2 ^ 31) : parseLine c g s ("line ".toList ++ c.print l.deltaPhi ++ writeNumbers l.ranges) =
    .ok { s with pointsPerLine := l.ranges.length, lines := s.lines ++ [⟨round l.deltaPhi, l.ranges, []⟩] } := by
  have e : "line ".toList ++ c.print l.deltaPhi ++ writeNumbers l.ranges = "line".toList ++ ' ' :: (c.print l.deltaPhi ++ writeNumbers l.ranges) := by simp
  unfold parseLine
  rw [e, readWord_key (by decide) (by decide)]
  dsimp only
  rw [if_neg (by decide), if_neg (by decide), if_neg (by decide), if_neg (by decide), if_pos rfl, readF_print hc _ (writeNumbers_rest _)]
  dsimp only
  rw [writeNumbers_nil_iff, readRanges_write _ _ _ hb]
  · rfl
  · have := writeNumbers_length l.ranges
    simp
    omega

theorem parse_remission (hc : Lawful c round) (s : Scan F G) (ls : List (Line F)) (phi : F) (r rem : List Nat) (hb : ∀ n ∈ rem, n ≤ 2 ^ 24) (hs : s.lines = ls ++ [⟨round phi, r, []⟩]) :
    parseLine c g s ("remission ".toList ++ c.print phi ++ writeNumbers rem) = .ok { s with pointsPerLine := rem.length, lines := ls ++ [⟨round phi, r, rem⟩] } := by
  have e : "remission ".toList ++ c.print phi ++ writeNumbers rem = "remission".toList ++ ' ' :: (c.print phi ++ writeNumbers rem) := by simp
  unfold parseLine
  rw [e, readWord_key (by decide) (by decide)]
  dsimp only
  rw [if_neg (by decide), if_neg (by decide), if_neg (by decide), if_neg (by decide), if_neg (by decide), if_pos rfl, readF_print hc _ (writeNumbers_rest _), hs]
  simp only [List.getLast?_append, List.getLast?_singleton, Option.some_or, ne_eq, not_true_eq_false, if_false, List.dropLast_concat]
  rw [writeNumbers_nil_iff, readRemissions_write hc _ _ _ hb]
  · rfl
  · have := writeNumbers_length rem
    simp
    omega

theorem word_line : ∀ d ∈ "line ".toList, d ≠ '\n' := by decide

theorem word_remission : ∀ d ∈ "remission ".toList, d ≠ '\n' := by decide

def lineText (c : Codec F) (l : Line F) : List Char := "line ".toList ++ c.print l.deltaPhi ++ writeNumbers l.ranges

def remissionText (c : Codec F) (l : Line F) : List Char := "remission ".toList ++ c.print l.deltaPhi ++ writeNumbers l.remissions

omit [DecidableEq F] in
theorem writeLine_eq (l : Line F) : writeLine c l = lineText c l ++ ['\n'] ++ if l.ranges.length = l.remissions.length then remissionText c l ++ ['\n'] else [] := rfl

/-- reading the lines -/
theorem parse_lines (hc : Lawful c round) : ∀ (ls : List (Line F)) (s : Scan F G), (∀ l ∈ ls, ∀ n ∈ l.ranges, n < 2 ^ 31) → (∀ l ∈ ls, l.ranges.length = l.remissions.length → ∀ n ∈ l.remissions, n ≤ 2 ^ 24) →
    parseLines c g s (splitLines (ls.flatMap (writeLine c))) =
      .ok { s with pointsPerLine := ((ls.getLast?).map fun l => l.ranges.length).getD s.pointsPerLine, lines := s.lines ++ ls.map (keptLine round) } := by
  intro ls
  induction ls with
  | nil =>
    intro s _ _
    simp [splitLines, parseLines, parseLine, readWord, sentry, Out.bind]
  | cons l ls ih =>
    intro s h1 h2
    have hl1 := h1 l (by simp)
    have hl2 := h2 l (by simp)
    have nl : ∀ (w : List Char) (hw : ∀ d ∈ w, d ≠ '\n') (r : List Nat), ∀ d ∈ w ++ c.print l.deltaPhi ++ writeNumbers r, d ≠ '\n' := by
      intro w hw r d hd
      rw [List.mem_append, List.mem_append] at hd
      rcases hd with (hd | hd) | hd
      · exact hw d hd
      · exact print_newline hc _ d hd
      · exact writeNumbers_newline _ d hd
    obtain ⟨t1, e1⟩ : ∃ t, t = lineText c l := ⟨_, rfl⟩
    obtain ⟨t2, e2⟩ : ∃ t, t = remissionText c l := ⟨_, rfl⟩
    have n1 : ∀ d ∈ t1, d ≠ '\n' := e1 ▸ nl _ word_line l.ranges
    have n2 : ∀ d ∈ t2, d ≠ '\n' := e2 ▸ nl _ word_remission l.remissions
    have q1 : ∀ s : Scan F G, parseLine c g s t1 = .ok { s with pointsPerLine := l.ranges.length, lines := s.lines ++ [⟨round l.deltaPhi, l.ranges, []⟩] } := by
      intro s
      rw [e1]
      exact parse_line hc s l hl1
    have q2 : ∀ (s : Scan F G) (ls : List (Line F)), l.ranges.length = l.remissions.length → s.lines = ls ++ [⟨round l.deltaPhi, l.ranges, []⟩] →
        parseLine c g s t2 = .ok { s with pointsPerLine := l.remissions.length, lines := ls ++ [⟨round l.deltaPhi, l.ranges, l.remissions⟩] } := by
      intro s ls hr hs
      rw [e2]
      exact parse_remission hc s ls l.deltaPhi l.ranges l.remissions (hl2 hr) hs
    have hlast : ∀ (q : Nat), (((l :: ls).getLast?).map fun l => l.ranges.length).getD q = ((ls.getLast?).map fun l => l.ranges.length).getD l.ranges.length := by
      intro q
      rw [List.getLast?_cons]
      cases ls.getLast? <;> simp
    rw [List.flatMap_cons, writeLine_eq, ← e1, ← e2]
    by_cases hrem : l.ranges.length = l.remissions.length
    · rw [if_pos hrem, show t1 ++ ['\n'] ++ (t2 ++ ['\n']) ++ ls.flatMap (writeLine c) = t1 ++ '\n' :: (t2 ++ '\n' :: ls.flatMap (writeLine c)) by simp]
      rw [split_line _ _ n1, split_line _ _ n2, parseLines, q1, Out.bind, parseLines, q2 _ s.lines hrem rfl, Out.bind, ih _ (fun l hl => h1 l (by simp [hl])) (fun l hl => h2 l (by simp [hl]))]
      simp [hlast, keptLine, hrem]
    · rw [if_neg hrem, List.append_nil, show t1 ++ ['\n'] ++ ls.flatMap (writeLine c) = t1 ++ '\n' :: ls.flatMap (writeLine c) by simp]
      rw [split_line _ _ n1, parseLines, q1, Out.bind, ih _ (fun l hl => h1 l (by simp [hl])) (fun l hl => h2 l (by simp [hl]))]
      have : ¬ l.remissions.length = l.ranges.length := fun h => hrem h.symm
      simp [hlast, keptLine, this]

/-- a text before the end of a line -/
def NoNewline (l : List Char) : Prop := ∀ d ∈ l, d ≠ '\n'

theorem noNewline_append {a b : List Char} (ha : NoNewline a) (hb : NoNewline b) : NoNewline (a ++ b) := fun d hd => (List.mem_append.1 hd).elim (ha d) (hb d)

theorem noNewline_cons {x : Char} {b : List Char} (ha : x ≠ '\n') (hb : NoNewline b) : NoNewline (x :: b) := fun d hd => (List.mem_cons.1 hd).elim (fun h => h ▸ ha) (hb d)

theorem parse_deltaPsi (hc : Lawful c round) (s : Scan F G) (x : F) : parseLine c g s ("delta_psi".toList ++ ' ' :: c.print x) = .ok { s with deltaPsi := round x } := by
  unfold parseLine
  rw [readWord_key (by decide) (by decide)]
  dsimp only
  rw [if_pos rfl, parse_float hc]
  rfl

theorem parse_originPsi (hc : Lawful c round) (s : Scan F G) (x : F) : parseLine c g s ("origin_psi".toList ++ ' ' :: c.print x) = .ok { s with originPsi := round x } := by
  unfold parseLine
  rw [readWord_key (by decide) (by decide)]
  dsimp only
  rw [if_neg (by decide), if_pos rfl, parse_float hc]
  rfl

theorem parse_originPhi (hc : Lawful c round) (s : Scan F G) (x : F) : parseLine c g s ("origin_phi".toList ++ ' ' :: c.print x) = .ok { s with originPhi := round x } := by
  unfold parseLine
  rw [readWord_key (by decide) (by decide)]
  dsimp only
  rw [if_neg (by decide), if_neg (by decide), if_pos rfl, parse_float hc]
  rfl

theorem parse_offset (hg : Lawful g roundG) (s : Scan F G) (x y z : G) :
    parseLine c g s ("center_offset".toList ++ ' ' :: (g.print x ++ ' ' :: (g.print y ++ ' ' :: g.print z))) = .ok { s with offset := (roundG x, roundG y, roundG z) } := by
  unfold parseLine
  rw [readWord_key (by decide) (by decide)]
  dsimp only
  rw [if_neg (by decide), if_neg (by decide), if_neg (by decide), if_pos rfl, readF_print hg _ (.inr ⟨_, rfl⟩)]
  dsimp only [List.isEmpty_cons]
  rw [readF_print hg _ (.inr ⟨_, rfl⟩)]
  dsimp only [List.isEmpty_cons]
  rw [parse_float hg]
  rfl

theorem write_eq (s : Scan F G) : write c g s = ("delta_psi".toList ++ ' ' :: c.print s.deltaPsi) ++ '\n' :: (("origin_psi".toList ++ ' ' :: c.print s.originPsi) ++ '\n' ::
    (("origin_phi".toList ++ ' ' :: c.print s.originPhi) ++ '\n' ::
    (("center_offset".toList ++ ' ' :: (g.print s.offset.1 ++ ' ' :: (g.print s.offset.2.1 ++ ' ' :: g.print s.offset.2.2))) ++ '\n' :: s.lines.flatMap (writeLine c)))) := by
  unfold write
  rw [show "delta_psi ".toList = "delta_psi".toList ++ [' '] by decide, show "origin_psi ".toList = "origin_psi".toList ++ [' '] by decide, show "origin_phi ".toList = "origin_phi".toList ++ [' '] by decide,
    show "center_offset ".toList = "center_offset".toList ++ [' '] by decide]
  simp only [List.append_assoc, List.cons_append, List.nil_append]

/-- reading the beginning of the file -/
theorem read_head (hc : Lawful c round) (hg : Lawful g roundG) (s s0 : Scan F G) : read c g s0 (write c g s) =
    parseLines c g { s0 with deltaPsi := round s.deltaPsi, originPsi := round s.originPsi, originPhi := round s.originPhi, offset := (roundG s.offset.1, roundG s.offset.2.1, roundG s.offset.2.2) }
      (splitLines (s.lines.flatMap (writeLine c))) := by
  have np : ∀ x, NoNewline (c.print x) := print_newline hc
  have ng : ∀ x, NoNewline (g.print x) := print_newline hg
  have nk : ∀ {w t : List Char}, NoNewline w → NoNewline t → NoNewline (w ++ ' ' :: t) := fun hw ht => noNewline_append hw (noNewline_cons (by decide) ht)
  have k1 : NoNewline "delta_psi".toList := by unfold NoNewline; decide
  have k2 : NoNewline "origin_psi".toList := by unfold NoNewline; decide
  have k3 : NoNewline "origin_phi".toList := by unfold NoNewline; decide
  have k4 : NoNewline "center_offset".toList := by unfold NoNewline; decide
  unfold read
  rw [write_eq, split_line _ _ (nk k1 (np _)), split_line _ _ (nk k2 (np _)), split_line _ _ (nk k3 (np _)), split_line _ _ (nk k4 (nk (ng _) (nk (ng _) (ng _))))]
  rw [parseLines, parse_deltaPsi hc, Out.bind, parseLines, parse_originPsi hc, Out.bind, parseLines, parse_originPhi hc, Out.bind, parseLines, parse_offset hg, Out.bind]

/-- C106 for scans with ranges below 2^31 and remissions up to 2^24: loading what was saved yields the angles and the offset of the scan as they were printed, and appends its lines. The flag `x_forward` keeps the value it
had before; remissions of lines with another number of ranges are dropped. -/
theorem C106_append_partial (hc : Lawful c round) (hg : Lawful g roundG) (s s0 : Scan F G) (h1 : ∀ l ∈ s.lines, ∀ n ∈ l.ranges, n < 2 ^ 31)
    (h2 : ∀ l ∈ s.lines, l.ranges.length = l.remissions.length → ∀ n ∈ l.remissions, n ≤ 2 ^ 24) :
    read c g s0 (write c g s) = .ok
      { deltaPsi := round s.deltaPsi, originPsi := round s.originPsi, originPhi := round s.originPhi, offset := (roundG s.offset.1, roundG s.offset.2.1, roundG s.offset.2.2)
        pointsPerLine := ((s.lines.getLast?).map fun l => l.ranges.length).getD s0.pointsPerLine, lines := s0.lines ++ s.lines.map (keptLine round), xForward := s0.xForward } := by
  rw [read_head hc hg, parse_lines hc s.lines _ h1 h2]

/-- C106 in full, for the scans that are kept: with numbers that are printed exactly, one remission for each range in each line or none, and the scanner looking along the y axis, a new scan loads what was saved. -/
theorem C106_scan_file_partial (hc : Lawful c round) (hg : Lawful g roundG) (s s0 : Scan F G) (h0 : s0.lines = []) (hx : s.xForward = s0.xForward) (hl : s.lines ≠ [])
    (hp : ∀ l ∈ s.lines.getLast?, s.pointsPerLine = l.ranges.length)
    (h1 : ∀ l ∈ s.lines, ∀ n ∈ l.ranges, n < 2 ^ 31) (h2 : ∀ l ∈ s.lines, ∀ n ∈ l.remissions, n ≤ 2 ^ 24) (h3 : ∀ l ∈ s.lines, l.remissions = [] ∨ l.remissions.length = l.ranges.length)
    (e1 : ∀ x ∈ [s.deltaPsi, s.originPsi, s.originPhi], round x = x) (e2 : ∀ l ∈ s.lines, round l.deltaPhi = l.deltaPhi) (e3 : ∀ x ∈ [s.offset.1, s.offset.2.1, s.offset.2.2], roundG x = x) :
    read c g s0 (write c g s) = .ok s := by
  rw [C106_append_partial hc hg s s0 h1 fun l hl _ => h2 l hl]
  have a1 := e1 s.deltaPsi (by simp)
  have a2 := e1 s.originPsi (by simp)
  have a3 := e1 s.originPhi (by simp)
  have b1 := e3 s.offset.1 (by simp)
  have b2 := e3 s.offset.2.1 (by simp)
  have b3 := e3 s.offset.2.2 (by simp)
  have hk : s.lines.map (keptLine round) = s.lines := by
    conv_rhs => rw [← List.map_id s.lines]
    refine List.map_congr_left fun l hl => ?_
    unfold keptLine
    rw [e2 l hl]
    by_cases hr : l.remissions.length = l.ranges.length
    · rw [if_pos hr]
      rfl
    · rw [if_neg hr]
      rcases h3 l hl with h | h
      · conv_rhs => rw [id, ← show Line.mk l.deltaPhi l.ranges l.remissions = l from rfl, h]
      · exact absurd h hr
  have hq : ((s.lines.getLast?).map fun l => l.ranges.length).getD s0.pointsPerLine = s.pointsPerLine := by
    cases hg : s.lines.getLast? with
    | none => exact absurd (List.getLast?_eq_none_iff.1 hg) hl
    | some l => exact (hp l (by rw [hg]; rfl)).symm
  rw [a1, a2, a3, b1, b2, b3, hk, hq, h0, ← hx]
  rfl

/-- what was loaded is saved as the same text, if rounding does not change what is printed and a line without ranges has no remissions -/
theorem C106_again (hc : Lawful c round) (hg : Lawful g roundG) (s s0 t : Scan F G) (h0 : s0.lines = []) (h1 : ∀ l ∈ s.lines, ∀ n ∈ l.ranges, n < 2 ^ 31)
    (h2 : ∀ l ∈ s.lines, l.ranges.length = l.remissions.length → ∀ n ∈ l.remissions, n ≤ 2 ^ 24) (h3 : ∀ l ∈ s.lines, l.ranges = [] → l.remissions = [])
    (e1 : ∀ x, c.print (round x) = c.print x) (e2 : ∀ x, g.print (roundG x) = g.print x) (ht : read c g s0 (write c g s) = .ok t) : write c g t = write c g s := by
  rw [C106_append_partial hc hg s s0 h1 h2] at ht
  injection ht with ht
  subst ht
  have hl : (s.lines.map (keptLine round)).flatMap (writeLine c) = s.lines.flatMap (writeLine c) := by
    rw [List.flatMap_map]
    refine List.flatMap_congr fun l hl => ?_
    have hi : (l.ranges.length = (keptLine round l).remissions.length) ↔ l.ranges.length = l.remissions.length := by
      unfold keptLine
      by_cases hr : l.remissions.length = l.ranges.length
      · rw [if_pos hr]
      · rw [if_neg hr]
        refine ⟨fun h => ?_, fun h => absurd h.symm hr⟩
        have : l.ranges = [] := List.eq_nil_of_length_eq_zero h
        rw [this, h3 l hl this]
    rw [writeLine_eq, writeLine_eq]
    have t1 : lineText c (keptLine round l) = lineText c l := by
      unfold lineText
      rw [show (keptLine round l).deltaPhi = round l.deltaPhi from rfl, e1]
      exact congrArg _ rfl
    have t0 : (keptLine round l).ranges = l.ranges := rfl
    rw [t1, t0]
    by_cases hr : l.ranges.length = l.remissions.length
    · have t2 : remissionText c (keptLine round l) = remissionText c l := by
        unfold remissionText
        rw [show (keptLine round l).deltaPhi = round l.deltaPhi from rfl, e1, show (keptLine round l).remissions = l.remissions from if_pos hr.symm]
      rw [if_pos (hi.2 hr), if_pos hr, t2]
    · rw [if_neg fun h => hr (hi.1 h), if_neg hr]
  rw [write_eq, write_eq]
  dsimp only
  rw [e1, e1, e1, e2, e2, e2, h0, List.nil_append, hl]

/-- Violation: the direction of the scanner is not saved. A scan looking along the x axis is a scan looking along the y axis after loading it. -/
theorem C106_forward (hc : Lawful c round) (hg : Lawful g roundG) (s s0 t : Scan F G) (h1 : ∀ l ∈ s.lines, ∀ n ∈ l.ranges, n < 2 ^ 31)
    (h2 : ∀ l ∈ s.lines, l.ranges.length = l.remissions.length → ∀ n ∈ l.remissions, n ≤ 2 ^ 24) (h0 : s0.xForward = false) (ht : read c g s0 (write c g s) = .ok t) : t.xForward = false := by
  rw [C106_append_partial hc hg s s0 h1 h2] at ht
  injection ht with ht
  rw [← ht, h0]

omit [DecidableEq F] in
theorem writeNumbers_append (a b : List Nat) : writeNumbers (a ++ b) = writeNumbers a ++ writeNumbers b := by simp [writeNumbers]

/-- reading ranges up to one that is too large -/
theorem readRanges_big : ∀ (l : List Nat) (n : Nat) (t : List Nat) (fuel : Nat) (acc : List Nat), (∀ n ∈ l, n < 2 ^ 31) → 2 ^ 31 ≤ n → l.length + 2 ≤ fuel →
    readRanges fuel ⟨writeNumbers (l ++ n :: t), false, false⟩ acc = if t = [] then .ok (acc ++ l ++ [2 ^ 31 - 1]) else .undefined := by
  intro l
  induction l with
  | nil =>
    intro n t fuel acc _ hn hf
    obtain ⟨f, rfl⟩ : ∃ f, fuel = f + 2 := ⟨fuel - 2, by simp at hf; omega⟩
    rw [readRanges, if_neg (by simp), List.nil_append, writeNumbers_cons, readInt_big n (writeNumbers_rest t), if_neg (by omega)]
    dsimp only
    rw [writeNumbers_nil_iff, readRanges]
    cases t with
    | nil => simp
    | cons m t => simp [readInt, sentry]
  | cons m l ih =>
    intro n t fuel acc hb hn hf
    obtain ⟨f, rfl⟩ : ∃ f, fuel = f + 1 := ⟨fuel - 1, by simp at hf; omega⟩
    have hm := hb m (by simp)
    rw [readRanges, if_neg (by simp), List.cons_append, writeNumbers_cons, readInt_big m (writeNumbers_rest _), if_pos hm]
    dsimp only
    rw [writeNumbers_nil_iff, show (l ++ n :: t).isEmpty = false by simp, ih n t f _ (fun m hm => hb m (by simp [hm])) hn (by simp at hf; omega)]
    have : ((m : Int) % 2 ^ 32).toNat = m := by omega
    rw [this]
    simp

/-- Violation: ranges from 2^31 on are written as they are but are not read back. The last one of a line becomes 2^31 - 1, and after any other the values read are not initialised (and there is no end of them). -/
theorem C106_large_range (hc : Lawful c round) (hg : Lawful g roundG) (s s0 : Scan F G) (l t : List Nat) (n : Nat) (phi : F) (hl : ∀ n ∈ l, n < 2 ^ 31) (hn : 2 ^ 31 ≤ n) (h0 : s0.lines = [])
    (hs : s.lines = [⟨phi, l ++ n :: t, []⟩]) :
    (t = [] → ∃ u, read c g s0 (write c g s) = .ok u ∧ u.lines = [⟨round phi, l ++ [2 ^ 31 - 1], []⟩]) ∧ (t ≠ [] → read c g s0 (write c g s) = .undefined) := by
  have n1 : ∀ d ∈ lineText c ⟨phi, l ++ n :: t, []⟩, d ≠ '\n' := by
    intro d hd
    rw [lineText, List.mem_append, List.mem_append] at hd
    rcases hd with (hd | hd) | hd
    · exact word_line d hd
    · exact print_newline hc _ d hd
    · exact writeNumbers_newline _ d hd
  have hp : ∀ s1 : Scan F G, parseLine c g s1 (lineText c ⟨phi, l ++ n :: t, []⟩) =
      (if t = [] then .ok (l ++ [2 ^ 31 - 1]) else .undefined : Out (List Nat)).bind fun r => .ok { s1 with pointsPerLine := r.length, lines := s1.lines ++ [⟨round phi, r, []⟩] } := by
    intro s1
    have e : lineText c ⟨phi, l ++ n :: t, []⟩ = "line".toList ++ ' ' :: (c.print phi ++ writeNumbers (l ++ n :: t)) := by simp [lineText]
    unfold parseLine
    rw [e, readWord_key (by decide) (by decide)]
    dsimp only
    rw [if_neg (by decide), if_neg (by decide), if_neg (by decide), if_neg (by decide), if_pos rfl, readF_print hc _ (writeNumbers_rest _)]
    dsimp only
    rw [writeNumbers_nil_iff, show (l ++ n :: t).isEmpty = false by simp, readRanges_big l n t _ [] hl hn, List.nil_append]
    have := writeNumbers_length (l ++ n :: t)
    simp at this ⊢
    omega
  have e : s.lines.flatMap (writeLine c) = lineText c ⟨phi, l ++ n :: t, []⟩ ++ '\n' :: [] := by
    rw [hs, List.flatMap_singleton, writeLine_eq, if_neg (by simp), List.append_nil]
  rw [read_head hc hg, e, split_line _ _ n1, parseLines, hp]
  constructor
  · intro h
    rw [if_pos h]
    refine ⟨{ s0 with deltaPsi := round s.deltaPsi, originPsi := round s.originPsi, originPhi := round s.originPhi, offset := (roundG s.offset.1, roundG s.offset.2.1, roundG s.offset.2.2)
                      pointsPerLine := (l ++ [2 ^ 31 - 1]).length, lines := s0.lines ++ [⟨round phi, l ++ [2 ^ 31 - 1], []⟩] }, ?_, ?_⟩
    · simp [splitLines, parseLines, parseLine, readWord, sentry, Out.bind]
    · simp [h0]
  · intro h
    rw [if_neg h]
    rfl

/-! ### errors -/

/-- a file whose first line is a remission is rejected -/
theorem C106_remission_first (s : Scan F G) (h : s.lines = []) (rest : List Char) : parseLine c g s ("remission".toList ++ ' ' :: rest) = .throws := by
  unfold parseLine
  rw [readWord_key (by decide) (by decide)]
  dsimp only
  rw [if_neg (by decide), if_neg (by decide), if_neg (by decide), if_neg (by decide), if_neg (by decide), if_pos rfl, h]
  rfl

/-- so is a remission with another angle than the line before it -/
theorem C106_remission_angle (hc : Lawful c round) (s : Scan F G) (l : Line F) (h : s.lines.getLast? = some l) (x : F) (hx : round x ≠ l.deltaPhi) (r : List Nat) :
    parseLine c g s ("remission".toList ++ ' ' :: (c.print x ++ writeNumbers r)) = .throws := by
  unfold parseLine
  rw [readWord_key (by decide) (by decide)]
  dsimp only
  rw [if_neg (by decide), if_neg (by decide), if_neg (by decide), if_neg (by decide), if_neg (by decide), if_pos rfl, h, readF_print hc _ (writeNumbers_rest _)]
  dsimp only
  rw [if_pos hx]

/-! ### example -/

/-- numbers that are printed exactly: natural numbers in decimal digits -/
def natCodec : Codec Nat where
  print := Nat.toDigits 10
  extract t := if t.takeWhile Char.isDigit = [] then (none, t) else (some (Nat.ofDigitChars 10 (t.takeWhile Char.isDigit) 0), t.dropWhile Char.isDigit)
  zero := 0
  toUnsigned n := if n < 2 ^ 32 then some n else none

theorem natCodec_back (x : Nat) (rest : List Char) (h : rest = [] ∨ ∃ t, rest = ' ' :: t) : natCodec.extract (Nat.toDigits 10 x ++ rest) = (some x, rest) := by
  simp only [natCodec]
  rw [(takeWhile_digits x h).1, (takeWhile_digits x h).2, if_neg (digits_ne x), Nat.ofDigitChars_toDigits (by decide) (by decide)]

theorem natCodec_lawful : Lawful natCodec id where
  word x := ⟨digits_ne x, fun d hd => isDigit_space (digits_isDigit x d hd)⟩
  back x rest h := natCodec_back x rest h
  small n hn rest h := ⟨n, natCodec_back n rest h, by simp only [natCodec]; rw [if_pos (by omega)]⟩

/-- a scan of two lines, one with remissions, is loaded as it was saved -/
example : read natCodec natCodec ⟨9, 9, 9, (9, 9, 9), 9, [], false⟩ (write natCodec natCodec ⟨1, 2, 3, (4, 5, 60), 2, [⟨7, [1000, 20, 0], [5, 6, 700]⟩, ⟨8, [3, 2], []⟩], false⟩) =
    .ok ⟨1, 2, 3, (4, 5, 60), 2, [⟨7, [1000, 20, 0], [5, 6, 700]⟩, ⟨8, [3, 2], []⟩], false⟩ :=
  C106_scan_file_partial natCodec_lawful natCodec_lawful _ _ rfl rfl (by decide) (by simp) (by simp) (by simp) (by simp) (by simp) (by simp) (by simp)

/-- its text -/
example : String.ofList (write natCodec natCodec ⟨1, 2, 3, (4, 5, 60), 2, [⟨7, [1000, 20], [5, 600]⟩], false⟩) =
    "delta_psi 1\norigin_psi 2\norigin_phi 3\ncenter_offset 4 5 60\nline 7 1000 20\nremission 7 5 600\n" := by decide +kernel

end Envire.ScanFile

#print axioms Envire.ScanFile.C106_append_partial
#print axioms Envire.ScanFile.C106_scan_file_partial
#print axioms Envire.ScanFile.C106_again
#print axioms Envire.ScanFile.C106_forward
#print axioms Envire.ScanFile.C106_large_range
#print axioms Envire.ScanFile.C106_remission_first
#print axioms Envire.ScanFile.C106_remission_angle
