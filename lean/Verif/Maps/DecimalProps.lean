import Verif.Maps.DecimalModel
import Mathlib.Data.Rat.Floor
import Mathlib.Tactic.Linarith
import Mathlib.Tactic.IntervalCases
import Mathlib.Tactic.Positivity
import Mathlib.Tactic.FieldSimp
import Mathlib.Tactic.NormNum

/-!
Numbers as text, see DecimalModel: what `>>` reads from the text that `<<` has written. Used for C186 and C119.
-/
namespace Envire.Decimal

/-! ### specification -/

section
variable {K : Type} [Field K] [LinearOrder K]

/-- a number with at most six digits -/
def Six (x : K) : Prop := ∃ n k : ℤ, |n| < 1000000 ∧ x = n * 10 ^ k

/-- the number is zero or about as large as a number of type double can be -/
def InRange (x : K) : Prop := x = 0 ∨ (10 : K) ^ (-999 : ℤ) ≤ |x| ∧ |x| < 10 ^ (999 : ℤ)

end

/-! ### digits -/

theorem digit_char {d : ℕ} (h : d < 10) : digitVal (digitChar d) = some d := by
  interval_cases d <;> rfl

theorem digit_ne {d : ℕ} (h : d < 10) : digitChar d ≠ '-' ∧ digitChar d ≠ '+' ∧ digitChar d ≠ '.' ∧ digitChar d ≠ ' ' ∧ digitChar d ≠ '\n' ∧
    digitChar d ≠ '\t' ∧ digitChar d ≠ '\r' := by
  interval_cases d <;> decide

theorem take_chars (l : List ℕ) (h : ∀ d ∈ l, d < 10) (rest : List Char) (hr : ∀ c ∈ rest.head?, digitVal c = none) :
    takeDigits (chars l ++ rest) = (l, rest) := by
  induction l with
  | nil =>
    cases rest with
    | nil => rfl
    | cons c t =>
      have := hr c rfl
      simp [chars, takeDigits, this]
  | cons d l ih =>
    have ih := ih fun x hx => h x (List.mem_cons_of_mem _ hx)
    have hd := digit_char (h d List.mem_cons_self)
    unfold chars at ih ⊢
    rw [List.map_cons, List.cons_append, takeDigits, hd, ih]

theorem foldl_digits (l : List ℕ) (n : ℕ) : l.foldl (fun n d => 10 * n + d) n = n * 10 ^ l.length + ofDigits l := by
  unfold ofDigits
  induction l generalizing n with
  | nil => simp
  | cons d l ih =>
    rw [List.foldl_cons, List.foldl_cons, ih, ih (10 * 0 + d), List.length_cons, Nat.pow_succ]
    ring

theorem ofDigits_append (a b : List ℕ) : ofDigits (a ++ b) = ofDigits a * 10 ^ b.length + ofDigits b := by
  have : ofDigits (a ++ b) = b.foldl (fun n d => 10 * n + d) (ofDigits a) := by
    unfold ofDigits
    rw [List.foldl_append]
  rw [this, foldl_digits]

theorem ofDigits_zeros (k : ℕ) : ofDigits (List.replicate k 0) = 0 := by
  induction k with
  | zero => rfl
  | succ k ih =>
    have := ofDigits_append [0] (List.replicate k 0)
    rw [ih] at this
    simpa [List.replicate_succ, ofDigits] using this

theorem strip_spec (l : List ℕ) : ∃ k, l = strip l ++ List.replicate k 0 := by
  induction l with
  | nil => exact ⟨0, rfl⟩
  | cons d l ih =>
    obtain ⟨k, hk⟩ := ih
    unfold strip
    by_cases h : d = 0 ∧ strip l = []
    · rw [if_pos h]
      refine ⟨k + 1, ?_⟩
      rw [h.2, List.nil_append] at hk
      rw [h.1, List.nil_append, List.replicate_succ, ← hk]
    · rw [if_neg h]
      exact ⟨k, by rw [List.cons_append, ← hk]⟩

theorem strip_mem {l : List ℕ} {d : ℕ} (h : d ∈ strip l) : d ∈ l := by
  obtain ⟨k, hk⟩ := strip_spec l
  rw [hk]
  exact List.mem_append_left _ h

theorem six_value {m : ℕ} (h : m < 1000000) : ofDigits (sixDigits m) = m := by
  simp only [ofDigits, sixDigits, List.foldl]
  omega

theorem six_digit {m d : ℕ} (h : d ∈ sixDigits m) : d < 10 := by
  simp only [sixDigits, List.mem_cons, List.not_mem_nil, or_false] at h
  rcases h with rfl | rfl | rfl | rfl | rfl | rfl <;> exact Nat.mod_lt _ (by decide)

theorem exp_value {n : ℕ} (h : n ≤ 999) : ofDigits (expDigits n) = n := by
  unfold expDigits
  split <;> simp only [ofDigits, List.foldl] <;> omega

theorem exp_digit {n d : ℕ} (h : d ∈ expDigits n) : d < 10 := by
  unfold expDigits at h
  split at h <;> simp only [List.mem_cons, List.not_mem_nil, or_false] at h <;> omega

theorem exp_ne (n : ℕ) : expDigits n ≠ [] := by
  unfold expDigits
  split <;> simp

/-! ### reading -/

section
variable {K : Type} [Field K]

/-- where a number ends -/
def Ends (rest : List Char) : Prop := ∀ c ∈ rest.head?, digitVal c = none ∧ c ≠ '.' ∧ c ≠ 'e' ∧ c ≠ 'E'

theorem takeSign_chars (l : List ℕ) (h : ∀ d ∈ l, d < 10) (hl : l ≠ []) (rest : List Char) : takeSign (chars l ++ rest) = (false, chars l ++ rest) := by
  cases l with
  | nil => exact absurd rfl hl
  | cons d l =>
    obtain ⟨h1, h2, -⟩ := digit_ne (h d List.mem_cons_self)
    unfold chars
    rw [List.map_cons, List.cons_append, takeSign, if_neg h1, if_neg h2]

theorem frac_chars (l : List ℕ) (h : ∀ d ∈ l, d < 10) (rest : List Char) (hr : ∀ c ∈ rest.head?, digitVal c = none ∧ c ≠ '.') :
    takeFrac ((if l = [] then [] else '.' :: chars l) ++ rest) = (l, rest) := by
  by_cases hl : l = []
  · rw [if_pos hl, hl]
    cases rest with
    | nil => rfl
    | cons c t => rw [List.nil_append, takeFrac, if_neg (hr c rfl).2]
  · rw [if_neg hl, List.cons_append, takeFrac, if_pos rfl, take_chars l h rest fun c hc => (hr c hc).1]

theorem read_text (n : Num) (hw : ∀ d ∈ n.whole, d < 10) (hf : ∀ d ∈ n.frac, d < 10) (hne : n.whole ≠ []) (he : ∀ e, n.exp = some e → e.natAbs ≤ 999)
    (rest : List Char) (hr : Ends rest) :
    read (n.text ++ rest) = (some (value n.neg n.whole n.frac (n.exp.getD 0) : K), rest) := by
  obtain ⟨neg, whole, frac, exp⟩ := n
  dsimp only at hw hf hne he ⊢
  set tail : List Char := expText exp ++ rest with htail
  have ht : ∀ c ∈ tail.head?, digitVal c = none ∧ c ≠ '.' := by
    cases exp with
    | none =>
      rw [htail]
      exact fun c hc => ⟨(hr c hc).1, (hr c hc).2.1⟩
    | some e =>
      intro c hc
      rw [htail] at hc
      simp only [expText, List.cons_append, List.head?_cons, Option.mem_some_iff] at hc
      rw [← hc]
      decide
  have e1 : Num.text ⟨neg, whole, frac, exp⟩ ++ rest =
      (if neg then ['-'] else []) ++ (chars whole ++ ((if frac = [] then [] else '.' :: chars frac) ++ tail)) := by
    simp only [Num.text, htail, List.append_assoc]
  have s1 : takeSign ((if neg then ['-'] else []) ++ (chars whole ++ ((if frac = [] then [] else '.' :: chars frac) ++ tail))) =
      (neg, chars whole ++ ((if frac = [] then [] else '.' :: chars frac) ++ tail)) := by
    cases neg with
    | true => rfl
    | false => exact takeSign_chars whole hw hne _
  have s2 : takeDigits (chars whole ++ ((if frac = [] then [] else '.' :: chars frac) ++ tail)) = (whole, (if frac = [] then [] else '.' :: chars frac) ++ tail) := by
    refine take_chars whole hw _ fun c hc => ?_
    by_cases h : frac = []
    · rw [if_pos h, List.nil_append] at hc
      exact (ht c hc).1
    · rw [if_neg h] at hc
      simp only [List.cons_append, List.head?_cons, Option.mem_some_iff] at hc
      rw [← hc]
      decide
  have s3 := frac_chars frac hf tail ht
  unfold read
  rw [e1, s1]
  dsimp only
  rw [s2]
  dsimp only
  rw [s3]
  dsimp only
  rw [if_neg (by simp [hne])]
  cases exp with
  | none =>
    rw [htail]
    simp only [expText, List.nil_append]
    cases rest with
    | nil => rfl
    | cons c t =>
      obtain ⟨-, -, h3, h4⟩ := hr c rfl
      simp [h3, h4]
  | some e =>
    have he := he e rfl
    have hs : takeSign ((if e < 0 then '-' else '+') :: (chars (expDigits e.natAbs) ++ rest)) = (decide (e < 0), chars (expDigits e.natAbs) ++ rest) := by
      by_cases h : e < 0 <;> simp [h, takeSign]
    have hd := take_chars (expDigits e.natAbs) (fun d hd => exp_digit hd) rest fun c hc => (hr c hc).1
    rw [htail]
    simp only [expText, List.cons_append, hs, hd, if_neg (exp_ne _), Option.getD_some, true_or, if_true, exp_value he]
    by_cases h : e < 0
    · have : -(e.natAbs : ℤ) = e := by omega
      simp only [h, decide_true, if_true, this]
    · have : (e.natAbs : ℤ) = e := by omega
      simp only [h, decide_false, Bool.false_eq_true, if_false, this]

end

/-! ### printing -/

section
variable {K : Type} [Field K] [LinearOrder K] [IsStrictOrderedRing K]

theorem ten_ne : (10 : K) ≠ 0 := by norm_num

theorem value_zeros (neg : Bool) (w f : List ℕ) (k : ℕ) (e : ℤ) : (value neg w (f ++ List.replicate k 0) e : K) = value neg w f e := by
  unfold value
  rw [← List.append_assoc, ofDigits_append, ofDigits_zeros, List.length_append, List.length_replicate]
  have : (10 : K) ^ (e - ((f.length + k : ℕ) : ℤ)) * 10 ^ (k : ℤ) = 10 ^ (e - (f.length : ℤ)) := by
    rw [← zpow_add₀ ten_ne]
    congr 1
    push_cast
    ring
  push_cast at this ⊢
  rw [← this, zpow_natCast]
  ring

theorem value_strip (neg : Bool) (w f : List ℕ) (e : ℤ) : (value neg w (strip f) e : K) = value neg w f e := by
  obtain ⟨k, hk⟩ := strip_spec f
  conv_rhs => rw [hk]
  exact (value_zeros neg w (strip f) k e).symm

/-- the number that a text stands for -/
def Num.value (n : Num) : K := Decimal.value n.neg n.whole n.frac (n.exp.getD 0)

theorem format_value (neg : Bool) (e : ℤ) (m : ℕ) (hm : m < 1000000) :
    (Num.value (format neg e m) : K) = (if neg then -1 else 1) * m * 10 ^ (e - 5) := by
  unfold format Num.value
  dsimp only
  by_cases h1 : e < -4 ∨ 5 < e
  · rw [if_pos h1]
    dsimp only
    rw [value_strip]
    unfold value
    rw [List.take_append_drop, six_value hm]
    rfl
  · rw [if_neg h1]
    by_cases h2 : 0 ≤ e
    · rw [if_pos h2]
      dsimp only
      rw [value_strip]
      unfold value
      rw [List.take_append_drop, six_value hm, List.length_drop]
      have : (0 : ℤ) - (((sixDigits m).length - (e.toNat + 1) : ℕ) : ℤ) = e - 5 := by
        have : (sixDigits m).length = 6 := rfl
        rw [this]
        omega
      rw [Option.getD_none, this]
    · rw [if_neg h2]
      dsimp only
      rw [value_strip]
      unfold value
      rw [ofDigits_append, ofDigits_append, ofDigits_zeros, six_value hm, List.length_append, List.length_replicate]
      have h6 : (sixDigits m).length = 6 := rfl
      have : (0 : ℤ) - (((-e - 1).toNat + (sixDigits m).length : ℕ) : ℤ) = e - 5 := by
        rw [h6]
        omega
      rw [Option.getD_none, this]
      simp [ofDigits]

theorem format_digits (neg : Bool) (e : ℤ) (m : ℕ) : (∀ d ∈ (format neg e m).whole, d < 10) ∧ (∀ d ∈ (format neg e m).frac, d < 10) ∧
    (format neg e m).whole ≠ [] ∧ ∀ e', (format neg e m).exp = some e' → e' = e := by
  unfold format
  dsimp only
  by_cases h1 : e < -4 ∨ 5 < e
  · rw [if_pos h1]
    refine ⟨fun d hd => six_digit (List.mem_of_mem_take hd), fun d hd => six_digit (List.mem_of_mem_drop (strip_mem hd)), by simp [sixDigits], fun e' h => ?_⟩
    exact (Option.some.inj h).symm
  · rw [if_neg h1]
    by_cases h2 : 0 ≤ e
    · rw [if_pos h2]
      refine ⟨fun d hd => six_digit (List.mem_of_mem_take hd), fun d hd => six_digit (List.mem_of_mem_drop (strip_mem hd)), by simp [sixDigits], fun e' h => ?_⟩
      cases h
    · rw [if_neg h2]
      refine ⟨by simp, fun d hd => ?_, by simp, fun e' h => ?_⟩
      · rcases List.mem_append.1 (strip_mem hd) with h | h
        · rw [(List.mem_replicate.1 h).2]
          decide
        · exact six_digit h
      · cases h

variable [FloorRing K]

theorem nearest_floor (q : K) : nearest q = ⌊q⌋ ∨ nearest q = ⌊q⌋ + 1 := by
  unfold nearest
  split_ifs <;> simp

theorem nearest_int (n : ℤ) : nearest (n : K) = n := by
  unfold nearest
  rw [Int.floor_intCast, sub_self, if_pos (by norm_num)]

/-- no integer is nearer -/
theorem nearest_best (q : K) (j : ℤ) : |(nearest q : K) - q| ≤ |(j : K) - q| := by
  have h1 := Int.floor_le q
  have h2 := Int.lt_floor_add_one q
  have hj : (j : K) ≤ ⌊q⌋ ∨ (⌊q⌋ : K) + 1 ≤ j := by
    rcases lt_or_ge ⌊q⌋ j with h | h
    · right
      exact_mod_cast h
    · left
      exact_mod_cast h
  have ha : ∀ b : K, 0 ≤ b → (b ≤ q - ⌊q⌋ ∧ b ≤ ⌊q⌋ + 1 - q) → b ≤ |(j : K) - q| := by
    intro b hb hh
    rcases hj with hj | hj
    · rw [abs_sub_comm]
      exact le_trans hh.1 (le_trans (by linarith) (le_abs_self _))
    · exact le_trans hh.2 (le_trans (by linarith) (le_abs_self _))
  unfold nearest
  split_ifs with h3 h4 h5
  · rw [abs_sub_comm, abs_of_nonneg (by linarith)]
    exact ha _ (by linarith) ⟨le_refl _, by linarith⟩
  · push_cast
    rw [abs_of_nonneg (by linarith)]
    exact ha _ (by linarith) ⟨by linarith, le_refl _⟩
  · rw [abs_sub_comm, abs_of_nonneg (by linarith)]
    exact ha _ (by linarith) ⟨le_refl _, by linarith⟩
  · push_cast
    rw [abs_of_nonneg (by linarith)]
    exact ha _ (by linarith) ⟨by linarith, le_refl _⟩

theorem nearest_half (q : K) : |(nearest q : K) - q| ≤ 1 / 2 := by
  have h1 := Int.floor_le q
  have h2 := Int.lt_floor_add_one q
  unfold nearest
  split_ifs with h3 h4 h5
  · rw [abs_sub_comm, abs_of_nonneg (by linarith)]
    linarith
  · push_cast
    rw [abs_of_nonneg (by linarith)]
    linarith
  · rw [abs_sub_comm, abs_of_nonneg (by linarith)]
    linarith
  · push_cast
    rw [abs_of_nonneg (by linarith)]
    linarith

theorem log_bounds {a : K} (ha : 0 < a) : (10 : K) ^ Int.log 10 a ≤ a ∧ a < 10 ^ (Int.log 10 a + 1) := by
  have h1 := Int.zpow_log_le_self (b := 10) (by norm_num) ha
  have h2 := Int.lt_zpow_succ_log_self (b := 10) (by norm_num) a
  push_cast at h1 h2
  exact ⟨h1, h2⟩

theorem log_eq {a : K} {e : ℤ} (h1 : (10 : K) ^ e ≤ a) (h2 : a < 10 ^ (e + 1)) : Int.log 10 a = e := by
  have ha : 0 < a := lt_of_lt_of_le (zpow_pos (by norm_num) e) h1
  have g1 := (Int.zpow_le_iff_le_log (b := 10) (by norm_num) (x := e) ha).1 (by push_cast; exact h1)
  have g2 := (Int.lt_zpow_iff_log_lt (b := 10) (by norm_num) (x := e + 1) ha).1 (by push_cast; exact h2)
  omega

theorem pow_split (e k : ℤ) : (10 : K) ^ e = 10 ^ (e - k) * 10 ^ k := by
  rw [← zpow_add₀ ten_ne]
  congr 1
  ring

/-- the number of the digits of `sci` -/
theorem sci_mant {a : K} (ha : 0 < a) : ∃ m : ℕ, nearest (a * 10 ^ (5 - Int.log 10 a)) = m ∧ 100000 ≤ m ∧ m ≤ 1000000 := by
  obtain ⟨h1, h2⟩ := log_bounds ha
  set e := Int.log 10 a
  set q := a * (10 : K) ^ (5 - e) with hq
  have hp : (0 : K) < 10 ^ (5 - e) := zpow_pos (by norm_num) _
  have q1 : ((100000 : ℤ) : K) ≤ q := by
    have := mul_le_mul_of_nonneg_right h1 hp.le
    rw [← zpow_add₀ ten_ne] at this
    have e5 : e + (5 - e) = 5 := by ring
    rw [e5] at this
    norm_num at this ⊢
    exact this
  have q2 : q < ((1000000 : ℤ) : K) := by
    have := mul_lt_mul_of_pos_right h2 hp
    rw [← zpow_add₀ ten_ne] at this
    have e5 : e + 1 + (5 - e) = 6 := by ring
    rw [e5] at this
    norm_num at this ⊢
    exact this
  have f1 : 100000 ≤ ⌊q⌋ := Int.le_floor.2 q1
  have f2 : ⌊q⌋ < 1000000 := Int.floor_lt.2 q2
  refine ⟨(nearest q).toNat, ?_, ?_, ?_⟩ <;> rcases nearest_floor q with h | h <;> omega

theorem sci_spec {a : K} (ha : 0 < a) : 100000 ≤ (sci a).2 ∧ (sci a).2 < 1000000 ∧
    (((sci a).2 : K) * 10 ^ ((sci a).1 - 5) = nearest (a * 10 ^ (5 - Int.log 10 a)) * 10 ^ (Int.log 10 a - 5)) ∧
    ((sci a).1 = Int.log 10 a ∨ (sci a).1 = Int.log 10 a + 1) := by
  obtain ⟨m, h1, h2, h3⟩ := sci_mant ha
  unfold sci
  dsimp only
  rw [h1, Int.toNat_natCast]
  by_cases h : m = 1000000
  · rw [if_pos h]
    refine ⟨le_refl _, by norm_num, ?_, .inr rfl⟩
    dsimp only
    have : (10 : K) ^ (Int.log 10 a + 1 - 5) = 10 ^ (Int.log 10 a - 5) * 10 := by
      rw [← zpow_add_one₀ ten_ne]
      congr 1
      ring
    rw [this, h]
    push_cast
    ring
  · rw [if_neg h]
    exact ⟨h2, by dsimp only; omega, by simp, .inl rfl⟩

/-- the number with six digits that is printed -/
def round (x : K) : K := if x = 0 ∨ 999 < (sci |x|).1.natAbs then 0 else (if x < 0 then -1 else 1) * (sci |x|).2 * 10 ^ ((sci |x|).1 - 5)

theorem ends_space {rest : List Char} (h : ∀ c ∈ rest.head?, c = ' ' ∨ c = '\n' ∨ c = '\t' ∨ c = '\r' ∨ c = ',' ∨ c = ';' ∨ c = '#') : Ends rest := by
  intro c hc
  rcases h c hc with rfl | rfl | rfl | rfl | rfl | rfl | rfl <;> decide

/-- what is read is what was printed -/
theorem read_print (x : K) (rest : List Char) (hr : Ends rest) : read (print x ++ rest) = (some (round x), rest) := by
  unfold print round
  by_cases h : x = 0 ∨ 999 < (sci |x|).1.natAbs
  · rw [if_pos h, if_pos h]
    have := read_text (K := K) ⟨false, [0], [], none⟩ (by simp) (by simp) (by simp) (by simp) rest hr
    have e : Num.text ⟨false, [0], [], none⟩ = ['0'] := rfl
    rw [e] at this
    rw [this]
    simp [value, ofDigits]
  · rw [if_neg h, if_neg h]
    rw [not_or] at h
    have hx : 0 < |x| := abs_pos.2 h.1
    obtain ⟨-, s2, -, -⟩ := sci_spec hx
    obtain ⟨f1, f2, f3, f4⟩ := format_digits (decide (x < 0)) (sci |x|).1 (sci |x|).2
    rw [read_text _ f1 f2 f3 (fun e he => by rw [f4 e he]; omega) rest hr]
    have := format_value (K := K) (decide (x < 0)) (sci |x|).1 (sci |x|).2 s2
    unfold Num.value at this
    rw [this]
    simp

theorem sci_range {x : K} (h0 : x ≠ 0) (h : InRange x) : ¬ 999 < (sci |x|).1.natAbs := by
  have hx : 0 < |x| := abs_pos.2 h0
  obtain ⟨-, -, -, s4⟩ := sci_spec hx
  have h := h.resolve_left h0
  have g1 := (Int.zpow_le_iff_le_log (b := 10) (by norm_num) (x := -999) hx).1 (by push_cast; exact h.1)
  have g2 := (Int.lt_zpow_iff_log_lt (b := 10) (by norm_num) (x := 999) hx).1 (by push_cast; exact h.2)
  omega

theorem round_zero : round (0 : K) = 0 := by
  unfold round
  rw [if_pos (.inl rfl)]

theorem round_abs {x : K} (h0 : x ≠ 0) (h : InRange x) :
    round x = (if x < 0 then -1 else 1) * ((nearest (|x| * 10 ^ (5 - Int.log 10 |x|)) : K) * 10 ^ (Int.log 10 |x| - 5)) := by
  obtain ⟨-, -, s3, -⟩ := sci_spec (abs_pos.2 h0)
  unfold round
  rw [if_neg (not_or.2 ⟨h0, sci_range h0 h⟩), mul_assoc, s3]

theorem sign_abs (x : K) : x = (if x < 0 then -1 else 1) * |x| := by
  by_cases h : x < 0
  · rw [if_pos h, abs_of_neg h]
    ring
  · rw [if_neg h, abs_of_nonneg (not_lt.1 h), one_mul]

theorem sign_dist (x r : K) : |(if x < 0 then -1 else 1) * r - x| = abs (r - |x|) := by
  by_cases h : x < 0
  · rw [if_pos h, abs_of_neg h]
    have e : -1 * r - x = -(r - -x) := by ring
    rw [e, abs_neg]
  · rw [if_neg h, abs_of_nonneg (not_lt.1 h), one_mul]

/-- the scale of the last digit -/
theorem scaled {a : K} (e : ℤ) (z : K) : |z * 10 ^ (e - 5) - a| = |z - a * 10 ^ (5 - e)| * 10 ^ (e - 5) := by
  have hp : (0 : K) < 10 ^ (e - 5) := zpow_pos (by norm_num) _
  have : z * 10 ^ (e - 5) - a = (z - a * 10 ^ (5 - e)) * 10 ^ (e - 5) := by
    have h : (10 : K) ^ (5 - e) * 10 ^ (e - 5) = 1 := by
      rw [← zpow_add₀ ten_ne]
      have : 5 - e + (e - 5) = 0 := by ring
      rw [this, zpow_zero]
    rw [sub_mul, mul_assoc a, h, mul_one]
  rw [this, abs_mul, abs_of_pos hp]

/-- no number with six digits is nearer -/
theorem round_best {x : K} (h : InRange x) {y : K} (hy : Six y) : |round x - x| ≤ |y - x| := by
  by_cases h0 : x = 0
  · rw [h0, round_zero, sub_self, abs_zero]
    exact abs_nonneg _
  have hx : 0 < |x| := abs_pos.2 h0
  obtain ⟨l1, l2⟩ := log_bounds hx
  rw [round_abs h0 h, sign_dist, scaled]
  set e := Int.log 10 |x| with he
  set a := |x| with ha
  have hp : (0 : K) < 10 ^ (e - 5) := zpow_pos (by norm_num) _
  -- any multiple of the last digit
  have best : ∀ j : ℤ, |(nearest (a * 10 ^ (5 - e)) : K) - a * 10 ^ (5 - e)| * 10 ^ (e - 5) ≤ |(j : K) * 10 ^ (e - 5) - a| := by
    intro j
    rw [scaled]
    exact mul_le_mul_of_nonneg_right (nearest_best _ j) hp.le
  -- the distance of |y| or less
  have hyx : abs (|y| - a) ≤ |y - x| := abs_abs_sub_abs_le_abs_sub y x
  refine le_trans ?_ hyx
  by_cases hlt : |y| < 10 ^ e
  · have b := best 100000
    have e5 : ((100000 : ℤ) : K) * 10 ^ (e - 5) = 10 ^ e := by
      rw [pow_split e (e - 5)]
      have : e - (e - 5) = 5 := by ring
      rw [this]
      norm_num
    rw [e5] at b
    refine le_trans b ?_
    rw [abs_sub_comm, abs_of_nonneg (by linarith), abs_sub_comm (abs y), abs_of_nonneg (by linarith)]
    linarith
  · obtain ⟨n, k, hn, hyk⟩ := hy
    have hk : |y| = ((|n| : ℤ) : K) * 10 ^ k := by
      rw [hyk, abs_mul, abs_of_pos (zpow_pos (by norm_num : (0 : K) < 10) k)]
      push_cast
      rfl
    have hke : e - 5 ≤ k := by
      by_contra hc
      apply hlt
      have k6 : (0 : K) < 10 ^ k := zpow_pos (by norm_num) k
      have : |y| < 1000000 * 10 ^ k := by
        rw [hk]
        exact mul_lt_mul_of_pos_right (by exact_mod_cast hn) k6
      refine lt_of_lt_of_le this ?_
      have e6 : (1000000 : K) * 10 ^ k = 10 ^ (k + 6) := by
        rw [zpow_add₀ ten_ne]
        norm_num
        ring
      rw [e6]
      exact zpow_le_zpow_right₀ (by norm_num) (by omega)
    obtain ⟨d, hd⟩ := Int.eq_ofNat_of_zero_le (by omega : 0 ≤ k - (e - 5))
    have := best (|n| * 10 ^ d)
    have ek : (((|n| * 10 ^ d : ℤ)) : K) * 10 ^ (e - 5) = |y| := by
      rw [hk, pow_split k (e - 5), hd]
      push_cast
      rw [zpow_natCast]
      ring
    rw [ek] at this
    exact this

theorem round_exact {x : K} (h : InRange x) (hx : Six x) : round x = x := by
  have := round_best h hx
  rw [sub_self, abs_zero] at this
  exact sub_eq_zero.1 (abs_eq_zero.1 (le_antisymm this (abs_nonneg _)))

/-- what is printed has six digits -/
theorem round_six (x : K) : Six (round x) := by
  unfold round
  by_cases h : x = 0 ∨ 999 < (sci |x|).1.natAbs
  · rw [if_pos h]
    exact ⟨0, 0, by norm_num, by norm_num⟩
  · rw [if_neg h]
    rw [not_or] at h
    obtain ⟨-, s2, -, -⟩ := sci_spec (abs_pos.2 h.1)
    refine ⟨(if x < 0 then -1 else 1) * ((sci |x|).2 : ℤ), (sci |x|).1 - 5, ?_, ?_⟩
    · by_cases hx : x < 0
      · rw [if_pos hx, abs_mul, Nat.abs_cast]
        norm_num
        exact_mod_cast s2
      · rw [if_neg hx, abs_mul, Nat.abs_cast]
        norm_num
        exact_mod_cast s2
    · by_cases hx : x < 0
      · rw [if_pos hx, if_pos hx]
        push_cast
        rfl
      · rw [if_neg hx, if_neg hx]
        push_cast
        rfl

/-- the error is at most five in the seventh digit -/
theorem round_error {x : K} (h : InRange x) : |round x - x| ≤ |x| * (5 / 1000000) := by
  by_cases h0 : x = 0
  · rw [h0, round_zero]
    simp
  have hx : 0 < |x| := abs_pos.2 h0
  obtain ⟨l1, -⟩ := log_bounds hx
  rw [round_abs h0 h, sign_dist, scaled]
  set e := Int.log 10 |x|
  have hp : (0 : K) < 10 ^ (e - 5) := zpow_pos (by norm_num) _
  have e5 : (10 : K) ^ e = 100000 * 10 ^ (e - 5) := by
    rw [pow_split e (e - 5)]
    have : e - (e - 5) = 5 := by ring
    rw [this]
    norm_num
  rw [e5] at l1
  have := mul_le_mul_of_nonneg_right (nearest_half (|x| * (10 : K) ^ (5 - e))) hp.le
  refine le_trans this ?_
  have : |x| * (5 / 1000000) = |x| * (1 / 200000) := by norm_num
  rw [this]
  linarith

theorem sci_six {e : ℤ} {m : ℕ} (h1 : 100000 ≤ m) (h2 : m < 1000000) : sci ((m : K) * 10 ^ (e - 5)) = (e, m) := by
  have hp : (0 : K) < 10 ^ (e - 5) := zpow_pos (by norm_num) _
  have hl : Int.log 10 ((m : K) * 10 ^ (e - 5)) = e := by
    refine log_eq ?_ ?_
    · rw [pow_split e (e - 5)]
      have : e - (e - 5) = 5 := by ring
      rw [this]
      refine mul_le_mul_of_nonneg_right ?_ hp.le
      norm_num
      exact_mod_cast h1
    · rw [pow_split (e + 1) (e - 5)]
      have : e + 1 - (e - 5) = 6 := by ring
      rw [this]
      refine mul_lt_mul_of_pos_right ?_ hp
      norm_num
      exact_mod_cast h2
  unfold sci
  dsimp only
  rw [hl, mul_assoc, ← zpow_add₀ ten_ne]
  have : e - 5 + (5 - e) = 0 := by ring
  rw [this, zpow_zero, mul_one]
  have := nearest_int (K := K) (m : ℤ)
  push_cast at this
  rw [this, Int.toNat_natCast, if_neg (by omega)]

/-- a number that was read is printed as before -/
theorem print_round (x : K) : print (round x) = print x := by
  by_cases h : x = 0 ∨ 999 < (sci |x|).1.natAbs
  · have e : round x = 0 := by
      unfold round
      rw [if_pos h]
    rw [e]
    unfold print
    rw [if_pos h, if_pos (.inl rfl)]
  · have e : round x = (if x < 0 then -1 else 1) * (sci |x|).2 * 10 ^ ((sci |x|).1 - 5) := by
      unfold round
      rw [if_neg h]
    rw [not_or] at h
    obtain ⟨s1, s2, -, -⟩ := sci_spec (abs_pos.2 h.1)
    set E := (sci |x|).1
    set m := (sci |x|).2
    have hp : (0 : K) < 10 ^ (E - 5) := zpow_pos (by norm_num) _
    have hm : (0 : K) < m := by
      have : 0 < m := by omega
      exact_mod_cast this
    have hpos : (0 : K) < m * 10 ^ (E - 5) := mul_pos hm hp
    have ha : |round x| = m * 10 ^ (E - 5) := by
      rw [e, mul_assoc, abs_mul, abs_of_pos hpos]
      by_cases hx : x < 0 <;> simp [hx]
    have hn : round x < 0 ↔ x < 0 := by
      rw [e, mul_assoc]
      by_cases hx : x < 0
      · simp only [hx, if_true, iff_true]
        linarith
      · simp only [hx, if_false, iff_false, one_mul, not_lt]
        exact hpos.le
    have h0 : round x ≠ 0 := by
      intro h0
      rw [h0, abs_zero] at ha
      exact hpos.ne ha
    have hs : sci |round x| = (E, m) := by
      rw [ha]
      exact sci_six s1 s2
    unfold print
    rw [hs, if_neg (not_or.2 ⟨h0, h.2⟩), if_neg (not_or.2 ⟨h.1, h.2⟩)]
    simp only [hn]
    rfl

/-! ### the characters -/

theorem print_chars (x : K) : print x ≠ [] ∧ (∀ c ∈ print x, c ≠ ' ' ∧ c ≠ '\n' ∧ c ≠ '\t' ∧ c ≠ '\r') ∧ (print x).length ≤ 24 := by
  unfold print
  by_cases h : x = 0 ∨ 999 < (sci |x|).1.natAbs
  · rw [if_pos h]
    refine ⟨by simp, fun c hc => ?_, by simp⟩
    rw [List.mem_singleton.1 hc]
    decide
  · rw [if_neg h]
    generalize (sci |x|).1 = e
    generalize (sci |x|).2 = m
    generalize decide (x < 0) = neg
    obtain ⟨f1, f2, f3, -⟩ := format_digits neg e m
    have hd : ∀ l : List ℕ, (∀ d ∈ l, d < 10) → ∀ c ∈ chars l, c ≠ ' ' ∧ c ≠ '\n' ∧ c ≠ '\t' ∧ c ≠ '\r' := by
      intro l hl c hc
      obtain ⟨d, hd, rfl⟩ := List.mem_map.1 hc
      exact (digit_ne (hl d hd)).2.2.2
    have hstrip : ∀ l : List ℕ, (strip l).length ≤ l.length := by
      intro l
      obtain ⟨k, hk⟩ := strip_spec l
      have := congrArg List.length hk
      rw [List.length_append] at this
      omega
    have hlen : (format neg e m).whole.length + (format neg e m).frac.length ≤ 10 := by
      have h6 : (sixDigits m).length = 6 := rfl
      unfold format
      dsimp only
      by_cases h1 : e < -4 ∨ 5 < e
      · rw [if_pos h1]
        have := hstrip ((sixDigits m).drop 1)
        rw [List.length_drop, h6] at this
        dsimp only
        rw [List.length_take, h6]
        omega
      · rw [if_neg h1]
        by_cases h2 : 0 ≤ e
        · rw [if_pos h2]
          have := hstrip ((sixDigits m).drop (e.toNat + 1))
          rw [List.length_drop, h6] at this
          dsimp only
          rw [List.length_take, h6]
          omega
        · rw [if_neg h2]
          have := hstrip (List.replicate (-e - 1).toNat 0 ++ sixDigits m)
          rw [List.length_append, List.length_replicate, h6] at this
          dsimp only
          rw [List.length_singleton]
          omega
    have hexp : ∀ k, (expDigits k).length ≤ 3 := by
      intro k
      unfold expDigits
      split <;> simp
    generalize format neg e m = n at *
    obtain ⟨ng, w, f, ex⟩ := n
    dsimp only at f1 f2 f3 hlen
    unfold Num.text
    dsimp only
    refine ⟨?_, fun c hc => ?_, ?_⟩
    · intro hh
      apply f3
      simp only [List.append_eq_nil_iff] at hh
      have := hh.1.1.2
      unfold chars at this
      exact List.map_eq_nil_iff.1 this
    · simp only [List.mem_append] at hc
      rcases hc with ((hc | hc) | hc) | hc
      · cases ng with
        | true =>
          rw [if_pos rfl, List.mem_singleton] at hc
          rw [hc]
          decide
        | false => simp at hc
      · exact hd w f1 c hc
      · by_cases hf : f = []
        · rw [if_pos hf] at hc
          cases hc
        · rw [if_neg hf] at hc
          rcases List.mem_cons.1 hc with rfl | hc
          · decide
          · exact hd f f2 c hc
      · cases ex with
        | none => cases hc
        | some k =>
          rcases List.mem_cons.1 hc with rfl | hc
          · decide
          · rcases List.mem_cons.1 hc with rfl | hc
            · split <;> decide
            · exact hd _ (fun d hd => exp_digit hd) c hc
    · have l1 : (if ng = true then ['-'] else []).length ≤ 1 := by cases ng <;> simp
      have l2 : (chars w).length = w.length := List.length_map ..
      have l3 : (if f = [] then [] else '.' :: chars f).length ≤ f.length + 1 := by
        by_cases hf : f = []
        · simp [hf]
        · rw [if_neg hf, List.length_cons]
          unfold chars
          rw [List.length_map]
      have l4 : (expText ex).length ≤ 5 := by
        cases ex with
        | none => simp [expText]
        | some k =>
          have := hexp k.natAbs
          simp only [expText, List.length_cons, chars, List.length_map]
          omega
      simp only [List.length_append]
      omega

end

end Envire.Decimal
