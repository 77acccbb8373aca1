import Verif.Maps.KeyPointModel
import Verif.Maps.CloudTextProps

/-!
C186: key points as text, and C119 for numbers with six digits.
-/
namespace Envire.KeyPoint
open Envire.CloudText (Stream isSpace skip)
open Envire.Decimal (Six InRange)

noncomputable section

/-! ### specification -/

/-- five finite numbers -/
structure Finite where
  x : ℝ
  y : ℝ
  size : ℝ
  angle : ℝ
  response : ℝ

def Finite.map (f : ℝ → ℝ) (k : Finite) : Finite := ⟨f k.x, f k.y, f k.size, f k.angle, f k.response⟩

def Finite.all (p : ℝ → Prop) (k : Finite) : Prop := p k.x ∧ p k.y ∧ p k.size ∧ p k.angle ∧ p k.response

def Finite.point (k : Finite) : Point := ⟨.fin k.x, .fin k.y, .fin k.size, .fin k.angle, .fin k.response⟩

/-- all members have these values -/
def Finite.slot (k : Finite) : Slot := ⟨some (.fin k.x), some (.fin k.y), some (.fin k.size), some (.fin k.angle), some (.fin k.response)⟩

/-- the text of key points -/
def text (l : List Point) : List Char := l.flatMap store

/-- each member of the one is near the member of the other -/
def Near (a b : Finite) : Prop :=
  |a.x - b.x| ≤ |b.x| * (5 / 1000000) ∧ |a.y - b.y| ≤ |b.y| * (5 / 1000000) ∧ |a.size - b.size| ≤ |b.size| * (5 / 1000000) ∧
    |a.angle - b.angle| ≤ |b.angle| * (5 / 1000000) ∧ |a.response - b.response| ≤ |b.response| * (5 / 1000000)

/-! ### the stream -/

theorem get_number (x : ℝ) (c : Char) (hc : isSpace c = true) (t : List Char) (v : Option Val) :
    get (Stream.of (six.print x ++ c :: t)) v = (some (.fin (six.round x)), Stream.of (c :: t)) := by
  have h : ∀ d ∈ (c :: t).head?, isSpace d = true := by
    intro d hd
    simp only [List.head?_cons, Option.mem_some_iff] at hd
    rw [← hd]
    exact hc
  have := CloudText.first_number six x (c :: t) h (by simp)
  unfold get
  rw [this]

theorem get_next (x : ℝ) (b c : Char) (hb : isSpace b = true) (hc : isSpace c = true) (t : List Char) (v : Option Val) :
    get (Stream.of (b :: (six.print x ++ c :: t))) v = (some (.fin (six.round x)), Stream.of (c :: t)) := by
  have h : ∀ d ∈ (c :: t).head?, isSpace d = true := by
    intro d hd
    simp only [List.head?_cons, Option.mem_some_iff] at hd
    rw [← hd]
    exact hc
  have := CloudText.next_number six x b hb (c :: t) h (by simp)
  unfold get
  rw [this]

theorem ignore_line (t : List Char) : ignore (Stream.of ('\n' :: t)) = Stream.of t := by
  simp [ignore, Stream.of, Stream.good, skip]

theorem load_store (k : Finite) (rest : List Char) (s : Slot) :
    load (Stream.of (store k.point ++ rest)) s = ((k.map six.round).slot, Stream.of rest) := by
  have e : store k.point ++ rest = six.print k.x ++ ' ' :: (six.print k.y ++ '\n' :: (six.print k.size ++ '\n' :: (six.print k.angle ++ '\n' ::
      (six.print k.response ++ '\n' :: rest)))) := by
    simp [store, Finite.point, Val.print]
  unfold load
  rw [e, get_number _ _ rfl]
  dsimp only
  rw [get_next _ _ _ rfl rfl]
  dsimp only
  rw [ignore_line, get_number _ _ rfl]
  dsimp only
  rw [ignore_line, get_number _ _ rfl]
  dsimp only
  rw [ignore_line, get_number _ _ rfl]
  dsimp only
  rw [ignore_line]
  rfl

theorem loadAll_text (l : List Finite) (n : Nat) (rest : List Char) :
    loadAll (l.length + n) (Stream.of (text (l.map Finite.point) ++ rest)) =
      ((l.map fun k => (k.map six.round).slot) ++ (loadAll n (Stream.of rest)).1, (loadAll n (Stream.of rest)).2) := by
  induction l with
  | nil => simp [text]
  | cons k l ih =>
    have e : text ((k :: l).map Finite.point) ++ rest = store k.point ++ (text (l.map Finite.point) ++ rest) := by simp [text]
    have en : (k :: l).length + n = l.length + n + 1 := by rw [List.length_cons]; omega
    rw [e, en, loadAll]
    rw [load_store, ih]
    rfl

theorem near_round {k : Finite} (h : k.all InRange) : Near (k.map six.round) k :=
  ⟨Decimal.round_error h.1, Decimal.round_error h.2.1, Decimal.round_error h.2.2.1, Decimal.round_error h.2.2.2.1, Decimal.round_error h.2.2.2.2⟩

theorem exact_round {k : Finite} (h : k.all InRange) (hs : k.all Six) : k.map six.round = k := by
  obtain ⟨h1, h2, h3, h4, h5⟩ := h
  obtain ⟨s1, s2, s3, s4, s5⟩ := hs
  unfold Finite.map
  show Finite.mk (Decimal.round k.x) (Decimal.round k.y) (Decimal.round k.size) (Decimal.round k.angle) (Decimal.round k.response) = k
  rw [Decimal.round_exact h1 s1, Decimal.round_exact h2 s2, Decimal.round_exact h3 s3, Decimal.round_exact h4 s4, Decimal.round_exact h5 s5]

/-- C186 (partial: finite numbers with six digits) Key points that are stored one after the other are loaded again, whatever follows in
the stream: as many, in the same order, all members. Members with at most six digits are the same, the others differ by at most five in
the seventh digit, and no number with six digits is nearer. -/
theorem C186_round_trip_partial (l : List Finite) (hr : ∀ k ∈ l, k.all InRange) (rest : List Char) :
    ∃ l' : List Finite, loadAll l.length (Stream.of (text (l.map Finite.point) ++ rest)) = (l'.map Finite.slot, Stream.of rest) ∧
      List.Forall₂ Near l' l ∧ (∀ k ∈ l', k.all Six) ∧ ((∀ k ∈ l, k.all Six) → l' = l) := by
  refine ⟨l.map fun k => k.map six.round, ?_, ?_, ?_, fun hs => ?_⟩
  · have := loadAll_text l 0 rest
    rw [Nat.add_zero] at this
    rw [this]
    simp [loadAll]
  · rw [List.forall₂_map_left_iff, List.forall₂_same]
    exact fun k hk => near_round (hr k hk)
  · intro k hk
    obtain ⟨a, -, rfl⟩ := List.mem_map.1 hk
    exact ⟨Decimal.round_six _, Decimal.round_six _, Decimal.round_six _, Decimal.round_six _, Decimal.round_six _⟩
  · conv_rhs => rw [← List.map_id l]
    exact List.map_congr_left fun k hk => exact_round (hr k hk) (hs k hk)

/-- C186: key points that were loaded are stored with the same text, so that nothing more is lost -/
theorem C186_again (l : List Finite) (rest : List Char) :
    ∃ l' : List Finite, loadAll l.length (Stream.of (text (l.map Finite.point) ++ rest)) = (l'.map Finite.slot, Stream.of rest) ∧
      text (l'.map Finite.point) = text (l.map Finite.point) := by
  refine ⟨l.map fun k => k.map six.round, ?_, ?_⟩
  · have := loadAll_text l 0 rest
    rw [Nat.add_zero] at this
    rw [this]
    simp [loadAll]
  · have h : ∀ k : Finite, store (k.map six.round).point = store k.point := by
      intro k
      have p : ∀ x : ℝ, six.print (six.round x) = six.print x := Decimal.print_round
      simp only [store, Finite.point, Finite.map, Val.print, p]
    induction l with
    | nil => rfl
    | cons k l ih =>
      unfold text at ih ⊢
      simp only [List.map_cons, List.flatMap_cons, h, ih]

/-! ### what is lost -/

theorem get_failed {s : Stream} (h : s.fail = true) (v : Option Val) : (get s v).1 = v ∧ (get s v).2.fail = true := by
  have : s.number six = (none, { s with fail := true }) := by
    unfold Stream.number Stream.good
    rw [h]
    simp
  unfold get
  rw [this]
  exact ⟨rfl, rfl⟩

theorem ignore_failed {s : Stream} (h : s.fail = true) : (ignore s).fail = true := by
  unfold ignore Stream.good
  rw [h]
  simp

theorem load_failed {s : Stream} (h : s.fail = true) (k : Slot) : (load s k).1 = ⟨none, none, k.size, k.angle, k.response⟩ ∧ (load s k).2.fail = true := by
  obtain ⟨a1, a2⟩ := get_failed h none
  obtain ⟨b1, b2⟩ := get_failed a2 none
  obtain ⟨c1, c2⟩ := get_failed (ignore_failed b2) k.size
  obtain ⟨d1, d2⟩ := get_failed (ignore_failed c2) k.angle
  obtain ⟨e1, e2⟩ := get_failed (ignore_failed d2) k.response
  unfold load
  dsimp only
  rw [a1, b1, c1, d1, e1]
  exact ⟨rfl, ignore_failed e2⟩

theorem loadAll_failed (n : Nat) {s : Stream} (h : s.fail = true) : (loadAll n s).1 = List.replicate n Slot.new := by
  induction n generalizing s with
  | zero => rfl
  | succ n ih =>
    obtain ⟨a1, a2⟩ := load_failed h Slot.new
    rw [loadAll]
    dsimp only
    rw [a1, ih a2]
    rfl

/-- a text that is no number -/
theorem get_word (c : Char) (t : List Char) (h : isSpace c = false) (h' : (six.read (c :: t)).1 = none) (v : Option Val) :
    (get (Stream.of (c :: t)) v).1 = some (.fin 0) ∧ (get (Stream.of (c :: t)) v).2.fail = true := by
  have hd : (c :: t).dropWhile isSpace = c :: t := List.dropWhile_cons_of_neg (by simp [h])
  unfold get Stream.number Stream.of Stream.good
  simp only [Bool.not_false, Bool.and_self, if_true, hd, List.cons_ne_nil, if_false, h', Option.getD_none, Option.isNone_none]
  exact ⟨trivial, trivial⟩

/-- `nan`, `inf` and `-inf` are not read -/
theorem word_spec (v : Val) (hv : ∀ x, v ≠ .fin x) (rest : List Char) : ∃ c t, v.print ++ rest = c :: t ∧ isSpace c = false ∧ (six.read (c :: t)).1 = none := by
  have key : ∀ c t, (c = 'n' ∨ c = 'i') → (six.read (c :: t)).1 = none := by
    intro c t hc
    show (Decimal.read (c :: t)).1 = none
    rcases hc with rfl | rfl <;> simp [Decimal.read, Decimal.takeSign, Decimal.takeDigits, Decimal.takeFrac, Decimal.digitVal]
  have key2 : ∀ t, (six.read ('-' :: 'i' :: t)).1 = none := by
    intro t
    show (Decimal.read ('-' :: 'i' :: t)).1 = none
    simp [Decimal.read, Decimal.takeSign, Decimal.takeDigits, Decimal.takeFrac, Decimal.digitVal]
  cases v with
  | fin x => exact absurd rfl (hv x)
  | nan => exact ⟨'n', _, rfl, rfl, key _ _ (.inl rfl)⟩
  | inf neg =>
    cases neg with
    | true => exact ⟨'-', _, rfl, rfl, key2 _⟩
    | false => exact ⟨'i', _, rfl, rfl, key _ _ (.inr rfl)⟩

/-- C186, the code violates the property: if the response of a key point is not a finite number it is loaded as 0, and no member of any
key point after it gets a value -/
theorem C186_nan_deviation (l : List Finite) (k : Finite) (v : Val) (hv : ∀ x, v ≠ .fin x) (l' : List Point) (n : Nat) :
    (loadAll (l.length + (n + 1)) (Stream.of (text (l.map Finite.point ++ { k.point with response := v } :: l')))).1 =
      (l.map fun k => (k.map six.round).slot) ++ ({ (k.map six.round).slot with response := some (.fin 0) } :: List.replicate n Slot.new) := by
  have e : text (l.map Finite.point ++ { k.point with response := v } :: l') = text (l.map Finite.point) ++ text ({ k.point with response := v } :: l') := by
    simp [text]
  rw [e, loadAll_text, loadAll]
  dsimp only
  have e2 : text ({ k.point with response := v } :: l') = six.print k.x ++ ' ' :: (six.print k.y ++ '\n' :: (six.print k.size ++ '\n' :: (six.print k.angle ++ '\n' ::
      (v.print ++ '\n' :: text l')))) := by
    simp [text, store, Finite.point, Val.print]
  obtain ⟨c, t, ht, h1, h2⟩ := word_spec v hv ('\n' :: text l')
  obtain ⟨g1, g2⟩ := get_word c t h1 h2 none
  have hl : (load (Stream.of (text ({ k.point with response := v } :: l'))) .new).1 = { (k.map six.round).slot with response := some (.fin 0) } ∧
      (load (Stream.of (text ({ k.point with response := v } :: l'))) .new).2.fail = true := by
    unfold load
    rw [e2, get_number _ _ rfl]
    dsimp only
    rw [get_next _ _ _ rfl rfl]
    dsimp only
    rw [ignore_line, get_number _ _ rfl]
    dsimp only
    rw [ignore_line, get_number _ _ rfl]
    dsimp only
    rw [ignore_line, ht]
    unfold Slot.new
    dsimp only
    rw [g1]
    exact ⟨rfl, ignore_failed g2⟩
  rw [hl.1, loadAll_failed n hl.2]

/-- C186, the code violates the property: a column of an image of satellites is not the same after loading -/
theorem C186_digits_deviation (k : Finite) (rest : List Char) :
    (load (Stream.of (store { k.point with x := .fin 1234567 } ++ rest)) .new).1.x = some (.fin 1234570) := by
  have h := load_store { k with x := 1234567 } rest .new
  have e : (Finite.point { k with x := 1234567 }) = { k.point with x := .fin 1234567 } := rfl
  rw [e] at h
  rw [h]
  show some (Val.fin (Decimal.round 1234567)) = some (.fin 1234570)
  have h0 : |(1234567 : ℝ)| = 1234567 := abs_of_pos (by norm_num)
  have hin : InRange (1234567 : ℝ) := .inr (by rw [h0]; exact ⟨le_trans (zpow_le_one_of_nonpos₀ (by norm_num) (by norm_num)) (by norm_num), by
    refine lt_of_lt_of_le (by norm_num : (1234567 : ℝ) < 10 ^ (7 : ℤ)) (zpow_le_zpow_right₀ (by norm_num) (by norm_num))⟩)
  have hl : Int.log 10 (1234567 : ℝ) = 6 := Decimal.log_eq (by norm_num) (by norm_num)
  have hn : Decimal.nearest ((1234567 : ℝ) * 10 ^ ((5 : ℤ) - 6)) = 123457 := by
    have e : (1234567 : ℝ) * 10 ^ ((5 : ℤ) - 6) = 1234567 / 10 := by norm_num
    have hf : ⌊(1234567 : ℝ) / 10⌋ = 123456 := by
      rw [Int.floor_eq_iff]
      norm_num
    rw [e]
    unfold Decimal.nearest
    rw [hf, if_neg (by norm_num), if_pos (by norm_num)]
    rfl
  rw [Decimal.round_abs (by norm_num) hin, h0, hl, hn]
  norm_num

/-- C186, the code violates the property: from a text that has ended no member of a new key point gets a value, and nothing tells this -/
theorem C186_end_deviation (n : Nat) : (loadAll n (Stream.of [])).1 = List.replicate n Slot.new := by
  cases n with
  | zero => rfl
  | succ n =>
    rw [loadAll]
    dsimp only
    have h : (load (Stream.of []) .new).1 = .new ∧ (load (Stream.of []) .new).2.fail = true := by
      have g : get (Stream.of []) none = (none, { text := [], eof := true, fail := true }) := by
        simp [get, Stream.number, Stream.of, Stream.good]
      have f : ({ text := [], eof := true, fail := true } : Stream).fail = true := rfl
      obtain ⟨b1, b2⟩ := get_failed f none
      obtain ⟨c1, c2⟩ := get_failed (ignore_failed b2) none
      obtain ⟨d1, d2⟩ := get_failed (ignore_failed c2) none
      obtain ⟨e1, e2⟩ := get_failed (ignore_failed d2) none
      unfold load Slot.new
      dsimp only
      rw [g]
      dsimp only
      rw [b1, c1, d1, e1]
      exact ⟨rfl, ignore_failed e2⟩
    rw [h.1, loadAll_failed n h.2]
    rfl

/-! ### C119 with six digits -/

/-- C119: with the format of the standard library, a cloud that is written and read again with the format XYZ has as many points in the
same order; coordinates with at most six digits are the same, all others differ by at most five in the seventh digit; and it is written
again with the same text -/
theorem C119_six_digits (l : List CloudText.V3) (h : l ≠ []) (hr : ∀ p ∈ l, InRange p.1 ∧ InRange p.2.1 ∧ InRange p.2.2) (r : Nat → Nat) (n : Nat) (hn : l.length < n)
    (c : Option (List CloudText.V3)) :
    ∃ l', CloudText.readText six false 1 r n (CloudText.writeText six l) { vertices := [], colors := c } = .ok { vertices := l', colors := c } ∧
      List.Forall₂ (fun a b : CloudText.V3 => |a.1 - b.1| ≤ |b.1| * (5 / 1000000) ∧ |a.2.1 - b.2.1| ≤ |b.2.1| * (5 / 1000000) ∧
        |a.2.2 - b.2.2| ≤ |b.2.2| * (5 / 1000000)) l' l ∧
      ((∀ p ∈ l, Six p.1 ∧ Six p.2.1 ∧ Six p.2.2) → l' = l) ∧ CloudText.writeText six l' = CloudText.writeText six l := by
  refine ⟨l.map fun p => (six.round p.1, six.round p.2.1, six.round p.2.2), CloudText.C119_round_trip_partial six l h r n hn c, ?_, fun hs => ?_, ?_⟩
  · rw [List.forall₂_map_left_iff, List.forall₂_same]
    intro p hp
    obtain ⟨a, b, c⟩ := hr p hp
    exact ⟨Decimal.round_error a, Decimal.round_error b, Decimal.round_error c⟩
  · conv_rhs => rw [← List.map_id l]
    refine List.map_congr_left fun p hp => ?_
    obtain ⟨a, b, c⟩ := hr p hp
    obtain ⟨a', b', c'⟩ := hs p hp
    show (Decimal.round p.1, Decimal.round p.2.1, Decimal.round p.2.2) = p
    rw [Decimal.round_exact a a', Decimal.round_exact b b', Decimal.round_exact c c']
  · have hp : ∀ x : ℝ, six.print (six.round x) = six.print x := Decimal.print_round
    clear h hr hn
    induction l with
    | nil => rfl
    | cons p l ih =>
      unfold CloudText.writeText at ih ⊢
      simp only [List.map_cons, List.flatMap_cons, CloudText.writeLine, hp, ih]

/-! ### examples -/

theorem six_ten (n : ℤ) (k : ℤ) (h : |n| < 1000000) : Six ((n : ℝ) * 10 ^ k) := ⟨n, k, h, rfl⟩

/-- a key point with six digits -/
example : (⟨12.5, 3, 7, -1, 0.25⟩ : Finite).all Six :=
  ⟨⟨125, -1, by norm_num, by norm_num⟩, ⟨3, 0, by norm_num, by norm_num⟩, ⟨7, 0, by norm_num, by norm_num⟩, ⟨-1, 0, by norm_num, by norm_num⟩,
    ⟨25, -2, by norm_num, by norm_num⟩⟩

example : InRange (12.5 : ℝ) := .inr (by
  rw [abs_of_pos (by norm_num)]
  exact ⟨le_trans (zpow_le_one_of_nonpos₀ (by norm_num) (by norm_num)) (by norm_num),
    lt_of_lt_of_le (by norm_num : (12.5 : ℝ) < 10 ^ (2 : ℤ)) (zpow_le_zpow_right₀ (by norm_num) (by norm_num))⟩)

/-- texts as the standard library prints them -/
example : (Decimal.print (1234567 : ℚ), Decimal.print (-3 / 2 : ℚ), Decimal.print (1 / 30000 : ℚ), Decimal.print (9999995 / 10 : ℚ)) =
    ("1.23457e+06".toList, "-1.5".toList, "3.33333e-05".toList, "1e+06".toList) := by decide +kernel

end

#print axioms C186_round_trip_partial
#print axioms C186_again
#print axioms C186_nan_deviation
#print axioms C186_digits_deviation
#print axioms C186_end_deviation
#print axioms C119_six_digits

end Envire.KeyPoint
