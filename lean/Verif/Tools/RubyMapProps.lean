import Verif.Tools.RubyMapModel
import Mathlib.Tactic.Linarith
import Mathlib.Tactic.FieldSimp
import Mathlib.Tactic.Ring
import Mathlib.Tactic.Positivity
import Mathlib.Tactic.NormNum

/-!
C171: the Ruby widget for raster maps. C172: writing and reading bands in Ruby.
-/
namespace Envire.RubyMap

/-! ### C172 -/

theorem bytesOf_length (n : Nat) : ∀ v : Int, (bytesOf n v).length = n := by
  induction n with
  | zero => intro v; rfl
  | succ n ih => intro v; simp [bytesOf, ih]

theorem valueOf_bytesOf (n : Nat) : ∀ v : Int, (valueOf (bytesOf n v) : Int) = v % 256 ^ n := by
  induction n with
  | zero => intro v; simp [bytesOf, valueOf]
  | succ n ih =>
    intro v
    have h0 : 0 ≤ v % 256 := Int.emod_nonneg _ (by decide)
    rw [bytesOf, valueOf]
    push_cast
    rw [ih, Int.toNat_of_nonneg h0, pow_succ]
    rw [mul_comm ((256 : Int) ^ n) 256, Int.emod_def v (256 * 256 ^ n), Int.emod_def (v / 256), Int.emod_def v 256,
      ← Int.ediv_ediv_of_nonneg (by decide : (0 : Int) ≤ 256)]
    ring

theorem unpackN_pack {t : Template} (ht : 0 < t.bytes) : ∀ (l : List Int) (n : Nat), l.length ≤ n →
    unpackN t n (pack t l) = l.map fun v => decode t (bytesOf t.bytes v) := by
  intro l
  induction l with
  | nil =>
    intro n _
    cases n <;> simp [unpackN, pack]
  | cons v l ih =>
    intro n hn
    cases n with
    | zero => simp at hn
    | succ n =>
      have hl := bytesOf_length t.bytes v
      have hne : bytesOf t.bytes v ≠ [] := by
        intro h
        rw [h] at hl
        simp at hl
        omega
      have hp : pack t (v :: l) = bytesOf t.bytes v ++ pack t l := by simp [pack]
      rw [hp, unpackN, if_neg (by
        rw [not_or]
        refine ⟨by simp [hl], by simp [hne]⟩), List.take_append_of_le_length (by omega), List.drop_append_of_le_length (by omega),
        List.take_of_length_le (by omega), List.drop_of_length_le (by omega), List.nil_append, ih n (by simpa using hn)]
      rfl

theorem pack_length {t : Template} (l : List Int) : (pack t l).length = t.bytes * l.length := by
  induction l with
  | nil => simp [pack]
  | cons v l ih =>
    have hp : pack t (v :: l) = bytesOf t.bytes v ++ pack t l := by simp [pack]
    rw [hp, List.length_append, ih, bytesOf_length, List.length_cons, Nat.mul_succ, Nat.add_comm]

theorem unpack_pack {t : Template} (ht : 0 < t.bytes) (l : List Int) : unpack t (pack t l) = l.map fun v => decode t (bytesOf t.bytes v) := by
  refine unpackN_pack ht l _ ?_
  rw [pack_length]
  exact Nat.le_mul_of_pos_left _ ht

theorem pack_signed {n : Nat} {a b : Bool} (l : List Int) : pack ⟨n, a⟩ l = pack ⟨n, b⟩ l := rfl

/-- specification: the values of the integer types -/
def Fits : Gdt → Int → Prop
  | .byte, v => 0 ≤ v ∧ v < 256
  | .uint16, v => 0 ≤ v ∧ v < 65536
  | .int16, v => -32768 ≤ v ∧ v < 32768
  | .uint32, v => 0 ≤ v ∧ v < 4294967296
  | .int32, v => -2147483648 ≤ v ∧ v < 2147483648
  | _, _ => False

/-- the number of different values -/
def size : Gdt → Int
  | .byte => 256
  | .uint16 => 65536
  | .int16 => 65536
  | .uint32 => 4294967296
  | .int32 => 4294967296
  | _ => 1

/-- the integer types -/
def IntType (d : Gdt) : Prop := d = .byte ∨ d = .uint16 ∨ d = .int16 ∨ d = .uint32 ∨ d = .int32

theorem decode_spec {d : Gdt} {t : Template} (ht : unpackTemplate d = some t) (v : Int) :
    Fits d (decode t (bytesOf t.bytes v)) ∧ ∃ k : Int, decode t (bytesOf t.bytes v) = v + k * size d := by
  have hv := valueOf_bytesOf t.bytes v
  unfold decode
  generalize valueOf (bytesOf t.bytes v) = x at *
  cases d <;> cases ht <;> norm_num at hv <;> simp [Fits, size]
  · exact ⟨by omega, -(v / 256), by omega⟩
  · exact ⟨by omega, -(v / 65536), by omega⟩
  · split
    · exact ⟨by omega, -(v / 65536) - 1, by omega⟩
    · exact ⟨by omega, -(v / 65536), by omega⟩
  · exact ⟨by omega, -(v / 4294967296), by omega⟩
  · split
    · exact ⟨by omega, -(v / 4294967296) - 1, by omega⟩
    · exact ⟨by omega, -(v / 4294967296), by omega⟩

theorem fits_unique {d : Gdt} {v w : Int} (hv : Fits d v) (hw : Fits d w) (h : ∃ k : Int, w = v + k * size d) : w = v := by
  obtain ⟨k, h⟩ := h
  cases d <;> simp only [Fits, size] at hv hw h <;> omega

theorem templates {d : Gdt} (h : IntType d) : ∃ t, unpackTemplate d = some t ∧ 0 < t.bytes ∧ ∀ l, gdalPack d l = some (pack t l) := by
  rcases h with rfl | rfl | rfl | rfl | rfl
  · exact ⟨_, rfl, by decide, fun l => congrArg some (pack_signed l)⟩
  all_goals exact ⟨_, rfl, by decide, fun l => rfl⟩

/-- **C172** Values that are written into a band with one of the integer types are read back: the list of values has the same length, values that
fit into the type are unchanged, and all others are replaced by the value of the type that differs by a multiple of the number of values. -/
theorem C172_write_read {d : Gdt} (hd : IntType d) (l : List Int) :
    ∃ r, writeRead d l = some r ∧ r.length = l.length ∧ (∀ (i : Nat) v, l[i]? = some v → ∃ w, r[i]? = some w ∧ Fits d w ∧ (∃ k : Int, w = v + k * size d) ∧ (Fits d v → w = v)) ∧
      ((∀ v ∈ l, Fits d v) → r = l) := by
  obtain ⟨t, ht, h0, hp⟩ := templates hd
  have hr : writeRead d l = some (l.map fun v => decode t (bytesOf t.bytes v)) := by
    unfold writeRead gdalUnpack
    rw [hp, ht]
    simp [unpack_pack h0]
  have key : ∀ v, Fits d v → decode t (bytesOf t.bytes v) = v := fun v hv => fits_unique hv (decode_spec ht v).1 (decode_spec ht v).2
  refine ⟨_, hr, by simp, fun i v hi => ⟨decode t (bytesOf t.bytes v), by simp [hi], (decode_spec ht v).1, (decode_spec ht v).2, key v⟩, fun h => ?_⟩
  conv_rhs => rw [← List.map_id l]
  exact List.map_congr_left fun v hv => key v (h v hv)

example : writeRead .int16 [-32768, 5, 32767] = some [-32768, 5, 32767] ∧ writeRead .byte [255, 0, 7] = some [255, 0, 7] ∧
    writeRead .uint16 [-1, 65536 + 3] = some [65535, 3] := by decide +kernel

/-- C172: only bands of three types keep their type when a band is created with the type that data_type returns. -/
theorem C172_types_deviation (d : Gdt) : (fromGdal d).map toGdal = some d ↔ d = .byte ∨ d = .int16 ∨ d = .float32 := by
  cases d <;> decide

/-- Violation: a value of an unsigned 16 bit band does not survive when it is written to a band of the type that data_type and data_type_to_gdal give for it. -/
theorem C172_copy_deviation : ∃ r, fromGdal .uint16 = some r ∧ Fits .uint16 40000 ∧ writeRead (toGdal r) [40000] = some [-25536] :=
  ⟨.integer, rfl, by simp [Fits], by decide +kernel⟩

/-! ### C171 -/

/-- specification: the colour of a value: black below 1/255 of the largest value, otherwise from magenta to green -/
def Shows (mx d : ℚ) (c : Nat × Nat × Nat) : Prop :=
  ∃ v : Nat, v ≤ 255 ∧ (v : ℚ) ≤ 255 * d / mx ∧ 255 * d / mx < v + 1 ∧ c = if v = 0 then (0, 0, 0) else (255 - v, v, 125)

theorem pixel_ok {mx d : ℚ} (hm : 0 < mx) (h0 : 0 ≤ d) (h1 : d ≤ mx) : ∃ c, pixel mx d = some c ∧ Shows mx d c := by
  have hq : 0 ≤ 255 * d / mx := by positivity
  have hq1 : 255 * d / mx ≤ 255 := by rw [div_le_iff₀ hm]; linarith
  have hf : 0 ≤ ⌊255 * d / mx⌋ := Int.floor_nonneg.2 hq
  have hf1 : ⌊255 * d / mx⌋ ≤ 255 := by
    have := (Int.floor_le (255 * d / mx)).trans hq1
    exact_mod_cast this
  obtain ⟨v, hv⟩ := Int.eq_ofNat_of_zero_le hf
  have hv1 : (v : ℚ) ≤ 255 * d / mx := by
    have := Int.floor_le (255 * d / mx)
    rw [hv] at this
    exact_mod_cast this
  have hv2 : 255 * d / mx < v + 1 := by
    have := Int.lt_floor_add_one (255 * d / mx)
    rw [hv] at this
    exact_mod_cast this
  unfold pixel
  rw [if_neg hm.ne']
  dsimp only [trunc]
  rw [if_pos hq, hv]
  by_cases h : v = 0
  · refine ⟨(0, 0, 0), by simp [h], v, by omega, hv1, hv2, by simp [h]⟩
  · refine ⟨(255 - v, v, 125), ?_, v, by omega, hv1, hv2, by simp [h]⟩
    rw [if_neg (by omega)]
    simp only [packC, Option.some.injEq, Prod.mk.injEq]
    omega

theorem mapM_some {A B : Type} {f : A → Option B} {l : List A} (h : ∀ a ∈ l, ∃ b, f a = some b) : ∃ r, l.mapM f = some r ∧ r.length = l.length ∧
    ∀ (i : Nat) a, l[i]? = some a → ∃ b, r[i]? = some b ∧ f a = some b := by
  induction l with
  | nil => exact ⟨[], rfl, rfl, fun i a h => by simp at h⟩
  | cons a l ih =>
    obtain ⟨b, hb⟩ := h a (by simp)
    obtain ⟨r, h1, h2, h3⟩ := ih fun e he => h e (by simp [he])
    refine ⟨b :: r, by simp [List.mapM_cons, hb, h1], by simp [h2], fun i e he => ?_⟩
    cases i with
    | zero => exact ⟨b, rfl, by simpa using (by simpa using he : a = e) ▸ hb⟩
    | succ i => exact h3 i e (by simpa using he)

theorem lines_ok {mx : ℚ} {w : Nat} : ∀ (n : Nat) (data : List ℚ), data.length = n * w → (∀ d ∈ data, ∃ c, pixel mx d = some c) →
    ∃ r, lines mx w n data = some r ∧ r.length = n ∧ ∀ y < n, ∃ l, r[y]? = some l ∧ l.length = w ∧
      ∀ x < w, ∃ d c, data[y * w + x]? = some d ∧ l[x]? = some c ∧ pixel mx d = some c := by
  intro n
  induction n with
  | zero => intro data _ _; exact ⟨[], rfl, rfl, fun y hy => absurd hy (Nat.not_lt_zero y)⟩
  | succ n ih =>
    intro data hl hp
    rw [Nat.succ_mul] at hl
    obtain ⟨l, h1, h2, h3⟩ := mapM_some (f := pixel mx) (l := data.take w) fun d hd => hp d (List.mem_of_mem_take hd)
    obtain ⟨r, h4, h5, h6⟩ := ih (data.drop w) (by rw [List.length_drop]; omega) fun d hd => hp d (List.mem_of_mem_drop hd)
    refine ⟨l :: r, by simp [lines, line, h1, h4], by simp [h5], fun y hy => ?_⟩
    cases y with
    | zero =>
      refine ⟨l, rfl, by rw [h2, List.length_take]; omega, fun x hx => ?_⟩
      have hx' : x < data.length := by omega
      obtain ⟨c, hc, hc'⟩ := h3 x data[x] (by rw [List.getElem?_take_of_lt hx]; exact List.getElem?_eq_getElem hx')
      exact ⟨data[x], c, by rw [Nat.zero_mul, Nat.zero_add]; exact List.getElem?_eq_getElem hx', hc, hc'⟩
    | succ y =>
      obtain ⟨l', g1, g2, g3⟩ := h6 y (Nat.lt_of_succ_lt_succ hy)
      refine ⟨l', by simpa using g1, g2, fun x hx => ?_⟩
      obtain ⟨d, c, k1, k2, k3⟩ := g3 x hx
      refine ⟨d, c, ?_, k2, k3⟩
      rw [List.getElem?_drop] at k1
      rw [show (y + 1) * w + x = w + (y * w + x) by rw [Nat.succ_mul]; omega]
      exact k1

theorem foldl_max {l : List ℚ} : ∀ {a M : ℚ}, (∀ v ∈ l, v ≤ M) → a ≤ M → (a = M ∨ M ∈ l) → l.foldl max a = M := by
  induction l with
  | nil => intro a M _ _ h; simpa using h
  | cons v l ih =>
    intro a M h1 h2 h3
    rw [List.foldl_cons]
    have hv := h1 v (by simp)
    refine ih (fun w hw => h1 w (by simp [hw])) (max_le h2 hv) ?_
    rcases h3 with rfl | h3
    · exact .inl (max_eq_left hv)
    · rcases List.mem_cons.1 h3 with rfl | h3
      · exact .inl (max_eq_right h2)
      · exact .inr h3

theorem listMax_eq {l : List ℚ} {M : ℚ} (hM : M ∈ l) (h : ∀ v ∈ l, v ≤ M) : listMax l = some M := by
  cases l with
  | nil => cases hM
  | cons a l =>
    exact congrArg some (foldl_max (fun v hv => h v (by simp [hv])) (h a (by simp)) ((List.mem_cons.1 hM).imp Eq.symm id))

/-- **C171** (partial) The widget shows the first band of a map without negative values, and with a positive one: the picture has the size of the map, and the pixel in column x and row r from the top
has the colour of the value in column x and row ysize - 1 - r of the data, so that the first row of the data is at the bottom.
Missing: other bands (C171_band_deviation), maps that have no positive value (C171_zero_deviation), negative values (C171_negative_deviation). -/
theorem C171_picture_partial {m : Map} {M : ℚ} (hl : (m.values 1).length = m.ysize * m.xsize) (hM : M ∈ m.values 1) (hd : ∀ d ∈ m.values 1, 0 ≤ d ∧ d ≤ M) (h0 : 0 < M) (band : Nat) :
    ∃ p, update m band = some p ∧ p.length = m.ysize ∧ ∀ r < m.ysize, ∃ l, p[r]? = some l ∧ l.length = m.xsize ∧
      ∀ x < m.xsize, ∃ d c, (m.values 1)[(m.ysize - 1 - r) * m.xsize + x]? = some d ∧ l[x]? = some c ∧ Shows M d c := by
  have hmx : listMax (readBand m 1) = some M := listMax_eq hM fun v hv => (hd v hv).2
  obtain ⟨r, h1, h2, h3⟩ := lines_ok (mx := M) m.ysize (m.values 1) hl fun d hd' => by
    obtain ⟨c, hc, _⟩ := pixel_ok h0 (hd d hd').1 (hd d hd').2
    exact ⟨c, hc⟩
  unfold update
  dsimp only
  rw [hmx]
  dsimp only
  refine ⟨r.reverse, by rw [show lines M m.xsize m.ysize (readBand m 1) = some r from h1]; rfl, by simp [h2], fun y hy => ?_⟩
  obtain ⟨l, g1, g2, g3⟩ := h3 (m.ysize - 1 - y) (by omega)
  refine ⟨l, ?_, g2, fun x hx => ?_⟩
  · rw [List.getElem?_reverse (by omega), h2]
    exact g1
  · obtain ⟨d, c, k1, k2, k3⟩ := g3 x hx
    have hd' := hd d (List.mem_of_getElem? k1)
    obtain ⟨c', hc', hs⟩ := pixel_ok h0 hd'.1 hd'.2
    rw [k3] at hc'
    cases hc'
    exact ⟨d, c, k1, k2, hs⟩

/-- a map of two columns and two rows with two bands -/
def exMap : Map := { xsize := 2, ysize := 2, values := fun i => if i = 1 then [0, 1, 2, 4] else [7, 7, 7, 7], geo := fun i => [100, 1, 0, 200, 0, 1][i] }

example : update exMap 0 = some [[(128, 127, 125), (0, 255, 125)], [(0, 0, 0), (192, 63, 125)]] := by decide +kernel

/-- Violation: the choice of a band has no effect. -/
theorem C171_band_deviation (m : Map) (a b : Nat) : update m a = update m b := rfl

example : exMap.values 1 ≠ exMap.values 2 := by decide +kernel

/-- Violation: a map whose largest value is zero is not shown, an exception is raised. -/
theorem C171_zero_deviation {m : Map} (hx : 0 < m.xsize) (hy : 0 < m.ysize) (hl : (m.values 1).length = m.ysize * m.xsize) (h0 : 0 ∈ m.values 1) (hd : ∀ d ∈ m.values 1, d ≤ 0) (band : Nat) :
    update m band = none := by
  have hmx : listMax (readBand m 1) = some 0 := listMax_eq h0 hd
  unfold update
  dsimp only
  rw [hmx]
  dsimp only
  obtain ⟨n, hn⟩ : ∃ n, m.ysize = n + 1 := ⟨m.ysize - 1, by omega⟩
  have hlen : m.xsize ≤ (readBand m 1).length := by
    show m.xsize ≤ (m.values 1).length
    rw [hl]
    exact Nat.le_mul_of_pos_left _ hy
  rw [hn, lines]
  have : line 0 ((readBand m 1).take m.xsize) = none := by
    unfold line
    have hne : (readBand m 1).take m.xsize ≠ [] := by
      intro h
      have := congrArg List.length h
      rw [List.length_take, List.length_nil, Nat.min_eq_left hlen] at this
      omega
    cases ht : (readBand m 1).take m.xsize with
    | nil => exact absurd ht hne
    | cons a l => simp [List.mapM_cons, pixel]
  rw [this]
  rfl

example : update { exMap with values := fun _ => [0, 0, -3, 0] } 0 = none := by decide +kernel

/-- Violation: values between -2/255 and -1/255 of the largest value have the same colour as the largest value. -/
theorem C171_negative_deviation {M d : ℚ} (h0 : 0 < M) (h1 : -2 * M < 255 * d) (h2 : 255 * d ≤ -M) : pixel M d = pixel M M := by
  have hq : 255 * d / M ≤ -1 := by rw [div_le_iff₀ h0]; linarith
  have hq2 : -2 < 255 * d / M := by rw [lt_div_iff₀ h0]; linarith
  have hc : ⌈255 * d / M⌉ = -1 := by
    rw [Int.ceil_eq_iff]
    refine ⟨?_, by push_cast; linarith⟩
    push_cast
    linarith
  have hM : 255 * M / M = ((255 : Int) : ℚ) := by
    push_cast
    field_simp
  have t1 : trunc (255 * d / M) = -1 := by
    unfold trunc
    rw [if_neg (by linarith), hc]
  have t2 : trunc (255 * M / M) = 255 := by
    unfold trunc
    rw [hM, if_pos (by norm_num), Int.floor_intCast]
  unfold pixel
  rw [if_neg h0.ne', if_neg h0.ne', t1, t2]
  decide

example : pixel 255 (-1) = some (0, 255, 125) ∧ pixel 255 255 = some (0, 255, 125) := by decide +kernel

/-- specification: the column and the row of the data at a point in the coordinates of the map, for pixels of unit size; GDAL counts from the corner of the first pixel -/
def Cell (m : Map) (p : ℚ × ℚ) (c r : Int) : Prop := ∃ x y : ℚ, p = applyGeo m x y ∧ ⌊x⌋ = c ∧ ⌊y⌋ = r

/-- C171: for a point in the inside of a pixel of the picture (in column c, row r from the top) viewToMap gives a point of the cell whose value is shown there.
Missing: points on the upper edge of a pixel, so all whole numbers (C171_whole_deviation). -/
theorem C171_point_partial {m : Map} {x y : ℚ} {c r : Nat} (h1 : (c : ℚ) ≤ x) (h2 : x < c + 1) (h3 : (r : ℚ) < y) (h4 : y ≤ r + 1) (hr : r < m.ysize) :
    Cell m (viewToMap m x y) c ((m.ysize - 1 - r : Nat) : Int) := by
  refine ⟨x, m.ysize - y, rfl, ?_, ?_⟩
  · rw [Int.floor_eq_iff]
    exact ⟨by exact_mod_cast h1, by exact_mod_cast h2⟩
  · have he : ((m.ysize - 1 - r : Nat) : ℚ) = (m.ysize : ℚ) - 1 - r := by
      have : ((m.ysize - 1 - r : Nat) : Int) = (m.ysize : Int) - 1 - r := by omega
      exact_mod_cast congrArg (Int.cast (R := ℚ)) this
    rw [Int.floor_eq_iff]
    rw [Int.cast_natCast, he]
    constructor <;> linarith

example : viewToMap exMap (1 / 2) (1 / 2) = (100 + 1 / 2, 200 + 3 / 2) := by decide +kernel

/-- Violation: for the whole coordinates of a pixel the point belongs to the row before the one that is shown; for the first row of the picture it is outside of the map. -/
theorem C171_whole_deviation {m : Map} (c r : Nat) (hr : r ≤ m.ysize) : Cell m (viewToMap m c r) c ((m.ysize - r : Nat) : Int) := by
  refine ⟨c, m.ysize - r, rfl, by simp, ?_⟩
  have he : (m.ysize : ℚ) - r = (((m.ysize - r : Nat) : Int) : ℚ) := by
    have : ((m.ysize - r : Nat) : Int) = (m.ysize : Int) - r := by omega
    rw [this]
    push_cast
    ring
  rw [he, Int.floor_intCast]

example : viewToMap exMap 0 0 = (100, 202) := by decide +kernel

#print axioms C171_picture_partial
#print axioms C171_band_deviation
#print axioms C171_zero_deviation
#print axioms C171_negative_deviation
#print axioms C171_point_partial
#print axioms C171_whole_deviation
#print axioms C172_write_read
#print axioms C172_types_deviation
#print axioms C172_copy_deviation

end Envire.RubyMap
