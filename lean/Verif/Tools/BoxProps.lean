import Verif.Tools.LookupProps
import Mathlib.Analysis.Complex.Norm

/-!
C86: the lookup table for the distance to a box. See LookupModel.lean.
-/

namespace Envire.Lookup

/-! ### specification -/

/-- `D` is the distance of the point to the box with the half sizes `hx`, `hy` around the origin: that of the nearest point of the box -/
def IsDist (hx hy x y D : ℝ) : Prop :=
  (∃ qx qy, |qx| ≤ hx ∧ |qy| ≤ hy ∧ D = Real.sqrt ((x - qx) ^ 2 + (y - qy) ^ 2)) ∧
  ∀ qx qy, |qx| ≤ hx → |qy| ≤ hy → D ≤ Real.sqrt ((x - qx) ^ 2 + (y - qy) ^ 2)

/-! ### the distance -/

theorem triangle (a b c d : ℝ) : Real.sqrt ((a + c) ^ 2 + (b + d) ^ 2) ≤ Real.sqrt (a ^ 2 + b ^ 2) + Real.sqrt (c ^ 2 + d ^ 2) := by
  have h := norm_add_le (⟨a, b⟩ : ℂ) ⟨c, d⟩
  have e : ∀ u v : ℝ, ‖(⟨u, v⟩ : ℂ)‖ = Real.sqrt (u ^ 2 + v ^ 2) := fun u v => by
    rw [Complex.norm_def, Complex.normSq_mk, sq, sq]
  rw [e, e, show (⟨a, b⟩ : ℂ) + ⟨c, d⟩ = ⟨a + c, b + d⟩ from rfl, e] at h
  exact h

theorem isDist_lip {hx hy x y x' y' D D' s : ℝ} (h : IsDist hx hy x y D) (h' : IsDist hx hy x' y' D') (hs : 0 ≤ s)
    (h1 : |x - x'| ≤ s) (h2 : |y - y'| ≤ s) : D ≤ D' + Real.sqrt 2 * s := by
  obtain ⟨⟨qx, qy, a1, a2, a3⟩, -⟩ := h'
  refine (h.2 qx qy a1 a2).trans ?_
  have e1 : x - qx = (x' - qx) + (x - x') := by ring
  have e2 : y - qy = (y' - qy) + (y - y') := by ring
  rw [e1, e2]
  refine (triangle _ _ _ _).trans ?_
  rw [a3]
  have : Real.sqrt ((x - x') ^ 2 + (y - y') ^ 2) ≤ Real.sqrt 2 * s := by
    rw [Real.sqrt_le_left (by positivity), mul_pow, Real.sq_sqrt (by norm_num)]
    have e3 := sq_le_sq' (abs_le.1 h1).1 (abs_le.1 h1).2
    have e4 := sq_le_sq' (abs_le.1 h2).1 (abs_le.1 h2).2
    linarith
  linarith

theorem axis_near {h x : ℝ} (hh : 0 ≤ h) : ∃ q, |q| ≤ h ∧ (x - q) ^ 2 = (max (|x| - h) 0) ^ 2 := by
  by_cases hx : |x| ≤ h
  · exact ⟨x, hx, by rw [max_eq_right (by linarith)]; ring⟩
  · push Not at hx
    rw [max_eq_left (by linarith)]
    rcases le_total 0 x with h0 | h0
    · rw [abs_of_nonneg h0] at hx ⊢
      exact ⟨h, by rw [abs_of_nonneg hh], rfl⟩
    · rw [abs_of_nonpos h0] at hx ⊢
      exact ⟨-h, by rw [abs_neg, abs_of_nonneg hh], by ring⟩

theorem axis_far {h x q : ℝ} (hq : |q| ≤ h) : (max (|x| - h) 0) ^ 2 ≤ (x - q) ^ 2 := by
  rw [← sq_abs (x - q)]
  apply pow_le_pow_left₀ (le_max_right _ _)
  apply max_le _ (abs_nonneg _)
  have := abs_sub_abs_le_abs_sub x q
  linarith

theorem distOf_eq (hx hy x y : ℝ) : distOf hx hy x y = Real.sqrt ((max (|x| - hx) 0) ^ 2 + (max (|y| - hy) 0) ^ 2) := by
  have ha : ∀ t : ℝ, (if t < 0 then t * -1 else t) = |t| := fun t => by
    split
    · rename_i h
      rw [abs_of_neg h]
      ring
    · rename_i h
      rw [abs_of_nonneg (not_lt.1 h)]
  unfold distOf
  dsimp only
  rw [ha, ha]
  split
  · rename_i h1
    rw [max_eq_left (by linarith : (0 : ℝ) ≤ |x| - hx)]
    split
    · rename_i h2
      rw [max_eq_left (by linarith)]
    · rename_i h2
      rw [max_eq_right (by linarith), sq (0 : ℝ), mul_zero, add_zero, Real.sqrt_sq (by linarith)]
  · rename_i h1
    rw [max_eq_right (by linarith : |x| - hx ≤ (0 : ℝ))]
    split
    · rename_i h2
      rw [max_eq_left (by linarith), sq (0 : ℝ), mul_zero, zero_add, Real.sqrt_sq (by linarith)]
    · rename_i h2
      rw [max_eq_right (by linarith)]
      simp

theorem isDist_distOf {hx hy : ℝ} (h1 : 0 ≤ hx) (h2 : 0 ≤ hy) (x y : ℝ) : IsDist hx hy x y (distOf hx hy x y) := by
  rw [distOf_eq]
  constructor
  · obtain ⟨qx, a1, a2⟩ := axis_near h1 (x := x)
    obtain ⟨qy, b1, b2⟩ := axis_near h2 (x := y)
    exact ⟨qx, qy, a1, b1, by rw [a2, b2]⟩
  · intro qx qy a1 a2
    exact Real.sqrt_le_sqrt (add_le_add (axis_far a1) (axis_far a2))

theorem IsDist.unique {hx hy x y D D' : ℝ} (h : IsDist hx hy x y D) (h' : IsDist hx hy x y D') : D = D' := by
  obtain ⟨⟨qx, qy, a1, a2, rfl⟩, h1⟩ := h
  obtain ⟨⟨qx', qy', b1, b2, rfl⟩, h2⟩ := h'
  exact le_antisymm (h1 _ _ b1 b2) (h2 _ _ a1 a2)

/-! ### one axis -/

theorem mem_ticks {r s t : ℝ} (hs : 0 < s) : t ∈ ticks r s ↔ t < r ∧ ∃ i : Nat, t = -r + i * (s / 10) := by
  unfold ticks
  simp only [List.mem_map, List.mem_range, Nat.lt_ceil]
  constructor
  · rintro ⟨i, hi, rfl⟩
    rw [lt_div_iff₀ (by positivity)] at hi
    exact ⟨by linarith, i, rfl⟩
  · rintro ⟨h, i, rfl⟩
    exact ⟨i, by rw [lt_div_iff₀ (by positivity)]; linarith, rfl⟩

theorem fmod_range {a b : ℝ} (hb : 0 < b) : 0 ≤ fmod a b ∧ fmod a b < b := by
  unfold fmod
  have h1 := Int.floor_le (a / b)
  have h2 := Int.lt_floor_add_one (a / b)
  rw [le_div_iff₀ hb] at h1
  rw [div_lt_iff₀ hb] at h2
  constructor <;> linarith

theorem offset_nonneg {r s : ℝ} (hs : 0 < s) : 0 ≤ offset r s := by
  obtain ⟨h1, h2⟩ := fmod_range (a := r) hs
  unfold offset
  dsimp only
  split <;> linarith

/-- the cell of a position that is at least `-r` -/
theorem cell_floor {r s x : ℝ} (hs : 0 < s) (hx : -r ≤ x) : trunc ((x + (r + offset r s)) / s) = ⌊(x + (r + offset r s)) / s⌋ :=
  trunc_nonneg (div_nonneg (by linarith [offset_nonneg (r := r) hs]) hs.le)

/-- the cells of positions below `r` exist -/
theorem cell_range {r s x : ℝ} (hs : 0 < s) (hx : -r ≤ x) (hx' : x < r) :
    0 ≤ ⌊(x + (r + offset r s)) / s⌋ ∧ ⌊(x + (r + offset r s)) / s⌋ < ⌈(offset r s + 2 * r) / s⌉ := by
  constructor
  · exact Int.floor_nonneg.2 (div_nonneg (by linarith [offset_nonneg (r := r) hs]) hs.le)
  · have h1 := Int.floor_le ((x + (r + offset r s)) / s)
    have h2 := Int.le_ceil ((offset r s + 2 * r) / s)
    have h3 : (x + (r + offset r s)) / s < (offset r s + 2 * r) / s := div_lt_div_of_pos_right (by linarith) hs
    have : (⌊(x + (r + offset r s)) / s⌋ : ℝ) < ⌈(offset r s + 2 * r) / s⌉ := by linarith
    exact_mod_cast this

theorem same_cell {c s x t : ℝ} (hs : 0 < s) (h : ⌊(x + c) / s⌋ = ⌊(t + c) / s⌋) : |x - t| ≤ s := by
  have h1 := Int.floor_le ((x + c) / s)
  have h2 := Int.lt_floor_add_one ((x + c) / s)
  have h3 := Int.floor_le ((t + c) / s)
  have h4 := Int.lt_floor_add_one ((t + c) / s)
  rw [h] at h1 h2
  have h5 : (x + c) / s - (t + c) / s = (x - t) / s := by ring
  have h6 : (x - t) / s < 1 := by linarith
  have h7 : -1 < (x - t) / s := by linarith
  rw [div_lt_one hs] at h6
  rw [lt_div_iff₀ hs] at h7
  rw [abs_le]
  constructor <;> linarith

/-- the cell of a position contains a tick, if the position is not in the last tenth -/
theorem tick_in_cell {r s x c : ℝ} (hs : 0 < s) (hx : -r ≤ x) (hx' : x ≤ r - s / 10) :
    ∃ t ∈ ticks r s, ⌊(t + c) / s⌋ = ⌊(x + c) / s⌋ := by
  set k := ⌊(x + c) / s⌋ with hk
  have h1 := Int.floor_le ((x + c) / s)
  have h2 := Int.lt_floor_add_one ((x + c) / s)
  rw [← hk, le_div_iff₀ hs] at h1
  rw [← hk, div_lt_iff₀ hs] at h2
  -- the cell is [k s - c, k s - c + s)
  have key : ∀ t, k * s - c ≤ t → t < k * s - c + s → ⌊(t + c) / s⌋ = k := by
    intro t ht ht'
    rw [Int.floor_eq_iff, le_div_iff₀ hs, div_lt_iff₀ hs]
    constructor <;> linarith
  by_cases ha : k * s - c ≤ -r
  · refine ⟨-r, (mem_ticks hs).2 ⟨by linarith, 0, by simp⟩, key _ ha (by linarith)⟩
  · push Not at ha
    have hp : 0 < (k * s - c + r) / (s / 10) := div_pos (by linarith) (by positivity)
    have i1 := Nat.le_ceil ((k * s - c + r) / (s / 10))
    have i2 := Nat.ceil_lt_add_one hp.le
    rw [div_le_iff₀ (by positivity)] at i1
    have i3 : ((⌈(k * s - c + r) / (s / 10)⌉₊ : ℝ) - 1) * (s / 10) < k * s - c + r := by
      rw [← lt_div_iff₀ (by positivity)]
      linarith
    refine ⟨-r + (⌈(k * s - c + r) / (s / 10)⌉₊ : ℝ) * (s / 10), (mem_ticks hs).2 ⟨by linarith, _, rfl⟩, key _ (by linarith) (by linarith)⟩

/-! ### the table -/

theorem rowLoop_ge (b : Box) (x : ℝ) (xi : ℤ) (table : ℤ → ℝ) (i : ℤ) : table i ≤ rowLoop b x xi table i := by
  unfold rowLoop
  generalize ticks _ _ = l
  induction l generalizing table with
  | nil => exact le_refl _
  | cons y l ih =>
    rw [List.foldl_cons]
    refine le_trans ?_ (ih _)
    dsimp only
    split
    · exact le_refl _
    · rw [Function.update_apply]
      split
      · rename_i h
        rw [h]
        exact le_max_right _ _
      · exact le_refl _

theorem rowLoop_mem (b : Box) (x : ℝ) (xi : ℤ) (table : ℤ → ℝ) {y : ℝ} (hy : y ∈ ticks (b.sizeY / 2 + b.maxDist) b.scale)
    (h1 : 0 ≤ trunc ((y + b.centerY) / b.scale)) (h2 : trunc ((y + b.centerY) / b.scale) < b.cellsY) :
    distOf (b.sizeX / 2) (b.sizeY / 2) x y ≤ rowLoop b x xi table (b.cellsX * trunc ((y + b.centerY) / b.scale) + xi) := by
  have mono : ∀ (l : List ℝ) (table : ℤ → ℝ) (i : ℤ), table i ≤ l.foldl (fun table y =>
      let yi := trunc ((y + b.centerY) / b.scale)
      if yi < 0 ∨ yi ≥ b.cellsY then table
      else
        let i := b.cellsX * yi + xi
        Function.update table i (max (distOf (b.sizeX / 2) (b.sizeY / 2) x y) (table i))) table i := by
    intro l
    induction l with
    | nil => intro table i; exact le_refl _
    | cons y l ih =>
      intro table i
      rw [List.foldl_cons]
      refine le_trans ?_ (ih _ _)
      dsimp only
      split
      · exact le_refl _
      · rw [Function.update_apply]
        split
        · rename_i h
          rw [h]
          exact le_max_right _ _
        · exact le_refl _
  unfold rowLoop
  revert hy
  generalize ticks _ _ = l
  intro hy
  induction l generalizing table with
  | nil => cases hy
  | cons z l ih =>
    rw [List.foldl_cons]
    rcases List.mem_cons.1 hy with rfl | hy
    · refine le_trans ?_ (mono _ _ _)
      dsimp only
      rw [if_neg (by push Not; exact ⟨h1, h2⟩), Function.update_self]
      exact le_max_left _ _
    · exact ih _ hy

theorem rowLoop_le (b : Box) (x : ℝ) (xi : ℤ) (table : ℤ → ℝ) (i : ℤ) (B : ℝ) (h0 : table i ≤ B)
    (hB : ∀ y ∈ ticks (b.sizeY / 2 + b.maxDist) b.scale, 0 ≤ trunc ((y + b.centerY) / b.scale) →
      trunc ((y + b.centerY) / b.scale) < b.cellsY → b.cellsX * trunc ((y + b.centerY) / b.scale) + xi = i →
      distOf (b.sizeX / 2) (b.sizeY / 2) x y ≤ B) : rowLoop b x xi table i ≤ B := by
  unfold rowLoop
  revert hB
  generalize ticks _ _ = l
  intro hB
  induction l generalizing table with
  | nil => exact h0
  | cons y l ih =>
    rw [List.foldl_cons]
    refine ih _ ?_ fun z hz => hB z (List.mem_cons_of_mem _ hz)
    dsimp only
    split
    · exact h0
    · rename_i hn
      push Not at hn
      rw [Function.update_apply]
      split
      · rename_i h
        exact max_le (hB y List.mem_cons_self hn.1 hn.2 h.symm) (by rw [← h]; exact h0)
      · exact h0

theorem computeTable_ge (b : Box) {x y : ℝ} (hx : x ∈ ticks (b.sizeX / 2 + b.maxDist) b.scale)
    (h1 : 0 ≤ trunc ((x + b.centerX) / b.scale)) (h2 : trunc ((x + b.centerX) / b.scale) < b.cellsX)
    (hy : y ∈ ticks (b.sizeY / 2 + b.maxDist) b.scale)
    (h3 : 0 ≤ trunc ((y + b.centerY) / b.scale)) (h4 : trunc ((y + b.centerY) / b.scale) < b.cellsY) :
    distOf (b.sizeX / 2) (b.sizeY / 2) x y ≤
      computeTable b (b.cellsX * trunc ((y + b.centerY) / b.scale) + trunc ((x + b.centerX) / b.scale)) := by
  have mono : ∀ (l : List ℝ) (table : ℤ → ℝ) (i : ℤ), table i ≤ l.foldl (fun table x =>
      let xi := trunc ((x + b.centerX) / b.scale)
      if xi < 0 ∨ xi ≥ b.cellsX then table else rowLoop b x xi table) table i := by
    intro l
    induction l with
    | nil => intro table i; exact le_refl _
    | cons y l ih =>
      intro table i
      rw [List.foldl_cons]
      refine le_trans ?_ (ih _ _)
      split
      · exact le_refl _
      · exact rowLoop_ge _ _ _ _ _
  unfold computeTable
  generalize (fun _ => 0 : ℤ → ℝ) = table
  revert hx
  generalize ticks (b.sizeX / 2 + b.maxDist) b.scale = l
  intro hx
  induction l generalizing table with
  | nil => cases hx
  | cons z l ih =>
    rw [List.foldl_cons]
    rcases List.mem_cons.1 hx with rfl | hx
    · refine le_trans ?_ (mono _ _ _)
      rw [if_neg (by push Not; exact ⟨h1, h2⟩)]
      exact rowLoop_mem _ _ _ _ hy h3 h4
    · exact ih _ hx

theorem computeTable_le (b : Box) (i : ℤ) (B : ℝ) (h0 : 0 ≤ B)
    (hB : ∀ x ∈ ticks (b.sizeX / 2 + b.maxDist) b.scale, 0 ≤ trunc ((x + b.centerX) / b.scale) →
      trunc ((x + b.centerX) / b.scale) < b.cellsX → ∀ y ∈ ticks (b.sizeY / 2 + b.maxDist) b.scale,
      0 ≤ trunc ((y + b.centerY) / b.scale) → trunc ((y + b.centerY) / b.scale) < b.cellsY →
      b.cellsX * trunc ((y + b.centerY) / b.scale) + trunc ((x + b.centerX) / b.scale) = i →
      distOf (b.sizeX / 2) (b.sizeY / 2) x y ≤ B) : computeTable b i ≤ B := by
  unfold computeTable
  have h0' : (fun _ => 0 : ℤ → ℝ) i ≤ B := h0
  revert h0'
  generalize (fun _ => 0 : ℤ → ℝ) = table
  intro h0'
  revert hB
  generalize ticks (b.sizeX / 2 + b.maxDist) b.scale = l
  intro hB
  induction l generalizing table with
  | nil => exact h0'
  | cons x l ih =>
    rw [List.foldl_cons]
    refine ih _ ?_ fun z hz => hB z (List.mem_cons_of_mem _ hz)
    by_cases hn : trunc ((x + b.centerX) / b.scale) < 0 ∨ trunc ((x + b.centerX) / b.scale) ≥ b.cellsX
    · rw [if_pos hn]
      exact h0'
    · rw [if_neg hn]
      push Not at hn
      exact rowLoop_le _ _ _ _ _ _ h0' fun y hy h3 h4 h5 => hB x List.mem_cons_self hn.1 hn.2 y hy h3 h4 h5

theorem computeTable_nonneg (b : Box) (i : ℤ) : 0 ≤ computeTable b i := by
  unfold computeTable
  have h0 : (0 : ℝ) ≤ (fun _ => 0 : ℤ → ℝ) i := le_refl _
  revert h0
  generalize (fun _ => 0 : ℤ → ℝ) = table
  intro h0
  generalize ticks (b.sizeX / 2 + b.maxDist) b.scale = l
  induction l generalizing table with
  | nil => exact h0
  | cons x l ih =>
    rw [List.foldl_cons]
    apply ih
    by_cases hn : trunc ((x + b.centerX) / b.scale) < 0 ∨ trunc ((x + b.centerX) / b.scale) ≥ b.cellsX
    · rw [if_pos hn]
      exact h0
    · rw [if_neg hn]
      exact h0.trans (rowLoop_ge _ _ _ _ _)

/-! ### the state after a history -/

/-- the box table for these parameters -/
noncomputable def boxOf (scale sizeX sizeY maxDist : ℝ) : Box :=
  let b : Box :=
    { scale := scale, sizeX := sizeX, sizeY := sizeY, maxDist := maxDist
      cellsX := ⌈(offset (sizeX / 2 + maxDist) scale + sizeX + maxDist * 2) / scale⌉
      cellsY := ⌈(offset (sizeY / 2 + maxDist) scale + sizeY + maxDist * 2) / scale⌉
      centerX := sizeX / 2 + maxDist + offset (sizeX / 2 + maxDist) scale
      centerY := sizeY / 2 + maxDist + offset (sizeY / 2 + maxDist) scale }
  { b with table := some (computeTable b) }

theorem Box.run_form (l : List (ℝ × ℝ × ℝ × ℝ)) : Box.run l = {} ∨ ∃ a ∈ l, Box.run l = boxOf a.1 a.2.1 a.2.2.1 a.2.2.2 := by
  induction l with
  | nil => exact .inl rfl
  | cons a l ih =>
    unfold Box.run Box.recompute
    split
    · rcases ih with h | ⟨b, hb, h⟩
      · exact .inl h
      · exact .inr ⟨b, List.mem_cons_of_mem _ hb, h⟩
    · exact .inr ⟨a, List.mem_cons_self, rfl⟩

theorem Box.run_params (l : List (ℝ × ℝ × ℝ × ℝ)) (s sx sy m : ℝ) :
    let b := Box.run ((s, sx, sy, m) :: l)
    |b.scale - s| < 0.00001 ∧ |b.sizeX - sx| < 0.00001 ∧ |b.sizeY - sy| < 0.00001 ∧ m < b.maxDist + 0.00001 := by
  unfold Box.run Box.recompute
  dsimp only
  split
  · rename_i h
    rw [abs_sub_comm sx, abs_sub_comm sy] at h
    exact h
  · simp
    norm_num

theorem get_boxOf {s sx sy m xp yp : ℝ} (hs : 0 < s)
    (hx : -(sx / 2 + m) ≤ xp) (hx' : xp < sx / 2 + m) (hy : -(sy / 2 + m) ≤ yp) (hy' : yp < sy / 2 + m) :
    (boxOf s sx sy m).get xp yp = .value (computeTable { boxOf s sx sy m with table := none }
      ((boxOf s sx sy m).cellsX * ⌊(yp + (boxOf s sx sy m).centerY) / s⌋ + ⌊(xp + (boxOf s sx sy m).centerX) / s⌋)) ∧
    0 ≤ ⌊(xp + (boxOf s sx sy m).centerX) / s⌋ ∧ ⌊(xp + (boxOf s sx sy m).centerX) / s⌋ < (boxOf s sx sy m).cellsX ∧
    0 ≤ ⌊(yp + (boxOf s sx sy m).centerY) / s⌋ ∧ ⌊(yp + (boxOf s sx sy m).centerY) / s⌋ < (boxOf s sx sy m).cellsY := by
  have c1 := cell_range hs hx hx'
  have c2 := cell_range hs hy hy'
  have t1 := cell_floor hs hx
  have t2 := cell_floor hs hy
  have e1 : offset (sx / 2 + m) s + 2 * (sx / 2 + m) = offset (sx / 2 + m) s + sx + m * 2 := by ring
  have e2 : offset (sy / 2 + m) s + 2 * (sy / 2 + m) = offset (sy / 2 + m) s + sy + m * 2 := by ring
  rw [e1] at c1
  rw [e2] at c2
  refine ⟨?_, c1.1, c1.2, c2.1, c2.2⟩
  unfold Box.get
  simp only [boxOf]
  simp only [t1, t2]
  rw [if_neg (by push Not; exact ⟨c1.1, c1.2.le, c2.1, c2.2.le⟩), if_pos]
  constructor
  · have : 0 ≤ ⌈(offset (sx / 2 + m) s + sx + m * 2) / s⌉ := by linarith [c1.1, c1.2]
    have := mul_nonneg this c2.1
    linarith [c1.1]
  · nlinarith [c1.1, c1.2, c2.1, c2.2]

/-- C86. Full claim: after `recompute(scale, sizeX, sizeY, maxDist)` at the end of any history of calls, `getDistanceToBox` returns, for
every point that is at most `maxDist` outside of the box in each axis, the distance to the box up to the diagonal of a cell.
Proved for all histories with scales of at least 1e-5 and non-negative sizes, for the points that are not within a tenth of a cell
of the upper borders: the table belongs to parameters that differ by less than 1e-5 from the given ones (only the distance may be
greater), the query is defined, and its result differs by at most sqrt 2 times the scale from the distance. Missing: the upper
borders, where the query reads outside of the table (`C86_border_undefined`) or returns 0 (`C86_border_inside`). -/
theorem C86_box_partial (hist : List (ℝ × ℝ × ℝ × ℝ)) (s sx sy m : ℝ)
    (hh : ∀ a ∈ (s, sx, sy, m) :: hist, 0.00001 ≤ a.1 ∧ 0 ≤ a.2.1 ∧ 0 ≤ a.2.2.1 ∧ 0 ≤ a.2.2.2) :
    let b := Box.run ((s, sx, sy, m) :: hist)
    |b.scale - s| < 0.00001 ∧ |b.sizeX - sx| < 0.00001 ∧ |b.sizeY - sy| < 0.00001 ∧ m < b.maxDist + 0.00001 ∧
    ∀ xp yp D, -(b.sizeX / 2 + b.maxDist) ≤ xp → xp ≤ b.sizeX / 2 + b.maxDist - b.scale / 10 →
      -(b.sizeY / 2 + b.maxDist) ≤ yp → yp ≤ b.sizeY / 2 + b.maxDist - b.scale / 10 →
      IsDist (b.sizeX / 2) (b.sizeY / 2) xp yp D → ∃ v, b.get xp yp = .value v ∧ |v - D| ≤ Real.sqrt 2 * b.scale := by
  intro b
  obtain ⟨p1, p2, p3, p4⟩ := Box.run_params hist s sx sy m
  refine ⟨p1, p2, p3, p4, ?_⟩
  obtain ⟨s', sx', sy', m', hs', h1', h2', h3', hb⟩ : ∃ s' sx' sy' m', (0.00001 : ℝ) ≤ s' ∧ 0 ≤ sx' ∧ 0 ≤ sy' ∧ 0 ≤ m' ∧
      b = boxOf s' sx' sy' m' := by
    rcases Box.run_form ((s, sx, sy, m) :: hist) with h | ⟨a, ha, h⟩
    · exfalso
      rw [h] at p1
      have hs := (hh _ List.mem_cons_self).1
      dsimp only at hs p1
      rw [zero_sub, abs_neg, abs_of_nonneg (by linarith)] at p1
      linarith
    · obtain ⟨a1, a2, a3, a4⟩ := hh a ha
      exact ⟨_, _, _, _, a1, a2, a3, a4, h⟩
  rw [hb]
  clear_value b
  have hs : 0 < s' := lt_of_lt_of_le (by norm_num) hs'
  intro xp yp D hx hx' hy hy' hD
  change -(sx' / 2 + m') ≤ xp at hx
  change xp ≤ sx' / 2 + m' - s' / 10 at hx'
  change -(sy' / 2 + m') ≤ yp at hy
  change yp ≤ sy' / 2 + m' - s' / 10 at hy'
  change IsDist (sx' / 2) (sy' / 2) xp yp D at hD
  obtain ⟨g, r1, r2, r3, r4⟩ := get_boxOf (s := s') (sx := sx') (sy := sy') (m := m') hs hx (by linarith) hy (by linarith)
  refine ⟨_, g, ?_⟩
  change |_ - D| ≤ Real.sqrt 2 * s'
  have hD0 : 0 ≤ D := by
    obtain ⟨⟨_, _, _, _, h⟩, _⟩ := hD
    rw [h]
    exact Real.sqrt_nonneg _
  have hdist : ∀ u v, IsDist (sx' / 2) (sy' / 2) u v (distOf (sx' / 2) (sy' / 2) u v) := fun u v =>
    isDist_distOf (by linarith) (by linarith) u v
  rw [abs_le]
  constructor
  · obtain ⟨tx, htx, ex⟩ := tick_in_cell (c := (boxOf s' sx' sy' m').centerX) hs hx hx'
    obtain ⟨ty, hty, ey⟩ := tick_in_cell (c := (boxOf s' sx' sy' m').centerY) hs hy hy'
    have bx : trunc ((tx + (boxOf s' sx' sy' m').centerX) / s') = ⌊(tx + (boxOf s' sx' sy' m').centerX) / s'⌋ := by
      obtain ⟨_, i, hi⟩ := (mem_ticks hs).1 htx
      exact cell_floor hs (by rw [hi]; have : 0 ≤ (i : ℝ) * (s' / 10) := by positivity
                              linarith)
    have by' : trunc ((ty + (boxOf s' sx' sy' m').centerY) / s') = ⌊(ty + (boxOf s' sx' sy' m').centerY) / s'⌋ := by
      obtain ⟨_, i, hi⟩ := (mem_ticks hs).1 hty
      exact cell_floor hs (by rw [hi]; have : 0 ≤ (i : ℝ) * (s' / 10) := by positivity
                              linarith)
    have := computeTable_ge { boxOf s' sx' sy' m' with table := none } (x := tx) (y := ty) htx
      (by change 0 ≤ trunc ((tx + (boxOf s' sx' sy' m').centerX) / s'); rw [bx, ex]; exact r1)
      (by change trunc ((tx + (boxOf s' sx' sy' m').centerX) / s') < _; rw [bx, ex]; exact r2) hty
      (by change 0 ≤ trunc ((ty + (boxOf s' sx' sy' m').centerY) / s'); rw [by', ey]; exact r3)
      (by change trunc ((ty + (boxOf s' sx' sy' m').centerY) / s') < _; rw [by', ey]; exact r4)
    change distOf (sx' / 2) (sy' / 2) tx ty ≤ computeTable _ ((boxOf s' sx' sy' m').cellsX *
      trunc ((ty + (boxOf s' sx' sy' m').centerY) / s') + trunc ((tx + (boxOf s' sx' sy' m').centerX) / s')) at this
    rw [bx, by', ex, ey] at this
    have hl := isDist_lip hD (hdist tx ty) hs.le (same_cell hs ex.symm) (same_cell hs ey.symm)
    linarith
  · have : computeTable { boxOf s' sx' sy' m' with table := none }
        ((boxOf s' sx' sy' m').cellsX * ⌊(yp + (boxOf s' sx' sy' m').centerY) / s'⌋ +
          ⌊(xp + (boxOf s' sx' sy' m').centerX) / s'⌋) ≤ D + Real.sqrt 2 * s' := by
      apply computeTable_le
      · have : 0 ≤ Real.sqrt 2 * s' := by positivity
        linarith
      · intro tx htx a1 a2 ty hty a3 a4 he
        change 0 ≤ trunc ((tx + (boxOf s' sx' sy' m').centerX) / s') at a1
        change trunc ((tx + (boxOf s' sx' sy' m').centerX) / s') < (boxOf s' sx' sy' m').cellsX at a2
        change (boxOf s' sx' sy' m').cellsX * trunc ((ty + (boxOf s' sx' sy' m').centerY) / s') +
          trunc ((tx + (boxOf s' sx' sy' m').centerX) / s') = _ at he
        have bx : trunc ((tx + (boxOf s' sx' sy' m').centerX) / s') = ⌊(tx + (boxOf s' sx' sy' m').centerX) / s'⌋ := by
          obtain ⟨_, i, hi⟩ := (mem_ticks hs).1 htx
          change tx = -(sx' / 2 + m') + i * (s' / 10) at hi
          exact cell_floor hs (by rw [hi]; have : 0 ≤ (i : ℝ) * (s' / 10) := by positivity
                                  linarith)
        have by' : trunc ((ty + (boxOf s' sx' sy' m').centerY) / s') = ⌊(ty + (boxOf s' sx' sy' m').centerY) / s'⌋ := by
          obtain ⟨_, i, hi⟩ := (mem_ticks hs).1 hty
          change ty = -(sy' / 2 + m') + i * (s' / 10) at hi
          exact cell_floor hs (by rw [hi]; have : 0 ≤ (i : ℝ) * (s' / 10) := by positivity
                                  linarith)
        rw [bx] at a1 a2 he
        rw [by'] at he
        have hc : 0 < (boxOf s' sx' sy' m').cellsX := by linarith
        have e1 := congrArg (· % (boxOf s' sx' sy' m').cellsX) he
        simp only [Int.mul_add_emod_self_left] at e1
        rw [Int.emod_eq_of_lt a1 a2, Int.emod_eq_of_lt r1 r2] at e1
        rw [e1] at he
        have e2 := mul_left_cancel₀ hc.ne' (add_right_cancel he)
        exact isDist_lip (hdist tx ty) hD hs.le (same_cell hs e1) (same_cell hs e2)
    linarith

/-- C86 is violated: for the box of size 1 with distance 1 and scale 1, the query of the point (3/2, 3/2), at the border of the table,
reads behind the array -/
theorem C86_border_undefined : (Box.run [(1, 1, 1, 1)]).get (3 / 2) (3 / 2) = .undefined := by
  have hr : Box.run [(1, 1, 1, 1)] = boxOf 1 1 1 1 := by
    unfold Box.run Box.run Box.recompute
    rw [if_neg (by norm_num)]
    rfl
  have ho : offset (1 / 2 + 1) 1 = 0 := by
    have hf : ⌊(1 / 2 + 1 : ℝ) / 1⌋ = 1 := by rw [Int.floor_eq_iff]; norm_num
    unfold offset fmod
    rw [hf]
    norm_num
  have hc : ⌈((0 : ℝ) + 1 + 1 * 2) / 1⌉ = 3 := by rw [Int.ceil_eq_iff]; norm_num
  have ht : trunc ((3 / 2 + (1 / 2 + 1 + 0 : ℝ)) / 1) = 3 := by
    rw [trunc_nonneg (by norm_num), Int.floor_eq_iff]
    norm_num
  rw [hr]
  unfold Box.get
  simp only [boxOf, ho, hc, ht]
  norm_num

/-- C86 is violated: for a box of the size 11/10 times 1, distance 10 and scale 1, a point that is 9.97 away from the box is reported as a point
in the box -/
theorem C86_border_inside : IsDist (11 / 10 / 2) (1 / 2) 10.52 0 9.97 ∧ (Box.run [(1, 11 / 10, 1, 10)]).get 10.52 0 = .value 0 := by
  constructor
  · have := isDist_distOf (hx := 11 / 10 / 2) (hy := 1 / 2) (by norm_num) (by norm_num) 10.52 0
    unfold distOf at this
    norm_num at this ⊢
    exact this
  · have hr : Box.run [(1, 11 / 10, 1, 10)] = boxOf 1 (11 / 10) 1 10 := by
      unfold Box.run Box.run Box.recompute
      rw [if_neg (by norm_num)]
      rfl
    rw [hr]
    obtain ⟨g, r1, r2, -, -⟩ := get_boxOf (s := 1) (sx := 11 / 10) (sy := 1) (m := 10) (xp := 10.52) (yp := 0) one_pos
      (by norm_num) (by norm_num) (by norm_num) (by norm_num)
    rw [g]
    have ho : offset (11 / 10 / 2 + 10) 1 = 0.95 := by
      have hf : ⌊(11 / 10 / 2 + 10 : ℝ) / 1⌋ = 10 := by rw [Int.floor_eq_iff]; norm_num
      unfold offset fmod
      rw [hf]
      norm_num
    have hcx : (boxOf 1 (11 / 10) 1 10).centerX = 11.5 := by
      simp only [boxOf, ho]
      norm_num
    congr 1
    refine le_antisymm (computeTable_le _ _ _ (le_refl _) ?_) (computeTable_nonneg _ _)
    intro tx htx a1 a2 ty hty a3 a4 he
    exfalso
    change 0 ≤ trunc ((tx + (boxOf 1 (11 / 10) 1 10).centerX) / 1) at a1
    change trunc ((tx + (boxOf 1 (11 / 10) 1 10).centerX) / 1) < (boxOf 1 (11 / 10) 1 10).cellsX at a2
    change (boxOf 1 (11 / 10) 1 10).cellsX * trunc ((ty + (boxOf 1 (11 / 10) 1 10).centerY) / 1) +
      trunc ((tx + (boxOf 1 (11 / 10) 1 10).centerX) / 1) = _ at he
    have e1 := congrArg (· % (boxOf 1 (11 / 10) 1 10).cellsX) he
    simp only [Int.mul_add_emod_self_left] at e1
    rw [Int.emod_eq_of_lt a1 a2, Int.emod_eq_of_lt r1 r2, hcx] at e1
    obtain ⟨t1, i, hi⟩ := (mem_ticks one_pos).1 htx
    change tx < 11 / 10 / 2 + 10 at t1
    change tx = -(11 / 10 / 2 + 10) + i * (1 / 10) at hi
    have hf : ⌊((10.52 : ℝ) + 11.5) / 1⌋ = 22 := by rw [Int.floor_eq_iff]; norm_num
    rw [hf, trunc_nonneg, Int.floor_eq_iff] at e1
    · have h1 : (i : ℝ) < 211 := by linarith
      have h2 : (210 : ℝ) < i := by
        have := e1.1
        push_cast at this
        linarith
      have h1' : i < 211 := by exact_mod_cast h1
      have h2' : 210 < i := by exact_mod_cast h2
      omega
    · have : 0 ≤ (i : ℝ) * (1 / 10) := by positivity
      rw [hi]
      norm_num
      linarith

/-- the hypotheses of `C86_box_partial` are met: a query at the distance 1/2 of a box of size 2 after another computation -/
example : ∃ v, (Box.run [(1 / 10, 2, 2, 1), (1, 1, 1, 1)]).get (3 / 2) 0 = .value v ∧ |v - 1 / 2| ≤ Real.sqrt 2 * (1 / 10) := by
  have hr : Box.run [(1 / 10, 2, 2, 1), (1, 1, 1, 1)] = boxOf (1 / 10) 2 2 1 := by
    have h1 : Box.run [(1, 1, 1, 1)] = boxOf 1 1 1 1 := by
      unfold Box.run Box.run Box.recompute
      rw [if_neg (by norm_num)]
      rfl
    unfold Box.run
    rw [h1]
    unfold Box.recompute
    rw [if_neg]
    · rfl
    · have : (boxOf 1 1 1 1).scale = 1 := rfl
      rw [this]
      norm_num
  have h := C86_box_partial [(1, 1, 1, 1)] (1 / 10) 2 2 1 (by
    intro a ha
    simp only [List.mem_cons, List.not_mem_nil, or_false] at ha
    rcases ha with rfl | rfl <;> norm_num)
  dsimp only at h
  rw [hr] at h
  obtain ⟨-, -, -, -, h⟩ := h
  have hd : IsDist (2 / 2) (2 / 2) (3 / 2) 0 (1 / 2) := by
    have := isDist_distOf (hx := 2 / 2) (hy := 2 / 2) (by norm_num) (by norm_num) (3 / 2) 0
    unfold distOf at this
    norm_num at this ⊢
    exact this
  rw [hr]
  exact h (3 / 2) 0 (1 / 2) (by change -(2 / 2 + 1 : ℝ) ≤ _; norm_num) (by change _ ≤ (2 / 2 + 1 - 1 / 10 / 10 : ℝ); norm_num)
    (by change -(2 / 2 + 1 : ℝ) ≤ _; norm_num) (by change _ ≤ (2 / 2 + 1 - 1 / 10 / 10 : ℝ); norm_num) hd

end Envire.Lookup

#print axioms Envire.Lookup.C85_radial_partial
#print axioms Envire.Lookup.C85_border
#print axioms Envire.Lookup.C86_box_partial
#print axioms Envire.Lookup.C86_border_undefined
#print axioms Envire.Lookup.C86_border_inside
