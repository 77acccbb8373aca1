import Verif.Maps.AlignedModel
import Verif.Maps.RasterLemmas
import Mathlib.Tactic.NormNum

/-!
C138: isAlignedWith. C139: isCellAlignedWith. C140: ClassGridProjection.
-/

namespace Envire.Aligned

open Envire.Raster

variable {V W : Type}

noncomputable section

/-! ### specification -/

/-- a transform that does not turn -/
def shift (tx ty : ℝ) : Flat ℝ := ⟨1, 0, 0, 1, tx, ty⟩

/-- the centre of the cell with integer indices, also outside of the grid, after a transform -/
def place (g : Grid V ℝ) (t : Flat ℝ) (x y : ℤ) : ℝ × ℝ :=
  (t.m00 * ((x + 1 / 2) * g.sx + g.ox) + t.m01 * ((y + 1 / 2) * g.sy + g.oy) + t.tx,
    t.m10 * ((x + 1 / 2) * g.sx + g.ox) + t.m11 * ((y + 1 / 2) * g.sy + g.oy) + t.ty)

/-- the distance of the same cell of two grids, in the frame of the second one -/
def error (a : Grid V ℝ) (b : Grid W ℝ) (tf : Flat ℝ) (x y : Nat) : ℝ × ℝ :=
  ((place a tf x y).1 - (place b (shift 0 0) x y).1, (place a tf x y).2 - (place b (shift 0 0) x y).2)

/-- what the documentation of isAlignedWith says: the same dimensions, and all errors are less than half a cell -/
def Near (a : Grid V ℝ) (b : Grid W ℝ) (tf : Flat ℝ) : Prop :=
  a.nx = b.nx ∧ a.ny = b.ny ∧ ∀ x y : Nat, x < a.nx → y < a.ny → |(error a b tf x y).1| < b.sx / 2 ∧ |(error a b tf x y).2| < b.sy / 2

/-- a grid without bands -/
def bare (nx ny : Nat) (sx sy ox oy : ℝ) : Grid V ℝ := ⟨.byte, nx, ny, sx, sy, ox, oy, fun _ => none, fun _ => none⟩

/-! ### C138 -/

theorem rint_near (x : ℝ) : |x - rint x| ≤ 1 / 2 := by
  have h : x = ⌊x⌋ + Int.fract x := (Int.floor_add_fract x).symm
  have h0 := Int.fract_nonneg x
  have h1 := Int.fract_lt_one x
  rw [abs_le]
  unfold rint
  split_ifs
  · constructor <;> linarith
  · push_cast
    constructor <;> linarith
  · constructor <;> linarith
  · push_cast
    constructor <;> linarith

theorem rint_eq {x : ℝ} {n : ℤ} (h : |x - n| < 1 / 2) : rint x = n := by
  have h1 := rint_near x
  have h2 : |((rint x - n : ℤ) : ℝ)| < 1 := by
    have : ((rint x - n : ℤ) : ℝ) = -(x - rint x) + (x - n) := by push_cast; ring
    rw [this]
    calc |(-(x - rint x) + (x - n))| ≤ |(-(x - rint x))| + |x - n| := abs_add_le _ _
      _ < 1 := by rw [abs_neg]; linarith
  rw [← Int.cast_abs] at h2
  have h3 : |rint x - n| < 1 := by exact_mod_cast h2
  rw [Int.abs_lt_one_iff] at h3
  omega

theorem isAlignedWith_iff (a : Grid V ℝ) (b : Grid W ℝ) (tf : Flat ℝ) : isAlignedWith a b tf = true ↔
    (a.nx = b.nx ∧ a.ny = b.ny ∧ a.ox = b.ox ∧ a.oy = b.oy) ∧
      rint (move tf ((b.nx : ℝ), (b.ny : ℝ))).1 = b.nx ∧ rint (move tf ((b.nx : ℝ), (b.ny : ℝ))).2 = b.ny := by
  unfold isAlignedWith
  dsimp only
  split_ifs with h1 h2
  · simp only [Bool.false_eq_true, false_iff]
    tauto
  · simp only [Bool.false_eq_true, false_iff]
    tauto
  · simp only [true_iff]
    tauto

/-- C138: grids with different numbers of cells are not aligned -/
theorem C138_counts (a : Grid V ℝ) (b : Grid W ℝ) (tf : Flat ℝ) (h : a.nx ≠ b.nx ∨ a.ny ≠ b.ny) : isAlignedWith a b tf = false := by
  rw [← Bool.not_eq_true, isAlignedWith_iff]
  tauto

/-- C138: grids with the same cells in the same frame are aligned -/
theorem C138_same (a : Grid V ℝ) (b : Grid W ℝ) (h : a.nx = b.nx ∧ a.ny = b.ny ∧ a.ox = b.ox ∧ a.oy = b.oy) :
    isAlignedWith a b (shift 0 0) = true := by
  rw [isAlignedWith_iff]
  refine ⟨h, ?_, ?_⟩
  · apply rint_eq
    unfold move shift
    norm_num
  · apply rint_eq
    unfold move shift
    norm_num

/-- C138: for grids with the same scale and frames that are not turned, the answer yes bounds the error of all cells by half a metre
(the bound may be met), and if the error of some cell is less than half a metre the answer is yes. For cells of one metre, that is half
a cell; missing: other cells (`C138_small`, `C138_large`), frames that are turned (`C138_turned`), grids with different scales
(`C138_scale`), different offsets (`C138_offset`) -/
theorem C138_shift_partial (a : Grid V ℝ) (b : Grid W ℝ) (tx ty : ℝ) (hs : a.sx = b.sx ∧ a.sy = b.sy) (h : a.nx = b.nx ∧ a.ny = b.ny)
    (ho : a.ox = b.ox ∧ a.oy = b.oy) :
    (isAlignedWith a b (shift tx ty) = true → ∀ x y : Nat,
      |(error a b (shift tx ty) x y).1| ≤ 1 / 2 ∧ |(error a b (shift tx ty) x y).2| ≤ 1 / 2) ∧
      ∀ x y : Nat, |(error a b (shift tx ty) x y).1| < 1 / 2 ∧ |(error a b (shift tx ty) x y).2| < 1 / 2 →
        isAlignedWith a b (shift tx ty) = true := by
  have he : ∀ x y : Nat, error a b (shift tx ty) x y = (tx, ty) := by
    intro x y
    unfold error place shift
    rw [hs.1, hs.2, ho.1, ho.2]
    ext
    · dsimp only; ring
    · dsimp only; ring
  have hm : move (shift tx ty) ((b.nx : ℝ), (b.ny : ℝ)) = (b.nx + tx, b.ny + ty) := by
    unfold move shift
    ext
    · dsimp only; ring
    · dsimp only; ring
  constructor
  · intro h1 x y
    rw [he]
    rw [isAlignedWith_iff, hm] at h1
    have h2 := rint_near ((b.nx : ℝ) + tx)
    have h3 := rint_near ((b.ny : ℝ) + ty)
    rw [h1.2.1] at h2
    rw [h1.2.2] at h3
    constructor
    · simpa using h2
    · simpa using h3
  · intro x y hxy
    rw [he] at hxy
    rw [isAlignedWith_iff, hm]
    refine ⟨⟨h.1, h.2, ho.1, ho.2⟩, rint_eq ?_, rint_eq ?_⟩
    · simpa using hxy.1
    · simpa using hxy.2

/-- C138, for cells of one metre that are not turned: `Near` is sufficient for the answer yes -/
theorem C138_unit_partial (a : Grid V ℝ) (b : Grid W ℝ) (tx ty : ℝ) (hs : a.sx = 1 ∧ a.sy = 1 ∧ b.sx = 1 ∧ b.sy = 1) (ho : a.ox = b.ox ∧ a.oy = b.oy)
    (hn : 0 < a.nx ∧ 0 < a.ny) (h : Near a b (shift tx ty)) : isAlignedWith a b (shift tx ty) = true := by
  obtain ⟨h1, h2, h3⟩ := h
  refine (C138_shift_partial a b tx ty ⟨hs.1.trans hs.2.2.1.symm, hs.2.1.trans hs.2.2.2.symm⟩ ⟨h1, h2⟩ ho).2 0 0 ?_
  have := h3 0 0 hn.1 hn.2
  rwa [hs.2.2.1, hs.2.2.2] at this

/-- an example for C138: ten cells of a metre, moved by a quarter of a cell -/
example : isAlignedWith (bare 10 10 1 1 0 0 : Grid Nat ℝ) (bare 10 10 1 1 0 0 : Grid Nat ℝ) (shift (1 / 4) 0) = true := by
  refine C138_unit_partial _ _ _ _ ⟨rfl, rfl, rfl, rfl⟩ ⟨rfl, rfl⟩ ⟨by decide, by decide⟩ ⟨rfl, rfl, ?_⟩
  intro x y _ _
  have : error (bare 10 10 1 1 0 0 : Grid Nat ℝ) (bare 10 10 1 1 0 0 : Grid Nat ℝ) (shift (1 / 4) 0) x y = (1 / 4, 0) := by
    unfold error place shift bare
    ext
    · dsimp only; ring
    · dsimp only; ring
  rw [this]
  constructor
  · rw [abs_lt]; constructor <;> norm_num [bare]
  · rw [abs_lt]; constructor <;> norm_num [bare]

/-- C138 is wrong: the scales are not compared; for every distance there are grids in the same frame that are said to be aligned
though a cell is farther away than that -/
theorem C138_scale (m : ℝ) : ∃ a b : Grid Nat ℝ, a.nx = 1 ∧ a.ny = 1 ∧ isAlignedWith a b (shift 0 0) = true ∧ m < |(error a b (shift 0 0) 0 0).1| ∧
    ¬ Near a b (shift 0 0) := by
  refine ⟨bare 1 1 (2 * |m| + 4) 1 0 0, bare 1 1 1 1 0 0, rfl, rfl, C138_same _ _ ⟨rfl, rfl, rfl, rfl⟩, ?_, ?_⟩
  · have : (error (bare 1 1 (2 * |m| + 4) 1 0 0 : Grid Nat ℝ) (bare 1 1 1 1 0 0 : Grid Nat ℝ) (shift 0 0) 0 0).1 = |m| + 3 / 2 := by
      unfold error place shift bare
      dsimp only
      push_cast
      ring
    rw [this, abs_of_pos (by positivity)]
    have := le_abs_self m
    linarith
  · intro h
    have h1 := (h.2.2 0 0 (by simp [bare]) (by simp [bare])).1
    have : (error (bare 1 1 (2 * |m| + 4) 1 0 0 : Grid Nat ℝ) (bare 1 1 1 1 0 0 : Grid Nat ℝ) (shift 0 0) 0 0).1 = |m| + 3 / 2 := by
      unfold error place shift bare
      dsimp only
      push_cast
      ring
    rw [this, abs_of_pos (by positivity)] at h1
    have h2 : (bare 1 1 1 1 0 0 : Grid Nat ℝ).sx = 1 := rfl
    rw [h2] at h1
    have := abs_nonneg m
    linarith

theorem error_shift (nx ny : Nat) (s tx ty : ℝ) (x y : Nat) :
    error (bare nx ny s s 0 0 : Grid Nat ℝ) (bare nx ny s s 0 0 : Grid Nat ℝ) (shift tx ty) x y = (tx, ty) := by
  unfold error place shift bare
  ext
  · dsimp only; ring
  · dsimp only; ring

/-- C138 is wrong: the error is compared in metres; grids with cells of a centimetre are said to be aligned though all cells are
moved by 25 cells -/
theorem C138_small (nx ny : Nat) (h : 0 < nx ∧ 0 < ny) :
    isAlignedWith (bare nx ny (1 / 100) (1 / 100) 0 0 : Grid Nat ℝ) (bare nx ny (1 / 100) (1 / 100) 0 0 : Grid Nat ℝ) (shift (1 / 4) 0) = true ∧
      ¬ Near (bare nx ny (1 / 100) (1 / 100) 0 0 : Grid Nat ℝ) (bare nx ny (1 / 100) (1 / 100) 0 0 : Grid Nat ℝ) (shift (1 / 4) 0) := by
  constructor
  · refine (C138_shift_partial _ _ _ _ ⟨rfl, rfl⟩ ⟨rfl, rfl⟩ ⟨rfl, rfl⟩).2 0 0 ?_
    rw [error_shift]
    constructor
    · rw [abs_lt]; constructor <;> norm_num
    · norm_num
  · intro hn
    have h1 := (hn.2.2 0 0 h.1 h.2).1
    rw [error_shift] at h1
    rw [abs_lt] at h1
    have h2 := h1.2
    norm_num [bare] at h2

/-- C138 is wrong: grids with cells of ten metres are said not to be aligned though no cell is moved by more than a tenth of a cell -/
theorem C138_large (nx ny : Nat) :
    isAlignedWith (bare nx ny 10 10 0 0 : Grid Nat ℝ) (bare nx ny 10 10 0 0 : Grid Nat ℝ) (shift 1 0) = false ∧
      Near (bare nx ny 10 10 0 0 : Grid Nat ℝ) (bare nx ny 10 10 0 0 : Grid Nat ℝ) (shift 1 0) := by
  constructor
  · rw [← Bool.not_eq_true]
    intro h
    have := ((C138_shift_partial _ _ _ _ ⟨rfl, rfl⟩ ⟨rfl, rfl⟩ ⟨rfl, rfl⟩).1 h 0 0).1
    rw [error_shift] at this
    norm_num at this
  · refine ⟨rfl, rfl, fun x y _ _ => ?_⟩
    rw [error_shift]
    norm_num [bare]

/-- C138 is wrong: only one point is compared; a grid that is turned by half a turn about this point is said to be aligned, though no
cell is on the other grid -/
theorem C138_turned (nx ny : Nat) (h : 0 < nx ∧ 0 < ny) :
    isAlignedWith (bare nx ny 1 1 0 0 : Grid Nat ℝ) (bare nx ny 1 1 0 0 : Grid Nat ℝ) ⟨-1, 0, 0, -1, 2 * nx, 2 * ny⟩ = true ∧
      (∀ x y : Nat, x < nx → y < ny →
        nx < (place (bare nx ny 1 1 0 0 : Grid Nat ℝ) ⟨-1, 0, 0, -1, 2 * nx, 2 * ny⟩ x y).1) ∧
      ¬ Near (bare nx ny 1 1 0 0 : Grid Nat ℝ) (bare nx ny 1 1 0 0 : Grid Nat ℝ) ⟨-1, 0, 0, -1, 2 * nx, 2 * ny⟩ := by
  refine ⟨?_, ?_, ?_⟩
  · rw [isAlignedWith_iff]
    refine ⟨⟨rfl, rfl, rfl, rfl⟩, rint_eq ?_, rint_eq ?_⟩
    · have : (move ⟨-1, 0, 0, -1, 2 * (nx : ℝ), 2 * ny⟩ (((bare nx ny 1 1 0 0 : Grid Nat ℝ).nx : ℝ), ((bare nx ny 1 1 0 0 : Grid Nat ℝ).ny : ℝ))).1 = nx := by
        unfold move bare
        dsimp only
        ring
      rw [this]
      norm_num [bare]
    · have : (move ⟨-1, 0, 0, -1, 2 * (nx : ℝ), 2 * ny⟩ (((bare nx ny 1 1 0 0 : Grid Nat ℝ).nx : ℝ), ((bare nx ny 1 1 0 0 : Grid Nat ℝ).ny : ℝ))).2 = ny := by
        unfold move bare
        dsimp only
        ring
      rw [this]
      norm_num [bare]
  · intro x y hx hy
    have : ((x : ℤ) : ℝ) + 1 ≤ nx := by exact_mod_cast hx
    unfold place bare
    dsimp only
    linarith
  · intro hn
    have h1 := (hn.2.2 0 0 h.1 h.2).1
    have h0 : (1 : ℝ) ≤ nx := by exact_mod_cast h.1
    have h2 : (error (bare nx ny 1 1 0 0 : Grid Nat ℝ) (bare nx ny 1 1 0 0 : Grid Nat ℝ) ⟨-1, 0, 0, -1, 2 * nx, 2 * ny⟩ 0 0).1 = 2 * nx - 1 := by
      unfold error place bare shift
      dsimp only
      push_cast
      ring
    rw [h2, abs_of_pos (by linarith)] at h1
    have h3 : (bare nx ny 1 1 0 0 : Grid Nat ℝ).sx = 1 := rfl
    rw [h3] at h1
    linarith

/-- C138 is wrong: grids with different offsets are never aligned, also if the frames make up for it and all cells are at the same
places -/
theorem C138_offset (nx ny : Nat) (o : ℝ) (h : o ≠ 0) :
    isAlignedWith (bare nx ny 1 1 o 0 : Grid Nat ℝ) (bare nx ny 1 1 0 0 : Grid Nat ℝ) (shift (-o) 0) = false ∧
      (∀ x y : Nat, error (bare nx ny 1 1 o 0 : Grid Nat ℝ) (bare nx ny 1 1 0 0 : Grid Nat ℝ) (shift (-o) 0) x y = (0, 0)) ∧
      Near (bare nx ny 1 1 o 0 : Grid Nat ℝ) (bare nx ny 1 1 0 0 : Grid Nat ℝ) (shift (-o) 0) := by
  have he : ∀ x y : Nat, error (bare nx ny 1 1 o 0 : Grid Nat ℝ) (bare nx ny 1 1 0 0 : Grid Nat ℝ) (shift (-o) 0) x y = (0, 0) := by
    intro x y
    unfold error place shift bare
    ext
    · dsimp only; ring
    · dsimp only; ring
  refine ⟨?_, he, rfl, rfl, ?_⟩
  · rw [← Bool.not_eq_true, isAlignedWith_iff]
    intro hh
    exact h hh.1.2.2.1
  · intro x y _ _
    rw [he]
    norm_num [bare]

/-! ### C139 -/

/-- the grids have the same cells, up to a shift of the indices, with errors of at most `eps` cells -/
def CellAligned (a : Grid V ℝ) (b : Grid W ℝ) (ta tb : Flat ℝ) (eps : ℝ) : Prop :=
  a.sx = b.sx ∧ a.sy = b.sy ∧ ∃ i j : ℤ, ∀ x y : ℤ,
    |(place a ta x y).1 - (place b tb (x + i) (y + j)).1| ≤ eps * a.sx ∧ |(place a ta x y).2 - (place b tb (x + i) (y + j)).2| ≤ eps * a.sy

theorem trunc_int (n : ℤ) : trunc n = n := by
  unfold trunc
  split_ifs <;> simp

/-- C139: grids with different scales are not aligned -/
theorem C139_scale (a : Grid V ℝ) (b : Grid W ℝ) (ta tb : Flat ℝ) (h : a.sx ≠ b.sx ∨ a.sy ≠ b.sy) : isCellAlignedWith a b ta tb = some false := by
  unfold isCellAlignedWith
  rw [if_pos h]

theorem cellDiff_shift (a : Grid V ℝ) (b : Grid W ℝ) (ax ay bx by' : ℝ) (hs : a.sx = b.sx ∧ a.sy = b.sy) :
    cellDiff a b (shift ax ay) (shift bx by') = ((a.ox + ax - b.ox - bx) / a.sx, (a.oy + ay - b.oy - by') / a.sy) := by
  unfold cellDiff move fromGrid shift
  rw [← hs.1, ← hs.2]
  ext
  · dsimp only; push_cast; ring
  · dsimp only; push_cast; ring

theorem part {s d : ℝ} (hs : 0 < s) {n : ℤ} (h : isZero (n - d / s)) (x : ℝ) :
    |(x + 1 / 2) * s + d - ((x + n + 1 / 2) * s)| ≤ 1 / 10 ^ 12 * s := by
  have e : (x + 1 / 2) * s + d - ((x + n + 1 / 2) * s) = -(n - d / s) * s := by
    field_simp
    ring
  rw [e, abs_mul, abs_neg, abs_of_pos hs]
  exact mul_le_mul_of_nonneg_right h hs.le

/-- C139, if the frames of the grids are not turned against the root frame: the answer yes means that the grids have the same cells up
to 10⁻¹² of a cell, and grids with the same cells get it (if the shift fits an `int`). Missing: frames that are turned, where both
directions are wrong (`C139_turned`, `C139_differently_turned`); the tolerance holds for errors away from zero only (`C139_tolerance`) -/
theorem C139_shift_partial (a : Grid V ℝ) (b : Grid W ℝ) (ax ay bx by' : ℝ) (hp : 0 < a.sx ∧ 0 < a.sy) :
    (isCellAlignedWith a b (shift ax ay) (shift bx by') = some true → CellAligned a b (shift ax ay) (shift bx by') (1 / 10 ^ 12)) ∧
      ∀ i j : ℤ, a.sx = b.sx → a.sy = b.sy → (∀ x y : ℤ, place a (shift ax ay) x y = place b (shift bx by') (x + i) (y + j)) →
        -2 ^ 31 ≤ i ∧ i < 2 ^ 31 → -2 ^ 31 ≤ j ∧ j < 2 ^ 31 →
        isCellAlignedWith a b (shift ax ay) (shift bx by') = some true := by
  constructor
  · intro h
    unfold isCellAlignedWith at h
    dsimp only at h
    split_ifs at h with h1 h2 h3
    · cases h
    · push Not at h1
      rw [cellDiff_shift a b _ _ _ _ h1] at h3
      refine ⟨h1.1, h1.2, trunc ((a.ox + ax - b.ox - bx) / a.sx), trunc ((a.oy + ay - b.oy - by') / a.sy), ?_⟩
      intro x y
      have p1 := part hp.1 h3.1 x
      have p2 := part hp.2 h3.2 y
      unfold place shift
      rw [← h1.1, ← h1.2]
      dsimp only
      push_cast
      constructor
      · refine le_trans (le_of_eq ?_) p1
        congr 1
        ring
      · refine le_trans (le_of_eq ?_) p2
        congr 1
        ring
    · cases h
  · intro i j h1 h2 h hi hj
    have h0 := h 0 0
    unfold place shift at h0
    dsimp only at h0
    have e1 := congrArg Prod.fst h0
    have e2 := congrArg Prod.snd h0
    dsimp only at e1 e2
    rw [← h1, ← h2] at e1 e2
    push_cast at e1 e2
    have d1 : (a.ox + ax - b.ox - bx) / a.sx = i := by
      rw [div_eq_iff hp.1.ne']
      linarith
    have d2 : (a.oy + ay - b.oy - by') / a.sy = j := by
      rw [div_eq_iff hp.2.ne']
      linarith
    unfold isCellAlignedWith
    rw [if_neg (by simp [h1, h2]), cellDiff_shift a b _ _ _ _ ⟨h1, h2⟩, d1, d2]
    dsimp only
    have f : ∀ {n : ℤ}, -2 ^ 31 ≤ n ∧ n < 2 ^ 31 → fits n := by
      intro n hn
      have g1 : (-2 ^ 31 : ℝ) ≤ n := by exact_mod_cast hn.1
      have g2 : (n : ℝ) < 2 ^ 31 := by exact_mod_cast hn.2
      exact ⟨by linarith, g2⟩
    rw [if_neg (by simp only [not_not]; exact ⟨f hi, f hj⟩), trunc_int, trunc_int]
    rw [if_neg (by simp [isZero])]

/-- an example for C139: grids of different size, with a shift of three and minus two cells -/
example : isCellAlignedWith (bare 10 10 (1 / 2) (1 / 2) (3 / 2) 0 : Grid Nat ℝ) (bare 7 5 (1 / 2) (1 / 2) 0 0 : Grid Nat ℝ) (shift 0 0) (shift 0 1) =
    some true := by
  refine (C139_shift_partial _ _ _ _ _ _ ⟨?_, ?_⟩).2 3 (-2) rfl rfl ?_ (by omega) (by omega)
  · norm_num [bare]
  · norm_num [bare]
  · intro x y
    unfold place shift bare
    ext
    · dsimp only; push_cast; ring
    · dsimp only; push_cast; ring

/-- a frame that is turned, by the angle with the cosine 3/5 -/
def turned : Flat ℝ := ⟨3 / 5, -4 / 5, 4 / 5, 3 / 5, 0, 0⟩

/-- C139 is wrong: two grids in the same frame, with the same cells, moved by one cell, are said not to be aligned if the frame is
turned -/
theorem C139_turned : isCellAlignedWith (bare 10 10 1 1 1 0 : Grid Nat ℝ) (bare 10 10 1 1 0 0 : Grid Nat ℝ) turned turned = some false ∧
    CellAligned (bare 10 10 1 1 1 0 : Grid Nat ℝ) (bare 10 10 1 1 0 0 : Grid Nat ℝ) turned turned 0 := by
  constructor
  · have hd : cellDiff (bare 10 10 1 1 1 0 : Grid Nat ℝ) (bare 10 10 1 1 0 0 : Grid Nat ℝ) turned turned = (3 / 5, 4 / 5) := by
      unfold cellDiff move fromGrid turned bare
      ext
      · norm_num
      · norm_num
    unfold isCellAlignedWith
    rw [if_neg (by simp [bare]), hd]
    dsimp only
    rw [if_neg (by simp only [not_not, fits]; norm_num)]
    rw [if_pos]
    intro h
    have h1 := h.1
    have : trunc (3 / 5 : ℝ) = 0 := by
      unfold trunc
      rw [if_pos (by norm_num), Int.floor_eq_zero_iff]
      constructor <;> norm_num
    rw [this] at h1
    unfold isZero at h1
    norm_num [abs_of_pos] at h1
  · refine ⟨rfl, rfl, 1, 0, fun x y => ?_⟩
    unfold place turned bare
    dsimp only
    push_cast
    constructor
    · rw [abs_le]; constructor <;> ring_nf <;> norm_num
    · rw [abs_le]; constructor <;> ring_nf <;> norm_num

/-- C139 is wrong: grids that are turned against each other are said to be aligned if the first cells agree, though the next cell is
farther than a tenth of a cell away from every cell of the other grid -/
theorem C139_differently_turned :
    isCellAlignedWith (bare 10 10 1 1 (-1 / 2) (-1 / 2) : Grid Nat ℝ) (bare 10 10 1 1 (-1 / 2) (-1 / 2) : Grid Nat ℝ) (shift 0 0) turned = some true ∧
      (∀ i j : ℤ, ¬ (|(place (bare 10 10 1 1 (-1 / 2) (-1 / 2) : Grid Nat ℝ) (shift 0 0) 1 0).1 - (place (bare 10 10 1 1 (-1 / 2) (-1 / 2) : Grid Nat ℝ) turned i j).1| ≤ 1 / 10 ∧
        |(place (bare 10 10 1 1 (-1 / 2) (-1 / 2) : Grid Nat ℝ) (shift 0 0) 1 0).2 - (place (bare 10 10 1 1 (-1 / 2) (-1 / 2) : Grid Nat ℝ) turned i j).2| ≤ 1 / 10)) := by
  constructor
  · have hd : cellDiff (bare 10 10 1 1 (-1 / 2) (-1 / 2) : Grid Nat ℝ) (bare 10 10 1 1 (-1 / 2) (-1 / 2) : Grid Nat ℝ) (shift 0 0) turned = (((0 : ℤ) : ℝ), ((0 : ℤ) : ℝ)) := by
      unfold cellDiff move fromGrid turned bare shift
      ext
      · norm_num
      · norm_num
    unfold isCellAlignedWith
    rw [if_neg (by simp [bare]), hd]
    dsimp only
    rw [if_neg (by simp only [not_not, fits]; norm_num), trunc_int]
    rw [if_neg (by simp [isZero])]
  · rintro i j ⟨h1, h2⟩
    unfold place turned shift bare at h1 h2
    dsimp only at h1 h2
    push_cast at h1 h2
    rw [abs_le] at h1 h2
    have g1 : (0 : ℝ) < i := by linarith [h1.1, h1.2, h2.1, h2.2]
    have g2 : (i : ℝ) < 1 := by linarith [h1.1, h1.2, h2.1, h2.2]
    have g3 : 0 < i := by exact_mod_cast g1
    have g4 : i < 1 := by exact_mod_cast g2
    omega

/-- C139 is wrong: the tolerance holds on one side only; a shift of a little more than one cell is accepted, of a little less than one
cell is not, for all errors below 10⁻¹² of a cell. So the result depends on rounding -/
theorem C139_tolerance (d : ℝ) (h : 0 < d) (h1 : d ≤ 1 / 10 ^ 12) :
    isCellAlignedWith (bare 10 10 1 1 (1 + d) 0 : Grid Nat ℝ) (bare 10 10 1 1 0 0 : Grid Nat ℝ) (shift 0 0) (shift 0 0) = some true ∧
      isCellAlignedWith (bare 10 10 1 1 (1 - d) 0 : Grid Nat ℝ) (bare 10 10 1 1 0 0 : Grid Nat ℝ) (shift 0 0) (shift 0 0) = some false ∧
      CellAligned (bare 10 10 1 1 (1 - d) 0 : Grid Nat ℝ) (bare 10 10 1 1 0 0 : Grid Nat ℝ) (shift 0 0) (shift 0 0) d := by
  have h2 : d < 1 / 4 := lt_of_le_of_lt h1 (by norm_num)
  refine ⟨?_, ?_, ?_⟩
  · unfold isCellAlignedWith
    rw [if_neg (by simp [bare]), cellDiff_shift _ _ _ _ _ _ (by exact ⟨rfl, rfl⟩)]
    have e1 : ((bare 10 10 1 1 (1 + d) 0 : Grid Nat ℝ).ox + 0 - (bare 10 10 1 1 0 0 : Grid Nat ℝ).ox - 0) / (bare 10 10 1 1 (1 + d) 0 : Grid Nat ℝ).sx = 1 + d := by
      simp [bare]
    have e2 : ((bare 10 10 1 1 (1 + d) 0 : Grid Nat ℝ).oy + 0 - (bare 10 10 1 1 0 0 : Grid Nat ℝ).oy - 0) / (bare 10 10 1 1 (1 + d) 0 : Grid Nat ℝ).sy = ((0 : ℤ) : ℝ) := by
      simp [bare]
    rw [e1, e2]
    dsimp only
    have t : trunc (1 + d) = 1 := by
      unfold trunc
      rw [if_pos (by linarith), Int.floor_eq_iff]
      push_cast
      constructor <;> linarith
    rw [if_neg, trunc_int, t, if_neg]
    · rw [not_not]
      refine ⟨?_, by simp [isZero]⟩
      unfold isZero
      push_cast
      rw [show (1 : ℝ) - (1 + d) = -d by ring, abs_neg, abs_of_pos h]
      exact h1
    · rw [not_not]
      unfold fits
      refine ⟨⟨by linarith, by linarith⟩, by norm_num, by norm_num⟩
  · unfold isCellAlignedWith
    rw [if_neg (by simp [bare]), cellDiff_shift _ _ _ _ _ _ (by exact ⟨rfl, rfl⟩)]
    have e1 : ((bare 10 10 1 1 (1 - d) 0 : Grid Nat ℝ).ox + 0 - (bare 10 10 1 1 0 0 : Grid Nat ℝ).ox - 0) / (bare 10 10 1 1 (1 - d) 0 : Grid Nat ℝ).sx = 1 - d := by
      simp [bare]
    have e2 : ((bare 10 10 1 1 (1 - d) 0 : Grid Nat ℝ).oy + 0 - (bare 10 10 1 1 0 0 : Grid Nat ℝ).oy - 0) / (bare 10 10 1 1 (1 - d) 0 : Grid Nat ℝ).sy = ((0 : ℤ) : ℝ) := by
      simp [bare]
    rw [e1, e2]
    dsimp only
    have t : trunc (1 - d) = 0 := by
      unfold trunc
      rw [if_pos (by linarith), Int.floor_eq_iff]
      push_cast
      constructor <;> linarith
    rw [if_neg, trunc_int, t, if_pos]
    · rintro ⟨hz, -⟩
      unfold isZero at hz
      push_cast at hz
      rw [abs_le] at hz
      have := hz.1
      norm_num at this
      linarith
    · rw [not_not]
      unfold fits
      refine ⟨⟨by linarith, by linarith⟩, by norm_num, by norm_num⟩
  · refine ⟨rfl, rfl, 1, 0, fun x y => ?_⟩
    unfold place shift bare
    dsimp only
    push_cast
    constructor
    · rw [abs_le]; constructor <;> linarith
    · rw [abs_le]; constructor <;> linarith

/-- C139 is wrong: the answer is undefined for grids that are 2³¹ cells away from each other, though all cells agree -/
theorem C139_far : isCellAlignedWith (bare 10 10 1 1 (2 ^ 31) 0 : Grid Nat ℝ) (bare 10 10 1 1 0 0 : Grid Nat ℝ) (shift 0 0) (shift 0 0) = none ∧
    CellAligned (bare 10 10 1 1 (2 ^ 31) 0 : Grid Nat ℝ) (bare 10 10 1 1 0 0 : Grid Nat ℝ) (shift 0 0) (shift 0 0) 0 := by
  constructor
  · unfold isCellAlignedWith
    rw [if_neg (by simp [bare]), cellDiff_shift _ _ _ _ _ _ (by exact ⟨rfl, rfl⟩)]
    dsimp only
    rw [if_pos]
    intro h
    have := h.1.2
    norm_num [bare] at this
  · refine ⟨rfl, rfl, 2 ^ 31, 0, fun x y => ?_⟩
    unfold place shift bare
    dsimp only
    push_cast
    constructor
    · rw [abs_le]; constructor <;> ring_nf <;> norm_num
    · rw [abs_le]; constructor <;> ring_nf <;> norm_num

/-! ### C140 -/

theorem classLoop_spec (classes : V → Option W) (a : Arr V) (l : List (Nat × Nat)) (o : Arr W)
    (h : l.Pairwise fun q p => q.1 * o.w + q.2 ≠ p.1 * o.w + p.2) :
    ∃ l1 l2, l = l1 ++ l2 ∧ (∀ p ∈ l1, classes (a.get p.1 p.2) = some ((classLoop classes a l o).1.mem (p.1 * o.w + p.2))) ∧
      (∀ i, (∀ p ∈ l1, p.1 * o.w + p.2 ≠ i) → (classLoop classes a l o).1.mem i = o.mem i) ∧
      (classLoop classes a l o).1.h = o.h ∧ (classLoop classes a l o).1.w = o.w ∧
      ((classLoop classes a l o).2 = true ∧ l2 = [] ∨
        (classLoop classes a l o).2 = false ∧ ∃ q l3, l2 = q :: l3 ∧ classes (a.get q.1 q.2) = none) := by
  induction l generalizing o with
  | nil => exact ⟨[], [], rfl, by simp, fun _ _ => rfl, rfl, rfl, Or.inl ⟨rfl, rfl⟩⟩
  | cons p l ih =>
    obtain ⟨h1, h2⟩ := List.pairwise_cons.1 h
    cases hc : classes (a.get p.1 p.2) with
    | none =>
      have e : classLoop classes a (p :: l) o = (o, false) := by
        rw [classLoop, hc]
      rw [e]
      exact ⟨[], p :: l, rfl, by simp, fun _ _ => rfl, rfl, rfl, Or.inr ⟨rfl, p, l, rfl, hc⟩⟩
    | some c =>
      have e : classLoop classes a (p :: l) o = classLoop classes a l { o with mem := Function.update o.mem (p.1 * o.w + p.2) c } := by
        rw [classLoop, hc]
      rw [e]
      obtain ⟨l1, l2, g1, g2, g3, g4, g5, g6⟩ := ih { o with mem := Function.update o.mem (p.1 * o.w + p.2) c } h2
      refine ⟨p :: l1, l2, by rw [g1]; rfl, ?_, ?_, g4, g5, g6⟩
      · intro q hq
        rcases List.mem_cons.1 hq with rfl | hq
        · have := g3 (q.1 * o.w + q.2) (fun r hr => (h1 r (by rw [g1]; simp [hr])).symm)
          rw [this, hc]
          dsimp only
          rw [Function.update_self]
        · exact g2 q hq
      · intro i hi
        rw [g3 i (fun r hr => hi r (by simp [hr]))]
        dsimp only
        rw [Function.update_of_ne (hi p (by simp)).symm]

/-- C140: if the grids are not aligned, an exception is thrown and the output is not changed -/
theorem C140_refused [Inhabited V] [Inhabited W] (classes : V → Option W) (a : Grid V ℝ) (b : Grid W ℝ) (tf : Flat ℝ) (ka kb : String)
    (h : isAlignedWith a b tf = false) : classUpdate classes a b tf ka kb = .thrown b := by
  unfold classUpdate
  rw [if_pos h]

/-- C140: without the band of the input, an exception is thrown and the output is not changed -/
theorem C140_missing [Inhabited V] [Inhabited W] (classes : V → Option W) (a : Grid V ℝ) (b : Grid W ℝ) (tf : Flat ℝ) (ka kb : String)
    (h : a.data ka = none) : classUpdate classes a b tf ka kb = .thrown b := by
  unfold classUpdate
  split_ifs
  · rfl
  · rw [h]

/-- the array of a band has the size of the grid -/
def Sized (a : Grid V ℝ) (k : String) : Prop := 0 < a.nx ∧ ∃ d, a.data k = some d ∧ d.h = a.ny ∧ d.w = a.nx

/-- everything except the cells of the band is as before -/
def OnlyBand [Inhabited W] (b o : Grid W ℝ) (kb : String) : Prop :=
  Same b o ∧ o.nodata = b.nodata ∧ ∀ k, k ≠ kb → o.data k = b.data k

/-- C140: for grids that are said to be aligned, either all classes of the input are known, and then every cell of the output has the
class of the cell of the input with the same index; or an exception is thrown at the first cell, line by line, with an unknown class:
the cells before it are changed already, the others are not. In both cases nothing else of the output is changed. Missing: that the
cells with the same index are at the same place (`C140_place`) -/
theorem C140_cells_partial [Inhabited V] [Inhabited W] (classes : V → Option W) (a : Grid V ℝ) (b : Grid W ℝ) (tf : Flat ℝ) (ka kb : String)
    (h : isAlignedWith a b tf = true) (hs : Sized a ka) :
    ((∀ y x : Nat, y < a.ny → x < a.nx → (classes (a.cell ka y x)).isSome) →
      ∃ o, classUpdate classes a b tf ka kb = .ok o ∧ OnlyBand b o kb ∧
        ∀ y x : Nat, y < a.ny → x < a.nx → classes (a.cell ka y x) = some (o.cell kb y x)) ∧
    ((∃ y x : Nat, y < a.ny ∧ x < a.nx ∧ classes (a.cell ka y x) = none) →
      ∃ o y0 x0, classUpdate classes a b tf ka kb = .thrown o ∧ OnlyBand b o kb ∧ y0 < a.ny ∧ x0 < a.nx ∧
        classes (a.cell ka y0 x0) = none ∧
        ∀ y x : Nat, y < a.ny → x < a.nx →
          if y < y0 ∨ y = y0 ∧ x < x0 then classes (a.cell ka y x) = some (o.cell kb y x) else o.cell kb y x = b.cell kb y x) := by
  obtain ⟨h0, d, hd, hh, hw⟩ := hs
  have hn := (isAlignedWith_iff a b tf).1 h
  have ow : (b.getGridData kb).w = a.nx := hn.1.1.symm
  have oh : (b.getGridData kb).h = a.ny := hn.1.2.1.symm
  have hcell : ∀ y x : Nat, y < a.ny → x < a.nx → a.cell ka y x = d.get y x := by
    intro y x hy hx
    unfold Grid.cell
    rw [hd]
    dsimp only
    rw [if_pos ⟨by rw [hw]; exact hx, by rw [hh]; exact hy⟩]
  obtain ⟨l1, l2, g1, g2, g3, g4, g5, g6⟩ := classLoop_spec classes d (order a.nx a.ny) (b.getGridData kb) (by
    rw [ow]
    exact (order_pairwise a.nx a.ny).imp fun hp => by omega)
  rw [ow] at g2 g3
  have hu : classUpdate classes a b tf ka kb = if (classLoop classes d (order a.nx a.ny) (b.getGridData kb)).2 then
      .ok (b.put kb (classLoop classes d (order a.nx a.ny) (b.getGridData kb)).1) else
      .thrown (b.put kb (classLoop classes d (order a.nx a.ny) (b.getGridData kb)).1) := by
    unfold classUpdate
    rw [if_neg (by rw [h]; simp), hd]
    dsimp only
    rw [if_neg (by omega)]
  have hcell' : ∀ y x : Nat, y < a.ny → x < a.nx →
      (b.put kb (classLoop classes d (order a.nx a.ny) (b.getGridData kb)).1).cell kb y x =
        (classLoop classes d (order a.nx a.ny) (b.getGridData kb)).1.mem (y * a.nx + x) := by
    intro y x hy hx
    rw [put_cell _ _ _ ⟨by rw [g5, ow]; exact hx, by rw [g4, oh]; exact hy⟩]
    unfold Arr.get
    rw [g5, ow]
  have hold : ∀ y x : Nat, y < a.ny → x < a.nx → (b.getGridData kb).mem (y * a.nx + x) = b.cell kb y x := by
    intro y x hy hx
    rw [hn.1.1]
    exact (getGridData_get b kb (by rw [← hn.1.2.1]; exact hy) (by rw [← hn.1.1]; exact hx)).2
  have honly : ∀ r : Arr W, OnlyBand b (b.put kb r) kb := by
    intro r
    refine ⟨⟨rfl, rfl, rfl, rfl, rfl, rfl, rfl⟩, rfl, fun k hk => ?_⟩
    unfold Grid.put
    dsimp only
    rw [Function.update_of_ne hk]
  constructor
  · intro hall
    rcases g6 with ⟨t, e⟩ | ⟨t, q, l3, e, hq⟩
    · refine ⟨_, by rw [hu, if_pos t], honly _, ?_⟩
      intro y x hy hx
      rw [hcell' y x hy hx, hcell y x hy hx]
      refine g2 (y, x) ?_
      rw [e, List.append_nil] at g1
      rw [← g1]
      exact mem_order.2 ⟨hy, hx⟩
    · have hm : q ∈ order a.nx a.ny := by rw [g1, e]; simp
      have := mem_order.1 hm
      have h2 := hall q.1 q.2 this.1 this.2
      rw [hcell _ _ this.1 this.2, hq] at h2
      simp at h2
  · rintro ⟨y', x', hy', hx', hnone⟩
    rcases g6 with ⟨t, e⟩ | ⟨t, q, l3, e, hq⟩
    · rw [e, List.append_nil] at g1
      have := g2 (y', x') (by rw [← g1]; exact mem_order.2 ⟨hy', hx'⟩)
      dsimp only at this
      rw [← hcell y' x' hy' hx', hnone] at this
      simp at this
    · have hm : q ∈ order a.nx a.ny := by rw [g1, e]; simp
      have hq' := mem_order.1 hm
      refine ⟨_, q.1, q.2, by rw [hu, if_neg (by rw [t]; simp)], honly _, hq'.1, hq'.2, by rw [hcell _ _ hq'.1 hq'.2]; exact hq, ?_⟩
      have hp := order_pairwise a.nx a.ny
      rw [g1, e] at hp
      have hp1 := List.pairwise_append.1 hp
      have lt_iff : ∀ y x : Nat, x < a.nx → (y * a.nx + x < q.1 * a.nx + q.2 ↔ y < q.1 ∨ y = q.1 ∧ x < q.2) := by
        intro y x hx
        rcases lt_trichotomy y q.1 with hl | hl | hl
        · have : (y + 1) * a.nx ≤ q.1 * a.nx := Nat.mul_le_mul_right _ hl
          rw [Nat.succ_mul] at this
          constructor
          · intro; exact Or.inl hl
          · intro; omega
        · rw [hl]; omega
        · have : (q.1 + 1) * a.nx ≤ y * a.nx := Nat.mul_le_mul_right _ hl
          rw [Nat.succ_mul] at this
          constructor
          · intro; omega
          · intro; omega
      intro y x hy hx
      have hmem : (y, x) ∈ l1 ++ q :: l3 := by rw [← e, ← g1]; exact mem_order.2 ⟨hy, hx⟩
      split_ifs with hb
      · rw [hcell' y x hy hx, hcell y x hy hx]
        refine g2 (y, x) ?_
        rcases List.mem_append.1 hmem with hmem | hmem
        · exact hmem
        · exfalso
          have hb' := (lt_iff y x hx).2 hb
          rcases List.mem_cons.1 hmem with he | hmem
          · rw [← he] at hb'
            exact absurd hb' (lt_irrefl _)
          · have := (List.rel_of_pairwise_cons hp1.2.1 hmem).2
            dsimp only at this
            omega
      · rw [hcell' y x hy hx, ← hold y x hy hx]
        refine g3 _ ?_
        intro p hp2 he
        have h3 := (hp1.2.2 p hp2 q (by simp)).2
        rw [he, lt_iff y x hx] at h3
        exact hb h3

/-- an example for C140: two known classes -/
example : isAlignedWith (⟨.byte, 2, 1, 1, 1, 0, 0, fun k => if k = "a" then some ⟨1, 2, fun i => i⟩ else none, fun _ => none⟩ : Grid Nat ℝ)
    (bare 2 1 1 1 0 0 : Grid Nat ℝ) (shift 0 0) = true ∧
    Sized (⟨.byte, 2, 1, 1, 1, 0, 0, fun k => if k = "a" then some ⟨1, 2, fun i => i⟩ else none, fun _ => none⟩ : Grid Nat ℝ) "a" :=
  ⟨C138_same _ _ ⟨rfl, rfl, rfl, rfl⟩, by decide, ⟨1, 2, fun i => i⟩, rfl, rfl, rfl⟩

/-- C140 is wrong for grids of different scale, which isAlignedWith accepts: the cell of the output at (15, 5) gets the class of the
cell of the input at (3/2, 1/2), though the input does not cover its place -/
theorem C140_place : ∃ (a b o : Grid Nat ℝ) (classes : Nat → Option Nat), Sized a "a" ∧ classUpdate classes a b (shift 0 0) "a" "b" = .ok o ∧
    place a (shift 0 0) 1 0 = (3 / 2, 1 / 2) ∧ place o (shift 0 0) 1 0 = (15, 5) ∧
    classes (a.cell "a" 0 1) = some (o.cell "b" 0 1) ∧ o.cell "b" 0 1 = 8 ∧ (a.nx : ℝ) * a.sx + a.ox = 2 := by
  let a : Grid Nat ℝ := ⟨.byte, 2, 1, 1, 1, 0, 0, fun k => if k = "a" then some ⟨1, 2, fun i => i⟩ else none, fun _ => none⟩
  let b : Grid Nat ℝ := bare 2 1 10 10 0 0
  have hs : Sized a "a" := ⟨by decide, ⟨1, 2, fun i => i⟩, rfl, rfl, rfl⟩
  obtain ⟨o, h1, h2, h3⟩ := (C140_cells_partial (fun n => some (n + 7)) a b (shift 0 0) "a" "b" (C138_same _ _ ⟨rfl, rfl, rfl, rfl⟩) hs).1 (by simp)
  have hc := h3 0 1 (by decide) (by decide)
  have ha : a.cell "a" 0 1 = 1 := rfl
  have hsx : o.sx = 10 := h2.1.sx
  have hsy : o.sy = 10 := h2.1.sy
  have hox : o.ox = 0 := h2.1.ox
  have hoy : o.oy = 0 := h2.1.oy
  refine ⟨a, b, o, _, hs, h1, ?_, ?_, hc, ?_, ?_⟩
  · unfold place shift
    ext
    · norm_num [a]
    · norm_num [a]
  · unfold place shift
    rw [hsx, hsy, hox, hoy]
    ext
    · norm_num
    · norm_num
  · rw [ha] at hc
    have := Option.some.inj hc
    exact this.symm
  · norm_num [a]

#print axioms C138_counts
#print axioms C138_same
#print axioms C138_shift_partial
#print axioms C138_unit_partial
#print axioms C138_scale
#print axioms C138_small
#print axioms C138_large
#print axioms C138_turned
#print axioms C138_offset
#print axioms C139_scale
#print axioms C139_shift_partial
#print axioms C139_turned
#print axioms C139_differently_turned
#print axioms C139_tolerance
#print axioms C139_far
#print axioms C140_refused
#print axioms C140_missing
#print axioms C140_cells_partial
#print axioms C140_place

end

end Envire.Aligned
