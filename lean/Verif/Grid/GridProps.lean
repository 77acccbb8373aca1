import Verif.Grid.GridModel
import Mathlib.Algebra.Order.Field.Rat
import Mathlib.Data.Rat.Floor
import Mathlib.Tactic.Linarith
import Mathlib.Tactic.FieldSimp
import Mathlib.Tactic.Ring
/-! Properties C29, C30, C31: grid coordinates. -/
namespace Envire.Grid

variable {K : Type} [Field K] [LinearOrder K] [IsStrictOrderedRing K] [FloorRing K]

/-- a grid with positive scales that fits into memory -/
structure Ok (g : GridBase K) : Prop where
  sx : 0 < g.sx
  sy : 0 < g.sy
  nx : g.nx ≤ 2 ^ 63
  ny : g.ny ≤ 2 ^ 63

/-- the point is not so far away that its cell number leaves the range of the 64 bit conversion -/
structure Near (g : GridBase K) (x y : K) : Prop where
  xlo : -2 ^ 63 * g.sx ≤ x - g.ox
  xhi : x - g.ox < 2 ^ 64 * g.sx
  ylo : -2 ^ 63 * g.sy ≤ y - g.oy
  yhi : y - g.oy < 2 ^ 64 * g.sy

/-- the cell number along one axis -/
theorem axis {conv : Int → Nat} (hc : ConvOk conv) {s t : K} (hs : 0 < s) {n : Nat} (hn : n ≤ 2 ^ 63) (h1 : -2 ^ 63 * s ≤ t) (h2 : t < 2 ^ 64 * s) :
    (conv ⌊t / s⌋ < n ↔ 0 ≤ t ∧ t < n * s) ∧ (conv ⌊t / s⌋ < n → (conv ⌊t / s⌋ : K) * s ≤ t ∧ t < ((conv ⌊t / s⌋ : K) + 1) * s) := by
  have hlo : (-2 ^ 63 : Int) ≤ ⌊t / s⌋ := by
    rw [Int.le_floor, le_div_iff₀ hs]
    norm_num at h1 ⊢
    exact h1
  have hhi : ⌊t / s⌋ < (2 ^ 64 : Int) := by
    rw [Int.floor_lt, div_lt_iff₀ hs]
    norm_num at h2 ⊢
    exact h2
  by_cases h0 : 0 ≤ ⌊t / s⌋
  · have he := hc.exact _ h0 hhi
    have hf1 : (⌊t / s⌋ : K) ≤ t / s := Int.floor_le _
    have hf2 : t / s < (⌊t / s⌋ : K) + 1 := Int.lt_floor_add_one _
    have hcast : (conv ⌊t / s⌋ : K) = (⌊t / s⌋ : K) := by
      have := congrArg (Int.cast (R := K)) he
      push_cast at this
      exact this
    rw [le_div_iff₀ hs] at hf1
    rw [div_lt_iff₀ hs] at hf2
    have ht : 0 ≤ t := by
      have : (0 : K) ≤ (⌊t / s⌋ : K) := by exact_mod_cast h0
      nlinarith
    refine ⟨⟨fun h => ⟨ht, ?_⟩, fun ⟨_, h⟩ => ?_⟩, fun _ => ⟨by rw [hcast]; exact hf1, by rw [hcast]; exact hf2⟩⟩
    · have : (⌊t / s⌋ : Int) + 1 ≤ n := by omega
      have h3 : ((⌊t / s⌋ : Int) : K) + 1 ≤ n := by exact_mod_cast this
      exact lt_of_lt_of_le hf2 (mul_le_mul_of_nonneg_right h3 hs.le)
    · rw [← div_lt_iff₀ hs] at h
      have : ⌊t / s⌋ < (n : Int) := by rw [Int.floor_lt]; exact_mod_cast h
      omega
  · have h := hc.neg _ hlo (by omega)
    have hnot : ¬ conv ⌊t / s⌋ < n := by omega
    refine ⟨⟨fun h => absurd h hnot, fun ⟨h4, _⟩ => ?_⟩, fun h => absurd h hnot⟩
    exact absurd (Int.floor_nonneg.2 (div_nonneg h4 hs.le)) h0

theorem toGrid_eq {conv : Int → Nat} {g : GridBase K} {x y : K} {r : Nat × Nat × K × K} (h : g.toGrid conv x y = some r) :
    r = (conv ⌊(x - g.ox) / g.sx⌋, conv ⌊(y - g.oy) / g.sy⌋, x - (conv ⌊(x - g.ox) / g.sx⌋ * g.sx + g.ox), y - (conv ⌊(y - g.oy) / g.sy⌋ * g.sy + g.oy)) ∧
      conv ⌊(x - g.ox) / g.sx⌋ < g.nx ∧ conv ⌊(y - g.oy) / g.sy⌋ < g.ny := by
  unfold GridBase.toGrid at h
  dsimp only at h
  split at h
  · rename_i hc
    cases h
    exact ⟨rfl, hc.2.1, hc.2.2.2⟩
  · cases h

theorem toGrid_isSome {conv : Int → Nat} {g : GridBase K} {x y : K} :
    (g.toGrid conv x y).isSome = true ↔ conv ⌊(x - g.ox) / g.sx⌋ < g.nx ∧ conv ⌊(y - g.oy) / g.sy⌋ < g.ny := by
  unfold GridBase.toGrid
  dsimp only
  split
  · rename_i hc; exact ⟨fun _ => ⟨hc.2.1, hc.2.2.2⟩, fun _ => rfl⟩
  · rename_i hc
    refine ⟨fun h => by simp at h, fun h => absurd ⟨Nat.zero_le _, h.1, Nat.zero_le _, h.2⟩ hc⟩

/-- **C30** toGrid accepts a point exactly if it lies in the area of the grid. Missing for the full claim: points so far away that
their cell number does not fit into 64 bits (`C30_far_point_accepted`). -/
theorem C30_toGrid_iff_inside_partial {conv : Int → Nat} (hc : ConvOk conv) {g : GridBase K} (hg : Ok g) {x y : K} (hn : Near g x y) :
    (g.toGrid conv x y).isSome = true ↔ g.ox ≤ x ∧ x < g.ox + g.nx * g.sx ∧ g.oy ≤ y ∧ y < g.oy + g.ny * g.sy := by
  rw [toGrid_isSome, (axis hc hg.sx hg.nx hn.xlo hn.xhi).1, (axis hc hg.sy hg.ny hn.ylo hn.yhi).1]
  constructor
  · rintro ⟨⟨a, b⟩, c, d⟩; exact ⟨by linarith, by linarith, by linarith, by linarith⟩
  · rintro ⟨a, b, c, d⟩; exact ⟨⟨by linarith, by linarith⟩, by linarith, by linarith⟩

/-- **C29** Cell to centre and back is the identity on all cells; and the cell found for a point is the one whose half open square
contains it, with the offset inside of the cell in [0, scale). The second part is for points whose cell number fits into 64 bits
(partial, see `C30_far_point_accepted`). -/
theorem C29_roundtrip_partial {conv : Int → Nat} (hc : ConvOk conv) {g : GridBase K} (hg : Ok g) :
    (∀ xi yi, xi < g.nx → yi < g.ny → ∃ xm ym, g.toGrid conv (g.fromGrid xi yi).1 (g.fromGrid xi yi).2 = some (xi, yi, xm, ym)) ∧
    (∀ x y xi yi xm ym, Near g x y → g.toGrid conv x y = some (xi, yi, xm, ym) →
      xi < g.nx ∧ yi < g.ny ∧
      g.ox + xi * g.sx ≤ x ∧ x < g.ox + (xi + 1) * g.sx ∧ g.oy + yi * g.sy ≤ y ∧ y < g.oy + (yi + 1) * g.sy ∧
      x = g.ox + xi * g.sx + xm ∧ 0 ≤ xm ∧ xm < g.sx ∧ y = g.oy + yi * g.sy + ym ∧ 0 ≤ ym ∧ ym < g.sy) := by
  constructor
  · intro xi yi hx hy
    have key : ∀ (i n : Nat) (s o : K), 0 < s → i < n → n ≤ 2 ^ 63 → conv ⌊((i + 1 / 2) * s + o - o) / s⌋ = i := by
      intro i n s o hs hi hn
      have : ((i + 1 / 2 : K) * s + o - o) / s = i + 1 / 2 := by field_simp; ring
      rw [this]
      have hfl : ⌊(i : K) + 1 / 2⌋ = (i : Int) := by
        rw [Int.floor_eq_iff]
        push_cast
        constructor <;> linarith
      rw [hfl]
      have := hc.exact (i : Int) (by omega) (by omega)
      exact_mod_cast this
    have kx := key xi g.nx g.sx g.ox hg.sx hx hg.nx
    have ky := key yi g.ny g.sy g.oy hg.sy hy hg.ny
    unfold GridBase.toGrid GridBase.fromGrid
    dsimp only
    rw [kx, ky, if_pos ⟨Nat.zero_le _, hx, Nat.zero_le _, hy⟩]
    exact ⟨_, _, rfl⟩
  · intro x y xi yi xm ym hn h
    obtain ⟨he, h1, h2⟩ := toGrid_eq h
    simp only [Prod.mk.injEq] at he
    obtain ⟨rfl, rfl, rfl, rfl⟩ := he
    obtain ⟨a, b⟩ := (axis hc hg.sx hg.nx hn.xlo hn.xhi).2 h1
    obtain ⟨c, d⟩ := (axis hc hg.sy hg.ny hn.ylo hn.yhi).2 h2
    refine ⟨h1, h2, by linarith, by linarith, by linarith, by linarith, by ring, by linarith, by linarith, by ring, by linarith, by linarith⟩

/-- **C29, subcells** With every cell divided into m × m subcells, toGridTimesX accepts exactly the points of the grid, the subcell found
contains the point, and it belongs to the cell that toGrid finds. For points whose subcell number fits into 64 bits (partial, as above). -/
theorem C29_subcells_partial {conv : Int → Nat} (hc : ConvOk conv) {g : GridBase K} (hg : Ok g) {m : Nat} (hm : 0 < m) (hnx : g.nx * m ≤ 2 ^ 63)
    (hny : g.ny * m ≤ 2 ^ 63) {x y : K} (hn : Near ⟨g.nx, g.ny, g.sx / m, g.sy / m, g.ox, g.oy⟩ x y) :
    ((g.toGridTimesX conv x y m).isSome = true ↔ g.ox ≤ x ∧ x < g.ox + g.nx * g.sx ∧ g.oy ≤ y ∧ y < g.oy + g.ny * g.sy) ∧
    (∀ i j, g.toGridTimesX conv x y m = some (i, j) → i < g.nx * m ∧ j < g.ny * m ∧
      g.ox + i * (g.sx / m) ≤ x ∧ x < g.ox + (i + 1) * (g.sx / m) ∧ g.oy + j * (g.sy / m) ≤ y ∧ y < g.oy + (j + 1) * (g.sy / m) ∧
      ∃ xm ym, g.toGrid conv x y = some (i / m, j / m, xm, ym)) := by
  have hm' : (0 : K) < m := by exact_mod_cast hm
  have hsx := hg.sx
  have hsy := hg.sy
  have hdiv : ∀ t s : K, t / s * m = t / (s / m) := fun t s => by rw [div_div_eq_mul_div]; ring
  have ax := axis hc (div_pos hsx hm') hnx hn.xlo hn.xhi
  have ay := axis hc (div_pos hsy hm') hny hn.ylo hn.yhi
  dsimp only at ax ay
  have hcancel : ∀ (n : Nat) (s : K), ((n * m : Nat) : K) * (s / m) = n * s := by
    intro n s; push_cast; field_simp
  rw [hcancel] at ax ay
  have hdef : g.toGridTimesX conv x y m = if conv ⌊(x - g.ox) / (g.sx / m)⌋ < g.nx * m ∧ conv ⌊(y - g.oy) / (g.sy / m)⌋ < g.ny * m then
      some (conv ⌊(x - g.ox) / (g.sx / m)⌋, conv ⌊(y - g.oy) / (g.sy / m)⌋) else none := by
    unfold GridBase.toGridTimesX
    rw [hdiv, hdiv]
  -- the cell number is the subcell number divided by m
  have hcell : ∀ (t s : K) (n : Nat), 0 < s → n * m ≤ 2 ^ 63 → 0 ≤ t → t < n * s → conv ⌊t / s⌋ = conv ⌊t / (s / m)⌋ / m := by
    intro t s n hs hb h0 h1
    have hfl : ⌊t / s⌋ = ⌊t / (s / m)⌋ / (m : Int) := by
      rw [← hdiv]
      have := Int.floor_div_natCast (t / s * m) m
      rw [mul_div_cancel_right₀ _ (ne_of_gt hm')] at this
      exact this
    have hb0 : 0 ≤ ⌊t / (s / m)⌋ := Int.floor_nonneg.2 (div_nonneg h0 (div_pos hs hm').le)
    have hb1 : ⌊t / (s / m)⌋ < (n * m : Nat) := by
      rw [Int.floor_lt, div_lt_iff₀ (div_pos hs hm')]
      have := hcancel n s
      push_cast at this ⊢
      rw [this]
      exact h1
    have e1 := hc.exact _ hb0 (by omega)
    have hd0 : 0 ≤ ⌊t / (s / m)⌋ / (m : Int) := Int.ediv_nonneg hb0 (by omega)
    have hd1 : ⌊t / (s / m)⌋ / (m : Int) ≤ ⌊t / (s / m)⌋ := Int.ediv_le_self _ hb0
    have e2 := hc.exact _ hd0 (by omega)
    rw [hfl]
    have : ((conv (⌊t / (s / m)⌋ / (m : Int)) : Nat) : Int) = ((conv ⌊t / (s / m)⌋ / m : Nat) : Int) := by
      rw [e2, Int.natCast_ediv, e1]
    exact_mod_cast this
  constructor
  · rw [hdef]
    constructor
    · intro h
      split at h
      · rename_i hb
        have a := ax.1.1 hb.1
        have b := ay.1.1 hb.2
        exact ⟨by linarith [a.1], by linarith [a.2], by linarith [b.1], by linarith [b.2]⟩
      · cases h
    · rintro ⟨a, b, c, d⟩
      rw [if_pos ⟨ax.1.2 ⟨by linarith, by linarith⟩, ay.1.2 ⟨by linarith, by linarith⟩⟩]
      rfl
  · intro i j h
    rw [hdef] at h
    split at h
    · rename_i hb
      cases h
      have a := ax.1.1 hb.1
      have b := ay.1.1 hb.2
      have a' := ax.2 hb.1
      have b' := ay.2 hb.2
      refine ⟨hb.1, hb.2, by linarith [a'.1], by linarith [a'.2], by linarith [b'.1], by linarith [b'.2], ?_⟩
      rw [← hcell _ _ g.nx hsx hnx a.1 a.2, ← hcell _ _ g.ny hsy hny b.1 b.2]
      have h1 : conv ⌊(x - g.ox) / g.sx⌋ < g.nx := by rw [hcell _ _ g.nx hsx hnx a.1 a.2]; exact Nat.div_lt_of_lt_mul (by rw [Nat.mul_comm]; exact hb.1)
      have h2 : conv ⌊(y - g.oy) / g.sy⌋ < g.ny := by rw [hcell _ _ g.ny hsy hny b.1 b.2]; exact Nat.div_lt_of_lt_mul (by rw [Nat.mul_comm]; exact hb.2)
      unfold GridBase.toGrid
      dsimp only
      rw [if_pos ⟨Nat.zero_le _, h1, Nat.zero_le _, h2⟩]
      exact ⟨_, _, rfl⟩
    · cases h

/-- **C30, cells** contains says which cells are the cells of some point -/
theorem C30_contains {conv : Int → Nat} (hc : ConvOk conv) {g : GridBase K} (hg : Ok g) (xi yi : Nat) :
    g.contains xi yi = true ↔ ∃ x y xm ym, g.toGrid conv x y = some (xi, yi, xm, ym) := by
  unfold GridBase.contains
  rw [Bool.and_eq_true, decide_eq_true_eq, decide_eq_true_eq]
  constructor
  · rintro ⟨hx, hy⟩
    obtain ⟨xm, ym, h⟩ := (C29_roundtrip_partial hc hg).1 xi yi hx hy
    exact ⟨_, _, xm, ym, h⟩
  · rintro ⟨x, y, xm, ym, h⟩
    obtain ⟨he, h1, h2⟩ := toGrid_eq h
    simp only [Prod.mk.injEq] at he
    rw [he.1, he.2.1]
    exact ⟨h1, h2⟩

theorem x86_ok : ConvOk x86ToSize where
  exact := by
    intro n h0 h1
    unfold x86ToSize cvttsd2si
    split
    · rw [if_pos ⟨by omega, by assumption⟩]; omega
    · rw [if_pos ⟨by omega, by omega⟩]; omega
  neg := by
    intro n h0 h1
    unfold x86ToSize cvttsd2si
    rw [if_pos (by omega), if_pos ⟨h0, by omega⟩]
    omega

/-- a 3 × 2 grid of half size cells with an offset -/
def exGrid : GridBase ℚ := ⟨3, 2, 1 / 2, 1 / 4, -1, 5⟩

/-- the hypotheses of C29 and C30 are met; points inside, on the upper border, and left of the origin -/
example : Ok exGrid ∧ Near exGrid (-1 / 4) (21 / 4) ∧ (exGrid.toGrid x86ToSize (-1 / 4) (21 / 4)).map (fun r => (r.1, r.2.1)) = some (1, 1) ∧
    exGrid.toGrid x86ToSize (1 / 2) 5 = none ∧ exGrid.toGrid x86ToSize (-2) 5 = none ∧ Near exGrid (-2) 5 := by
  refine ⟨⟨by norm_num [exGrid], by norm_num [exGrid], by norm_num [exGrid], by norm_num [exGrid]⟩,
    ⟨by norm_num [exGrid], by norm_num [exGrid], by norm_num [exGrid], by norm_num [exGrid]⟩, by decide +kernel, by decide +kernel, by decide +kernel,
    ⟨by norm_num [exGrid], by norm_num [exGrid], by norm_num [exGrid], by norm_num [exGrid]⟩⟩

/-- a subcell of the cell (1, 1), each cell divided into 4 × 4 -/
example : exGrid.toGridTimesX x86ToSize (-1 / 4) (21 / 4) 4 = some (6, 4) ∧ Near ⟨exGrid.nx, exGrid.ny, exGrid.sx / (4 : Nat), exGrid.sy / (4 : Nat), exGrid.ox, exGrid.oy⟩ (-1 / 4) (21 / 4) := by
  refine ⟨by decide +kernel, ⟨by norm_num [exGrid], by norm_num [exGrid], by norm_num [exGrid], by norm_num [exGrid]⟩⟩

/-- **C29, C30, the code violates the properties in general**: a point far to the right of the grid is accepted and put into
the first column (x86-64, where the conversion of 2^64 gives 0; by the C++ standard the conversion is undefined). -/
theorem C30_far_point_accepted :
    (exGrid.toGrid x86ToSize (2 ^ 64 / 2 - 1) 5).map (fun r => (r.1, r.2.1)) = some (0, 0) ∧
    ¬ ((2 ^ 64 / 2 - 1 : ℚ) < exGrid.ox + exGrid.nx * exGrid.sx) := by
  refine ⟨by decide +kernel, by norm_num [exGrid]⟩

/-- the area covered by the cells of the grid -/
def Covered (g : GridBase K) (x y : K) : Prop :=
  ∃ xi yi : Nat, xi < g.nx ∧ yi < g.ny ∧ g.ox + xi * g.sx ≤ x ∧ x ≤ g.ox + (xi + 1) * g.sx ∧ g.oy + yi * g.sy ≤ y ∧ y ≤ g.oy + (yi + 1) * g.sy

/-- **C31, what is true**: the extents contain all cells and start at the first cell; they end exactly one cell behind the last one -/
theorem C31_extents_partial {g : GridBase K} (hg : Ok g) :
    (∀ x y, Covered g x y → g.getExtents.Contains x y) ∧
    g.getExtents.xmin = g.ox ∧ g.getExtents.ymin = g.oy ∧
    g.getExtents.xmax = g.ox + g.nx * g.sx + g.sx ∧ g.getExtents.ymax = g.oy + g.ny * g.sy + g.sy := by
  have hx0 := hg.sx
  have hy0 := hg.sy
  refine ⟨?_, ?_, ?_, ?_, ?_⟩
  · rintro x y ⟨xi, yi, hx, hy, a, b, c, d⟩
    have h1 : (xi : K) + 1 ≤ g.nx := by exact_mod_cast hx
    have h2 : (yi : K) + 1 ≤ g.ny := by exact_mod_cast hy
    have h3 := mul_le_mul_of_nonneg_right h1 hx0.le
    have h4 := mul_le_mul_of_nonneg_right h2 hy0.le
    have h5 : (0 : K) ≤ (xi : K) * g.sx := mul_nonneg (Nat.cast_nonneg _) hx0.le
    have h6 : (0 : K) ≤ (yi : K) * g.sy := mul_nonneg (Nat.cast_nonneg _) hy0.le
    unfold GridBase.getExtents GridBase.getCellExtents Box.Contains
    push_cast
    refine ⟨by linarith, by linarith, by linarith, by linarith⟩
  all_goals
    unfold GridBase.getExtents GridBase.getCellExtents
    push_cast
    ring

/-- **C31, the code violates the property for every grid**: the extents contain points of no cell -/
theorem C31_extents_too_large {g : GridBase K} (hg : Ok g) :
    ∃ x y, g.getExtents.Contains x y ∧ ¬ Covered g x y := by
  have hx0 := hg.sx
  have hy0 := hg.sy
  obtain ⟨_, h1, h2, h3, h4⟩ := C31_extents_partial hg
  have h5 : (0 : K) ≤ (g.nx : K) * g.sx := mul_nonneg (Nat.cast_nonneg _) hx0.le
  have h6 : (0 : K) ≤ (g.ny : K) * g.sy := mul_nonneg (Nat.cast_nonneg _) hy0.le
  refine ⟨g.ox + g.nx * g.sx + g.sx, g.oy, ⟨by rw [h1]; linarith, by rw [h3], by rw [h2], by rw [h4]; linarith⟩, ?_⟩
  rintro ⟨xi, yi, hx, hy, a, b, c, d⟩
  have h7 : (xi : K) + 1 ≤ g.nx := by exact_mod_cast hx
  have h8 := mul_le_mul_of_nonneg_right h7 hx0.le
  linarith

example : Covered exGrid 0 5 ∧ ¬ Covered exGrid 1 5 := by
  refine ⟨⟨2, 0, by decide, by decide, by norm_num [exGrid], by norm_num [exGrid], by norm_num [exGrid], by norm_num [exGrid]⟩, ?_⟩
  rintro ⟨xi, yi, hx, hy, a, b, c, d⟩
  have : (xi : ℚ) + 1 ≤ 3 := by exact_mod_cast hx
  norm_num [exGrid] at a b
  linarith

end Envire.Grid

#print axioms Envire.Grid.C29_roundtrip_partial
#print axioms Envire.Grid.C30_toGrid_iff_inside_partial
#print axioms Envire.Grid.C30_far_point_accepted
#print axioms Envire.Grid.C31_extents_partial
#print axioms Envire.Grid.C31_extents_too_large
#print axioms Envire.Grid.C29_subcells_partial
#print axioms Envire.Grid.C30_contains
