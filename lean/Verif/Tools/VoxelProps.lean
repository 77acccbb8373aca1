import Verif.Tools.VoxelLemmas
import Verif.Grid.RectProps

/-!
C100: VoxelTraversal visits the cells along a ray.
-/

namespace Envire.Voxel

open Envire.Rect

/-! ## Specification -/

/-- the point of the ray at the time t -/
def ray (orig dir : ℝ × ℝ) (t : ℝ) : ℝ × ℝ := (orig.1 + t * dir.1, orig.2 + t * dir.2)

/-- q is in the cell c or on its border -/
def InClosed (g : Geo) (q : ℝ × ℝ) (c : Int × Int) : Prop :=
  (g.ox + c.1 * g.sx ≤ q.1 ∧ q.1 ≤ g.ox + (c.1 + 1) * g.sx) ∧ g.oy + c.2 * g.sy ≤ q.2 ∧ q.2 ≤ g.oy + (c.2 + 1) * g.sy

/-- q is in the cell c and not on its border -/
def InOpen (g : Geo) (q : ℝ × ℝ) (c : Int × Int) : Prop :=
  (g.ox + c.1 * g.sx < q.1 ∧ q.1 < g.ox + (c.1 + 1) * g.sx) ∧ g.oy + c.2 * g.sy < q.2 ∧ q.2 < g.oy + (c.2 + 1) * g.sy

/-- c is a cell of the grid -/
def IsCell (g : Geo) (c : Int × Int) : Prop := 0 ≤ c.1 ∧ c.1 < g.w ∧ 0 ≤ c.2 ∧ c.2 < g.h

/-- the cells have a common edge -/
def Adjacent (a b : Int × Int) : Prop := (a.1 - b.1).natAbs + (a.2 - b.2).natAbs = 1

/-- the list has the cells along the ray behind the cell k of its origin -/
structure Along (g : Geo) (orig dir : ℝ × ℝ) (k : Int × Int) (cells : List (Int × Int)) : Prop where
  /-- each cell has a common edge with the one before -/
  chain : List.IsChain Adjacent (k :: cells)
  nodup : (k :: cells).Nodup
  /-- the ray meets all the cells, at least in their border -/
  meets : ∀ c ∈ cells, IsCell g c ∧ ∃ t, 0 ≤ t ∧ InClosed g (ray orig dir t) c
  /-- all the cells of the grid with points of the ray inside are listed -/
  all : ∀ c, IsCell g c → c ≠ k → (∃ t, 0 ≤ t ∧ InOpen g (ray orig dir t) c) → c ∈ cells
  /-- in the order of the ray -/
  order : cells.Pairwise fun a b => ∀ t t', 0 ≤ t → 0 ≤ t' → InOpen g (ray orig dir t) a → InOpen g (ray orig dir t') b → t < t'

/-! ## Times of the walk -/

/-- the cell after n steps -/
noncomputable def cell (s : Walk) (n : Nat) : Int × Int := ((Walk.advance^[n] s).cx, (Walk.advance^[n] s).cy)

/-- E are the times at which the cells of the walk are entered -/
structure Path (g : Geo) (orig dir : ℝ × ℝ) (s : Walk) (E : Nat → ℝ) : Prop where
  zero : E 0 = 0
  mono : Monotone E
  closed : ∀ n t, E n ≤ t → t ≤ E (n + 1) → InClosed g (ray orig dir t) (cell s n)
  exit : ∀ n t, t < E (n + 1) → (0 < dir.1 → (ray orig dir t).1 < g.ox + ((cell s n).1 + 1) * g.sx) ∧ (0 < dir.2 → (ray orig dir t).2 < g.oy + ((cell s n).2 + 1) * g.sy)
  found : ∀ t c, 0 ≤ t → InOpen g (ray orig dir t) c → ∃ n, cell s n = c ∧ E n ≤ t ∧ t < E (n + 1)

theorem Path.nonneg {g : Geo} {orig dir : ℝ × ℝ} {s : Walk} {E : Nat → ℝ} (h : Path g orig dir s E) (n : Nat) : 0 ≤ E n := h.zero ▸ h.mono (Nat.zero_le n)

/-- a walk with a correct start: the values of `max` are the times of the first crossings, up to a factor. All this if dir.1 is not zero; otherwise there are only steps in y. -/
structure Start (g : Geo) (orig dir : ℝ × ℝ) (s : Walk) : Prop where
  inCell : InCell g orig (s.cx, s.cy)
  stepx : s.stepx = sgn dir.1
  stepy : s.stepy = sgn dir.2
  vertical : dir.1 = 0 → s.maxx = none
  times : dir.1 ≠ 0 → ∃ N : ℝ, 0 < N ∧ s.maxx = some (N * T (g.ox + s.cx * g.sx) g.sx orig.1 dir.1 0) ∧ s.maxy = some (N * T (g.oy + s.cy * g.sy) g.sy orig.2 dir.2 0) ∧
    s.deltax = some (N * (g.sx / |dir.1|)) ∧ s.deltay = some (N * (g.sy / |dir.2|))

theorem T_next (lo s o v N : ℝ) (i : Nat) : plus (some (N * T lo s o v i)) (some (N * (s / |v|))) = some (N * T lo s o v (i + 1)) := by
  simp only [plus, T, Option.bind_some, Option.map_some, Option.some.injEq]
  push_cast
  ring

theorem Start.path {g : Geo} {orig dir : ℝ × ℝ} {s : Walk} (h : Start g orig dir s) (hsx : 0 < g.sx) (hsy : 0 < g.sy) (hd : dir.2 ≠ 0) : ∃ E, Path g orig dir s E := by
  obtain ⟨⟨⟨i1, i2⟩, i3, i4⟩, st1, st2, hv, ht⟩ := h
  dsimp only at i1 i2 i3 i4
  have j2 : orig.1 < (g.ox + s.cx * g.sx) + g.sx := by linarith
  have j4 : orig.2 < (g.oy + s.cy * g.sy) + g.sy := by linarith
  have hY0 := T_nonneg (v := dir.2) hsy i3 j4
  have hY := fun i => T_succ (lo := g.oy + s.cy * g.sy) (o := orig.2) hsy hd i
  by_cases hx : dir.1 = 0
  · have hc : ∀ n, cell s n = (s.cx, s.cy + n * sgn dir.2) := by
      intro n
      obtain ⟨a, b, _, _⟩ := advance_iter_nan (.inl (hv hx)) n
      rw [cell, a, b, st2]
    refine ⟨low (T (g.oy + s.cy * g.sy) g.sy orig.2 dir.2), rfl, low_mono hY0 hY, ?_, ?_, ?_⟩
    · intro n t h1 h2
      have h0 : 0 ≤ t := le_trans (low_mono hY0 hY (Nat.zero_le n)) h1
      obtain ⟨a, b⟩ := axis_closed hsy i3 j4 hd h0 h1 h2
      rw [hc]
      refine ⟨⟨?_, ?_⟩, ?_, ?_⟩ <;> simp only [ray, hx, mul_zero, add_zero] <;> push_cast at * <;> linarith
    · intro n t h1
      rw [hc]
      refine ⟨fun h => absurd hx h.ne', fun h => ?_⟩
      have := (lt_T_pos h).1 h1
      simp only [ray]
      rw [sgn, if_pos h]
      push_cast
      linarith
    · intro t c h0 ⟨⟨o1, o2⟩, o3, o4⟩
      simp only [ray, hx, mul_zero, add_zero] at o1 o2 o3 o4
      have hc1 : c.1 = s.cx := by
        have l1 : c.1 < s.cx + 1 := by
          have : (c.1 : ℝ) < s.cx + 1 := lt_of_mul_lt_mul_right (by linarith : (c.1 : ℝ) * g.sx < (s.cx + 1) * g.sx) hsx.le
          exact_mod_cast this
        have l2 : s.cx < c.1 + 1 := by
          have : (s.cx : ℝ) < c.1 + 1 := lt_of_mul_lt_mul_right (by linarith : (s.cx : ℝ) * g.sx < (c.1 + 1) * g.sx) hsx.le
          exact_mod_cast this
        omega
      obtain ⟨j, hj, l, u⟩ := axis_open (k := c.2 - s.cy) hsy i3 j4 hd h0 (by push_cast; linarith) (by push_cast; linarith)
      refine ⟨j, ?_, l, u⟩
      rw [hc, ← hj]
      ext
      · exact hc1.symm
      · dsimp only; omega
  · obtain ⟨N, hN, t1, t2, t3, t4⟩ := ht hx
    have hX0 := T_nonneg (v := dir.1) hsx i1 j2
    have hX := fun i => T_succ (lo := g.ox + s.cx * g.sx) (o := orig.1) hsx hx i
    have hit := advance_iter_xy hN t1 t2 (by intro i; rw [t3]; exact T_next ..) (by intro i; rw [t4]; exact T_next ..)
    generalize hXd : T (g.ox + s.cx * g.sx) g.sx orig.1 dir.1 = X at *
    generalize hYd : T (g.oy + s.cy * g.sy) g.sy orig.2 dir.2 = Y at *
    have hc : ∀ n, cell s n = (s.cx + (count X Y n).1 * sgn dir.1, s.cy + (count X Y n).2 * sgn dir.2) := by
      intro n
      rw [cell, hit, st1, st2]
    refine ⟨enter X Y, enter_zero X Y, enter_mono hX0 hX hY0 hY, ?_, ?_, ?_⟩
    · intro n t h1 h2
      have h0 : 0 ≤ t := le_trans (enter_zero X Y ▸ enter_mono hX0 hX hY0 hY (Nat.zero_le n)) h1
      rw [enter_succ hX0 hX hY0 hY, le_min_iff] at h2
      rw [enter, max_le_iff] at h1
      obtain ⟨a, b⟩ := axis_closed hsy i3 j4 hd h0 (by rw [hYd]; exact h1.2) (by rw [hYd]; exact h2.2)
      obtain ⟨a', b'⟩ := axis_closed hsx i1 j2 hx h0 (by rw [hXd]; exact h1.1) (by rw [hXd]; exact h2.1)
      rw [hc]
      refine ⟨⟨?_, ?_⟩, ?_, ?_⟩ <;> simp only [ray] <;> push_cast at * <;> linarith
    · intro n t h1
      rw [enter_succ hX0 hX hY0 hY, lt_min_iff] at h1
      rw [hc]
      constructor
      · intro h
        have := (lt_T_pos (lo := g.ox + s.cx * g.sx) (s := g.sx) (o := orig.1) h).1 (by rw [hXd]; exact h1.1)
        simp only [ray]
        rw [show sgn dir.1 = 1 from if_pos h]
        push_cast
        linarith
      · intro h
        have := (lt_T_pos (lo := g.oy + s.cy * g.sy) (s := g.sy) (o := orig.2) h).1 (by rw [hYd]; exact h1.2)
        simp only [ray]
        rw [show sgn dir.2 = 1 from if_pos h]
        push_cast
        linarith
    · intro t c h0 ⟨⟨o1, o2⟩, o3, o4⟩
      simp only [ray] at o1 o2 o3 o4
      obtain ⟨i, hi, l, u⟩ := axis_open (k := c.1 - s.cx) hsx i1 j2 hx h0 (by push_cast; linarith) (by push_cast; linarith)
      obtain ⟨j, hj, l', u'⟩ := axis_open (k := c.2 - s.cy) hsy i3 j4 hd h0 (by push_cast; linarith) (by push_cast; linarith)
      rw [hXd] at l u
      rw [hYd] at l' u'
      have hf := count_found hX0 hX hY0 hY l u l' u'
      refine ⟨i + j, ?_, ?_, ?_⟩
      · rw [hc, hf, ← hi, ← hj]
        ext <;> dsimp only <;> omega
      · rw [enter, hf]; exact max_le l l'
      · rw [enter_succ hX0 hX hY0 hY, hf]; exact lt_min u u'

theorem sgn_or (v : ℝ) : sgn v = 1 ∨ sgn v = -1 := by
  unfold sgn; split
  · exact .inl rfl
  · exact .inr rfl

theorem cell_inj {s : Walk} (hx : s.stepx = 1 ∨ s.stepx = -1) (hy : s.stepy = 1 ∨ s.stepy = -1) {m n : Nat} (h : cell s m = cell s n) : m = n := by
  obtain ⟨i, j, e, h1, h2, _⟩ := advance_iter_any s m
  obtain ⟨i', j', e', h1', h2', _⟩ := advance_iter_any s n
  simp only [cell, Prod.mk.injEq] at h
  rw [h1, h2, h1', h2'] at h
  rcases hx with hx | hx <;> rcases hy with hy | hy <;> rw [hx, hy] at h <;> omega

theorem cell_succ {s : Walk} (hx : s.stepx = 1 ∨ s.stepx = -1) (hy : s.stepy = 1 ∨ s.stepy = -1) (n : Nat) : Adjacent (cell s n) (cell s (n + 1)) := by
  obtain ⟨i, j, e, h1, h2, h3, h4⟩ := advance_iter_any s n
  obtain ⟨i', j', e', h1', h2', _⟩ := advance_iter_any (Walk.advance^[n] s) 1
  rw [h3] at h1'
  rw [h4] at h2'
  simp only [cell, Adjacent, Function.iterate_succ_apply']
  simp only [Function.iterate_one] at h1' h2'
  rw [h1', h2']
  have : (i' = 0 ∧ j' = 1) ∨ (i' = 1 ∧ j' = 0) := by omega
  rcases this with ⟨rfl, rfl⟩ | ⟨rfl, rfl⟩ <;> rcases hx with hx | hx <;> rcases hy with hy | hy <;> rw [hx, hy] <;> omega

theorem within_iff {g : Geo} {s : Walk} {n : Nat} : (Walk.advance^[n] s).within g = true ↔ IsCell g (cell s n) := by
  simp only [Walk.within, decide_eq_true_eq, IsCell, cell]

theorem chain_map (f : Nat → Int × Int) (h : ∀ n, Adjacent (f n) (f (n + 1))) : ∀ k a, List.IsChain Adjacent (f a :: (List.range k).map fun m => f (a + m + 1)) := by
  intro k
  induction k with
  | zero => intro a; simp
  | succ k ih =>
    intro a
    rw [List.range_succ_eq_map, List.map_cons, List.map_map, List.isChain_cons_cons]
    refine ⟨h a, ?_⟩
    have := ih (a + 1)
    convert this using 3
    funext m
    simp only [Function.comp]
    congr 1
    omega

/-- the cells found by a walk on a path -/
theorem steps_along {g : Geo} {orig dir : ℝ × ℝ} {s : Walk} {E : Nat → ℝ} (h : Path g orig dir s E) (hx : s.stepx = 1 ∨ s.stepx = -1) (hy : s.stepy = 1 ∨ s.stepy = -1)
    (hs : IsCell g (s.cx, s.cy)) : ∃ cells, steps g (g.w + g.h) s = some cells ∧ Along g orig dir (s.cx, s.cy) cells := by
  have hs' : s.within g = true := by simpa only [Walk.within, decide_eq_true_eq, IsCell] using hs
  obtain ⟨k, hk, h1, h2⟩ := steps_ends hx hy hs'
  refine ⟨_, steps_some _ k s hk (fun m hm => h1 (m + 1) (by omega)) (h2 _ (by omega)), ?_⟩
  change Along g orig dir (cell s 0) ((List.range k).map fun m => cell s (m + 1))
  refine ⟨?_, ?_, ?_, ?_, ?_⟩
  · have := chain_map (cell s) (cell_succ hx hy) k 0
    simpa only [zero_add] using this
  · rw [List.nodup_cons]
    constructor
    · intro hm
      obtain ⟨m, _, e⟩ := List.mem_map.1 hm
      have := cell_inj hx hy e
      omega
    · refine List.Nodup.map ?_ List.nodup_range
      intro a b e
      have := cell_inj hx hy e
      omega
  · intro c hc
    obtain ⟨m, hm, rfl⟩ := List.mem_map.1 hc
    rw [List.mem_range] at hm
    exact ⟨within_iff.1 (h1 (m + 1) (by omega)), E (m + 1), h.nonneg _, h.closed _ _ le_rfl (h.mono (Nat.le_succ _))⟩
  · rintro c hc hne ⟨t, ht, ho⟩
    obtain ⟨n, rfl, _, _⟩ := h.found t c ht ho
    have hn : n ≤ k := by
      by_contra hn
      have := h2 n (by omega)
      rw [within_iff.2 hc] at this
      cases this
    cases n with
    | zero => exact absurd rfl hne
    | succ n => exact List.mem_map.2 ⟨n, List.mem_range.2 (by omega), rfl⟩
  · rw [List.pairwise_map]
    refine List.Pairwise.imp ?_ List.pairwise_lt_range
    intro a b hab t t' ht ht' oa ob
    obtain ⟨m, em, _, h4⟩ := h.found t _ ht oa
    obtain ⟨n, en, h5, _⟩ := h.found t' _ ht' ob
    have := cell_inj hx hy em
    have := cell_inj hx hy en
    exact h4.trans_le ((h.mono (by omega)).trans h5)

/-! ## C100 -/

theorem delta_eq {dir : ℝ × ℝ} {v scale : ℝ} (hs : 0 < scale) (hv : v ≠ 0) : delta dir v scale = some (Real.sqrt (dir.1 ^ 2 + dir.2 ^ 2) * (scale / |v|)) := by
  unfold delta
  rw [if_neg hv]
  have h0 : 0 < |v| := abs_pos.2 hv
  have : (dir.1 / v * scale) ^ 2 + (dir.2 / v * scale) ^ 2 = (dir.1 ^ 2 + dir.2 ^ 2) * (scale / |v|) ^ 2 := by
    rw [div_pow, sq_abs]
    ring
  rw [this, Real.sqrt_mul (by positivity), Real.sqrt_sq (by positivity)]

theorem inCell_floor {g : Geo} (hsx : 0 < g.sx) (hsy : 0 < g.sy) (q : ℝ × ℝ) : InCell g q (⌊(q.1 - g.ox) / g.sx⌋, ⌊(q.2 - g.oy) / g.sy⌋) := by
  have h1 := (le_div_iff₀ hsx).1 (Int.floor_le ((q.1 - g.ox) / g.sx))
  have h2 := (div_lt_iff₀ hsx).1 (Int.lt_floor_add_one ((q.1 - g.ox) / g.sx))
  have h3 := (le_div_iff₀ hsy).1 (Int.floor_le ((q.2 - g.oy) / g.sy))
  have h4 := (div_lt_iff₀ hsy).1 (Int.lt_floor_add_one ((q.2 - g.oy) / g.sy))
  exact ⟨⟨by dsimp only; linarith, by dsimp only; linarith⟩, by dsimp only; linarith, by dsimp only; linarith⟩

theorem valid_iff {g : Geo} (hsx : 0 < g.sx) (hsy : 0 < g.sy) (q : ℝ × ℝ) : valid g q ↔ InGrid g q := by
  unfold valid InGrid
  rw [Int.floor_nonneg, Int.floor_nonneg, Int.floor_lt, Int.floor_lt, le_div_iff₀ hsx, le_div_iff₀ hsy, div_lt_iff₀ hsx, div_lt_iff₀ hsy]
  push_cast
  constructor
  · rintro ⟨h1, h2, h3, h4⟩
    exact ⟨⟨by linarith, by linarith⟩, by linarith, by linarith⟩
  · rintro ⟨⟨h1, h2⟩, h3, h4⟩
    exact ⟨by linarith, by linarith, by linarith, by linarith⟩

/-- the distance from the origin to the first border, in units of a cell, is the distance to the lower border of the cell, in metres -/
def Fits (s m v : ℝ) : Prop := if 0 < v then s - m = s * m else m = s * m

/-- C100. Full claim: for every origin in the grid and every direction in the plane the calls of `step` after `init` list the cells along the ray, in order, and end. For an origin
outside of the grid there are no cells.
Proved for rays that are parallel to the y axis, and for rays in general position whose first crossings are computed properly: `Fits`, which holds for cells of size 1 and
a negative direction or an origin in the middle of the cell.
Missing: rays parallel to the x axis (`C100_axis`), other origins (`C100_direction`), other sizes (`C100_size`). -/
theorem C100_traversal_partial (g : Geo) (orig dir : ℝ × ℝ) (hsx : 0 < g.sx) (hsy : 0 < g.sy) (hd : dir.2 ≠ 0) :
    (¬ InGrid g orig → traverse g (g.w + g.h) orig dir = some []) ∧
    (InGrid g orig → ∀ k, InCell g orig k → (dir.1 ≠ 0 → Fits g.sx (orig.1 - (g.ox + k.1 * g.sx)) dir.1 ∧ Fits g.sy (orig.2 - (g.oy + k.2 * g.sy)) dir.2) →
      ∃ cells, traverse g (g.w + g.h) orig dir = some cells ∧ Along g orig dir k cells) := by
  constructor
  · intro h
    unfold traverse
    rw [if_neg (mt (valid_iff hsx hsy orig).1 h)]
  · intro h k hk hf
    have hc := inCell_floor hsx hsy orig
    have hkc : k = (⌊(orig.1 - g.ox) / g.sx⌋, ⌊(orig.2 - g.oy) / g.sy⌋) := by
      obtain ⟨⟨a1, a2⟩, a3, a4⟩ := hk
      ext
      · symm; rw [Int.floor_eq_iff, le_div_iff₀ hsx, div_lt_iff₀ hsx]; constructor <;> linarith
      · symm; rw [Int.floor_eq_iff, le_div_iff₀ hsy, div_lt_iff₀ hsy]; constructor <;> linarith
    have hv := (valid_iff hsx hsy orig).2 h
    unfold traverse
    rw [if_pos hv]
    have first : ∀ {o lo s v : ℝ}, Fits s (o - lo) v → 0 < |v| → Real.sqrt (dir.1 ^ 2 + dir.2 ^ 2) * (s / |v|) * (o - lo) = Real.sqrt (dir.1 ^ 2 + dir.2 ^ 2) * T lo s o v 0 := by
      intro o lo s v hf hv
      unfold T
      unfold Fits at hf
      by_cases h : 0 < v
      · rw [if_pos h] at hf
        rw [if_pos h, show lo + s - o = s * (o - lo) by linarith]
        push_cast
        ring
      · rw [if_neg h] at hf
        rw [if_neg h]
        conv_rhs => rw [hf]
        push_cast
        ring
    have hst : Start g orig dir (init g orig dir) := by
      refine ⟨hc, rfl, rfl, ?_, ?_⟩
      · intro hx
        simp only [init, delta, if_pos hx]
        rfl
      · intro hx
        obtain ⟨f1, f2⟩ := hf hx
        rw [hkc] at f1 f2
        refine ⟨Real.sqrt (dir.1 ^ 2 + dir.2 ^ 2), Real.sqrt_pos.2 (by positivity), ?_, ?_, delta_eq hsx hx, delta_eq hsy hd⟩
        · simp only [init, delta_eq hsx hx, times, Option.map_some, Option.some.injEq]
          rw [← first f1 (abs_pos.2 hx)]
          dsimp only
          ring
        · simp only [init, delta_eq hsy hd, times, Option.map_some, Option.some.injEq]
          rw [← first f2 (abs_pos.2 hd)]
          dsimp only
          ring
    obtain ⟨E, hE⟩ := hst.path hsx hsy hd
    obtain ⟨cells, e, ha⟩ := steps_along hE (by rw [hst.stepx]; exact sgn_or _) (by rw [hst.stepy]; exact sgn_or _) ⟨hv.1, hv.2.1, hv.2.2.1, hv.2.2.2⟩
    exact ⟨cells, e, by rw [hkc]; exact ha⟩

/-- a ray to the left and upwards from the middle of a cell of size 1 -/
example : ∃ (g : Geo) (orig dir : ℝ × ℝ) (k : Int × Int), 0 < g.sx ∧ 0 < g.sy ∧ dir.2 ≠ 0 ∧ InGrid g orig ∧ InCell g orig k ∧ dir.1 ≠ 0 ∧
    Fits g.sx (orig.1 - (g.ox + k.1 * g.sx)) dir.1 ∧ Fits g.sy (orig.2 - (g.oy + k.2 * g.sy)) dir.2 := by
  refine ⟨⟨1, 1, 0, 0, 10, 10⟩, (26 / 5, 11 / 2), (-2, 3), (5, 5), ?_⟩
  norm_num [InGrid, InCell, Fits]

/-- the cells of the first steps are listed if they are in the grid -/
theorem mem_steps {g : Geo} {s : Walk} (hx : s.stepx = 1 ∨ s.stepx = -1) (hy : s.stepy = 1 ∨ s.stepy = -1) (hs : s.within g = true) :
    ∃ cells, steps g (g.w + g.h) s = some cells ∧ ∀ n, 0 < n → (IsCell g (cell s n) ↔ cell s n ∈ cells) := by
  obtain ⟨k, hk, h1, h2⟩ := steps_ends hx hy hs
  refine ⟨_, steps_some _ k s hk (fun m hm => h1 (m + 1) (by omega)) (h2 _ (by omega)), ?_⟩
  intro n hn
  change _ ↔ cell s n ∈ (List.range k).map fun m => cell s (m + 1)
  constructor
  · intro h
    have hn : n ≤ k := by
      by_contra hn
      have := h2 n (by omega)
      rw [within_iff.2 h] at this
      cases this
    exact List.mem_map.2 ⟨n - 1, List.mem_range.2 (by omega), by rw [Nat.sub_add_cancel (by omega)]⟩
  · intro h
    obtain ⟨m, hm, e⟩ := List.mem_map.1 h
    rw [List.mem_range] at hm
    rw [← e]
    exact within_iff.1 (h1 (m + 1) (by omega))

theorem traverse_mem {g : Geo} {orig : ℝ × ℝ} (dir : ℝ × ℝ) (hsx : 0 < g.sx) (hsy : 0 < g.sy) (h : InGrid g orig) :
    ∃ cells, traverse g (g.w + g.h) orig dir = some cells ∧ ∀ n, 0 < n → (IsCell g (cell (init g orig dir) n) ↔ cell (init g orig dir) n ∈ cells) := by
  have hv := (valid_iff hsx hsy orig).2 h
  unfold traverse
  rw [if_pos hv]
  refine mem_steps (sgn_or dir.1) (sgn_or dir.2) ?_
  simp only [Walk.within, decide_eq_true_eq]
  exact hv

/-- C100 is violated: a ray that is parallel to the x axis goes to the cell below, for every origin that is not in the first row or on the lower border of its cell -/
theorem C100_axis (g : Geo) (orig dir : ℝ × ℝ) (k : Int × Int) (hsx : 0 < g.sx) (hsy : 0 < g.sy) (hd : dir.2 = 0) (h : InGrid g orig) (hk : InCell g orig k) (hk0 : 0 < k.2)
    (hb : g.oy + k.2 * g.sy < orig.2) :
    ∃ cells, traverse g (g.w + g.h) orig dir = some cells ∧ (k.1, k.2 - 1) ∈ cells ∧ ∀ t, ¬ InClosed g (ray orig dir t) (k.1, k.2 - 1) := by
  have hkc : k = (⌊(orig.1 - g.ox) / g.sx⌋, ⌊(orig.2 - g.oy) / g.sy⌋) := by
    obtain ⟨⟨a1, a2⟩, a3, a4⟩ := hk
    ext
    · symm; rw [Int.floor_eq_iff, le_div_iff₀ hsx, div_lt_iff₀ hsx]; constructor <;> linarith
    · symm; rw [Int.floor_eq_iff, le_div_iff₀ hsy, div_lt_iff₀ hsy]; constructor <;> linarith
  obtain ⟨cells, e, hm⟩ := traverse_mem dir hsx hsy h
  have hv := (valid_iff hsx hsy orig).2 h
  have hc : cell (init g orig dir) 1 = (k.1, k.2 - 1) := by
    obtain ⟨a, b, _⟩ := advance_iter_nan (s := init g orig dir) (.inr (by simp only [init, delta, if_pos hd]; rfl)) 1
    rw [cell, a, b, hkc]
    simp only [init, hd, gt_iff_lt, lt_self_iff_false, if_false]
    ext <;> push_cast <;> ring
  refine ⟨cells, e, ?_, ?_⟩
  · rw [← hc, ← hm 1 one_pos, hc]
    have h3 : k.1 = ⌊(orig.1 - g.ox) / g.sx⌋ := by rw [hkc]
    have h4 : k.2 = ⌊(orig.2 - g.oy) / g.sy⌋ := by rw [hkc]
    obtain ⟨v1, v2, v3, v4⟩ := hv
    rw [← h3] at v1 v2
    rw [← h4] at v3 v4
    exact ⟨v1, v2, by dsimp only; omega, by dsimp only; omega⟩
  · rintro t ⟨_, _, h4⟩
    simp only [ray, hd, mul_zero, add_zero] at h4
    push_cast at h4
    linarith

/-- C100 is violated: the first crossing is wrong for positive directions, here for a ray along the diagonal -/
theorem C100_direction : ∃ (g : Geo) (orig dir : ℝ × ℝ) (cells : List (Int × Int)) (c : Int × Int), g.sx = 1 ∧ g.sy = 1 ∧ 0 < dir.1 ∧ 0 < dir.2 ∧ InGrid g orig ∧
    traverse g (g.w + g.h) orig dir = some cells ∧ c ∈ cells ∧ ∀ t, ¬ InClosed g (ray orig dir t) c := by
  have hin : InGrid ⟨1, 1, 0, 0, 10, 10⟩ (9 / 10, 1 / 2) := by norm_num [InGrid]
  obtain ⟨cells, e, hm⟩ := traverse_mem (1, 1) one_pos one_pos hin
  have f1 : ⌊(9 / 10 - 0 : ℝ) / 1⌋ = 0 := by rw [Int.floor_eq_iff]; norm_num
  have f2 : ⌊(1 / 2 - 0 : ℝ) / 1⌋ = 0 := by rw [Int.floor_eq_iff]; norm_num
  have hc : cell (init ⟨1, 1, 0, 0, 10, 10⟩ (9 / 10, 1 / 2) (1, 1)) 1 = (0, 1) := by
    rw [cell, Function.iterate_one]
    unfold Walk.advance
    rw [if_neg]
    · simp only [init, f1, f2]; norm_num
    · simp only [init, f1, f2, delta_eq one_pos one_ne_zero, times, Option.map_some, Less]
      norm_num
  refine ⟨⟨1, 1, 0, 0, 10, 10⟩, (9 / 10, 1 / 2), (1, 1), cells, (0, 1), rfl, rfl, one_pos, one_pos, hin, e, ?_, ?_⟩
  · rw [← hc, ← hm 1 one_pos, hc]; norm_num [IsCell]
  · rintro t ⟨⟨_, h1⟩, h2, _⟩
    simp only [ray] at h1 h2
    norm_num at h1 h2
    linarith

/-- C100 is violated: the first crossings are wrong for cells whose size is not 1, here for negative directions and cells of size 10 -/
theorem C100_size : ∃ (g : Geo) (orig dir : ℝ × ℝ) (cells : List (Int × Int)) (c : Int × Int), g.sx = 10 ∧ g.sy = 10 ∧ dir.1 < 0 ∧ dir.2 < 0 ∧ InGrid g orig ∧
    traverse g (g.w + g.h) orig dir = some cells ∧ c ∈ cells ∧ ∀ t, ¬ InClosed g (ray orig dir t) c := by
  have hin : InGrid ⟨10, 10, 0, 0, 10, 10⟩ (54, 51) := by norm_num [InGrid]
  obtain ⟨cells, e, hm⟩ := traverse_mem (-1, -1) (by norm_num) (by norm_num) hin
  have f1 : ⌊(54 - 0 : ℝ) / 10⌋ = 5 := by rw [Int.floor_eq_iff]; norm_num
  have f2 : ⌊(51 - 0 : ℝ) / 10⌋ = 5 := by rw [Int.floor_eq_iff]; norm_num
  have hp := Real.sqrt_pos.2 (show (0 : ℝ) < 2 by norm_num)
  have hd : delta (-1, -1) (-1) 10 = some (Real.sqrt ((-1) ^ 2 + (-1) ^ 2) * (10 / |(-1)|)) := delta_eq (by norm_num) (by norm_num)
  have hc : cell (init ⟨10, 10, 0, 0, 10, 10⟩ (54, 51) (-1, -1)) 2 = (5, 3) := by
    have e1 : (init ⟨10, 10, 0, 0, 10, 10⟩ (54, 51) (-1, -1)).advance =
        { init ⟨10, 10, 0, 0, 10, 10⟩ (54, 51) (-1, -1) with
          maxy := plus (init ⟨10, 10, 0, 0, 10, 10⟩ (54, 51) (-1, -1)).maxy (init ⟨10, 10, 0, 0, 10, 10⟩ (54, 51) (-1, -1)).deltay, cy := 4 } := by
      unfold Walk.advance
      rw [if_neg]
      · simp only [init, f1, f2]; norm_num
      · simp only [init, f1, f2, hd, times, Option.map_some, Less]
        norm_num
    rw [cell, Function.iterate_succ_apply', Function.iterate_one, e1]
    unfold Walk.advance
    rw [if_neg]
    · simp only [init, f1]; norm_num
    · simp only [init, f1, f2, hd, times, plus, Option.map_some, Option.bind_some, Less]
      norm_num
      linarith
  refine ⟨⟨10, 10, 0, 0, 10, 10⟩, (54, 51), (-1, -1), cells, (5, 3), rfl, rfl, by norm_num, by norm_num, hin, e, ?_, ?_⟩
  · rw [← hc, ← hm 2 two_pos, hc]; norm_num [IsCell]
  · rintro t ⟨⟨h1, _⟩, _, h2⟩
    simp only [ray] at h1 h2
    norm_num at h1 h2
    linarith

#print axioms C100_traversal_partial
#print axioms C100_axis
#print axioms C100_direction
#print axioms C100_size

end Envire.Voxel
