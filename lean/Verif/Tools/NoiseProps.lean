import Verif.Tools.NoiseModel
import Verif.Grid.GridProps
import Mathlib.Data.List.Nodup

/-!
C164: the cells that env_grid_add_noise changes.
-/

namespace Envire.Noise

open Envire.Grid

variable {K : Type} [Field K] [LinearOrder K] [IsStrictOrderedRing K] [FloorRing K]

/-! ### specification -/

/-- the place lies in the cell `i` of an axis -/
def InCell (offset scale : K) (i : Nat) (x : K) : Prop := offset + i * scale ≤ x ∧ x < offset + (i + 1) * scale

/-- the cell `i` of an axis lies in the window -/
def CellIn (offset scale : K) (i : Nat) (center width : K) : Prop := center - width / 2 ≤ offset + i * scale ∧ offset + (i + 1) * scale ≤ center + width / 2

/-- the place lies in the window -/
def PlaceIn (center width x : K) : Prop := center - width / 2 ≤ x ∧ x < center + width / 2

/-! ### an axis -/

theorem walk_spec {s : K} (hs : 0 < s) : ∀ (fuel : Nat) (x b : K) (l : List K), walk fuel x b s = some l → l.Nodup ∧ ∀ y, y ∈ l ↔ ∃ k : Nat, y = x + k * s ∧ y < b
  | 0, _, _, _, h => by cases h
  | fuel + 1, x, b, l, h => by
    rw [walk] at h
    by_cases hx : x < b
    · rw [if_pos hx, Option.map_eq_some_iff] at h
      obtain ⟨t, ht, rfl⟩ := h
      obtain ⟨h1, h2⟩ := walk_spec hs fuel _ _ t ht
      refine ⟨List.nodup_cons.2 ⟨fun hm => ?_, h1⟩, fun y => ?_⟩
      · obtain ⟨k, e, -⟩ := (h2 x).1 hm
        have : (0 : K) ≤ k * s := mul_nonneg (Nat.cast_nonneg _) hs.le
        linarith
      · rw [List.mem_cons, h2 y]
        constructor
        · rintro (rfl | ⟨k, rfl, h⟩)
          · exact ⟨0, by simp, hx⟩
          · exact ⟨k + 1, by push_cast; ring, h⟩
        · rintro ⟨k, rfl, h⟩
          cases k with
          | zero => exact .inl (by simp)
          | succ k => exact .inr ⟨k, by push_cast; ring, h⟩
    · rw [if_neg hx] at h
      cases h
      refine ⟨List.nodup_nil, fun y => ⟨fun h => (List.not_mem_nil h).elim, ?_⟩⟩
      rintro ⟨k, rfl, h⟩
      have : (0 : K) ≤ k * s := mul_nonneg (Nat.cast_nonneg _) hs.le
      exact absurd (lt_of_le_of_lt (by linarith) h) hx

theorem walk_ends {s : K} (hs : 0 < s) : ∀ (fuel : Nat) (x b : K), b ≤ x + fuel * s → ∃ l, walk (fuel + 1) x b s = some l
  | 0, x, b, h => ⟨[], by rw [walk, if_neg (by simp at h; exact not_lt.2 h)]⟩
  | fuel + 1, x, b, h => by
    rw [walk]
    by_cases hx : x < b
    · obtain ⟨l, e⟩ := walk_ends hs fuel (x + s) b (by push_cast at h; linarith)
      exact ⟨x :: l, by rw [if_pos hx, e]; rfl⟩
    · exact ⟨[], by rw [if_neg hx]⟩

/-- the places of an axis are in the grid and in the window, there is one for each cell of the window, and never two for a cell -/
theorem axis_spec {s o c w : K} {n : Nat} (hs : 0 < s) {fuel : Nat} {l : List K} (h : walk fuel (lower o c w + s * (1 / 2)) (upper o n s c w) s = some l) :
    l.Nodup ∧ (∀ x ∈ l, PlaceIn c w x ∧ o ≤ x ∧ x < o + n * s) ∧ (∀ i : Nat, i < n → CellIn o s i c w → ∃ x ∈ l, InCell o s i x) ∧
    ∀ (i : Nat) x y, x ∈ l → y ∈ l → InCell o s i x → InCell o s i y → x = y := by
  obtain ⟨h1, h2⟩ := walk_spec hs _ _ _ _ h
  have hlo : o ≤ lower o c w := le_max_left _ _
  have hlo' : c - w / 2 ≤ lower o c w := le_max_right _ _
  refine ⟨h1, ?_, ?_, ?_⟩
  · intro x hx
    obtain ⟨k, e, hb⟩ := (h2 x).1 hx
    have hk : (0 : K) ≤ k * s := mul_nonneg (Nat.cast_nonneg _) hs.le
    have b1 : x < o + n * s := lt_of_lt_of_le hb (min_le_left _ _)
    have b2 : x < c + w / 2 := lt_of_lt_of_le hb (min_le_right _ _)
    exact ⟨⟨by linarith, b2⟩, by linarith, b1⟩
  · rintro i hi ⟨c1, c2⟩
    have hn : ((i : K) + 1) ≤ n := by exact_mod_cast hi
    have hup : o + (i + 1) * s ≤ upper o n s c w := le_min (by nlinarith) c2
    have hlow : lower o c w ≤ o + i * s := max_le (by have : (0 : K) ≤ i * s := mul_nonneg (Nat.cast_nonneg _) hs.le; linarith) c1
    have ha : 0 ≤ (lower o c w - o) / s := div_nonneg (by linarith) hs.le
    have hq : 0 ≤ ⌊(lower o c w - o) / s + 1 / 2⌋ := Int.floor_nonneg.2 (by linarith)
    have f1 := Int.floor_le ((lower o c w - o) / s + 1 / 2)
    have f2 := Int.lt_floor_add_one ((lower o c w - o) / s + 1 / 2)
    have hle : ⌊(lower o c w - o) / s + 1 / 2⌋ ≤ (i : Int) := by
      have : (lower o c w - o) / s ≤ i := by rw [div_le_iff₀ hs]; linarith
      have : ⌊(lower o c w - o) / s + 1 / 2⌋ < (i : Int) + 1 := by
        rw [Int.floor_lt]
        push_cast
        linarith
      omega
    obtain ⟨k, hk⟩ : ∃ k : Nat, (i : Int) = ⌊(lower o c w - o) / s + 1 / 2⌋ + k := ⟨((i : Int) - ⌊(lower o c w - o) / s + 1 / 2⌋).toNat, by omega⟩
    have hk' : (i : K) = (⌊(lower o c w - o) / s + 1 / 2⌋ : K) + k := by exact_mod_cast congrArg (Int.cast (R := K)) hk
    have e : (lower o c w - o) / s * s = lower o c w - o := div_mul_cancel₀ _ hs.ne'
    have g1 : (⌊(lower o c w - o) / s + 1 / 2⌋ : K) * s ≤ ((lower o c w - o) / s + 1 / 2) * s := mul_le_mul_of_nonneg_right f1 hs.le
    have g2 : ((lower o c w - o) / s + 1 / 2) * s < ((⌊(lower o c w - o) / s + 1 / 2⌋ : K) + 1) * s := mul_lt_mul_of_pos_right f2 hs
    have hin : InCell o s i (lower o c w + s * (1 / 2) + k * s) := by
      constructor
      · rw [hk']
        linarith
      · rw [hk']
        linarith
    exact ⟨_, (h2 _).2 ⟨k, rfl, lt_of_lt_of_le hin.2 hup⟩, hin⟩
  · intro i x y hx hy cx cy
    obtain ⟨k, ex, -⟩ := (h2 x).1 hx
    obtain ⟨m, ey, -⟩ := (h2 y).1 hy
    have hkm : k = m := by
      have d1 : ((k : K) - m) * s < 1 * s := by linarith [cx.2, cy.1]
      have d2 : ((m : K) - k) * s < 1 * s := by linarith [cy.2, cx.1]
      have d1' := lt_of_mul_lt_mul_right d1 hs.le
      have d2' := lt_of_mul_lt_mul_right d2 hs.le
      have e1 : (k : K) < (m : K) + 1 := by linarith
      have e2 : (m : K) < (k : K) + 1 := by linarith
      have e1' : k < m + 1 := by exact_mod_cast e1
      have e2' : m < k + 1 := by exact_mod_cast e2
      omega
    rw [ex, ey, hkm]

theorem axis_ends {s o c w : K} {n : Nat} (hs : 0 < s) : ∃ l, walk (n + 1) (lower o c w + s * (1 / 2)) (upper o n s c w) s = some l := by
  refine walk_ends hs n _ _ ?_
  have h1 : upper o n s c w ≤ o + n * s := min_le_left _ _
  have h2 : o ≤ lower o c w := le_max_left _ _
  linarith

/-! ### the cells -/

theorem fold_cells {P : Type} (cell : P → Option (Nat × Nat)) (f : Heights K → P → Option (Heights K)) (d : P → K)
    (hf : ∀ h p i j, cell p = some (i, j) → f h p = some fun a b => if a = i ∧ b = j then h a b + d p else h a b) :
    ∀ (l : List P) (h : Heights K), l.Nodup → (∀ p ∈ l, ∃ c, cell p = some c) → (∀ p ∈ l, ∀ q ∈ l, cell p = cell q → p = q) →
    ∃ h', l.foldlM f h = some h' ∧ ∀ i j, (∃ p ∈ l, cell p = some (i, j) ∧ h' i j = h i j + d p) ∨ ((∀ p ∈ l, cell p ≠ some (i, j)) ∧ h' i j = h i j)
  | [], h, _, _, _ => ⟨h, rfl, fun _ _ => .inr ⟨fun _ hp => (List.not_mem_nil hp).elim, rfl⟩⟩
  | p :: l, h, hn, hc, hi => by
    obtain ⟨⟨x, y⟩, e⟩ := hc p (List.mem_cons_self ..)
    rw [List.nodup_cons] at hn
    obtain ⟨h', e', H⟩ := fold_cells cell f d hf l (fun a b => if a = x ∧ b = y then h a b + d p else h a b) hn.2 (fun q hq => hc q (List.mem_cons_of_mem _ hq))
      (fun q hq r hr => hi q (List.mem_cons_of_mem _ hq) r (List.mem_cons_of_mem _ hr))
    refine ⟨h', ?_, fun i j => ?_⟩
    · rw [List.foldlM_cons, hf h p x y e]
      exact e'
    · have hne : ∀ q ∈ l, cell q ≠ some (x, y) := fun q hq hqe => hn.1 (by rw [hi p (List.mem_cons_self ..) q (List.mem_cons_of_mem _ hq) (e.trans hqe.symm)]; exact hq)
      by_cases hxy : i = x ∧ j = y
      · obtain ⟨rfl, rfl⟩ := hxy
        rcases H i j with ⟨q, hq, hqe, -⟩ | ⟨-, h3⟩
        · exact absurd hqe (hne q hq)
        · refine .inl ⟨p, List.mem_cons_self .., e, ?_⟩
          rw [h3, if_pos ⟨rfl, rfl⟩]
      · rcases H i j with ⟨q, hq, hqe, h3⟩ | ⟨h3, h4⟩
        · refine .inl ⟨q, List.mem_cons_of_mem _ hq, hqe, ?_⟩
          rw [h3, if_neg hxy]
        · refine .inr ⟨fun q hq => ?_, ?_⟩
          · rcases List.mem_cons.1 hq with rfl | hq
            · rw [e]
              intro he
              cases he
              exact hxy ⟨rfl, rfl⟩
            · exact h3 q hq
          · rw [h4, if_neg hxy]

/-- the cell of a place -/
def cellOf (conv : Int → Nat) (g : GridBase K) (p : K × K) : Option (Nat × Nat) := (g.toGrid conv p.1 p.2).map fun r => (r.1, r.2.1)

/-- a place inside of the grid has the cell that it lies in -/
theorem cellOf_iff {conv : Int → Nat} (hc : ConvOk conv) {g : GridBase K} (hg : Ok g) {p : K × K} (h1 : g.ox ≤ p.1) (h2 : p.1 < g.ox + g.nx * g.sx) (h3 : g.oy ≤ p.2) (h4 : p.2 < g.oy + g.ny * g.sy) :
    (∃ c, cellOf conv g p = some c) ∧ ∀ i j, cellOf conv g p = some (i, j) ↔ InCell g.ox g.sx i p.1 ∧ InCell g.oy g.sy j p.2 := by
  have lim : ∀ {s : K} {n : Nat}, 0 < s → n ≤ 2 ^ 63 → (n : K) * s ≤ 2 ^ 64 * s := by
    intro s n hs hn
    refine mul_le_mul_of_nonneg_right ?_ hs.le
    have : (n : K) ≤ ((2 ^ 63 : Nat) : K) := by exact_mod_cast hn
    refine this.trans ?_
    push_cast
    norm_num
  have hn : Near g p.1 p.2 :=
    ⟨by nlinarith [show (0 : K) ≤ 2 ^ 63 * g.sx from mul_nonneg (by positivity) hg.sx.le], by linarith [lim hg.sx hg.nx],
     by nlinarith [show (0 : K) ≤ 2 ^ 63 * g.sy from mul_nonneg (by positivity) hg.sy.le], by linarith [lim hg.sy hg.ny]⟩
  have hsome := (C30_toGrid_iff_inside_partial hc hg hn).2 ⟨h1, h2, h3, h4⟩
  obtain ⟨r, hr⟩ := Option.isSome_iff_exists.1 hsome
  obtain ⟨a, b, c, d⟩ := r
  obtain ⟨-, -, i1, i2, j1, j2, -⟩ := (C29_roundtrip_partial hc hg).2 p.1 p.2 a b c d hn hr
  have e : cellOf conv g p = some (a, b) := by unfold cellOf; rw [hr]; rfl
  have uniq : ∀ {o s x : K} {i k : Nat}, 0 < s → InCell o s i x → InCell o s k x → i = k := by
    intro o s x i k hs hi hk
    have d1 : (i : K) * s < (k + 1) * s := by linarith [hi.1, hk.2]
    have d2 : (k : K) * s < (i + 1) * s := by linarith [hk.1, hi.2]
    have d1' : i < k + 1 := by exact_mod_cast lt_of_mul_lt_mul_right d1 hs.le
    have d2' : k < i + 1 := by exact_mod_cast lt_of_mul_lt_mul_right d2 hs.le
    omega
  refine ⟨⟨_, e⟩, fun i j => ?_⟩
  rw [e]
  constructor
  · intro h
    cases h
    exact ⟨⟨i1, i2⟩, j1, j2⟩
  · rintro ⟨c1, c2⟩
    rw [uniq hg.sx ⟨i1, i2⟩ c1, uniq hg.sy ⟨j1, j2⟩ c2]

/-- **C164** every cell that lies in the window is changed once, by what is added at a place inside of the cell; every other cell is changed in this way or not at all, and not unless a part of it is in the window.
Missing: that the tool gets this far without `--normal`, see `C164_sigma_deviation` -/
theorem C164_window_partial {conv : Int → Nat} (hc : ConvOk conv) {g : GridBase K} (hg : Ok g) (o : Options K) {junk : K} (hj : 0 < deviation o junk) (delta : K → K → K) (h : Heights K) :
    ∃ fuel h', addNoise conv fuel junk g o delta h = .ok h' ∧
      (∀ i j, i < g.nx → j < g.ny → CellIn g.ox g.sx i o.at.1 (o.size g).1 → CellIn g.oy g.sy j o.at.2 (o.size g).2 → ∃ x y, InCell g.ox g.sx i x ∧ InCell g.oy g.sy j y ∧ h' i j = h i j + delta x y) ∧
      ∀ i j, h' i j = h i j ∨ ∃ x y, InCell g.ox g.sx i x ∧ InCell g.oy g.sy j y ∧ PlaceIn o.at.1 (o.size g).1 x ∧ PlaceIn o.at.2 (o.size g).2 y ∧ i < g.nx ∧ j < g.ny ∧ h' i j = h i j + delta x y := by
  have ends : ∃ fuel lx ly, xs fuel g o = some lx ∧ ys fuel g o = some ly := by
    have more : ∀ (n : Nat) (x b s : K) (l : List K), walk n x b s = some l → walk (n + 1) x b s = some l := by
      intro n
      induction n with
      | zero => intro x b s l h; cases h
      | succ n ih =>
        intro x b s l h
        rw [walk] at h ⊢
        by_cases hx : x < b
        · rw [if_pos hx] at h ⊢
          rw [Option.map_eq_some_iff] at h ⊢
          obtain ⟨t, ht, e⟩ := h
          exact ⟨t, ih _ _ _ _ ht, e⟩
        · rw [if_neg hx] at h ⊢
          exact h
    have more' : ∀ (k n : Nat) (x b s : K) (l : List K), walk n x b s = some l → walk (n + k) x b s = some l := by
      intro k
      induction k with
      | zero => intro n x b s l h; exact h
      | succ k ih => intro n x b s l h; exact more _ _ _ _ _ (ih n x b s l h)
    obtain ⟨lx, ex⟩ := axis_ends (s := g.sx) (o := g.ox) (c := o.at.1) (w := (o.size g).1) (n := g.nx) hg.sx
    obtain ⟨ly, ey⟩ := axis_ends (s := g.sy) (o := g.oy) (c := o.at.2) (w := (o.size g).2) (n := g.ny) hg.sy
    refine ⟨g.nx + 1 + (g.ny + 1), lx, ly, more' _ _ _ _ _ _ ex, ?_⟩
    rw [Nat.add_comm]
    exact more' _ _ _ _ _ _ ey
  obtain ⟨fuel, lx, ly, ex, ey⟩ := ends
  obtain ⟨nx, px, wx, ux⟩ := axis_spec hg.sx ex
  obtain ⟨ny, py, wy, uy⟩ := axis_spec hg.sy ey
  have hmem : ∀ p : K × K, p ∈ (lx.flatMap fun x => ly.map fun y => (x, y)) ↔ p.1 ∈ lx ∧ p.2 ∈ ly := by
    intro p
    simp only [List.mem_flatMap, List.mem_map]
    constructor
    · rintro ⟨x, hx, y, hy, rfl⟩
      exact ⟨hx, hy⟩
    · rintro ⟨hx, hy⟩
      exact ⟨p.1, hx, p.2, hy, rfl⟩
  have hcell : ∀ p ∈ (lx.flatMap fun x => ly.map fun y => (x, y)), (∃ c, cellOf conv g p = some c) ∧ ∀ i j, cellOf conv g p = some (i, j) ↔ InCell g.ox g.sx i p.1 ∧ InCell g.oy g.sy j p.2 := by
    intro p hp
    obtain ⟨hx, hy⟩ := (hmem p).1 hp
    exact cellOf_iff hc hg (px _ hx).2.1 (px _ hx).2.2 (py _ hy).2.1 (py _ hy).2.2
  obtain ⟨h', e', H⟩ := fold_cells (cellOf conv g) (addTo conv g delta) (fun p => delta p.1 p.2) (by
      intro h p i j he
      unfold cellOf at he
      rw [Option.map_eq_some_iff] at he
      obtain ⟨r, hr, he⟩ := he
      cases he
      unfold addTo
      rw [hr])
    (lx.flatMap fun x => ly.map fun y => (x, y)) h (List.Nodup.product nx ny) (fun p hp => (hcell p hp).1) (by
      intro p hp q hq he
      obtain ⟨c, hpc⟩ := (hcell p hp).1
      have a := ((hcell p hp).2 c.1 c.2).1 hpc
      have b := ((hcell q hq).2 c.1 c.2).1 (he.symm.trans hpc)
      exact Prod.ext (ux c.1 _ _ ((hmem p).1 hp).1 ((hmem q).1 hq).1 a.1 b.1) (uy c.2 _ _ ((hmem p).1 hp).2 ((hmem q).1 hq).2 a.2 b.2))
  refine ⟨fuel, h', ?_, ?_, ?_⟩
  · unfold addNoise
    rw [if_neg (not_le.2 hj), ex, ey]
    dsimp only
    rw [e']
  · intro i j hi hj' ci cj
    obtain ⟨x, hx, cx⟩ := wx i hi ci
    obtain ⟨y, hy, cy⟩ := wy j hj' cj
    have hp : (x, y) ∈ (lx.flatMap fun x => ly.map fun y => (x, y)) := (hmem (x, y)).2 ⟨hx, hy⟩
    rcases H i j with ⟨p, hp, hpc, h3⟩ | ⟨h3, -⟩
    · have := ((hcell p hp).2 i j).1 hpc
      exact ⟨p.1, p.2, this.1, this.2, h3⟩
    · exact absurd (((hcell _ hp).2 i j).2 ⟨cx, cy⟩) (h3 _ hp)
  · intro i j
    rcases H i j with ⟨p, hp, hpc, h3⟩ | ⟨-, h4⟩
    · have hin := ((hcell p hp).2 i j).1 hpc
      obtain ⟨hx, hy⟩ := (hmem p).1 hp
      have lt : ∀ {o s x : K} {n i : Nat}, 0 < s → InCell o s i x → x < o + n * s → i < n := by
        intro o s x n i hs hi hx
        have : (i : K) * s < n * s := by linarith [hi.1]
        exact_mod_cast lt_of_mul_lt_mul_right this hs.le
      exact .inr ⟨p.1, p.2, hin.1, hin.2, (px _ hx).1, (py _ hy).1, lt hg.sx hin.1 (px _ hx).2.2, lt hg.sy hin.2 (py _ hy).2.2, h3⟩
    · exact .inl h4

/-- **C164** without `--center` and `--window` all cells are changed if the grid is centred at its origin. Missing: other grids, see `C164_default_deviation` -/
theorem C164_default_partial {conv : Int → Nat} (hc : ConvOk conv) {g : GridBase K} (hg : Ok g) (hx : g.ox = -(g.nx * g.sx / 2)) (hy : g.oy = -(g.ny * g.sy / 2)) {o : Options K} (h1 : o.center = none) (h2 : o.window = none)
    {junk : K} (hj : 0 < deviation o junk) (c : K) (h : Heights K) :
    ∃ fuel h', addNoise conv fuel junk g o (fun _ _ => c) h = .ok h' ∧ ∀ i j, i < g.nx → j < g.ny → h' i j = h i j + c := by
  obtain ⟨fuel, h', e, H, -⟩ := C164_window_partial hc hg o hj (fun _ _ => c) h
  refine ⟨fuel, h', e, fun i j hi hj => ?_⟩
  have inside : ∀ {s of : K} {n i : Nat}, 0 < s → i < n → of = -(n * s / 2) → CellIn of s i 0 (n * s) := by
    intro s of n i hs hi ho
    have a : (0 : K) ≤ i * s := mul_nonneg (Nat.cast_nonneg _) hs.le
    have b : ((i : K) + 1) * s ≤ n * s := mul_le_mul_of_nonneg_right (by exact_mod_cast hi) hs.le
    exact ⟨by linarith, by linarith⟩
  have ec : o.at = (0, 0) := by unfold Options.at; rw [h1]; rfl
  have es : o.size g = (g.nx * g.sx, g.ny * g.sy) := by unfold Options.size; rw [h2]; rfl
  obtain ⟨x, y, -, -, e3⟩ := H i j hi hj (by rw [ec, es]; exact inside hg.sx hi hx) (by rw [ec, es]; exact inside hg.sy hj hy)
  exact e3

/-- **C164, deviation** without `--center` and `--window` the last cells of a grid that begins at its origin (or beyond it) are not changed: the window has the size of the grid, but not its place -/
theorem C164_default_deviation {conv : Int → Nat} (hc : ConvOk conv) {g : GridBase K} (hg : Ok g) (hx : 0 ≤ g.ox) (hn : 2 ≤ g.nx) {o : Options K} (h1 : o.center = none) (h2 : o.window = none)
    {junk : K} (hj : 0 < deviation o junk) (delta : K → K → K) (h : Heights K) :
    ∃ fuel h', addNoise conv fuel junk g o delta h = .ok h' ∧ ∀ j, h' (g.nx - 1) j = h (g.nx - 1) j := by
  obtain ⟨fuel, h', e, -, H⟩ := C164_window_partial hc hg o hj delta h
  refine ⟨fuel, h', e, fun j => ?_⟩
  rcases H (g.nx - 1) j with h3 | ⟨x, y, cx, -, px, -⟩
  · exact h3
  · exfalso
    have ec : o.at = (0, 0) := by unfold Options.at; rw [h1]; rfl
    have es : o.size g = (g.nx * g.sx, g.ny * g.sy) := by unfold Options.size; rw [h2]; rfl
    have p2 := px.2
    rw [ec, es] at p2
    dsimp only at p2
    have c1 := cx.1
    rw [Nat.cast_sub (by omega)] at c1
    have hn' : (2 : K) ≤ g.nx := by exact_mod_cast hn
    have hs := hg.sx
    push_cast at c1
    nlinarith

/-- **C164, deviation** without `--normal` the deviation of the distribution is not set; the tool fails if it happens not to be positive, whatever it was asked for -/
theorem C164_sigma_deviation (conv : Int → Nat) (fuel : Nat) {junk : K} (hj : junk ≤ 0) (g : GridBase K) {o : Options K} (ho : o.sigma = none) (delta : K → K → K) (h : Heights K) : addNoise conv fuel junk g o delta h = .throws := by
  unfold addNoise deviation
  rw [ho]
  exact if_pos hj

/-! examples -/

def small : GridBase ℚ := ⟨4, 2, 1 / 2, 1 / 2, 0, 0⟩

example : Ok small := ⟨by decide +kernel, by decide +kernel, by decide +kernel, by decide +kernel⟩

example : CellIn small.ox small.sx 1 (3 / 4) 1 := by constructor <;> decide +kernel

example : xs 10 small { center := some (3 / 4, 0), window := some (1, 1) } = some [1 / 2, 1] := by decide +kernel

example : xs 10 small {} = some [1 / 4, 3 / 4] := by decide +kernel

example : (0 : ℚ) < deviation ({ sigma := some 1 } : Options ℚ) 0 := by decide +kernel

#print axioms Envire.Noise.C164_window_partial
#print axioms Envire.Noise.C164_default_partial
#print axioms Envire.Noise.C164_default_deviation
#print axioms Envire.Noise.C164_sigma_deviation

end Envire.Noise
