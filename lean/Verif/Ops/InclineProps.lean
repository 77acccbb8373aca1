import Verif.Ops.InclineModel
import Verif.Grid.FitProps
import Mathlib.Analysis.SpecialFunctions.Trigonometric.Arctan
import Mathlib.Algebra.BigOperators.Group.Finset.Basic

/-! C192: slopes of cells. -/

namespace Envire.Incline
open Fit (Solver Sums Plane Meas sums cost)

noncomputable section

/-! ### specification -/

/-- the cell at an offset is a neighbour in the window, in the grid, with a patch -/
def Known (g : Tops) (width height w x y : ℤ) (o : ℤ × ℤ) : Prop :=
  o ≠ (0, 0) ∧ |o.1| ≤ w ∧ |o.2| ≤ w ∧ 0 ≤ x + o.1 ∧ x + o.1 < width ∧ 0 ≤ y + o.2 ∧ y + o.2 < height ∧ (g (x + o.1) (y + o.2)).isSome

/-- the height of the cell at an offset -/
def heightAt (h : Top → ℝ) (g : Tops) (x y : ℤ) (o : ℤ × ℤ) : ℝ := ((g (x + o.1) (y + o.2)).map h).getD 0

/-- the sum of the squared distances of the heights of cells from a plane -/
def dist (h : Top → ℝ) (g : Tops) (sx sy : ℝ) (x y : ℤ) (cells : Finset (ℤ × ℤ)) (q : Plane) : ℝ :=
  ∑ o ∈ cells, (heightAt h g x y o - q.at (o.1 * sx) (o.2 * sy)) ^ 2

/-- the angle is the slope of the plane that is nearest to the heights of the cell and of its known neighbours -/
def SlopeOf (h : Top → ℝ) (g : Tops) (width height w : ℤ) (sx sy : ℝ) (x y : ℤ) (a : ℝ) : Prop :=
  0 ≤ a ∧ a < Real.pi / 2 ∧ ∀ cells : Finset (ℤ × ℤ), (∀ o, o ∈ cells ↔ o = (0, 0) ∨ Known g width height w x y o) →
    ∃ q : Plane, Real.tan a = √(q.a ^ 2 + q.b ^ 2) ∧ ∀ q', dist h g sx sy x y cells q ≤ dist h g sx sy x y cells q'

/-- at least five neighbours are known -/
def Five (g : Tops) (width height w x y : ℤ) : Prop := ∃ s : Finset (ℤ × ℤ), 5 ≤ s.card ∧ ∀ o ∈ s, Known g width height w x y o

/-- two known neighbours that are not in a line with the cell -/
def NotLine (g : Tops) (width height w x y : ℤ) : Prop := ∃ o o', Known g width height w x y o ∧ Known g width height w x y o' ∧ o.1 * o'.2 ≠ o.2 * o'.1

/-! ### neighbours -/

theorem mem_offsets (w : ℤ) (o : ℤ × ℤ) : o ∈ offsets w ↔ o ≠ (0, 0) ∧ |o.1| ≤ w ∧ |o.2| ≤ w := by
  unfold offsets
  rw [List.mem_filter, decide_eq_true_eq, and_comm]
  refine and_congr_right fun _ => ?_
  rw [List.mem_map, abs_le, abs_le]
  constructor
  · rintro ⟨⟨i, j⟩, hp, rfl⟩
    have hp := List.pair_mem_product.1 hp
    rw [List.mem_range, List.mem_range] at hp
    dsimp only
    omega
  · rintro ⟨⟨h1, h2⟩, h3, h4⟩
    refine ⟨((o.1 + w).toNat, (o.2 + w).toNat), ?_, ?_⟩
    · refine List.pair_mem_product.2 ?_
      rw [List.mem_range, List.mem_range]
      omega
    · refine Prod.ext ?_ ?_ <;> dsimp only <;> omega

theorem nodup_offsets (w : ℤ) : (offsets w).Nodup := by
  unfold offsets
  refine List.Nodup.filter _ (List.Nodup.map ?_ (List.nodup_range.product List.nodup_range))
  rintro ⟨a, b⟩ ⟨c, d⟩ h
  simp only [Prod.mk.injEq, sub_left_inj, Nat.cast_inj] at h
  exact Prod.ext h.1 h.2

theorem mem_near {g : Tops} {width height w x y : ℤ} {p : (ℤ × ℤ) × Top} (h : p ∈ near g width height w x y) :
    Known g width height w x y p.1 ∧ g (x + p.1.1) (y + p.1.2) = some p.2 := by
  unfold near at h
  obtain ⟨o, ho, hf⟩ := List.mem_filterMap.1 h
  obtain ⟨h1, h2, h3⟩ := (mem_offsets w o).1 ho
  split at hf
  · cases hf
  · rename_i hn
    push Not at hn
    obtain ⟨n1, n2, n3, n4⟩ := hn
    obtain ⟨t, ht, rfl⟩ := Option.map_eq_some_iff.1 hf
    exact ⟨⟨h1, h2, h3, n1, n2, n3, n4, by rw [ht]; rfl⟩, ht⟩

theorem near_of_known {g : Tops} {width height w x y : ℤ} {o : ℤ × ℤ} (h : Known g width height w x y o) : ∃ t, (o, t) ∈ near g width height w x y := by
  obtain ⟨h1, h2, h3, n1, n2, n3, n4, hs⟩ := h
  obtain ⟨t, ht⟩ := Option.isSome_iff_exists.1 hs
  refine ⟨t, List.mem_filterMap.2 ⟨o, (mem_offsets w o).2 ⟨h1, h2, h3⟩, ?_⟩⟩
  rw [if_neg (by push Not; exact ⟨n1, n2, n3, n4⟩), ht]
  rfl

theorem nodup_near (g : Tops) (width height w x y : ℤ) : ((near g width height w x y).map Prod.fst).Nodup := by
  have key : ∀ l : List (ℤ × ℤ), ((l.filterMap fun o =>
      if x + o.1 < 0 ∨ x + o.1 ≥ width ∨ y + o.2 < 0 ∨ y + o.2 ≥ height then none else (g (x + o.1) (y + o.2)).map fun t => (o, t)).map Prod.fst).Sublist l := by
    intro l
    induction l with
    | nil => exact List.Sublist.refl _
    | cons o l ih =>
      rw [List.filterMap_cons]
      split
      · exact ih.cons o
      · rename_i b hb
        split at hb
        · cases hb
        · obtain ⟨t, -, rfl⟩ := Option.map_eq_some_iff.1 hb
          exact ih.cons₂ o
  exact (key _).nodup (nodup_offsets w)

theorem five_iff (g : Tops) (width height w x y : ℤ) : Five g width height w x y ↔ 5 ≤ (near g width height w x y).length := by
  have hmem : ∀ o, o ∈ ((near g width height w x y).map Prod.fst).toFinset ↔ Known g width height w x y o := by
    intro o
    rw [List.mem_toFinset, List.mem_map]
    constructor
    · rintro ⟨p, hp, rfl⟩
      exact (mem_near hp).1
    · intro h
      obtain ⟨t, ht⟩ := near_of_known h
      exact ⟨_, ht, rfl⟩
  have hcard : ((near g width height w x y).map Prod.fst).toFinset.card = (near g width height w x y).length := by
    rw [List.toFinset_card_of_nodup (nodup_near ..), List.length_map]
  constructor
  · rintro ⟨s, hs, h⟩
    rw [← hcard]
    exact hs.trans (Finset.card_le_card fun o ho => (hmem o).2 (h o ho))
  · intro h
    exact ⟨_, hcard.symm ▸ h, fun o ho => (hmem o).1 ho⟩

/-! ### the fit -/

/-- a cell as measurement -/
def meas (h : Top → ℝ) (g : Tops) (sx sy this : ℝ) (x y : ℤ) (o : ℤ × ℤ) : Meas := ⟨o.1 * sx, o.2 * sy, this - heightAt h g x y o, 1⟩

theorem foldl_add (f : ((ℤ × ℤ) × Top) → Sums) (l : List ((ℤ × ℤ) × Top)) (s : Sums) :
    l.foldl (fun s p => s.add (f p)) s = s.add ((l.map f).foldr Sums.add Sums.zero) := by
  induction l generalizing s with
  | nil => rw [List.foldl_nil, List.map_nil, List.foldr_nil, Fit.add_zero']
  | cons p l ih => rw [List.foldl_cons, ih, List.map_cons, List.foldr_cons, Fit.add_assoc']

theorem fitter_eq {g : Tops} {width height w x y : ℤ} {sx sy : ℝ} {h : Top → ℝ} {t : Top} (ht : g x y = some t) :
    fitter sx sy (h t) h (near g width height w x y) = sums (((0, 0) :: (near g width height w x y).map Prod.fst).map (meas h g sx sy (h t) x y)) := by
  unfold fitter
  rw [foldl_add, Fit.zero_add', Fit.add_comm', List.map_cons, Fit.sums_cons]
  have h0 : heightAt h g x y (0, 0) = h t := by
    unfold heightAt
    simp [ht]
  congr 1
  · simp [meas, h0]
  · unfold sums
    rw [List.map_map, List.map_map]
    congr 1
    refine List.map_congr_left fun p hp => ?_
    have hg := (mem_near hp).2
    show _ = Sums.one _ _ _ _
    simp [meas, heightAt, hg]

theorem cost_meas (h : Top → ℝ) (g : Tops) (sx sy this : ℝ) (x y : ℤ) (l : List (ℤ × ℤ)) (hl : l.Nodup) (q : Plane) :
    cost (l.map (meas h g sx sy this x y)) q = dist h g sx sy x y l.toFinset ⟨-q.a, -q.b, this - q.c⟩ := by
  unfold cost dist
  rw [List.sum_toFinset _ hl, List.map_map]
  congr 1
  refine List.map_congr_left fun o _ => ?_
  simp only [meas, Plane.at, Function.comp]
  ring

theorem tan_angle (S : Solver) (s : Sums) : 0 ≤ angle S s ∧ angle S s < Real.pi / 2 ∧ Real.tan (angle S s) = √((S.coeffs s).a ^ 2 + (S.coeffs s).b ^ 2) := by
  set a := (S.coeffs s).a
  set b := (S.coeffs s).b
  have e : angle S s = Real.arccos (1 / √(a * a + b * b + 1)) := rfl
  have hp : 0 < a * a + b * b + 1 := by nlinarith [mul_self_nonneg a, mul_self_nonneg b]
  have hs := Real.sqrt_pos.2 hp
  refine ⟨Real.arccos_nonneg _, ?_, ?_⟩
  · rw [e]
    exact Real.arccos_lt_pi_div_two.2 (one_div_pos.2 hs)
  · rw [e, Real.tan_arccos, div_pow, Real.sq_sqrt hp.le, one_pow]
    have : 1 - 1 / (a * a + b * b + 1) = (a ^ 2 + b ^ 2) / (a * a + b * b + 1) := by
      field_simp
      ring
    rw [this, Real.sqrt_div (by positivity)]
    field_simp

theorem slope_of_fit (S : Solver) {g : Tops} {width height w x y : ℤ} {sx sy : ℝ} {h : Top → ℝ} {t : Top} (ht : g x y = some t) (hx : 0 < sx) (hy : 0 < sy)
    (hn : NotLine g width height w x y) :
    SlopeOf h g width height w sx sy x y (angle S (fitter sx sy (h t) h (near g width height w x y))) ∧
    ∀ q : Plane, (∀ o, o = (0, 0) ∨ Known g width height w x y o → heightAt h g x y o = q.at (o.1 * sx) (o.2 * sy)) →
      Real.tan (angle S (fitter sx sy (h t) h (near g width height w x y))) = √(q.a ^ 2 + q.b ^ 2) := by
  set l := (0, 0) :: (near g width height w x y).map Prod.fst with hl
  have hnd : l.Nodup := by
    refine List.nodup_cons.2 ⟨?_, nodup_near ..⟩
    intro h0
    obtain ⟨p, hp, he⟩ := List.mem_map.1 h0
    exact (mem_near hp).1.1 he
  have hml : ∀ o, o ∈ l ↔ o = (0, 0) ∨ Known g width height w x y o := by
    intro o
    rw [hl, List.mem_cons]
    refine or_congr_right ?_
    rw [List.mem_map]
    constructor
    · rintro ⟨p, hp, rfl⟩
      exact (mem_near hp).1
    · intro h
      obtain ⟨t, ht⟩ := near_of_known h
      exact ⟨_, ht, rfl⟩
  have hpos : ∀ m ∈ l.map (meas h g sx sy (h t) x y), 0 < m.s := by
    intro m hm
    obtain ⟨o, -, rfl⟩ := List.mem_map.1 hm
    exact one_pos
  have hsp : Fit.Spread (l.map (meas h g sx sy (h t) x y)) := by
    obtain ⟨o, o', k, k', hne⟩ := hn
    refine ⟨_, List.mem_map_of_mem ((hml _).2 (Or.inl rfl)), _, List.mem_map_of_mem ((hml _).2 (Or.inr k)), _, List.mem_map_of_mem ((hml _).2 (Or.inr k')), ?_⟩
    simp only [meas, Int.cast_zero, zero_mul, sub_zero]
    intro he
    apply hne
    have h2 : (o.1 : ℝ) * o'.2 * (sx * sy) = o.2 * o'.1 * (sx * sy) := by linear_combination he
    have h3 := mul_right_cancel₀ (mul_pos hx hy).ne' h2
    exact_mod_cast h3
  have hd := Fit.det_ne hpos hsp
  obtain ⟨t1, t2, t3⟩ := tan_angle S (fitter sx sy (h t) h (near g width height w x y))
  rw [fitter_eq ht, ← hl] at t1 t2 t3 ⊢
  set c := S.coeffs (sums (l.map (meas h g sx sy (h t) x y))) with hc
  have hN := S.solves _ hd
  refine ⟨⟨t1, t2, ?_⟩, ?_⟩
  · intro cells hcells
    have he : cells = l.toFinset := by
      ext o
      rw [hcells, List.mem_toFinset, hml]
    refine ⟨⟨-c.a, -c.b, h t - c.c⟩, ?_, ?_⟩
    · rw [t3]
      simp only [neg_sq]
    · intro q'
      rw [he, ← cost_meas h g sx sy (h t) x y l hnd c]
      have e2 := cost_meas h g sx sy (h t) x y l hnd ⟨-q'.a, -q'.b, h t - q'.c⟩
      simp only [neg_neg, sub_sub_cancel] at e2
      rw [show q' = ⟨q'.a, q'.b, q'.c⟩ from rfl, ← e2, Fit.cost_split hN ⟨-q'.a, -q'.b, h t - q'.c⟩]
      exact le_add_of_nonneg_right (Fit.form_nonneg _ _ _ _)
  · intro q hq
    have : c = ⟨-q.a, -q.b, h t - q.c⟩ := by
      refine Fit.fit_exact S hpos hsp ?_
      intro m hm
      obtain ⟨o, ho, rfl⟩ := List.mem_map.1 hm
      have := hq o ((hml o).1 ho)
      simp only [meas, Plane.at] at this ⊢
      rw [this]
      ring
    rw [t3, this]
    simp only [neg_sq]

/-- in the smallest window five neighbours are not in a line -/
theorem notLine_of_five {g : Tops} {width height x y : ℤ} (h : Five g width height 1 x y) : NotLine g width height 1 x y := by
  obtain ⟨s, hs, hk⟩ := h
  by_contra hn
  unfold NotLine at hn
  push Not at hn
  obtain ⟨o, ho⟩ := Finset.card_pos.1 (by omega : 0 < s.card)
  have ko := hk o ho
  have hsub : s ⊆ {o, (-o.1, -o.2)} := by
    intro p hp
    have kp := hk p hp
    have e := hn o p ko kp
    obtain ⟨o1, o2⟩ := o
    obtain ⟨p1, p2⟩ := p
    obtain ⟨a0, a1, a2, -⟩ := ko
    obtain ⟨b0, b1, b2, -⟩ := kp
    dsimp only at a1 a2 b1 b2 e
    rw [abs_le] at a1 a2 b1 b2
    simp only [ne_eq, Prod.mk.injEq, not_and] at a0 b0
    simp only [Finset.mem_insert, Finset.mem_singleton, Prod.mk.injEq]
    have c1 : o1 = -1 ∨ o1 = 0 ∨ o1 = 1 := by omega
    have c2 : o2 = -1 ∨ o2 = 0 ∨ o2 = 1 := by omega
    rcases c1 with rfl | rfl | rfl <;> rcases c2 with rfl | rfl | rfl <;> omega
  have := (Finset.card_le_card hsub).trans Finset.card_le_two
  omega

/-! ### properties -/

/-- C192: the slope of a cell is known exactly if the cell is not at the border and has a patch with enough measurements, and at least five cells of the window around it have a patch. -/
theorem C192_known (S : Solver) (g : Tops) (width height : ℤ) (required : Nat) (w : ℤ) (sx sy : ℝ) (x y : ℤ) (hx : 0 ≤ x ∧ x < width) (hy : 0 ≤ y ∧ y < height) :
    (meanSlope S g width height required w sx sy x y).isSome ↔
      (0 < x ∧ x + 1 < width ∧ 0 < y ∧ y + 1 < height) ∧ (∃ t, g x y = some t ∧ required ≤ t.count) ∧ Five g width height w x y := by
  rw [five_iff]
  unfold meanSlope
  by_cases hb : x = 0 ∨ y = 0 ∨ x = width - 1 ∨ y = height - 1
  · rw [if_pos hb]
    simp only [Option.isSome_none, Bool.false_eq_true, false_iff, not_and]
    omega
  · rw [if_neg hb]
    have hb' : 0 < x ∧ x + 1 < width ∧ 0 < y ∧ y + 1 < height := by omega
    cases hg : g x y with
    | none => simp
    | some t =>
      dsimp only
      by_cases hr : required > 0 ∧ t.count < required
      · rw [if_pos hr]
        simp only [Option.isSome_none, Bool.false_eq_true, false_iff, not_and]
        rintro - ⟨t', ht', h2⟩
        cases ht'
        omega
      · rw [if_neg hr]
        have hr' : required ≤ t.count := by omega
        by_cases hl : (near g width height w x y).length < 5
        · rw [if_pos hl]
          simp only [Option.isSome_none, Bool.false_eq_true, false_iff, not_and]
          intro _ _
          omega
        · rw [if_neg hl]
          simp only [Option.isSome_some, true_iff]
          exact ⟨hb', ⟨t, rfl, hr'⟩, by omega⟩

theorem meanSlope_some {S : Solver} {g : Tops} {width height : ℤ} {required : Nat} {w : ℤ} {sx sy : ℝ} {x y : ℤ} {a : ℝ}
    (h : meanSlope S g width height required w sx sy x y = some a) :
    ∃ t, g x y = some t ∧ 5 ≤ (near g width height w x y).length ∧ a = angle S (fitter sx sy t.mean Top.mean (near g width height w x y)) := by
  unfold meanSlope at h
  split at h
  · cases h
  · cases hg : g x y with
    | none => rw [hg] at h; cases h
    | some t =>
      rw [hg] at h
      dsimp only at h
      split at h
      · cases h
      · split at h
        · cases h
        · rename_i hl
          exact ⟨t, rfl, by omega, (Option.some.inj h).symm⟩

/-- C192 (partial: two known neighbours that are not in a line with the cell) The slope is that of the plane with the least sum of squared distances from the heights of the cell and its
neighbours; if they are on a plane it is the slope of this plane. -/
theorem C192_slope_partial (S : Solver) (g : Tops) (width height : ℤ) (required : Nat) (w : ℤ) (sx sy : ℝ) (x y : ℤ) (hx : 0 < sx) (hy : 0 < sy) (a : ℝ)
    (h : meanSlope S g width height required w sx sy x y = some a) (hn : NotLine g width height w x y) :
    SlopeOf Top.mean g width height w sx sy x y a ∧
    ∀ q : Plane, (∀ o, o = (0, 0) ∨ Known g width height w x y o → heightAt Top.mean g x y o = q.at (o.1 * sx) (o.2 * sy)) → Real.tan a = √(q.a ^ 2 + q.b ^ 2) := by
  obtain ⟨t, ht, -, rfl⟩ := meanSlope_some h
  exact slope_of_fit S ht hx hy hn

/-- C192: with the smallest window there always are two such neighbours. -/
theorem C192_small (S : Solver) (g : Tops) (width height : ℤ) (required : Nat) (sx sy : ℝ) (x y : ℤ) (hx : 0 < sx) (hy : 0 < sy) (a : ℝ)
    (h : meanSlope S g width height required 1 sx sy x y = some a) :
    SlopeOf Top.mean g width height 1 sx sy x y a ∧
    ∀ q : Plane, (∀ o, o = (0, 0) ∨ Known g width height 1 x y o → heightAt Top.mean g x y o = q.at (o.1 * sx) (o.2 * sy)) → Real.tan a = √(q.a ^ 2 + q.b ^ 2) := by
  obtain ⟨t, ht, hl, rfl⟩ := meanSlope_some h
  exact slope_of_fit S ht hx hy (notLine_of_five ((five_iff ..).2 hl))

/-- C192 (partial: a positive slope is allowed, up to 99999 classes) The class of a cell: unknown without a patch, or if fewer than five neighbours have a patch and there is no high step; an
obstacle at a step that is too high; otherwise the slope decides: an obstacle from the highest slope on, less a hundred thousandth of it, and the classes divide the slopes below evenly. -/
theorem C192_class_partial (S : Solver) (c : Config) (g : Tops) (width height : ℤ) (sx sy : ℝ) (x y : ℤ) (hx : 0 < sx) (hy : 0 < sy) (hs : 0 < c.maxSlope)
    (hc : 0 < c.classes) (hc' : c.classes < 100000) :
    ∃ r, traversability S c g width height sx sy x y = .set r ∧
      (g x y = none → r = 0) ∧
      ∀ t, g x y = some t →
        ((∃ o, Known g width height 1 x y o ∧ |heightAt Top.upper g x y o - t.upper| > c.maxStep) → r = 1) ∧
        ((∀ o, Known g width height 1 x y o → |heightAt Top.upper g x y o - t.upper| ≤ c.maxStep) →
          (¬ Five g width height 1 x y → r = 0) ∧
          (Five g width height 1 x y → ∃ a, SlopeOf Top.upper g width height 1 sx sy x y a ∧
            (∀ q : Plane, (∀ o, o = (0, 0) ∨ Known g width height 1 x y o → heightAt Top.upper g x y o = q.at (o.1 * sx) (o.2 * sy)) → Real.tan a = √(q.a ^ 2 + q.b ^ 2)) ∧
            (a / c.maxSlope ≥ 1 - 1 / 100000 → r = 1) ∧
            (a / c.maxSlope < 1 - 1 / 100000 → 2 ≤ r ∧ r ≤ c.classes + 1 ∧ ((r : ℝ) - 2) / c.classes < 1 - 1 / 100000 - a / c.maxSlope ∧ 1 - 1 / 100000 - a / c.maxSlope ≤ ((r : ℝ) - 1) / c.classes))) := by
  have hcr : (0 : ℝ) < c.classes := by exact_mod_cast hc
  have hcr' : (c.classes : ℝ) < 100000 := by exact_mod_cast hc'
  unfold traversability
  cases hg : g x y with
  | none => exact ⟨0, rfl, fun _ => rfl, fun _ h => by (cases h)⟩
  | some t =>
    dsimp only
    have hstep : (∃ p ∈ near g width height 1 x y, |p.2.upper - t.upper| > c.maxStep) ↔ ∃ o, Known g width height 1 x y o ∧ |heightAt Top.upper g x y o - t.upper| > c.maxStep := by
      constructor
      · rintro ⟨p, hp, hgt⟩
        obtain ⟨k, hk⟩ := mem_near hp
        exact ⟨p.1, k, by unfold heightAt; rw [hk]; exact hgt⟩
      · rintro ⟨o, k, hgt⟩
        obtain ⟨t', ht'⟩ := near_of_known k
        have hk := (mem_near ht').2
        refine ⟨_, ht', ?_⟩
        unfold heightAt at hgt
        rw [hk] at hgt
        exact hgt
    by_cases h1 : ∃ p ∈ near g width height 1 x y, |p.2.upper - t.upper| > c.maxStep
    · rw [if_pos h1]
      refine ⟨1, rfl, fun h => by (cases h), fun t' ht' => ?_⟩
      cases ht'
      refine ⟨fun _ => rfl, fun hall => ?_⟩
      obtain ⟨o, k, hgt⟩ := hstep.1 h1
      exact absurd (hall o k) (not_le.2 hgt)
    · rw [if_neg h1]
      by_cases h2 : (near g width height 1 x y).length < 5
      · rw [if_pos h2]
        refine ⟨0, rfl, fun _ => rfl, fun t' ht' => ?_⟩
        cases ht'
        exact ⟨fun h => absurd (hstep.2 h) h1, fun _ => ⟨fun _ => rfl, fun h5 => absurd ((five_iff ..).1 h5) (by omega)⟩⟩
      · rw [if_neg h2]
        have h5 : Five g width height 1 x y := (five_iff ..).2 (by omega)
        obtain ⟨s1, s2⟩ := slope_of_fit S (h := Top.upper) hg hx hy (notLine_of_five h5)
        set a := angle S (fitter sx sy t.upper Top.upper (near g width height 1 x y)) with ha
        have fin : ∀ r : ℤ, (a / c.maxSlope ≥ 1 - 1 / 100000 → r = 1) →
            (a / c.maxSlope < 1 - 1 / 100000 → 2 ≤ r ∧ r ≤ c.classes + 1 ∧ ((r : ℝ) - 2) / c.classes < 1 - 1 / 100000 - a / c.maxSlope ∧ 1 - 1 / 100000 - a / c.maxSlope ≤ ((r : ℝ) - 1) / c.classes) →
            (some t = none → r = 0) ∧ ∀ t', some t = some t' →
        ((∃ o, Known g width height 1 x y o ∧ |heightAt Top.upper g x y o - t'.upper| > c.maxStep) → r = 1) ∧
        ((∀ o, Known g width height 1 x y o → |heightAt Top.upper g x y o - t'.upper| ≤ c.maxStep) →
          (¬ Five g width height 1 x y → r = 0) ∧
          (Five g width height 1 x y → ∃ a, SlopeOf Top.upper g width height 1 sx sy x y a ∧
            (∀ q : Plane, (∀ o, o = (0, 0) ∨ Known g width height 1 x y o → heightAt Top.upper g x y o = q.at (o.1 * sx) (o.2 * sy)) → Real.tan a = √(q.a ^ 2 + q.b ^ 2)) ∧
            (a / c.maxSlope ≥ 1 - 1 / 100000 → r = 1) ∧
            (a / c.maxSlope < 1 - 1 / 100000 → 2 ≤ r ∧ r ≤ c.classes + 1 ∧ ((r : ℝ) - 2) / c.classes < 1 - 1 / 100000 - a / c.maxSlope ∧ 1 - 1 / 100000 - a / c.maxSlope ≤ ((r : ℝ) - 1) / c.classes))) := by
          intro r r1 r2
          refine ⟨fun h => by (cases h), fun t' ht' => ?_⟩
          cases ht'
          exact ⟨fun h => absurd (hstep.2 h) h1, fun _ => ⟨fun h => absurd h5 h, fun _ => ⟨a, s1, s2, r1, r2⟩⟩⟩
        by_cases h3 : a > c.maxSlope
        · rw [if_pos h3]
          refine ⟨1, rfl, fin 1 (fun _ => rfl) fun hlt => ?_⟩
          have : 1 < a / c.maxSlope := (one_lt_div hs).2 h3
          exact absurd (hlt.trans (by norm_num : (1 : ℝ) - 1 / 100000 < 1)) (not_lt.2 this.le)
        · rw [if_neg h3, if_neg hs.ne']
          have hle : a / c.maxSlope ≤ 1 := (div_le_one hs).2 (not_lt.1 h3)
          have h0 : 0 ≤ a / c.maxSlope := div_nonneg s1.1 hs.le
          set d := a / c.maxSlope with hd
          set k := ⌈((1 - d) - 1 / 100000) * (c.classes : ℝ)⌉ with hk
          have k1 : ((1 - d) - 1 / 100000) * (c.classes : ℝ) ≤ k := Int.le_ceil _
          have k2 : (k : ℝ) < ((1 - d) - 1 / 100000) * (c.classes : ℝ) + 1 := Int.ceil_lt_add_one _
          refine ⟨1 + k, rfl, fin (1 + k) ?_ ?_⟩
          · intro hge
            have : k = 0 := by
              rw [hk, Int.ceil_eq_zero_iff]
              constructor
              · nlinarith
              · have : (1 - d) - 1 / 100000 ≤ 0 := by linarith
                exact mul_nonpos_of_nonpos_of_nonneg this hcr.le
            omega
          · intro hlt
            have hpos : 0 < ((1 - d) - 1 / 100000) * (c.classes : ℝ) := mul_pos (by linarith) hcr
            have hk1 : 0 < k := by
              have : (0 : ℝ) < k := hpos.trans_le k1
              exact_mod_cast this
            refine ⟨by omega, ?_, ?_, ?_⟩
            · have : (k : ℝ) < c.classes + 1 := by nlinarith
              have : k < (c.classes : ℤ) + 1 := by exact_mod_cast this
              omega
            · push_cast
              rw [div_lt_iff₀ hcr]
              linarith
            · push_cast
              rw [le_div_iff₀ hcr]
              linarith

/-! ### violations -/

/-- a row of cells, one higher than the other, without neighbours above and below -/
def row : Tops := fun x y => if y = 1 ∧ 0 ≤ x ∧ x ≤ 6 then some ⟨x, 0, 1⟩ else none

theorem row_near : near row 7 3 3 3 1 = [((-3, 0), ⟨0, 0, 1⟩), ((-2, 0), ⟨1, 0, 1⟩), ((-1, 0), ⟨2, 0, 1⟩), ((1, 0), ⟨4, 0, 1⟩), ((2, 0), ⟨5, 0, 1⟩), ((3, 0), ⟨6, 0, 1⟩)] := by
  have ho : offsets 3 = [(-3, -3), (-3, -2), (-3, -1), (-3, 0), (-3, 1), (-3, 2), (-3, 3), (-2, -3), (-2, -2), (-2, -1), (-2, 0), (-2, 1), (-2, 2), (-2, 3),
    (-1, -3), (-1, -2), (-1, -1), (-1, 0), (-1, 1), (-1, 2), (-1, 3), (0, -3), (0, -2), (0, -1), (0, 1), (0, 2), (0, 3),
    (1, -3), (1, -2), (1, -1), (1, 0), (1, 1), (1, 2), (1, 3), (2, -3), (2, -2), (2, -1), (2, 0), (2, 1), (2, 2), (2, 3), (3, -3), (3, -2), (3, -1), (3, 0), (3, 1), (3, 2), (3, 3)] := by
    decide +kernel
  unfold near
  rw [ho]
  norm_num [List.filterMap_cons, row]

open Classical in
/-- a solver that gives a plane of any slope if the equations have no unique solution -/
def odd (S : Solver) (k : ℝ) : Solver := ⟨fun s => if s.det = 0 then ⟨k, 0, 0⟩ else S.coeffs s, fun s h => by rw [if_neg h]; exact S.solves s h⟩

/-- C192, the code violates the property: five known neighbours in a line with the cell (possible with a larger window) are enough; the result is then any slope, as the plane is not determined -/
theorem C192_line_deviation (S : Solver) (k : ℝ) (hk : 0 ≤ k) : ∃ S' : Solver, (∀ s, s.det ≠ 0 → S'.coeffs s = S.coeffs s) ∧
    ∃ a, meanSlope S' row 7 3 0 3 1 1 3 1 = some a ∧ Real.tan a = k := by
  refine ⟨odd S k, fun s hs => if_neg hs, ?_⟩
  have hg : row 3 1 = some ⟨3, 0, 1⟩ := by norm_num [row]
  unfold meanSlope
  rw [if_neg (by norm_num), hg]
  dsimp only
  rw [row_near, if_neg (by simp), if_neg (by simp)]
  refine ⟨_, rfl, ?_⟩
  rw [(tan_angle _ _).2.2]
  have hd : (fitter 1 1 3 Top.mean [((-3, 0), ⟨0, 0, 1⟩), ((-2, 0), ⟨1, 0, 1⟩), ((-1, 0), ⟨2, 0, 1⟩), ((1, 0), ⟨4, 0, 1⟩), ((2, 0), ⟨5, 0, 1⟩), ((3, 0), ⟨6, 0, 1⟩)]).det = 0 := by
    simp [fitter, Sums.det, Sums.add, Sums.one, Sums.zero]
  have hc : (odd S k).coeffs (fitter 1 1 3 Top.mean [((-3, 0), ⟨0, 0, 1⟩), ((-2, 0), ⟨1, 0, 1⟩), ((-1, 0), ⟨2, 0, 1⟩), ((1, 0), ⟨4, 0, 1⟩), ((2, 0), ⟨5, 0, 1⟩), ((3, 0), ⟨6, 0, 1⟩)]) = ⟨k, 0, 0⟩ := if_pos hd
  rw [hc]
  simp [Real.sqrt_sq hk]

/-- C192, the code violates the property: the neighbours are used whatever the number of their measurements: the result is the same if they have any other numbers -/
theorem C192_required_deviation (S : Solver) (g : Tops) (width height : ℤ) (required : Nat) (w : ℤ) (sx sy : ℝ) (x y : ℤ) (count : ℤ → ℤ → Nat) :
    meanSlope S (fun i j => if i = x ∧ j = y then g i j else (g i j).map fun t => { t with count := count i j }) width height required w sx sy x y = meanSlope S g width height required w sx sy x y := by
  have hn : (near (fun i j => if i = x ∧ j = y then g i j else (g i j).map fun t => { t with count := count i j }) width height w x y).map (fun p => (p.1, p.2.mean)) =
      (near g width height w x y).map fun p => (p.1, p.2.mean) := by
    unfold near
    rw [List.map_filterMap, List.map_filterMap]
    refine List.filterMap_congr fun o ho => ?_
    by_cases hb : x + o.1 < 0 ∨ x + o.1 ≥ width ∨ y + o.2 < 0 ∨ y + o.2 ≥ height
    · rw [if_pos hb, if_pos hb]
    · rw [if_neg hb, if_neg hb]
      beta_reduce
      by_cases h0 : x + o.1 = x ∧ y + o.2 = y
      · rw [if_pos h0]
      · rw [if_neg h0]
        cases g (x + o.1) (y + o.2) <;> rfl
  have hf : ∀ (l l' : List ((ℤ × ℤ) × Top)) (this : ℝ), l.map (fun p => (p.1, p.2.mean)) = l'.map (fun p => (p.1, p.2.mean)) → fitter sx sy this Top.mean l = fitter sx sy this Top.mean l' := by
    intro l l' this h
    have e : ∀ l : List ((ℤ × ℤ) × Top), fitter sx sy this Top.mean l =
        ((l.map fun p => (p.1, p.2.mean)).foldl (fun s p => s.add (Sums.one (p.1.1 * sx) (p.1.2 * sy) (this - p.2) 1)) Sums.zero).add (Sums.one 0 0 0 1) := by
      intro l
      unfold fitter
      rw [List.foldl_map]
    rw [e, e, h]
  have hl := congrArg List.length hn
  rw [List.length_map, List.length_map] at hl
  unfold meanSlope
  beta_reduce
  rw [if_pos (⟨rfl, rfl⟩ : x = x ∧ y = y)]
  split
  · rfl
  · cases g x y with
    | none => rfl
    | some t =>
      dsimp only
      rw [hl, hf _ _ t.mean hn]

/-- C192, the code violates the property: if no slope is allowed, flat ground gives a division of zero by zero -/
theorem C192_flat_deviation (S : Solver) (c : Config) (g : Tops) (width height : ℤ) (sx sy : ℝ) (x y : ℤ) (hx : 0 < sx) (hy : 0 < sy) (hs : c.maxSlope = 0) (hc : 0 ≤ c.maxStep)
    (t : Top) (ht : g x y = some t) (h5 : Five g width height 1 x y) (hflat : ∀ o, Known g width height 1 x y o → heightAt Top.upper g x y o = t.upper) :
    traversability S c g width height sx sy x y = .undefined := by
  obtain ⟨s1, s2⟩ := slope_of_fit S (h := Top.upper) ht hx hy (notLine_of_five h5)
  have h0 := s2 ⟨0, 0, t.upper⟩ (by
    rintro o (rfl | k)
    · simp [heightAt, ht, Plane.at]
    · rw [hflat o k]; simp [Plane.at])
  have ha : angle S (fitter sx sy t.upper Top.upper (near g width height 1 x y)) = 0 := by
    by_contra hne
    have hp := lt_of_le_of_ne s1.1 (Ne.symm hne)
    have := Real.tan_pos_of_pos_of_lt_pi_div_two hp s1.2.1
    rw [h0] at this
    simp at this
  unfold traversability
  rw [ht]
  dsimp only
  rw [if_neg, if_neg, if_neg, if_pos hs]
  · rw [ha, hs]; exact lt_irrefl _
  · have := (five_iff ..).1 h5; omega
  · rintro ⟨p, hp, hgt⟩
    obtain ⟨k, hk⟩ := mem_near hp
    have := hflat p.1 k
    unfold heightAt at this
    rw [hk] at this
    have hu : p.2.upper = t.upper := this
    rw [hu, sub_self, abs_zero] at hgt
    exact absurd hc (not_le.2 hgt)

/-! ### examples -/

/-- a slope of one in x -/
def ramp : Tops := fun x _ => some ⟨x, 0, 3⟩

theorem ramp_five : Five ramp 3 3 1 1 1 := by
  refine ⟨{(-1, -1), (-1, 0), (-1, 1), (0, -1), (0, 1)}, by decide, ?_⟩
  intro o ho
  simp only [Finset.mem_insert, Finset.mem_singleton] at ho
  rcases ho with rfl | rfl | rfl | rfl | rfl <;> simp [Known, ramp]

/-- the slope of the cell in the middle is 45 degrees -/
example (S : Solver) : ∃ a, meanSlope S ramp 3 3 2 1 1 1 1 1 = some a ∧ Real.tan a = 1 := by
  obtain ⟨a, ha⟩ := Option.isSome_iff_exists.1 ((C192_known S ramp 3 3 2 1 1 1 1 1 (by norm_num) (by norm_num)).2 ⟨by norm_num, ⟨_, rfl, by norm_num⟩, ramp_five⟩)
  refine ⟨a, ha, ?_⟩
  rw [(C192_small S ramp 3 3 2 1 1 1 1 one_pos one_pos a ha).2 ⟨1, 0, 1⟩ (by
    intro o _
    simp [heightAt, ramp, Plane.at, add_comm])]
  simp

/-- a higher step is an obstacle -/
example (S : Solver) : ∃ r, traversability S ⟨1 / 2, 1, 10⟩ ramp 3 3 1 1 1 1 = .set r ∧ r = 1 := by
  obtain ⟨r, hr, -, h⟩ := C192_class_partial S ⟨1 / 2, 1, 10⟩ ramp 3 3 1 1 1 1 one_pos one_pos one_pos (by norm_num) (by norm_num)
  refine ⟨r, hr, (h _ rfl).1 ⟨(-1, 0), by simp [Known, ramp], ?_⟩⟩
  norm_num [heightAt, ramp, Top.upper]

end

#print axioms C192_known
#print axioms C192_slope_partial
#print axioms C192_small
#print axioms C192_class_partial
#print axioms C192_line_deviation
#print axioms C192_required_deviation
#print axioms C192_flat_deviation

end Envire.Incline
