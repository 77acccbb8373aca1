import Verif.Ops.IlluminationModel
import Verif.Tools.VoxelProps

/-!
C101: illumination of the cells of an elevation grid.
-/

namespace Envire.Illumination

open Envire.Rect Envire.Voxel

/-! ## Specification -/

/-- the middle of a cell -/
def IsMiddle (g : Geo) (c : Int × Int) (q : ℝ × ℝ) : Prop := q.1 = g.ox + (c.1 + 1 / 2) * g.sx ∧ q.2 = g.oy + (c.2 + 1 / 2) * g.sy

/-- the point of the line from o to the light -/
def towards (o : ℝ × ℝ) (l : Light) (t : ℝ) : ℝ × ℝ := (o.1 + t * (l.x - o.1), o.2 + t * (l.y - o.2))

/-- distance in the plane -/
noncomputable def distance (a b : ℝ × ℝ) : ℝ := Real.sqrt ((b.1 - a.1) ^ 2 + (b.2 - a.2) ^ 2)

/-- the part of the light that the cell with the middle q and the height hq covers, seen from o with the height ho: 0 for the lower end of the light, 1 for the upper end -/
noncomputable def covered (l : Light) (o : ℝ × ℝ) (ho : ℝ) (q : ℝ × ℝ) (hq : ℝ) : ℝ :=
  (ho + (hq - ho) / distance o q * distance o (l.x, l.y) - (l.z - l.diameter / 2)) / l.diameter

/-- the cells between the cell c with the middle o and the light -/
structure Between (g : Geo) (l : Light) (c : Int × Int) (o : ℝ × ℝ) (cells : List (Int × Int)) : Prop where
  meets : ∀ b ∈ cells, IsCell g b ∧ b ≠ c ∧ ¬ InCell g (l.x, l.y) b ∧ ∃ t, 0 ≤ t ∧ t ≤ 1 ∧ InClosed g (towards o l t) b
  all : ∀ b, IsCell g b → b ≠ c → ¬ InCell g (l.x, l.y) b → (∃ t, 0 ≤ t ∧ t ≤ 1 ∧ InOpen g (towards o l t) b) → b ∈ cells

/-! ## The loop -/

theorem loop_some {g : Geo} {lp : Option (Int × Int)} {rel : Int × Int → Option ℝ} : ∀ (fuel K : Nat) (s : Walk) (m : ℝ), K < fuel →
    (∀ i < K, (Walk.advance^[i + 1] s).within g = true ∧ lp ≠ some (cell s (i + 1))) →
    ((Walk.advance^[K + 1] s).within g = false ∨ lp = some (cell s (K + 1))) →
    loop g lp rel fuel s m = some (((List.range K).map fun i => cell s (i + 1)).foldl (fun m b => keep m (rel b)) m) := by
  intro fuel
  induction fuel with
  | zero => intro K s m h; omega
  | succ n ih =>
    intro K s m hK h1 h2
    unfold loop
    cases K with
    | zero =>
      by_cases hw : s.advance.within g = true
      · rw [if_pos hw]
        rcases h2 with h2 | h2
        · have h2 : s.advance.within g = false := h2
          rw [hw] at h2; cases h2
        · rw [if_pos (show lp = some (s.advance.cx, s.advance.cy) from h2)]
          rfl
      · rw [if_neg hw]
        rfl
    | succ K =>
      have h0 := h1 0 (by omega)
      rw [if_pos (show s.advance.within g = true from h0.1), if_neg (show ¬ lp = some (s.advance.cx, s.advance.cy) from h0.2)]
      rw [ih K s.advance _ (by omega) (fun i hi => h1 (i + 1) (by omega)) h2]
      rw [List.range_succ_eq_map, List.map_cons, List.foldl_cons, List.map_map]
      rfl

/-- the greatest value -/
theorem foldl_keep (rel : Int × Int → Option ℝ) : ∀ (cells : List (Int × Int)) (m : ℝ),
    IsGreatest {x | x = m ∨ ∃ b ∈ cells, rel b = some x} (cells.foldl (fun m b => keep m (rel b)) m) := by
  intro cells
  induction cells with
  | nil =>
    intro m
    refine ⟨.inl rfl, ?_⟩
    rintro x (rfl | ⟨b, hb, _⟩)
    · exact le_rfl
    · cases hb
  | cons a l ih =>
    intro m
    rw [List.foldl_cons]
    obtain ⟨h1, h2⟩ := ih (keep m (rel a))
    have hm : m ≤ keep m (rel a) := by
      cases rel a with
      | none => exact le_rfl
      | some z => exact le_max_left _ _
    refine ⟨?_, ?_⟩
    · rcases h1 with h1 | ⟨b, hb, h1⟩
      · rw [h1]
        cases hr : rel a with
        | none => exact .inl rfl
        | some z =>
          rcases max_choice m z with e | e
          · exact .inl e
          · exact .inr ⟨a, by simp, by rw [hr]; exact congrArg some e.symm⟩
      · exact .inr ⟨b, List.mem_cons_of_mem _ hb, h1⟩
    · rintro x (rfl | ⟨b, hb, hr⟩)
      · exact hm.trans (h2 (.inl rfl))
      · rcases List.mem_cons.1 hb with rfl | hb
        · have : x ≤ keep m (rel b) := by rw [hr]; exact le_max_right _ _
          exact this.trans (h2 (.inl rfl))
        · exact h2 (.inr ⟨b, hb, hr⟩)

theorem start_start {g : Geo} (hsx : 0 < g.sx) (hsy : 0 < g.sy) {d : ℝ × ℝ} (hd : d.2 ≠ 0) (c : Int × Int) : Start g (fromGrid g c) d (start g d c) := by
  have hT : ∀ (lo s v : ℝ), T lo s (lo + s / 2) v 0 = s / |v| * (1 / 2) := by
    intro lo s v
    unfold T
    push_cast
    split <;> ring
  have e1 : (fromGrid g c).1 = (g.ox + c.1 * g.sx) + g.sx / 2 := by simp only [fromGrid]; ring
  have e2 : (fromGrid g c).2 = (g.oy + c.2 * g.sy) + g.sy / 2 := by simp only [fromGrid]; ring
  refine ⟨⟨⟨?_, ?_⟩, ?_, ?_⟩, rfl, rfl, ?_, ?_⟩
  · rw [e1]; simp only [start]; linarith
  · rw [e1]; simp only [start]; linarith
  · rw [e2]; simp only [start]; linarith
  · rw [e2]; simp only [start]; linarith
  · intro h
    simp only [start, delta, if_pos h]
    rfl
  · intro h
    refine ⟨Real.sqrt (d.1 ^ 2 + d.2 ^ 2), Real.sqrt_pos.2 (by positivity), ?_, ?_, delta_eq hsx h, delta_eq hsy hd⟩
    · rw [e1]
      simp only [start, delta_eq hsx h, times, Option.map_some, hT, Option.some.injEq]
      ring
    · rw [e2]
      simp only [start, delta_eq hsy hd, times, Option.map_some, hT, Option.some.injEq]
      ring

theorem fromGrid_middle {g : Geo} {c : Int × Int} {o : ℝ × ℝ} (ho : IsMiddle g c o) : fromGrid g c = o := by
  ext
  · rw [ho.1]; simp only [fromGrid]; ring
  · rw [ho.2]; simp only [fromGrid]; ring

theorem ray_dir {g : Geo} {l : Light} {c : Int × Int} (t : ℝ) : ray (fromGrid g c) (dir g l c) t = towards (fromGrid g c) l t := rfl

theorem inCell_unique {g : Geo} (hsx : 0 < g.sx) (hsy : 0 < g.sy) {q : ℝ × ℝ} {k : Int × Int} (hk : InCell g q k) : k = (⌊(q.1 - g.ox) / g.sx⌋, ⌊(q.2 - g.oy) / g.sy⌋) := by
  obtain ⟨⟨a1, a2⟩, a3, a4⟩ := hk
  ext
  · symm; rw [Int.floor_eq_iff, le_div_iff₀ hsx, div_lt_iff₀ hsx]; constructor <;> linarith
  · symm; rw [Int.floor_eq_iff, le_div_iff₀ hsy, div_lt_iff₀ hsy]; constructor <;> linarith

/-- the cells of the loop are those between the cell and the light -/
theorem loop_between {g : Geo} {l : Light} {c : Int × Int} (hsx : 0 < g.sx) (hsy : 0 < g.sy) (hc : IsCell g c) (hd : (dir g l c).2 ≠ 0)
    (hl : (InGrid g (l.x, l.y) → ∃ b, b ≠ c ∧ InOpen g (l.x, l.y) b)) (rel : Int × Int → Option ℝ) :
    ∃ cells, loop g (lightPos g l) rel (g.w + g.h) (start g (dir g l c) c) 0 = some (cells.foldl (fun m b => keep m (rel b)) 0) ∧ Between g l c (fromGrid g c) cells := by
  have hst := start_start hsx hsy hd c
  obtain ⟨E, hE⟩ := hst.path hsx hsy hd
  have hx := sgn_or (dir g l c).1
  have hy := sgn_or (dir g l c).2
  rw [← hst.stepx] at hx
  rw [← hst.stepy] at hy
  have hs : (start g (dir g l c) c).within g = true := by
    simp only [Walk.within, decide_eq_true_eq]
    exact hc
  have h0 : cell (start g (dir g l c) c) 0 = c := rfl
  obtain ⟨k, hk, k1, k2⟩ := steps_ends hx hy hs
  have h1 : ray (fromGrid g c) (dir g l c) 1 = (l.x, l.y) := by
    simp only [ray, dir]
    ext <;> ring
  by_cases hg : InGrid g (l.x, l.y)
  · obtain ⟨b, hbc, hb⟩ := hl hg
    have hbl : InCell g (l.x, l.y) b := ⟨⟨hb.1.1.le, hb.1.2⟩, hb.2.1.le, hb.2.2⟩
    have hbf := inCell_unique hsx hsy hbl
    have hv := (valid_iff hsx hsy _).2 hg
    have hlp : lightPos g l = some b := by
      unfold lightPos
      rw [if_pos hv, hbf]
    have hbcell : IsCell g b := by rw [hbf]; exact hv
    obtain ⟨n, hn, e1, e2⟩ := hE.found 1 b zero_le_one (by rw [h1]; exact hb)
    have hn0 : n ≠ 0 := by
      rintro rfl
      exact hbc (hn.symm.trans h0)
    have hnk : n ≤ k := by
      by_contra h
      have := k2 n (by omega)
      rw [within_iff.2 (by rw [hn]; exact hbcell)] at this
      cases this
    refine ⟨(List.range (n - 1)).map fun i => cell (start g (dir g l c) c) (i + 1), loop_some _ (n - 1) _ _ (by omega) ?_ ?_, ?_, ?_⟩
    · intro i hi
      refine ⟨k1 (i + 1) (by omega), ?_⟩
      rw [hlp]
      intro h
      have := cell_inj hx hy (hn.trans (Option.some.inj h))
      omega
    · right
      rw [hlp, Nat.sub_add_cancel (by omega), hn]
    · intro a ha
      obtain ⟨i, hi, rfl⟩ := List.mem_map.1 ha
      rw [List.mem_range] at hi
      refine ⟨within_iff.1 (k1 (i + 1) (by omega)), ?_, ?_, E (i + 1), hE.nonneg _, (hE.mono (show i + 1 ≤ n by omega)).trans e1, ?_⟩
      · intro h
        have := cell_inj hx hy (h.trans h0.symm)
        omega
      · intro h
        have := (inCell_unique hsx hsy h).trans hbf.symm
        have := cell_inj hx hy (this.trans hn.symm)
        omega
      · exact hE.closed _ _ le_rfl (hE.mono (Nat.le_succ _))
    · rintro a ha hac hal ⟨t, t0, t1, ho⟩
      obtain ⟨m, rfl, m1, m2⟩ := hE.found t a t0 ho
      have hm0 : m ≠ 0 := by
        rintro rfl
        exact hac h0
      have hmn : m < n := by
        rcases lt_trichotomy m n with h | h | h
        · exact h
        · exfalso
          rw [h, hn] at hal
          exact hal hbl
        · exfalso
          have := hE.mono (show n + 1 ≤ m by omega)
          linarith
      exact List.mem_map.2 ⟨m - 1, List.mem_range.2 (by omega), by rw [Nat.sub_add_cancel (by omega)]⟩
  · have hlp : lightPos g l = none := by
      unfold lightPos
      rw [if_neg (mt (valid_iff hsx hsy _).1 hg)]
    have hle : ∀ m ≤ k, E m ≤ 1 := by
      intro m hm
      by_contra h
      push Not at h
      -- the cell of the time 1
      obtain ⟨n, n1, n2, n3⟩ : ∃ n, n < m ∧ E n ≤ 1 ∧ 1 < E (n + 1) := by
        clear hm
        induction m with
        | zero =>
          rw [hE.zero] at h
          linarith
        | succ m ih =>
          by_cases h' : E m ≤ 1
          · exact ⟨m, by omega, h', h⟩
          · obtain ⟨n, a, b⟩ := ih (not_le.1 h')
            exact ⟨n, by omega, b⟩
      have hcl := hE.closed n 1 n2 n3.le
      have hex := hE.exit n 1 n3
      have hce := within_iff.1 (k1 n (by omega))
      rw [h1] at hcl hex
      obtain ⟨⟨a1, a2⟩, a3, a4⟩ := hcl
      obtain ⟨b1, b2, b3, b4⟩ := hce
      have c1 : (0 : ℝ) ≤ (cell (start g (dir g l c) c) n).1 := by exact_mod_cast b1
      have c2 : ((cell (start g (dir g l c) c) n).1 : ℝ) + 1 ≤ g.w := by exact_mod_cast b2
      have c3 : (0 : ℝ) ≤ (cell (start g (dir g l c) c) n).2 := by exact_mod_cast b3
      have c4 : ((cell (start g (dir g l c) c) n).2 : ℝ) + 1 ≤ g.h := by exact_mod_cast b4
      have d1 : (0 : ℝ) ≤ (cell (start g (dir g l c) c) n).1 * g.sx := mul_nonneg c1 hsx.le
      have d2 := mul_le_mul_of_nonneg_right c2 hsx.le
      have d3 : (0 : ℝ) ≤ (cell (start g (dir g l c) c) n).2 * g.sy := mul_nonneg c3 hsy.le
      have d4 := mul_le_mul_of_nonneg_right c4 hsy.le
      obtain ⟨z1, z2, z3, z4⟩ := hc
      have y2 : (c.1 : ℝ) + 1 ≤ g.w := by exact_mod_cast z2
      have y4 : (c.2 : ℝ) + 1 ≤ g.h := by exact_mod_cast z4
      have x2 := mul_le_mul_of_nonneg_right y2 hsx.le
      have x4 := mul_le_mul_of_nonneg_right y4 hsy.le
      apply hg
      refine ⟨⟨by dsimp only at *; linarith, ?_⟩, by dsimp only at *; linarith, ?_⟩
      · by_cases h : 0 < (dir g l c).1
        · have := hex.1 h
          dsimp only at *; linarith
        · simp only [dir, fromGrid] at h
          dsimp only; linarith
      · by_cases h : 0 < (dir g l c).2
        · have := hex.2 h
          dsimp only at *; linarith
        · simp only [dir, fromGrid] at h
          dsimp only; linarith
    refine ⟨(List.range k).map fun i => cell (start g (dir g l c) c) (i + 1), loop_some _ k _ _ hk ?_ (.inl (k2 _ (by omega))), ?_, ?_⟩
    · intro i hi
      exact ⟨k1 _ (by omega), by rw [hlp]; simp⟩
    · intro a ha
      obtain ⟨i, hi, rfl⟩ := List.mem_map.1 ha
      rw [List.mem_range] at hi
      have hin := within_iff.1 (k1 (i + 1) (by omega))
      refine ⟨hin, ?_, ?_, E (i + 1), hE.nonneg _, hle _ (by omega), hE.closed _ _ le_rfl (hE.mono (Nat.le_succ _))⟩
      · intro h
        have := cell_inj hx hy (h.trans h0.symm)
        omega
      · intro h
        have := inCell_unique hsx hsy h
        rw [this] at hin
        exact hg ((valid_iff hsx hsy _).1 hin)
    · rintro a ha hac _ ⟨t, t0, t1, ho⟩
      obtain ⟨m, rfl, m1, m2⟩ := hE.found t a t0 ho
      have hm0 : m ≠ 0 := by
        rintro rfl
        exact hac h0
      have hmn : m ≤ k := by
        by_contra h
        have := k2 m (by omega)
        rw [within_iff.2 ha] at this
        cases this
      exact List.mem_map.2 ⟨m - 1, List.mem_range.2 (by omega), by rw [Nat.sub_add_cancel (by omega)]⟩

/-! ## C101 -/

theorem norm_dir {g : Geo} {l : Light} {c : Int × Int} : norm (dir g l c) = distance (fromGrid g c) (l.x, l.y) := rfl

theorem zRel_covered {g : Geo} {h : Int × Int → ℝ} {l : Light} {c b : Int × Int} (hd : 0 < norm (dir g l c)) (hl : 0 < l.diameter) :
    zRel g h l c b = some (covered l (fromGrid g c) (h c) (fromGrid g b) (h b)) := by
  unfold zRel
  dsimp only
  rw [if_neg hd.ne']
  have e : (l.z - h c + 1 / 2 * l.diameter) / norm (dir g l c) - (l.z - h c - 1 / 2 * l.diameter) / norm (dir g l c) = l.diameter / norm (dir g l c) := by ring
  rw [e, if_neg (div_pos hl hd).ne', Option.some.injEq]
  unfold covered
  rw [← norm_dir]
  have : norm ((fromGrid g b).1 - (fromGrid g c).1, (fromGrid g b).2 - (fromGrid g c).2) = distance (fromGrid g c) (fromGrid g b) := rfl
  rw [this]
  generalize (h b - h c) / distance (fromGrid g c) (fromGrid g b) = a
  have := hd.ne'
  have := hl.ne'
  field_simp
  ring

/-- C101. Full claim: the value of a cell is the part of the light that is not covered by the cells between it and the light: 1 minus the greatest part covered by a cell that the line from the
middle of the cell to the light crosses (other than the cells at its ends).
Proved for lights with a positive diameter that are not in the row of the middle of the cell, and that are outside of the grid or inside of a cell other than this one; for a light above the middle of the cell
the value is 1.
Missing: lights in the same row (`C101_row`), in the same cell (`C101_light_cell`), on the border of cells (`C101_corner`). -/
theorem C101_illumination_partial (g : Geo) (h : Int × Int → ℝ) (l : Light) (c : Int × Int) (o : ℝ × ℝ) (hsx : 0 < g.sx) (hsy : 0 < g.sy) (hc : IsCell g c) (ho : IsMiddle g c o) :
    (0 < l.diameter → l.y ≠ o.2 → (InGrid g (l.x, l.y) → ∃ b, b ≠ c ∧ InOpen g (l.x, l.y) b) →
      ∃ cells m, Between g l c o cells ∧ IsGreatest {x | x = 0 ∨ ∃ b ∈ cells, ∃ q, IsMiddle g b q ∧ x = covered l o (h c) q (h b)} m ∧
        illumination g h l (g.w + g.h) c = some (1 - min m 1)) ∧
    ((l.x, l.y) = o → illumination g h l (g.w + g.h) c = some 1) := by
  have hf := fromGrid_middle ho
  constructor
  · intro hdia hrow hl
    have hd : (dir g l c).2 ≠ 0 := by
      simp only [dir, hf]
      exact sub_ne_zero.2 hrow
    obtain ⟨cells, e, hb⟩ := loop_between hsx hsy hc hd hl (zRel g h l c)
    rw [hf] at hb
    refine ⟨cells, _, hb, ?_, by unfold illumination; rw [e]; rfl⟩
    have hpos : 0 < norm (dir g l c) := Real.sqrt_pos.2 (by positivity)
    convert foldl_keep (zRel g h l c) cells 0 using 1
    ext x
    simp only [Set.mem_setOf_eq]
    constructor
    · rintro (rfl | ⟨b, hb, q, hq, rfl⟩)
      · exact .inl rfl
      · exact .inr ⟨b, hb, by rw [zRel_covered hpos hdia, hf, fromGrid_middle hq]⟩
    · rintro (rfl | ⟨b, hb, hx⟩)
      · exact .inl rfl
      · rw [zRel_covered hpos hdia, hf] at hx
        refine .inr ⟨b, hb, fromGrid g b, ⟨?_, ?_⟩, (Option.some.inj hx).symm⟩
        · simp only [fromGrid]; ring
        · simp only [fromGrid]; ring
  · intro hlo
    have hz : norm (dir g l c) = 0 := by
      have e1 : l.x = o.1 := congrArg Prod.fst hlo
      have e2 : l.y = o.2 := congrArg Prod.snd hlo
      simp only [norm, dir, hf, e1, e2, sub_self]
      norm_num
    have hrel : ∀ b, zRel g h l c b = none := by
      intro b
      unfold zRel
      dsimp only
      rw [if_pos hz]
    have hloop : ∀ (fuel : Nat) (s : Walk), (∃ K < fuel, (Walk.advance^[K + 1] s).within g = false) → loop g (lightPos g l) (zRel g h l c) fuel s 0 = some 0 := by
      intro fuel
      induction fuel with
      | zero => rintro s ⟨K, hK, _⟩; omega
      | succ n ih =>
        rintro s ⟨K, hK, hw⟩
        unfold loop
        by_cases h1 : s.advance.within g = true
        · rw [if_pos h1, hrel]
          by_cases h2 : lightPos g l = some (s.advance.cx, s.advance.cy)
          · rw [if_pos h2]
          · rw [if_neg h2]
            refine ih s.advance ?_
            cases K with
            | zero =>
              have hw : s.advance.within g = false := hw
              rw [h1] at hw; cases hw
            | succ K => exact ⟨K, by omega, hw⟩
        · rw [if_neg h1]
    obtain ⟨k, hk, _, k2⟩ := steps_ends (g := g) (s := start g (dir g l c) c) (sgn_or (dir g l c).1) (sgn_or (dir g l c).2) (by
      simp only [Walk.within, decide_eq_true_eq]
      exact hc)
    unfold illumination
    rw [hloop _ _ ⟨k, hk, k2 _ (by omega)⟩]
    norm_num

/-- a light in another cell, and one outside of the grid -/
example : ∃ (g : Geo) (l l' : Light) (c : Int × Int) (o : ℝ × ℝ), 0 < g.sx ∧ 0 < g.sy ∧ IsCell g c ∧ IsMiddle g c o ∧ 0 < l.diameter ∧ l.y ≠ o.2 ∧
    (∃ b, b ≠ c ∧ InOpen g (l.x, l.y) b) ∧ l'.y ≠ o.2 ∧ ¬ InGrid g (l'.x, l'.y) := by
  refine ⟨⟨1, 1, 0, 0, 10, 10⟩, ⟨51 / 5, 51 / 5 - 5, 3, 1⟩, ⟨-7, 3, 3, 1⟩, (2, 2), (5 / 2, 5 / 2), by norm_num, by norm_num, by norm_num [IsCell], by norm_num [IsMiddle], by norm_num, by norm_num,
    ⟨(10, 5), by decide, by norm_num [InOpen]⟩, by norm_num, by norm_num [InGrid]⟩

/-- the value of a cell if the loop does not meet the cell of the light -/
theorem illumination_free {g : Geo} {h : Int × Int → ℝ} {l : Light} {c : Int × Int} (hc : IsCell g c) (hfree : ∀ n, 0 < n → lightPos g l ≠ some (cell (start g (dir g l c) c) n)) :
    ∃ m, illumination g h l (g.w + g.h) c = some (1 - min m 1) ∧ 0 ≤ m ∧
      (∀ n x, 0 < n → IsCell g (cell (start g (dir g l c) c) n) → zRel g h l c (cell (start g (dir g l c) c) n) = some x → x ≤ m) ∧
      ((∀ n, 0 < n → ¬ IsCell g (cell (start g (dir g l c) c) n)) → m = 0) := by
  obtain ⟨k, hk, k1, k2⟩ := steps_ends (g := g) (s := start g (dir g l c) c) (sgn_or (dir g l c).1) (sgn_or (dir g l c).2) (by
    simp only [Walk.within, decide_eq_true_eq]
    exact hc)
  have e := loop_some (rel := zRel g h l c) (g.w + g.h) k (start g (dir g l c) c) 0 hk (fun i hi => ⟨k1 _ (by omega), hfree _ (by omega)⟩) (.inl (k2 _ (by omega)))
  obtain ⟨g1, g2⟩ := foldl_keep (zRel g h l c) ((List.range k).map fun i => cell (start g (dir g l c) c) (i + 1)) 0
  refine ⟨_, by unfold illumination; rw [e]; rfl, g2 (.inl rfl), ?_, ?_⟩
  · intro n x hn hin hx
    have hnk : n ≤ k := by
      by_contra h
      have := k2 n (by omega)
      rw [within_iff.2 hin] at this
      cases this
    exact g2 (.inr ⟨_, List.mem_map.2 ⟨n - 1, List.mem_range.2 (by omega), by rw [Nat.sub_add_cancel (by omega)]⟩, hx⟩)
  · intro hout
    cases k with
    | zero => rfl
    | succ k => exact absurd (within_iff.1 (k1 1 (by omega))) (hout 1 one_pos)

/-- C101 is violated: a light in the row of the middle of the cell. Here a wall covers the light, and the cell counts as illuminated. -/
theorem C101_row : ∃ (g : Geo) (h : Int × Int → ℝ) (l : Light) (c b : Int × Int) (o q : ℝ × ℝ), 0 < g.sx ∧ 0 < g.sy ∧ 0 < l.diameter ∧ IsCell g c ∧ IsCell g b ∧ b ≠ c ∧ IsMiddle g c o ∧ IsMiddle g b q ∧
    (∃ e, e ≠ b ∧ e ≠ c ∧ InOpen g (l.x, l.y) e) ∧ (∃ t, 0 ≤ t ∧ t ≤ 1 ∧ InOpen g (towards o l t) b) ∧ 1 ≤ covered l o (h c) q (h b) ∧ illumination g h l (g.w + g.h) c = some 1 := by
  refine ⟨⟨1, 1, 0, 0, 10, 10⟩, fun b => if b = (5, 0) then 100 else 0, ⟨19 / 2, 1 / 2, 1, 1⟩, (0, 0), (5, 0), (1 / 2, 1 / 2), (11 / 2, 1 / 2), by norm_num, by norm_num, by norm_num,
    by norm_num [IsCell], by norm_num [IsCell], by decide, by norm_num [IsMiddle], by norm_num [IsMiddle], ⟨(9, 0), by decide, by decide, by norm_num [InOpen]⟩,
    ⟨5 / 9, by norm_num, by norm_num, by norm_num [InOpen, towards]⟩, ?_, ?_⟩
  · have e1 : √(25 : ℝ) = 5 := by rw [show (25 : ℝ) = 5 ^ 2 by norm_num, Real.sqrt_sq (by norm_num)]
    have e2 : √(81 : ℝ) = 9 := by rw [show (81 : ℝ) = 9 ^ 2 by norm_num, Real.sqrt_sq (by norm_num)]
    norm_num [covered, distance]
    rw [e1, e2]
    norm_num
  · have hcell : ∀ n : Nat, cell (start ⟨1, 1, 0, 0, 10, 10⟩ (dir ⟨1, 1, 0, 0, 10, 10⟩ ⟨19 / 2, 1 / 2, 1, 1⟩ (0, 0)) (0, 0)) n = (0, -(n : Int)) := by
      intro n
      have hz : (dir ⟨1, 1, 0, 0, 10, 10⟩ ⟨19 / 2, 1 / 2, 1, 1⟩ (0, 0)).2 = 0 := by norm_num [dir, fromGrid]
      obtain ⟨a, b, _⟩ := advance_iter_nan (s := start ⟨1, 1, 0, 0, 10, 10⟩ (dir ⟨1, 1, 0, 0, 10, 10⟩ ⟨19 / 2, 1 / 2, 1, 1⟩ (0, 0)) (0, 0))
        (.inr (by simp only [start, delta, if_pos hz]; rfl)) n
      rw [cell, a, b]
      simp only [start, hz, gt_iff_lt, lt_self_iff_false, if_false]
      ext <;> push_cast <;> ring
    have hlp : lightPos ⟨1, 1, 0, 0, 10, 10⟩ ⟨19 / 2, 1 / 2, 1, 1⟩ = some (9, 0) := by
      have hg : InGrid ⟨1, 1, 0, 0, 10, 10⟩ (19 / 2, 1 / 2) := by norm_num [InGrid]
      unfold lightPos
      rw [if_pos ((valid_iff one_pos one_pos _).2 hg)]
      rw [← inCell_unique (g := ⟨1, 1, 0, 0, 10, 10⟩) (q := (19 / 2, 1 / 2)) (k := (9, 0)) one_pos one_pos (by norm_num [InCell])]
    obtain ⟨m, e, _, _, hm⟩ := illumination_free (g := ⟨1, 1, 0, 0, 10, 10⟩) (h := fun b => if b = (5, 0) then 100 else 0) (l := ⟨19 / 2, 1 / 2, 1, 1⟩) (c := (0, 0)) (by norm_num [IsCell]) (by
      intro n _
      rw [hlp, hcell]
      intro h
      have := congrArg Prod.fst (Option.some.inj h)
      simp at this)
    rw [e, hm ?_]
    · norm_num
    · intro n hn h
      rw [hcell] at h
      have := h.2.2.1
      dsimp only at this
      omega

/-- C101 is violated: for the cell of the light the line does not end at the light. There is nothing between them, but a wall behind the light makes the cell dark. -/
theorem C101_light_cell : ∃ (g : Geo) (h : Int × Int → ℝ) (l : Light) (c : Int × Int) (o : ℝ × ℝ), 0 < g.sx ∧ 0 < g.sy ∧ 0 < l.diameter ∧ IsCell g c ∧ IsMiddle g c o ∧ l.y ≠ o.2 ∧ InOpen g (l.x, l.y) c ∧
    Between g l c o [] ∧ illumination g h l (g.w + g.h) c = some 0 := by
  refine ⟨⟨1, 1, 0, 0, 10, 10⟩, fun b => if b = (5, 6) then 100 else 0, ⟨56 / 10, 57 / 10, 1, 1 / 10⟩, (5, 5), (11 / 2, 11 / 2), by norm_num, by norm_num, by norm_num, by norm_num [IsCell],
    by norm_num [IsMiddle], by norm_num, by norm_num [InOpen], ⟨by simp, ?_⟩, ?_⟩
  · rintro ⟨x, y⟩ _ hne _ ⟨t, t0, t1, ⟨h1, h2⟩, h3, h4⟩
    exfalso
    simp only [towards] at h1 h2 h3 h4
    norm_num at h1 h2 h3 h4
    apply hne
    have a1 : x < 6 := by exact_mod_cast (by linarith : (x : ℝ) < 6)
    have a2 : 4 < x := by exact_mod_cast (by linarith : (4 : ℝ) < x)
    have a3 : y < 6 := by exact_mod_cast (by linarith : (y : ℝ) < 6)
    have a4 : 4 < y := by exact_mod_cast (by linarith : (4 : ℝ) < y)
    ext <;> dsimp only <;> omega
  · have hdir : dir ⟨1, 1, 0, 0, 10, 10⟩ ⟨56 / 10, 57 / 10, 1, 1 / 10⟩ (5, 5) = (1 / 10, 1 / 5) := by norm_num [dir, fromGrid]
    have hcell : cell (start ⟨1, 1, 0, 0, 10, 10⟩ (1 / 10, 1 / 5) (5, 5)) 1 = (5, 6) := by
      rw [cell, Function.iterate_one]
      unfold Walk.advance
      rw [if_neg]
      · norm_num [start]
      · have h5 := Real.sqrt_pos.2 (show (0 : ℝ) < (1 / 10) ^ 2 + (1 / 5) ^ 2 by norm_num)
        simp only [start, delta_eq (dir := (1 / 10, 1 / 5)) (v := 1 / 10) one_pos (by norm_num), delta_eq (dir := (1 / 10, 1 / 5)) (v := 1 / 5) one_pos (by norm_num), times, Option.map_some, Less]
        rw [abs_of_pos (by norm_num), abs_of_pos (by norm_num)]
        intro h
        nlinarith
    have hlp : lightPos ⟨1, 1, 0, 0, 10, 10⟩ ⟨56 / 10, 57 / 10, 1, 1 / 10⟩ = some (5, 5) := by
      have hg : InGrid ⟨1, 1, 0, 0, 10, 10⟩ (56 / 10, 57 / 10) := by norm_num [InGrid]
      unfold lightPos
      rw [if_pos ((valid_iff one_pos one_pos _).2 hg)]
      rw [← inCell_unique (g := ⟨1, 1, 0, 0, 10, 10⟩) (q := (56 / 10, 57 / 10)) (k := (5, 5)) one_pos one_pos (by norm_num [InCell])]
    obtain ⟨m, e, _, hm, _⟩ := illumination_free (g := ⟨1, 1, 0, 0, 10, 10⟩) (h := fun b => if b = (5, 6) then 100 else 0) (l := ⟨56 / 10, 57 / 10, 1, 1 / 10⟩) (c := (5, 5)) (by norm_num [IsCell]) (by
      intro n hn
      rw [hlp]
      intro h
      have h : cell (start ⟨1, 1, 0, 0, 10, 10⟩ (dir ⟨1, 1, 0, 0, 10, 10⟩ ⟨56 / 10, 57 / 10, 1, 1 / 10⟩ (5, 5)) (5, 5)) 0 = _ := Option.some.inj h
      have := cell_inj (sgn_or _) (sgn_or _) h
      omega)
    have h1 : 1 ≤ m := by
      have hpos : 0 < norm (dir ⟨1, 1, 0, 0, 10, 10⟩ ⟨56 / 10, 57 / 10, 1, 1 / 10⟩ (5, 5)) := by
        rw [hdir]; exact Real.sqrt_pos.2 (by norm_num)
      have hn := hm 1 _ one_pos (by rw [hdir, hcell]; norm_num [IsCell]) (by rw [zRel_covered hpos (by norm_num)])
      rw [hdir, hcell] at hn
      refine le_trans ?_ hn
      have : 1 / 5 ≤ distance (fromGrid ⟨1, 1, 0, 0, 10, 10⟩ (5, 5)) (56 / 10, 57 / 10) := by
        unfold distance
        apply Real.le_sqrt_of_sq_le
        norm_num [fromGrid]
      have hdist : distance (fromGrid ⟨1, 1, 0, 0, 10, 10⟩ (5, 5)) (fromGrid ⟨1, 1, 0, 0, 10, 10⟩ (5, 6)) = 1 := by norm_num [distance, fromGrid]
      unfold covered
      rw [hdist, if_pos rfl, if_neg (by decide), le_div_iff₀ (by norm_num)]
      linarith
    rw [e, min_eq_right h1]
    norm_num

/-- C101 is violated: if the light is on a corner of its cell, the line does not end at the light. A wall behind the light, which the line does not meet before the light, makes the cell dark. -/
theorem C101_corner : ∃ (g : Geo) (h : Int × Int → ℝ) (l : Light) (c b : Int × Int) (o : ℝ × ℝ), 0 < g.sx ∧ 0 < g.sy ∧ 0 < l.diameter ∧ IsCell g c ∧ IsMiddle g c o ∧ l.y ≠ o.2 ∧
    (∃ e, e ≠ c ∧ IsCell g e ∧ InCell g (l.x, l.y) e) ∧ h b = 100 ∧ (∀ a, a ≠ b → h a = 0) ∧ (∀ t, 0 ≤ t → t ≤ 1 → ¬ InClosed g (towards o l t) b) ∧ illumination g h l (g.w + g.h) c = some 0 := by
  refine ⟨⟨1, 1, 0, 0, 10, 10⟩, fun b => if b = (6, 3) then 100 else 0, ⟨6, 5, 1, 1 / 10⟩, (5, 5), (6, 3), (11 / 2, 11 / 2), by norm_num, by norm_num, by norm_num, by norm_num [IsCell],
    by norm_num [IsMiddle], by norm_num, ⟨(6, 5), by decide, by norm_num [IsCell], by norm_num [InCell]⟩, if_pos rfl, fun a ha => if_neg ha, ?_, ?_⟩
  · rintro t t0 t1 ⟨_, _, h⟩
    simp only [towards] at h
    norm_num at h
    linarith
  · have hdir : dir ⟨1, 1, 0, 0, 10, 10⟩ ⟨6, 5, 1, 1 / 10⟩ (5, 5) = (1 / 2, -(1 / 2)) := by norm_num [dir, fromGrid]
    have hpos : 0 < norm (1 / 2, -(1 / 2)) := Real.sqrt_pos.2 (by norm_num)
    have hit := advance_iter_xy (s := start ⟨1, 1, 0, 0, 10, 10⟩ (1 / 2, -(1 / 2)) (5, 5)) (X := fun i => 1 + 2 * i) (Y := fun i => 1 + 2 * i) hpos
      (by simp only [start, delta_eq (dir := (1 / 2, -(1 / 2))) (v := 1 / 2) one_pos (by norm_num), times, Option.map_some, Option.some.injEq, norm]; norm_num; ring)
      (by simp only [start, delta_eq (dir := (1 / 2, -(1 / 2))) (v := -(1 / 2)) one_pos (by norm_num), times, Option.map_some, Option.some.injEq, norm]; norm_num; ring)
      (by
        intro i
        simp only [start, delta_eq (dir := (1 / 2, -(1 / 2))) (v := 1 / 2) one_pos (by norm_num), plus, Option.bind_some, Option.map_some, Option.some.injEq, norm]
        rw [abs_of_pos (by norm_num)]
        push_cast; ring)
      (by
        intro i
        simp only [start, delta_eq (dir := (1 / 2, -(1 / 2))) (v := -(1 / 2)) one_pos (by norm_num), plus, Option.bind_some, Option.map_some, Option.some.injEq, norm]
        rw [abs_of_neg (by norm_num)]
        push_cast; ring)
    have c1 : count (fun i : Nat => 1 + 2 * (i : ℝ)) (fun i : Nat => 1 + 2 * (i : ℝ)) 1 = (0, 1) := by
      rw [count, if_neg (by norm_num [count])]; rfl
    have c2 : count (fun i : Nat => 1 + 2 * (i : ℝ)) (fun i : Nat => 1 + 2 * (i : ℝ)) 2 = (1, 1) := by
      rw [count, c1, if_pos (by norm_num)]
    have c3 : count (fun i : Nat => 1 + 2 * (i : ℝ)) (fun i : Nat => 1 + 2 * (i : ℝ)) 3 = (1, 2) := by
      rw [count, c2, if_neg (by norm_num)]
    have hc1 : cell (start ⟨1, 1, 0, 0, 10, 10⟩ (1 / 2, -(1 / 2)) (5, 5)) 1 = (5, 4) := by
      rw [cell, hit, c1]; norm_num [start]
    have hc3 : cell (start ⟨1, 1, 0, 0, 10, 10⟩ (1 / 2, -(1 / 2)) (5, 5)) 3 = (6, 3) := by
      rw [cell, hit, c3]; norm_num [start]
    have hlp : lightPos ⟨1, 1, 0, 0, 10, 10⟩ ⟨6, 5, 1, 1 / 10⟩ = some (6, 5) := by
      have hg : InGrid ⟨1, 1, 0, 0, 10, 10⟩ (6, 5) := by norm_num [InGrid]
      unfold lightPos
      rw [if_pos ((valid_iff one_pos one_pos _).2 hg)]
      rw [← inCell_unique (g := ⟨1, 1, 0, 0, 10, 10⟩) (q := (6, 5)) (k := (6, 5)) one_pos one_pos (by norm_num [InCell])]
    obtain ⟨m, e, _, hm, _⟩ := illumination_free (g := ⟨1, 1, 0, 0, 10, 10⟩) (h := fun b => if b = (6, 3) then 100 else 0) (l := ⟨6, 5, 1, 1 / 10⟩) (c := (5, 5)) (by norm_num [IsCell]) (by
      intro n hn
      rw [hlp, hdir]
      intro h
      have h := Option.some.inj h
      obtain ⟨i, j, hij, h1, h2, _⟩ := advance_iter_any (start ⟨1, 1, 0, 0, 10, 10⟩ (1 / 2, -(1 / 2)) (5, 5)) n
      simp only [cell, Prod.mk.injEq] at h
      rw [h1, h2] at h
      have s1 : (start ⟨1, 1, 0, 0, 10, 10⟩ (1 / 2, -(1 / 2)) (5, 5)).stepx = 1 := by norm_num [start]
      have s2 : (start ⟨1, 1, 0, 0, 10, 10⟩ (1 / 2, -(1 / 2)) (5, 5)).stepy = -1 := by norm_num [start]
      rw [s1, s2] at h
      simp only [start] at h
      have hn1 : n = 1 := by omega
      subst hn1
      simp only [cell, Prod.mk.injEq] at hc1
      rw [h1, h2, s1, s2] at hc1
      simp only [start] at hc1
      omega)
    have h1 : 1 ≤ m := by
      have hn := hm 3 _ (by norm_num) (by rw [hdir, hc3]; norm_num [IsCell]) (by rw [zRel_covered (by rw [hdir]; exact hpos) (by norm_num)])
      rw [hdir, hc3] at hn
      refine le_trans ?_ hn
      have h1 : 1 / 2 ≤ distance (fromGrid ⟨1, 1, 0, 0, 10, 10⟩ (5, 5)) (6, 5) := by
        unfold distance
        apply Real.le_sqrt_of_sq_le
        norm_num [fromGrid]
      have h2 : distance (fromGrid ⟨1, 1, 0, 0, 10, 10⟩ (5, 5)) (fromGrid ⟨1, 1, 0, 0, 10, 10⟩ (6, 3)) ≤ 3 := by
        unfold distance
        apply Real.sqrt_le_iff.2
        norm_num [fromGrid]
      have h3 : 0 < distance (fromGrid ⟨1, 1, 0, 0, 10, 10⟩ (5, 5)) (fromGrid ⟨1, 1, 0, 0, 10, 10⟩ (6, 3)) := Real.sqrt_pos.2 (by norm_num [fromGrid])
      have h4 : (100 : ℝ) / 3 ≤ 100 / distance (fromGrid ⟨1, 1, 0, 0, 10, 10⟩ (5, 5)) (fromGrid ⟨1, 1, 0, 0, 10, 10⟩ (6, 3)) := div_le_div_of_nonneg_left (by norm_num) h3 h2
      unfold covered
      rw [if_pos rfl, if_neg (by decide), le_div_iff₀ (by norm_num), sub_zero]
      nlinarith
    rw [e, min_eq_right h1]
    norm_num

#print axioms C101_illumination_partial
#print axioms C101_row
#print axioms C101_light_cell
#print axioms C101_corner

end Envire.Illumination
