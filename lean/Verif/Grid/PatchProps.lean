import Verif.Grid.PatchModel
import Mathlib.Tactic.FieldSimp
import Mathlib.Tactic.Linarith
import Mathlib.Tactic.Positivity
import Mathlib.Tactic.Ring
import Mathlib.Tactic.NormNum
import Mathlib.Algebra.BigOperators.Group.List.Basic
/-! Properties C37, C38, C39, C51 to C54: merging of surface patches. -/
namespace Envire.Patch

noncomputable section

/-! ### C37 -/

theorem kalman_pos {m s m' s' : ℝ} (h : 0 < s ∨ 0 < s') (hs : 0 ≤ s) (hs' : 0 ≤ s') :
    kalman m s m' s' = ((m * s' ^ 2 + m' * s ^ 2) / (s ^ 2 + s' ^ 2), √(s ^ 2 * s' ^ 2 / (s ^ 2 + s' ^ 2))) := by
  have hp : 0 < s ^ 2 + s' ^ 2 := by rcases h with h | h <;> positivity
  have hne : s * s + s' * s' ≠ 0 := by nlinarith
  have hne' : s ^ 2 + s' ^ 2 ≠ 0 := ne_of_gt hp
  unfold kalman
  simp only [if_neg hne]
  have e : s * s + s' * s' = s ^ 2 + s' ^ 2 := by ring
  rw [e]
  refine Prod.ext ?_ ?_
  · dsimp only
    field_simp
    ring
  · dsimp only
    congr 1
    field_simp
    ring

/-- the information carried by measurements: sum of 1/s² and of m/s² -/
def info (l : List (ℝ × ℝ)) : ℝ × ℝ := ((l.map fun x => 1 / x.2 ^ 2).sum, (l.map fun x => x.1 / x.2 ^ 2).sum)

/-- merging measurements one after the other -/
def fuse : List (ℝ × ℝ) → ℝ × ℝ
  | [] => (0, 0)
  | x :: l => l.foldl (fun e y => kalman e.1 e.2 y.1 y.2) x

theorem fuse_info (l : List (ℝ × ℝ)) (hl : ∀ y ∈ l, 0 < y.2) : ∀ (x : ℝ × ℝ), 0 < x.2 →
    0 < (l.foldl (fun e y => kalman e.1 e.2 y.1 y.2) x).2 ∧
    1 / (l.foldl (fun e y => kalman e.1 e.2 y.1 y.2) x).2 ^ 2 = (info (x :: l)).1 ∧
    (l.foldl (fun e y => kalman e.1 e.2 y.1 y.2) x).1 / (l.foldl (fun e y => kalman e.1 e.2 y.1 y.2) x).2 ^ 2 = (info (x :: l)).2 := by
  induction l with
  | nil => intro x hx; simp [info, hx]
  | cons y l ih =>
    intro x hx
    have hy := hl y (by simp)
    have hk := kalman_pos (m := x.1) (m' := y.1) (Or.inl hx) hx.le hy.le
    have hp : 0 < x.2 ^ 2 * y.2 ^ 2 / (x.2 ^ 2 + y.2 ^ 2) := by positivity
    have hk2 : 0 < (kalman x.1 x.2 y.1 y.2).2 := by rw [hk]; exact Real.sqrt_pos.2 hp
    obtain ⟨h1, h2, h3⟩ := ih (fun z hz => hl z (List.mem_cons_of_mem _ hz)) (kalman x.1 x.2 y.1 y.2) hk2
    rw [List.foldl_cons]
    refine ⟨h1, h2.trans ?_, h3.trans ?_⟩
    · simp only [info, List.map_cons, List.sum_cons]
      rw [← add_assoc]
      congr 1
      rw [hk]
      dsimp only
      rw [Real.sq_sqrt hp.le]
      field_simp
      ring
    · simp only [info, List.map_cons, List.sum_cons]
      rw [← add_assoc]
      congr 1
      rw [hk]
      dsimp only
      rw [Real.sq_sqrt hp.le]
      field_simp

/-- **C37** The merge of two height estimates: mean between the two, variance at most the smaller one, symmetric; merging any number
of measurements gives the inverse variance weighted mean, in any order. -/
theorem C37_kalman_fusion :
    (∀ m s m' s', 0 ≤ s → 0 ≤ s' →
      min m m' ≤ (kalman m s m' s').1 ∧ (kalman m s m' s').1 ≤ max m m' ∧ 0 ≤ (kalman m s m' s').2 ∧ (kalman m s m' s').2 ≤ min s s' ∧
      kalman m s m' s' = kalman m' s' m s) ∧
    (∀ l : List (ℝ × ℝ), l ≠ [] → (∀ x ∈ l, 0 < x.2) →
      (fuse l).1 = (l.map fun x => x.1 / x.2 ^ 2).sum / (l.map fun x => 1 / x.2 ^ 2).sum ∧ (fuse l).2 ^ 2 = 1 / (l.map fun x => 1 / x.2 ^ 2).sum) ∧
    (∀ l l' : List (ℝ × ℝ), l.Perm l' → (∀ x ∈ l, 0 < x.2) → fuse l = fuse l') := by
  have hfuse : ∀ l : List (ℝ × ℝ), l ≠ [] → (∀ x ∈ l, 0 < x.2) → 0 < (fuse l).2 ∧ 1 / (fuse l).2 ^ 2 = (info l).1 ∧ (fuse l).1 / (fuse l).2 ^ 2 = (info l).2 := by
    intro l hne hl
    cases l with
    | nil => exact absurd rfl hne
    | cons x l => exact fuse_info l (fun y hy => hl y (List.mem_cons_of_mem _ hy)) x (hl x (by simp))
  refine ⟨?_, ?_, ?_⟩
  · intro m s m' s' hs hs'
    by_cases h : 0 < s ∨ 0 < s'
    · have hp : 0 < s ^ 2 + s' ^ 2 := by rcases h with h | h <;> positivity
      rw [kalman_pos h hs hs', kalman_pos h.symm hs' hs]
      have e2 : (m * s' ^ 2 + m' * s ^ 2) / (s ^ 2 + s' ^ 2) = (m' * s ^ 2 + m * s' ^ 2) / (s' ^ 2 + s ^ 2) := by rw [add_comm (s ^ 2), add_comm (m * _)]
      have e3 : s ^ 2 * s' ^ 2 / (s ^ 2 + s' ^ 2) = s' ^ 2 * s ^ 2 / (s' ^ 2 + s ^ 2) := by rw [add_comm (s ^ 2), mul_comm (s ^ 2)]
      refine ⟨?_, ?_, Real.sqrt_nonneg _, ?_, by rw [e2, e3]⟩
      · dsimp only
        rw [le_div_iff₀ hp]
        have h1 : min m m' * s' ^ 2 ≤ m * s' ^ 2 := mul_le_mul_of_nonneg_right (min_le_left _ _) (sq_nonneg _)
        have h2 : min m m' * s ^ 2 ≤ m' * s ^ 2 := mul_le_mul_of_nonneg_right (min_le_right _ _) (sq_nonneg _)
        linarith
      · dsimp only
        rw [div_le_iff₀ hp]
        have h1 : m * s' ^ 2 ≤ max m m' * s' ^ 2 := mul_le_mul_of_nonneg_right (le_max_left _ _) (sq_nonneg _)
        have h2 : m' * s ^ 2 ≤ max m m' * s ^ 2 := mul_le_mul_of_nonneg_right (le_max_right _ _) (sq_nonneg _)
        linarith
      · dsimp only
        apply le_min
        · rw [Real.sqrt_le_left hs, div_le_iff₀ hp]
          nlinarith [sq_nonneg (s * s), sq_nonneg (s * s')]
        · rw [Real.sqrt_le_left hs', div_le_iff₀ hp]
          nlinarith [sq_nonneg (s' * s'), sq_nonneg (s * s')]
    · simp only [not_or, not_lt] at h
      obtain rfl : s = 0 := le_antisymm h.1 hs
      obtain rfl : s' = 0 := le_antisymm h.2 hs'
      have : ∀ a b : ℝ, kalman a 0 b 0 = ((a + b) / 2, 0) := by
        intro a b
        unfold kalman
        simp
        ring
      rw [this, this]
      refine ⟨?_, ?_, le_refl _, by simp, by rw [add_comm]⟩
      · dsimp only
        rcases min_le_iff.1 (le_refl (min m m')) with h | h <;> linarith [min_le_left m m', min_le_right m m']
      · dsimp only
        linarith [le_max_left m m', le_max_right m m']
  · intro l hne hl
    obtain ⟨h1, h2, h3⟩ := hfuse l hne hl
    unfold info at h2 h3
    dsimp only at h2 h3
    rw [← h2, ← h3]
    constructor
    · field_simp
    · field_simp
  · intro l l' hp hl
    by_cases hne : l = []
    · subst hne
      rw [List.nil_perm.1 hp]
    · have hne' : l' ≠ [] := fun h => hne (by rw [h] at hp; exact List.perm_nil.1 hp)
      obtain ⟨h1, h2, h3⟩ := hfuse l hne hl
      obtain ⟨h1', h2', h3'⟩ := hfuse l' hne' (fun x hx => hl x (hp.mem_iff.2 hx))
      have hi : info l = info l' := by
        unfold info
        rw [(hp.map _).sum_eq, (hp.map _).sum_eq]
      rw [hi] at h2 h3
      have hs : (fuse l).2 ^ 2 = (fuse l').2 ^ 2 := by
        have := h2.trans h2'.symm
        field_simp at this
        exact this.symm
      have hs2 : (fuse l).2 = (fuse l').2 := by
        have := (sq_eq_sq₀ h1.le h1'.le).1 hs
        exact this
      have hm : (fuse l).1 = (fuse l').1 := by
        have := h3.trans h3'.symm
        rw [hs2] at this
        have hne2 : (fuse l').2 ^ 2 ≠ 0 := by positivity
        exact (div_left_inj' hne2).1 this
      exact Prod.ext hm hs2

/-- measurements 1±1, 3±1, 2±2 -/
example : (∀ x ∈ [((1 : ℝ), (1 : ℝ)), (3, 1), (2, 2)], 0 < x.2) ∧ (fuse [((1 : ℝ), (1 : ℝ)), (3, 1)]).1 = 2 := by
  constructor
  · intro x hx
    simp only [List.mem_cons, List.not_mem_nil, or_false] at hx
    rcases hx with rfl | rfl | rfl <;> norm_num
  · norm_num [fuse, kalman]

/-! ### C38 -/

/-- the lower end of the interval of a patch -/
def Patch.bottom (p : Patch) : ℝ := p.mean - p.height

theorem extend_hull (p o : Patch) : (p.extend o).mean = max p.mean o.mean ∧ (p.extend o).bottom = min p.bottom o.bottom ∧ (p.extend o).kind = p.kind := by
  unfold Patch.extend Patch.bottom
  by_cases h1 : o.mean > p.mean
  · simp only [h1, if_true]
    by_cases h2 : o.mean - o.height < o.mean - (p.height + (o.mean - p.mean))
    · simp only [h2, if_true]
      refine ⟨(max_eq_right h1.le).symm, ?_, trivial⟩
      rw [min_eq_right (by linarith)]
      ring
    · simp only [h2, if_false]
      refine ⟨(max_eq_right h1.le).symm, ?_, trivial⟩
      rw [min_eq_left (by linarith)]
      ring
  · simp only [h1, if_false]
    have h1' : o.mean ≤ p.mean := not_lt.1 h1
    by_cases h2 : o.mean - o.height < p.mean - p.height
    · simp only [h2, if_true]
      refine ⟨(max_eq_left h1').symm, ?_, trivial⟩
      rw [min_eq_right h2.le]
      ring
    · simp only [h2, if_false]
      refine ⟨(max_eq_left h1').symm, ?_, trivial⟩
      rw [min_eq_left (not_lt.1 h2)]

/-- **C38** Merging of occupied patches: if it succeeds with a vertical patch then the interval of that patch is the smallest one that
contains both; if it fails then nothing has changed; the other patch never changes. -/
theorem C38_merge_keeps_height (p o : Patch) (thickness gap : ℝ) (hp : p.kind ≠ .negative) (ho : o.kind ≠ .negative) :
    let r := p.mergeMLS o thickness gap
    (r.1 = true → r.2.1.kind = .vertical → r.2.1.mean = max p.mean o.mean ∧ r.2.1.bottom = min p.bottom o.bottom) ∧
    (r.1 = false → r.2 = (p, o)) ∧ r.2.2 = o ∧ r.2.1.kind ≠ .negative ∧
    (r.1 = true → (p.kind = .vertical ∨ o.kind = .vertical) → r.2.1.kind = .vertical) := by
  unfold Patch.mergeMLS
  dsimp only
  generalize √(p.stdev * p.stdev + o.stdev * o.stdev) = dd
  by_cases hnear : p.mean - p.height - gap - dd < o.mean ∧ p.mean + gap + dd > o.mean - o.height
  · rw [if_pos hnear]
    by_cases hh : p.kind = .horizontal ∧ o.kind = .horizontal
    · rw [if_pos hh]
      by_cases ht : p.mean - p.height - thickness - dd < o.mean ∧ p.mean + thickness + dd > o.mean
      · rw [if_pos ht]
        rw [if_neg (by simp [hh])]
        refine ⟨fun _ hk => ?_, fun h => by simp at h, rfl, hp, fun _ h => ?_⟩
        · dsimp only at hk
          rw [hh.1] at hk
          cases hk
        · rw [hh.1, hh.2] at h
          rcases h with h | h <;> cases h
      · rw [if_neg ht]
        rw [if_pos (by simp), if_neg (by simp), if_neg (by simp), if_neg (by simp [hh])]
        obtain ⟨h1, h2, h3⟩ := extend_hull { p with kind := .vertical } o
        exact ⟨fun _ _ => ⟨h1, h2⟩, fun h => by simp at h, rfl, by dsimp only; rw [h3]; simp, fun _ _ => h3⟩
    · rw [if_neg hh]
      have hne : p.kind ≠ .horizontal ∨ o.kind ≠ .horizontal := by
        by_cases h : p.kind = .horizontal
        · exact Or.inr (fun h' => hh ⟨h, h'⟩)
        · exact Or.inl h
      rw [if_pos hne]
      by_cases hc : p.kind = .horizontal ∧ o.kind = .vertical
      · rw [if_pos hc]
        obtain ⟨h1, h2, h3⟩ := extend_hull { p with kind := .vertical } o
        exact ⟨fun _ _ => ⟨h1, h2⟩, fun h => by simp at h, rfl, by dsimp only; rw [h3]; simp, fun _ _ => h3⟩
      · rw [if_neg hc, if_neg (by simp [hp]), if_neg (by simp [hp, ho])]
        obtain ⟨h1, h2, h3⟩ := extend_hull p o
        have hpv : p.kind = .vertical := by
          cases hk : p.kind with
          | vertical => rfl
          | negative => exact absurd hk hp
          | horizontal =>
            cases hk' : o.kind with
            | vertical => exact absurd ⟨hk, hk'⟩ hc
            | negative => exact absurd hk' ho
            | horizontal => exact absurd ⟨hk, hk'⟩ hh
        refine ⟨fun _ _ => ⟨h1, h2⟩, fun h => by simp at h, rfl, by dsimp only; rw [h3]; exact hp, fun _ _ => h3.trans hpv⟩
  · rw [if_neg hnear]
    exact ⟨fun h => by simp at h, fun _ => rfl, rfl, hp, fun h => by simp at h⟩

/-- the distance test of mergeMLS -/
def Near (p o : Patch) (gap : ℝ) : Prop :=
  p.mean - p.height - gap - √(p.stdev * p.stdev + o.stdev * o.stdev) < o.mean ∧ p.mean + gap + √(p.stdev * p.stdev + o.stdev * o.stdev) > o.mean - o.height

/-- the test for the same surface -/
def Same (p o : Patch) (thickness : ℝ) : Prop :=
  p.mean - p.height - thickness - √(p.stdev * p.stdev + o.stdev * o.stdev) < o.mean ∧ p.mean + thickness + √(p.stdev * p.stdev + o.stdev * o.stdev) > o.mean

theorem mergeMLS_far {p o : Patch} {thickness gap : ℝ} (h : ¬ Near p o gap) : p.mergeMLS o thickness gap = (false, p, o) := by
  unfold Patch.mergeMLS
  dsimp only
  exact if_neg h

theorem mergeMLS_same {p o : Patch} {thickness gap : ℝ} (h : Near p o gap) (hp : p.kind = .horizontal) (ho : o.kind = .horizontal) (hs : Same p o thickness) :
    p.mergeMLS o thickness gap =
      (true, { p with mean := (kalman p.mean p.stdev o.mean o.stdev).1, stdev := (kalman p.mean p.stdev o.mean o.stdev).2, n := p.n + o.n }, o) := by
  unfold Patch.mergeMLS
  dsimp only
  refine (if_pos h).trans ?_
  simp only [if_pos (And.intro hp ho)]
  rw [if_pos (show _ ∧ _ from hs)]
  rw [if_neg (by simp [hp, ho])]

theorem mergeMLS_wall {p o : Patch} {thickness gap : ℝ} (h : Near p o gap) (hp : p.kind = .horizontal) (ho : o.kind = .horizontal) (hs : ¬ Same p o thickness) :
    p.mergeMLS o thickness gap = (true, Patch.extend { p with kind := .vertical } o, o) := by
  unfold Patch.mergeMLS
  dsimp only
  refine (if_pos h).trans ?_
  simp only [if_pos (And.intro hp ho)]
  rw [if_neg (show ¬ (_ ∧ _) from hs)]
  rw [if_pos (by simp), if_neg (by simp), if_neg (by simp), if_neg (by simp [ho])]

theorem mergeMLS_cut {p o : Patch} {thickness gap : ℝ} (h : Near p o gap) (hp : p.kind = .vertical) (ho : o.kind = .negative) (hi : p.updateIdx < o.updateIdx)
    (hc : ¬ (o.mean > p.mean ∧ o.mean - o.height < p.mean - p.height)) : p.mergeMLS o thickness gap = (false, p.cut o, o) := by
  unfold Patch.mergeMLS
  dsimp only
  refine (if_pos h).trans ?_
  simp only [if_neg (show ¬ (p.kind = .horizontal ∧ o.kind = .horizontal) by simp [hp])]
  rw [if_pos (by simp [hp]), if_neg (by simp [hp]), if_neg (by simp [hp]), if_pos (by simp [ho]), if_neg (Nat.ne_of_lt hi), if_pos hi, if_neg hc]

/-- two surfaces half a metre apart become a wall, with the default configuration -/
example : (Patch.make 1 (1 / 100)).kind ≠ .negative ∧ ((Patch.make 1 (1 / 100)).mergeMLS (Patch.make (3 / 2) (1 / 100)) (1 / 20) 1).1 = true ∧
    ((Patch.make 1 (1 / 100)).mergeMLS (Patch.make (3 / 2) (1 / 100)) (1 / 20) 1).2.1.kind = .vertical := by
  have hd : √((1 / 100 : ℝ) * (1 / 100) + 1 / 100 * (1 / 100)) < 1 / 20 := by
    rw [Real.sqrt_lt' (by norm_num)]
    norm_num
  have hd0 : 0 ≤ √((1 / 100 : ℝ) * (1 / 100) + 1 / 100 * (1 / 100)) := Real.sqrt_nonneg _
  refine ⟨by simp [Patch.make], ?_⟩
  have hn : Near (Patch.make 1 (1 / 100)) (Patch.make (3 / 2) (1 / 100)) 1 := by
    unfold Near Patch.make
    dsimp only
    constructor <;> linarith
  have hs : ¬ Same (Patch.make 1 (1 / 100)) (Patch.make (3 / 2) (1 / 100)) (1 / 20) := by
    unfold Same Patch.make
    dsimp only
    intro h
    linarith [h.2]
  rw [mergeMLS_wall hn rfl rfl hs]
  exact ⟨rfl, (extend_hull _ _).2.2⟩

/-! ### C39 -/

/-- **C39, what is true**: the exact meaning of the test: the open intervals have a common point and the second does not contain the
first. Missing for the full claim: that case (`C39_overlap_misses_containment`). -/
theorem C39_overlap_partial (a1 a2 b1 b2 : ℝ) (ha : a1 < a2) (hb : b1 < b2) :
    overlap a1 a2 b1 b2 ↔ (∃ z, a1 < z ∧ z < a2 ∧ b1 < z ∧ z < b2) ∧ ¬ (b1 ≤ a1 ∧ a2 ≤ b2) := by
  unfold overlap
  constructor
  · rintro (⟨h1, h2⟩ | ⟨h1, h2⟩)
    · refine ⟨⟨(max a1 b1 + b2) / 2, ?_, ?_, ?_, ?_⟩, fun h => by linarith [h.2]⟩
      · linarith [le_max_left a1 b1]
      · have := max_lt h1 hb
        linarith
      · linarith [le_max_right a1 b1]
      · have := max_lt h1 hb
        linarith
    · refine ⟨⟨(b1 + min a2 b2) / 2, ?_, ?_, ?_, ?_⟩, fun h => by linarith [h.1]⟩
      · have := lt_min h2 hb
        linarith
      · linarith [min_le_left a2 b2]
      · have := lt_min h2 hb
        linarith
      · linarith [min_le_right a2 b2]
  · rintro ⟨⟨z, h1, h2, h3, h4⟩, hn⟩
    by_cases hb1 : a1 < b1
    · exact Or.inr ⟨hb1, by linarith⟩
    · refine Or.inl ⟨by linarith, ?_⟩
      by_contra hc
      exact hn ⟨by linarith, by linarith⟩

/-- **C39, the code violates the property**: an interval inside of another one, and two equal intervals -/
theorem C39_overlap_misses_containment : ¬ overlap 1 2 0 3 ∧ ¬ overlap 0 1 0 1 ∧ overlap 0 3 1 2 := by
  unfold overlap
  refine ⟨?_, ?_, ?_⟩ <;> norm_num

/-- **C39, consequence**: with the SUM model a patch whose interval, extended by the gap size, lies inside of the interval of the other patch is
not merged with it. -/
theorem C39_contained_not_merged (p o : Patch) (thickness gap : ℝ) (h1 : o.min ≤ p.min - gap) (h2 : p.max + gap ≤ o.max) (hp : p.min ≤ p.max) (hg : 0 ≤ gap) :
    p.merge .sum thickness gap o = (false, p, o) := by
  have : ¬ overlap (p.min - gap) (p.max + gap) o.min o.max := by
    rintro (⟨_, h⟩ | ⟨h, _⟩) <;> linarith
  unfold Patch.merge Patch.mergeSum
  dsimp only
  rw [if_neg this]
  rfl

/-- a patch at height 2 and one that holds measurements between 0 and 4, gap size 1 -/
example : let p := Patch.make 2 1
    let o := { Patch.make 2 1 with min := 0, max := 4 }
    o.min ≤ p.min - 1 ∧ p.max + 1 ≤ o.max ∧ p.min ≤ p.max := by
  norm_num [Patch.make]

/-- **C38, free space** Merging of two patches of free space: if it succeeds the result is free space and its interval is the smallest one
that contains both; if it fails nothing has changed. -/
theorem C38_free_space (p o : Patch) (thickness gap : ℝ) (hp : p.kind = .negative) (ho : o.kind = .negative) :
    let r := p.mergeMLS o thickness gap
    (r.1 = true → r.2.1.kind = .negative ∧ r.2.1.mean = max p.mean o.mean ∧ r.2.1.bottom = min p.bottom o.bottom) ∧
    (r.1 = false → r.2 = (p, o)) ∧ r.2.2 = o := by
  unfold Patch.mergeMLS
  dsimp only
  generalize √(p.stdev * p.stdev + o.stdev * o.stdev) = dd
  by_cases hnear : p.mean - p.height - gap - dd < o.mean ∧ p.mean + gap + dd > o.mean - o.height
  · have hh : ¬ (p.kind = .horizontal ∧ o.kind = .horizontal) := by rw [hp]; simp
    have h2 : p.kind ≠ .horizontal ∨ o.kind ≠ .horizontal := Or.inl (by rw [hp]; simp)
    have h3 : ¬ (p.kind = .horizontal ∧ o.kind = .vertical) := by rw [hp]; simp
    rw [if_pos hnear, if_neg hh, if_pos h2, if_neg h3, if_pos ⟨hp, ho⟩]
    obtain ⟨h1, h2, h3⟩ := extend_hull p o
    exact ⟨fun _ => ⟨h3.trans hp, h1, h2⟩, fun h => (by cases h), rfl⟩
  · rw [if_neg hnear]
    exact ⟨fun h => (by cases h), fun _ => rfl, rfl⟩

/-- mergeMLS after the case of two horizontal patches -/
private def mergeRest (p1 o : Patch) : Bool × Patch × Patch :=
  if p1.kind ≠ .horizontal ∨ o.kind ≠ .horizontal then
    if p1.kind = .horizontal ∧ o.kind = .vertical then (true, Patch.extend { p1 with kind := .vertical } o, o)
    else if p1.kind = .negative ∧ o.kind = .negative then (true, p1.extend o, o)
    else if p1.kind = .negative ∨ o.kind = .negative then
      if p1.updateIdx = o.updateIdx then (false, p1, o)
      else if p1.updateIdx < o.updateIdx then
        if o.mean > p1.mean ∧ o.mean - o.height < p1.mean - p1.height then (true, o, o) else (false, p1.cut o, o)
      else
        if p1.mean > o.mean ∧ p1.mean - p1.height < o.mean - o.height then (true, p1, o) else (false, p1, o.cut p1)
    else (true, p1.extend o, o)
  else (true, { p1 with n := p1.n + o.n }, o)

private lemma extend_updateIdx (a b : Patch) : (a.extend b).updateIdx = a.updateIdx := by
  unfold Patch.extend
  dsimp only
  split <;> split <;> rfl

private lemma mergeRest_idx (p1 o : Patch) (h : (mergeRest p1 o).1 = true) :
    max (mergeRest p1 o).2.1.updateIdx (mergeRest p1 o).2.2.updateIdx = max p1.updateIdx o.updateIdx := by
  unfold mergeRest at h ⊢
  by_cases h2 : p1.kind ≠ .horizontal ∨ o.kind ≠ .horizontal
  · rw [if_pos h2] at h ⊢
    by_cases h3 : p1.kind = .horizontal ∧ o.kind = .vertical
    · rw [if_pos h3]
      dsimp only
      rw [extend_updateIdx]
    · rw [if_neg h3] at h ⊢
      by_cases h4 : p1.kind = .negative ∧ o.kind = .negative
      · rw [if_pos h4]
        dsimp only
        rw [extend_updateIdx]
      · rw [if_neg h4] at h ⊢
        by_cases h5 : p1.kind = .negative ∨ o.kind = .negative
        · rw [if_pos h5] at h ⊢
          by_cases h6 : p1.updateIdx = o.updateIdx
          · rw [if_pos h6] at h
            cases h
          · rw [if_neg h6] at h ⊢
            by_cases h7 : p1.updateIdx < o.updateIdx
            · rw [if_pos h7] at h ⊢
              by_cases h8 : o.mean > p1.mean ∧ o.mean - o.height < p1.mean - p1.height
              · rw [if_pos h8]
                dsimp only
                rw [max_self, max_eq_right h7.le]
              · rw [if_neg h8] at h
                cases h
            · rw [if_neg h7] at h ⊢
              by_cases h8 : p1.mean > o.mean ∧ p1.mean - p1.height < o.mean - o.height
              · rw [if_pos h8]
              · rw [if_neg h8] at h
                cases h
        · rw [if_neg h5]
          dsimp only
          rw [extend_updateIdx]
  · rw [if_neg h2]

private lemma mergeMLS_idx (p o : Patch) (thickness gap : ℝ) (h : (p.mergeMLS o thickness gap).1 = true) :
    max (p.mergeMLS o thickness gap).2.1.updateIdx (p.mergeMLS o thickness gap).2.2.updateIdx = max p.updateIdx o.updateIdx := by
  have he : p.mergeMLS o thickness gap = if p.mean - p.height - gap - √(p.stdev * p.stdev + o.stdev * o.stdev) < o.mean ∧
      p.mean + gap + √(p.stdev * p.stdev + o.stdev * o.stdev) > o.mean - o.height then
      mergeRest (if p.kind = .horizontal ∧ o.kind = .horizontal then
        if p.mean - p.height - thickness - √(p.stdev * p.stdev + o.stdev * o.stdev) < o.mean ∧
            p.mean + thickness + √(p.stdev * p.stdev + o.stdev * o.stdev) > o.mean then
          { p with mean := (kalman p.mean p.stdev o.mean o.stdev).1, stdev := (kalman p.mean p.stdev o.mean o.stdev).2 }
        else { p with kind := .vertical }
      else p) o else (false, p, o) := rfl
  rw [he] at h ⊢
  split at h
  · rename_i hnear
    rw [if_pos hnear, mergeRest_idx _ _ h]
    congr 1
    split
    · split <;> rfl
    · rfl
  · cases h

/-- **C38, age** A merged patch is as new as the newer one of the two, for both models. -/
theorem C38_update_index (m : Model) (p o : Patch) (thickness gap : ℝ) (h : (p.merge m thickness gap o).1 = true) :
    (p.merge m thickness gap o).2.1.updateIdx = max p.updateIdx o.updateIdx := by
  cases m with
  | sum =>
    unfold Patch.merge at h ⊢
    dsimp only at h ⊢
    unfold Patch.mergeSum at h ⊢
    by_cases hov : overlap (p.min - gap) (p.max + gap) o.min o.max
    · rw [if_pos hov]
      rfl
    · rw [if_neg hov] at h
      cases h
  | kalman =>
    unfold Patch.merge at h ⊢
    dsimp only at h ⊢
    cases hr : (p.mergeMLS o thickness gap).1 with
    | false => rw [hr] at h; simp at h; rw [hr] at h; cases h
    | true =>
      rw [if_pos rfl]
      exact mergeMLS_idx p o thickness gap hr

/-- two patches of free space that touch, the second newer -/
example : let p := Patch.make 2 1 1 .negative
    let o := { Patch.make 3 1 (3 / 2) .negative with updateIdx := 4 }
    (p.merge .kalman 1 0 o).1 = true ∧ (p.merge .kalman 1 0 o).2.1.updateIdx = 4 := by
  dsimp only
  have h : ((Patch.make 2 1 1 .negative).merge .kalman 1 0 { Patch.make 3 1 (3 / 2) .negative with updateIdx := 4 }).1 = true := by
    unfold Patch.merge Patch.mergeMLS
    dsimp only
    have hs := Real.sqrt_nonneg ((1 : ℝ) * 1 + 1 * 1)
    have hn : (2 : ℝ) - 1 - 0 - √(1 * 1 + 1 * 1) < 3 ∧ (2 : ℝ) + 0 + √(1 * 1 + 1 * 1) > 3 - 3 / 2 := by
      generalize √((1 : ℝ) * 1 + 1 * 1) = d at hs ⊢
      constructor <;> linarith
    simp only [Patch.make]
    rw [if_pos hn]
    simp
  exact ⟨h, (C38_update_index .kalman _ _ 1 0 h).trans rfl⟩

/-! ### C51: sums -/

/-- the patch holds the measurements l -/
structure Holds (p : Patch) (l : List (ℝ × ℝ)) : Prop where
  n : p.planeN = (l.map fun x => 1 / x.2 ^ 2).sum
  z : p.planeZ = (l.map fun x => x.1 / x.2 ^ 2).sum
  zz : p.planeZZ = (l.map fun x => x.1 ^ 2 / x.2 ^ 2).sum
  normsq : p.normsq = (l.map fun x => 1 / x.2 ^ 4).sum
  count : p.n = l.length
  mean : p.mean = (l.map fun x => x.1 / x.2 ^ 2).sum / (l.map fun x => 1 / x.2 ^ 2).sum
  lo : (∀ x ∈ l, p.min ≤ x.1) ∧ ∃ x ∈ l, x.1 = p.min
  hi : (∀ x ∈ l, x.1 ≤ p.max) ∧ ∃ x ∈ l, x.1 = p.max

/-- **C51** The SUM model: a patch made from one measurement holds it; a successful merge holds the measurements of both; its mean is
the inverse variance weighted mean of all measurements, whatever the order of merging was, and min/max are their extremes. -/
theorem C51_sum_model :
    (∀ m s, 0 < s → Holds (Patch.make m s) [(m, s)]) ∧
    (∀ p o gap l l', Holds p l → Holds o l' → (p.mergeSum o gap).1 = true → Holds (p.mergeSum o gap).2.1 (l ++ l')) ∧
    (∀ p o l l', Holds p l → Holds o l' → l.Perm l' → p.mean = o.mean ∧ p.min = o.min ∧ p.max = o.max) := by
  refine ⟨?_, ?_, ?_⟩
  · intro m s hs
    exact { n := by simp [Patch.make], z := by simp [Patch.make, div_eq_mul_inv], zz := by simp [Patch.make, div_eq_mul_inv], normsq := by simp [Patch.make],
            count := by simp [Patch.make], mean := by simp [Patch.make]; field_simp, lo := by simp [Patch.make], hi := by simp [Patch.make] }
  · intro p o gap l l' hp ho h
    unfold Patch.mergeSum at h ⊢
    split at h
    · rename_i hov
      rw [if_pos hov]
      exact {
        n := by simp [Patch.updateSum, hp.n, ho.n]
        z := by simp [Patch.updateSum, hp.z, ho.z]
        zz := by simp [Patch.updateSum, hp.zz, ho.zz]
        normsq := by simp [Patch.updateSum, hp.normsq, ho.normsq]
        count := by simp [Patch.updateSum, hp.count, ho.count]
        mean := by simp [Patch.updateSum, hp.n, ho.n, hp.z, ho.z]
        lo := by
          obtain ⟨h1, x, hx, hxe⟩ := hp.lo
          obtain ⟨h1', x', hx', hxe'⟩ := ho.lo
          refine ⟨?_, ?_⟩
          · intro y hy
            rcases List.mem_append.1 hy with hy | hy
            · exact (min_le_left _ _).trans (h1 y hy)
            · exact (min_le_right _ _).trans (h1' y hy)
          · rcases le_total p.min o.min with hle | hle
            · exact ⟨x, List.mem_append_left _ hx, by simp [Patch.updateSum, hle, hxe]⟩
            · exact ⟨x', List.mem_append_right _ hx', by simp [Patch.updateSum, hle, hxe']⟩
        hi := by
          obtain ⟨h1, x, hx, hxe⟩ := hp.hi
          obtain ⟨h1', x', hx', hxe'⟩ := ho.hi
          refine ⟨?_, ?_⟩
          · intro y hy
            rcases List.mem_append.1 hy with hy | hy
            · exact (h1 y hy).trans (le_max_left _ _)
            · exact (h1' y hy).trans (le_max_right _ _)
          · rcases le_total p.max o.max with hle | hle
            · exact ⟨x', List.mem_append_right _ hx', by simp [Patch.updateSum, hle, hxe']⟩
            · exact ⟨x, List.mem_append_left _ hx, by simp [Patch.updateSum, hle, hxe]⟩ }
    · simp at h
  · intro p o l l' hp ho hperm
    refine ⟨?_, ?_, ?_⟩
    · rw [hp.mean, ho.mean, (hperm.map _).sum_eq, (hperm.map (fun x => 1 / x.2 ^ 2)).sum_eq]
    · obtain ⟨h1, x, hx, hxe⟩ := hp.lo
      obtain ⟨h1', x', hx', hxe'⟩ := ho.lo
      exact le_antisymm (by rw [← hxe']; exact h1 x' (hperm.mem_iff.2 hx')) (by rw [← hxe]; exact h1' x (hperm.mem_iff.1 hx))
    · obtain ⟨h1, x, hx, hxe⟩ := hp.hi
      obtain ⟨h1', x', hx', hxe'⟩ := ho.hi
      exact le_antisymm (by rw [← hxe]; exact h1' x (hperm.mem_iff.1 hx)) (by rw [← hxe']; exact h1 x' (hperm.mem_iff.2 hx'))

/-- two measurements of the ground that are merged -/
theorem merge_two (m d : ℝ) (hd : 0 ≤ d) (hd1 : d < 2) : ((Patch.make m 1).mergeSum (Patch.make (m + d) 1) 2).1 = true ∧
    ((Patch.make m 1).mergeSum (Patch.make (m + d) 1) 2).2.1.mean = m + d / 2 ∧
    ((Patch.make m 1).mergeSum (Patch.make (m + d) 1) 2).2.1.stdev = √(max (1 / 1000000) (m ^ 2 + (m + d) ^ 2 - 1)) := by
  unfold Patch.mergeSum
  have hov : overlap ((Patch.make m 1).min - 2) ((Patch.make m 1).max + 2) (Patch.make (m + d) 1).min (Patch.make (m + d) 1).max := by
    unfold overlap Patch.make
    left
    dsimp only
    constructor <;> linarith
  rw [if_pos hov]
  refine ⟨rfl, ?_, ?_⟩
  · simp [Patch.updateSum, Patch.make]
    ring
  · unfold Patch.updateSum Patch.make
    dsimp only
    refine (if_pos (by norm_num)).trans ?_
    congr 2
    norm_num

/-- **C52, the code violates the property**: the deviation of a patch of the SUM model depends on the height above the origin. The same
two measurements, one metre apart with a deviation of one metre each, give a deviation below 1 cm at height 0 and of more than
14 m at height 10. -/
theorem C52_deviation_depends_on_height :
    ((Patch.make 0 1).mergeSum (Patch.make (0 + 1) 1) 2).2.1.stdev < 1 / 100 ∧
    14 < ((Patch.make 10 1).mergeSum (Patch.make (10 + 1) 1) 2).2.1.stdev := by
  rw [(merge_two 0 1 (by norm_num) (by norm_num)).2.2, (merge_two 10 1 (by norm_num) (by norm_num)).2.2]
  constructor
  · rw [Real.sqrt_lt' (by norm_num)]
    norm_num
  · apply Real.lt_sqrt_of_sq_lt
    norm_num

theorem holds_shift (p o : Patch) (l : List (ℝ × ℝ)) (d : ℝ) (hl : ∀ x ∈ l, 0 < x.2) (hne : l ≠ [])
    (hp : Holds p l) (ho : Holds o (l.map fun x => (x.1 + d, x.2))) : o.mean = p.mean + d ∧ o.min = p.min + d ∧ o.max = p.max + d := by
  have hpos : 0 < (l.map fun x => 1 / x.2 ^ 2).sum := by
    have : ∀ l : List (ℝ × ℝ), (∀ x ∈ l, 0 < x.2) → 0 ≤ (l.map fun x => 1 / x.2 ^ 2).sum := by
      intro l
      induction l with
      | nil => simp
      | cons x l ih =>
        intro h
        have := ih (fun y hy => h y (List.mem_cons_of_mem _ hy))
        have hx := h x (by simp)
        rw [List.map_cons, List.sum_cons]
        positivity
    cases l with
    | nil => exact absurd rfl hne
    | cons x l =>
      have := this l (fun y hy => hl y (List.mem_cons_of_mem _ hy))
      have hx := hl x (by simp)
      rw [List.map_cons, List.sum_cons]
      positivity
  refine ⟨?_, ?_, ?_⟩
  · rw [ho.mean, hp.mean]
    have h1 : ((l.map fun x => (x.1 + d, x.2)).map fun x => x.1 / x.2 ^ 2).sum = (l.map fun x => x.1 / x.2 ^ 2).sum + d * (l.map fun x => 1 / x.2 ^ 2).sum := by
      clear hpos ho hp hne hl
      induction l with
      | nil => simp
      | cons x l ih =>
        simp only [List.map_cons, List.sum_cons]
        rw [ih]
        ring
    have h2 : ((l.map fun x => (x.1 + d, x.2)).map fun x => 1 / x.2 ^ 2).sum = (l.map fun x => 1 / x.2 ^ 2).sum := by
      rw [List.map_map]
      rfl
    rw [h1, h2]
    field_simp
  · obtain ⟨h1, x, hx, hxe⟩ := hp.lo
    obtain ⟨h1', x', hx', hxe'⟩ := ho.lo
    obtain ⟨y, hy, rfl⟩ := List.mem_map.1 hx'
    dsimp only at hxe'
    have h2 := h1' (x.1 + d, x.2) (List.mem_map_of_mem hx)
    have h3 := h1 y hy
    dsimp only at h2
    linarith
  · obtain ⟨h1, x, hx, hxe⟩ := hp.hi
    obtain ⟨h1', x', hx', hxe'⟩ := ho.hi
    obtain ⟨y, hy, rfl⟩ := List.mem_map.1 hx'
    dsimp only at hxe'
    have h2 := h1' (x.1 + d, x.2) (List.mem_map_of_mem hx)
    have h3 := h1 y hy
    dsimp only at h2
    linarith

/-- measurements and the way in which they are merged -/
inductive Tree where
  | one (height deviation : ℝ)
  | join (a b : Tree)

def Tree.list : Tree → List (ℝ × ℝ)
  | .one m s => [(m, s)]
  | .join a b => a.list ++ b.list

/-- the same measurements, all higher by d -/
def Tree.shift (d : ℝ) : Tree → Tree
  | .one m s => .one (m + d) s
  | .join a b => .join (a.shift d) (b.shift d)

/-- the patch that results from the merges, if all of them succeed -/
inductive Gives (gap : ℝ) : Tree → Patch → Prop
  | one {m s : ℝ} : 0 < s → Gives gap (.one m s) (Patch.make m s)
  | join {a b : Tree} {p o : Patch} : Gives gap a p → Gives gap b o → (p.mergeSum o gap).1 = true → Gives gap (.join a b) (p.mergeSum o gap).2.1

theorem Tree.list_shift (d : ℝ) (t : Tree) : (t.shift d).list = t.list.map fun x => (x.1 + d, x.2) := by
  induction t with
  | one => rfl
  | join a b iha ihb =>
    show (a.shift d).list ++ (b.shift d).list = (a.list ++ b.list).map _
    rw [iha, ihb, List.map_append]

theorem gives_holds {gap : ℝ} {t : Tree} {p : Patch} (h : Gives gap t p) : Holds p t.list ∧ (∀ x ∈ t.list, 0 < x.2) ∧ t.list ≠ [] := by
  induction h with
  | one hs =>
    refine ⟨C51_sum_model.1 _ _ hs, ?_, List.cons_ne_nil _ _⟩
    intro x hx
    rw [List.mem_singleton.1 hx]
    exact hs
  | join _ _ hm iha ihb =>
    refine ⟨C51_sum_model.2.1 _ _ _ _ _ iha.1 ihb.1 hm, ?_, ?_⟩
    · intro x hx
      rcases List.mem_append.1 hx with hx | hx
      · exact iha.2.1 x hx
      · exact ihb.2.1 x hx
    · intro he
      exact iha.2.2 (List.append_eq_nil_iff.1 he).1

/-- **C51** Whatever measurements are merged in whatever nesting: the mean of the result is the inverse variance weighted mean, and min and
max are the lowest and highest measurement. Two ways to merge the same measurements give the same. -/
theorem C51_merge_trees (gap : ℝ) (t : Tree) (p : Patch) (h : Gives gap t p) :
    p.mean = (t.list.map fun x => x.1 / x.2 ^ 2).sum / (t.list.map fun x => 1 / x.2 ^ 2).sum ∧
    (∀ x ∈ t.list, p.min ≤ x.1 ∧ x.1 ≤ p.max) ∧ (∃ x ∈ t.list, x.1 = p.min) ∧ (∃ x ∈ t.list, x.1 = p.max) ∧
    (∀ t' p', Gives gap t' p' → t.list.Perm t'.list → p'.mean = p.mean ∧ p'.min = p.min ∧ p'.max = p.max) := by
  have hh := (gives_holds h).1
  refine ⟨hh.mean, fun x hx => ⟨hh.lo.1 x hx, hh.hi.1 x hx⟩, hh.lo.2, hh.hi.2, ?_⟩
  intro t' p' h' hp
  exact C51_sum_model.2.2 _ _ _ _ (gives_holds h').1 hh hp.symm

/-- **C52, what is true**: if all measurements are shifted, the same merges succeed, and mean, min and max of the result are shifted by the
same height. Missing for the full claim: the deviation, see `C52_deviation_depends_on_height`. -/
theorem C52_shift_mean_partial (gap d : ℝ) (t : Tree) (p : Patch) (h : Gives gap t p) :
    ∃ o, Gives gap (t.shift d) o ∧ o.mean = p.mean + d ∧ o.min = p.min + d ∧ o.max = p.max + d := by
  have main : ∀ {t : Tree} {p o : Patch}, Gives gap t p → Gives gap (t.shift d) o → o.mean = p.mean + d ∧ o.min = p.min + d ∧ o.max = p.max + d := by
    intro t p o h h'
    obtain ⟨h1, h2, h3⟩ := gives_holds h
    refine holds_shift p o t.list d h2 h3 h1 ?_
    rw [← Tree.list_shift]
    exact (gives_holds h').1
  have ex : ∃ o, Gives gap (t.shift d) o := by
    induction h with
    | one hs => exact ⟨_, .one hs⟩
    | @join a b p q ha hb hm iha ihb =>
      obtain ⟨p', hp'⟩ := iha
      obtain ⟨q', hq'⟩ := ihb
      refine ⟨_, .join hp' hq' ?_⟩
      obtain ⟨-, e1, e2⟩ := main ha hp'
      obtain ⟨-, e3, e4⟩ := main hb hq'
      unfold Patch.mergeSum at hm ⊢
      split at hm
      · rename_i hov
        rw [if_pos]
        unfold overlap at hov ⊢
        rw [e1, e2, e3, e4]
        rcases hov with hov | hov
        · exact Or.inl ⟨by linarith [hov.1], by linarith [hov.2]⟩
        · exact Or.inr ⟨by linarith [hov.1], by linarith [hov.2]⟩
      · simp at hm
  obtain ⟨o, ho⟩ := ex
  exact ⟨o, ho, main h ho⟩

/-- three measurements that can be merged -/
example : ∃ p, Gives 2 (.join (.join (.one 0 1) (.one (0 + 1) 1)) (.one 1 (1 / 2))) p := by
  have h1 := (merge_two 0 1 (by norm_num) (by norm_num)).1
  refine ⟨_, .join (.join (.one (by norm_num)) (.one (by norm_num)) h1) (.one (by norm_num)) ?_⟩
  obtain ⟨hl, hl2⟩ : ((Patch.make 0 1).mergeSum (Patch.make (0 + 1) 1) 2).2.1.min ≤ 0 ∧ 1 ≤ ((Patch.make 0 1).mergeSum (Patch.make (0 + 1) 1) 2).2.1.max := by
    have := C51_merge_trees 2 _ _ (.join (.one (m := 0) (s := 1) (by norm_num)) (.one (m := 0 + 1) (s := 1) (by norm_num)) h1)
    constructor
    · exact (this.2.1 (0, 1) (by simp [Tree.list])).1
    · exact (this.2.1 (1, 1) (by simp [Tree.list])).2
  generalize ((Patch.make 0 1).mergeSum (Patch.make (0 + 1) 1) 2).2.1 = q at hl hl2
  unfold Patch.mergeSum
  rw [if_pos]
  unfold overlap Patch.make
  left
  dsimp only
  constructor <;> linarith

/-! ### C53: merging maps at a height offset -/

/-- **C53, the code violates the property**: with the SUM model a patch taken over from another map with a height offset is merged at its
old height: ground at 0 in both maps, the other map 100 m higher, gives one patch at height 0. -/
theorem C53_offset_ignored :
    let o := (Patch.make 0 1).moved 100 0 1
    o.mean = 100 ∧ ((Patch.make 0 1).merge .sum (1 / 20) 1 o).1 = true ∧ ((Patch.make 0 1).merge .sum (1 / 20) 1 o).2.1.mean = 0 := by
  dsimp only
  refine ⟨by simp [Patch.make, Patch.moved], ?_⟩
  have hov : overlap ((Patch.make 0 1).min - 1) ((Patch.make 0 1).max + 1) ((Patch.make 0 1).moved 100 0 1).min ((Patch.make 0 1).moved 100 0 1).max := by
    unfold overlap Patch.make Patch.moved
    norm_num
  unfold Patch.merge Patch.mergeSum
  dsimp only
  rw [if_pos hov]
  refine ⟨rfl, ?_⟩
  simp [Patch.updateSum, Patch.make, Patch.moved]

/-- **C53, what is true**: with the KALMAN model the patch of the other map takes part with its shifted height. Missing: the SUM and
SLOPE models. -/
theorem C53_offset_kalman_partial (p q : Patch) (dz : ℝ) (thickness gap : ℝ) (idx : Nat) (hp : p.kind ≠ .negative) (hq : q.kind ≠ .negative) :
    let r := p.merge .kalman thickness gap (q.moved dz 0 idx)
    (r.1 = true → r.2.1.kind = .vertical → r.2.1.mean = max p.mean (q.mean + dz) ∧ r.2.1.bottom = min p.bottom (q.bottom + dz)) ∧
    (r.1 = true → p.kind = .horizontal → q.kind = .horizontal → r.2.1.kind = .horizontal → p.stdev ^ 2 + q.stdev ^ 2 ≠ 0 →
      r.2.1.mean = (q.stdev ^ 2 * p.mean + p.stdev ^ 2 * (q.mean + dz)) / (p.stdev ^ 2 + q.stdev ^ 2)) ∧
    (r.1 = false → r.2 = (p, q.moved dz 0 idx)) := by
  have h38 := C38_merge_keeps_height p (q.moved dz 0 idx) thickness gap hp hq
  dsimp only at h38 ⊢
  unfold Patch.merge
  dsimp only
  obtain ⟨h1, h2, h3, h4, h5⟩ := h38
  have hb : (q.moved dz 0 idx).bottom = q.bottom + dz := by unfold Patch.moved Patch.bottom; dsimp only; ring
  refine ⟨?_, ?_, ?_⟩
  · intro hr hk
    split at hr
    · rename_i hm
      rw [if_pos hm] at hk ⊢
      have := h1 hm hk
      rw [hb] at this
      exact this
    · rename_i hm
      exact absurd hr hm
  · intro hr hph hqh hk hne
    split at hr
    · rename_i hm
      rw [if_pos hm] at hk ⊢
      by_cases hn : Near p (q.moved dz 0 idx) gap
      · by_cases hs : Same p (q.moved dz 0 idx) thickness
        · rw [mergeMLS_same hn hph hqh hs]
          have hq2 : √(q.stdev ^ 2 + 0 ^ 2) * √(q.stdev ^ 2 + 0 ^ 2) = q.stdev ^ 2 := by
            rw [Real.mul_self_sqrt (by positivity)]; ring
          show (kalman p.mean p.stdev (q.mean + dz) (√(q.stdev ^ 2 + 0 ^ 2))).1 = _
          unfold kalman
          dsimp only
          rw [hq2, if_neg (by rwa [← pow_two]), ← pow_two]
          field_simp
          ring
        · rw [mergeMLS_wall hn hph hqh hs] at hk
          dsimp only at hk
          rw [(extend_hull _ _).2.2] at hk
          cases hk
      · rw [mergeMLS_far hn] at hm
        simp at hm
    · rename_i hm
      exact absurd hr hm
  · intro hr
    split at hr
    · simp at hr
    · rename_i hm
      rw [if_neg hm]
      exact h2 (by simpa using hm)

/-! ### C54: cutting of free space -/

/-- **C54, the code violates the property**: an older patch that is "cut" by a newer one below it grows down to it, and a patch that ends
at the same height as the newer one gets a negative height. -/
theorem C54_cut_grows :
    -- an occupied patch [3, 4] and newer free space [1, 2]
    (∃ old new : Patch, old.kind = .vertical ∧ new.kind = .negative ∧ old.bottom = 3 ∧ old.mean = 4 ∧ new.bottom = 1 ∧ new.mean = 2 ∧
      (old.merge .kalman (1 / 20) 1 new).1 = false ∧ (old.merge .kalman (1 / 20) 1 new).2.1.mean = 4 ∧ (old.merge .kalman (1 / 20) 1 new).2.1.bottom = 2) ∧
    -- an occupied patch [5, 6] and newer free space [3, 6]
    (∃ old new : Patch, old.kind = .vertical ∧ new.kind = .negative ∧ old.bottom = 5 ∧ old.mean = 6 ∧ new.bottom = 3 ∧ new.mean = 6 ∧
      (old.merge .kalman (1 / 20) 1 new).1 = false ∧ (old.merge .kalman (1 / 20) 1 new).2.1.height = -2) := by
  have hs : √((1 : ℝ) * 1 + 1 * 1) > 1 := by
    apply Real.lt_sqrt_of_sq_lt
    norm_num
  constructor
  · refine ⟨Patch.make 4 1 1 .vertical, { Patch.make 2 1 1 .negative with updateIdx := 1 }, rfl, rfl, ?_, rfl, ?_, rfl, ?_⟩
    · norm_num [Patch.bottom, Patch.make]
    · norm_num [Patch.bottom, Patch.make]
    · have hn : Near (Patch.make 4 1 1 .vertical) { Patch.make 2 1 1 .negative with updateIdx := 1 } 1 := by
        unfold Near Patch.make
        dsimp only
        constructor <;> linarith
      unfold Patch.merge
      dsimp only
      rw [mergeMLS_cut hn rfl rfl (by simp [Patch.make]) (by norm_num [Patch.make])]
      norm_num [Patch.cut, Patch.bottom, Patch.make]
  · refine ⟨Patch.make 6 1 1 .vertical, { Patch.make 6 1 3 .negative with updateIdx := 1 }, rfl, rfl, ?_, rfl, ?_, rfl, ?_⟩
    · norm_num [Patch.bottom, Patch.make]
    · norm_num [Patch.bottom, Patch.make]
    · have hn : Near (Patch.make 6 1 1 .vertical) { Patch.make 6 1 3 .negative with updateIdx := 1 } 1 := by
        unfold Near Patch.make
        dsimp only
        constructor <;> linarith
      unfold Patch.merge
      dsimp only
      rw [mergeMLS_cut hn rfl rfl (by simp [Patch.make]) (by norm_num [Patch.make])]
      norm_num [Patch.cut, Patch.bottom, Patch.make]

/-- **C54, what is true**: if the newer patch reaches into the older one from below or from above then exactly the common part is cut
off. Missing: the other positions of the two. -/
theorem C54_cut_partial (old new : Patch) :
    (old.bottom ≤ new.mean → new.mean < old.mean → (old.cut new).mean = old.mean ∧ (old.cut new).bottom = new.mean) ∧
    (old.mean ≤ new.mean → old.bottom ≤ new.bottom → new.bottom < old.mean → (old.cut new).mean = new.bottom ∧ (old.cut new).bottom = old.bottom) ∧
    (old.mean ≤ new.bottom → old.mean ≤ new.mean → old.cut new = old) := by
  unfold Patch.cut Patch.bottom
  refine ⟨fun h1 h2 => ?_, fun h1 h2 h3 => ?_, fun h1 h2 => ?_⟩
  · rw [if_pos h2]
    exact ⟨rfl, by ring⟩
  · rw [if_neg (not_lt.2 h1), if_pos h3]
    exact ⟨rfl, by ring⟩
  · rw [if_neg (not_lt.2 h2), if_neg (not_lt.2 h1)]

/-! ### C55: scaling of weights -/

/-- **C55, the code violates the property**: scaling the weight of a patch changes the deviation that is calculated from it. -/
theorem C55_scale_changes_deviation :
    (Patch.make 0 1).updateSum.stdev = 1 ∧ ((Patch.make 0 1).scaleWeight 4).updateSum.stdev = 1 / 2 := by
  constructor
  · norm_num [Patch.make, Patch.updateSum]
  · unfold Patch.make Patch.updateSum Patch.scaleWeight
    dsimp only
    refine (if_neg (by norm_num)).trans ?_
    rw [show (1 : ℝ) / (4 * (1 / 1 ^ 2)) = (1 / 2) ^ 2 by norm_num]
    exact Real.sqrt_sq (by norm_num)

/-- **C55, what is true**: the mean and the weight of the measurements relative to each other stay. Missing: the deviation. -/
theorem C55_scale_partial (p : Patch) (f : ℝ) (hf : 0 < f) :
    (p.scaleWeight f).updateSum.mean = p.updateSum.mean ∧ (p.scaleWeight f).planeN = f * p.planeN ∧
    (p.scaleWeight f).mean = p.mean ∧ (p.scaleWeight f).stdev = p.stdev := by
  refine ⟨?_, rfl, rfl, rfl⟩
  unfold Patch.updateSum Patch.scaleWeight
  dsimp only
  exact mul_div_mul_left _ _ (ne_of_gt hf)

/-- **C55, weights** Scaling by f is the same as having measured everything with the f-fold weight (deviations divided by √f). -/
theorem C55_scale_weights (p : Patch) (l : List (ℝ × ℝ)) (f : ℝ) (hf : 0 < f) (hp : Holds p l) :
    Holds (p.scaleWeight f) (l.map fun x => (x.1, x.2 / √f)) := by
  have hs : √f ^ 2 = f := Real.sq_sqrt hf.le
  have h4 : √f ^ 4 = f ^ 2 := by rw [show (4 : Nat) = 2 * 2 from rfl, pow_mul, hs]
  have sum_mul : ∀ (g h : ℝ × ℝ → ℝ) (c : ℝ), (∀ x, g x = c * h x) → (l.map g).sum = c * (l.map h).sum := by
    intro g h c hg
    rw [← List.sum_map_mul_left]
    congr 1
    exact List.map_congr_left (fun x _ => hg x)
  have e1 : ((l.map fun x => (x.1, x.2 / √f)).map fun x => 1 / x.2 ^ 2).sum = f * (l.map fun x => 1 / x.2 ^ 2).sum := by
    rw [List.map_map]
    refine sum_mul _ _ _ (fun x => ?_)
    show 1 / (x.2 / √f) ^ 2 = _
    rw [div_pow, hs, one_div_div]; ring
  have e2 : ((l.map fun x => (x.1, x.2 / √f)).map fun x => x.1 / x.2 ^ 2).sum = f * (l.map fun x => x.1 / x.2 ^ 2).sum := by
    rw [List.map_map]
    refine sum_mul _ _ _ (fun x => ?_)
    show x.1 / (x.2 / √f) ^ 2 = _
    rw [div_pow, hs, div_div_eq_mul_div]; ring
  have e3 : ((l.map fun x => (x.1, x.2 / √f)).map fun x => x.1 ^ 2 / x.2 ^ 2).sum = f * (l.map fun x => x.1 ^ 2 / x.2 ^ 2).sum := by
    rw [List.map_map]
    refine sum_mul _ _ _ (fun x => ?_)
    show x.1 ^ 2 / (x.2 / √f) ^ 2 = _
    rw [div_pow, hs, div_div_eq_mul_div]; ring
  have e4 : ((l.map fun x => (x.1, x.2 / √f)).map fun x => 1 / x.2 ^ 4).sum = f ^ 2 * (l.map fun x => 1 / x.2 ^ 4).sum := by
    rw [List.map_map]
    refine sum_mul _ _ _ (fun x => ?_)
    show 1 / (x.2 / √f) ^ 4 = _
    rw [div_pow, h4, one_div_div]; ring
  exact {
    n := by rw [e1, ← hp.n]; rfl
    z := by rw [e2, ← hp.z]; rfl
    zz := by rw [e3, ← hp.zz]; rfl
    normsq := by rw [e4, ← hp.normsq]; show p.normsq * f ^ 2 = _; ring
    count := by rw [List.length_map]; exact hp.count
    mean := by rw [e1, e2, mul_div_mul_left _ _ (ne_of_gt hf)]; exact hp.mean
    lo := by
      refine ⟨?_, ?_⟩
      · intro x hx
        obtain ⟨y, hy, rfl⟩ := List.mem_map.1 hx
        exact hp.lo.1 y hy
      · obtain ⟨y, hy, he⟩ := hp.lo.2
        exact ⟨_, List.mem_map.2 ⟨y, hy, rfl⟩, he⟩
    hi := by
      refine ⟨?_, ?_⟩
      · intro x hx
        obtain ⟨y, hy, rfl⟩ := List.mem_map.1 hx
        exact hp.hi.1 y hy
      · obtain ⟨y, hy, he⟩ := hp.hi.2
        exact ⟨_, List.mem_map.2 ⟨y, hy, rfl⟩, he⟩ }

end
end Envire.Patch

#print axioms Envire.Patch.C37_kalman_fusion
#print axioms Envire.Patch.C38_merge_keeps_height
#print axioms Envire.Patch.C39_overlap_partial
#print axioms Envire.Patch.C39_overlap_misses_containment
#print axioms Envire.Patch.C39_contained_not_merged
#print axioms Envire.Patch.C51_sum_model
#print axioms Envire.Patch.C51_merge_trees
#print axioms Envire.Patch.C52_deviation_depends_on_height
#print axioms Envire.Patch.C52_shift_mean_partial
#print axioms Envire.Patch.C53_offset_ignored
#print axioms Envire.Patch.C53_offset_kalman_partial
#print axioms Envire.Patch.C54_cut_grows
#print axioms Envire.Patch.C54_cut_partial
#print axioms Envire.Patch.C55_scale_changes_deviation
#print axioms Envire.Patch.C55_scale_partial
#print axioms Envire.Patch.C38_free_space
#print axioms Envire.Patch.C38_update_index
#print axioms Envire.Patch.C55_scale_weights
