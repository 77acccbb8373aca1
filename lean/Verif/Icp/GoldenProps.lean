import Verif.Icp.GoldenModel
import Mathlib.Order.Monotone.Basic
import Mathlib.Tactic.LinearCombination
import Mathlib.Tactic.Ring

/-! C125: the search for the best overlap -/

namespace Envire.Icp.Golden

noncomputable section

/-- one minimum: f falls up to `c` and rises from there on -/
def Unimodal (f : ℝ → ℝ) (c a b : ℝ) : Prop :=
  (∀ x y, a ≤ x → x < y → y ≤ c → f y < f x) ∧ ∀ x y, c ≤ x → x < y → y ≤ b → f x < f y

/-- The claim of C125: for a function with one minimum the argument that is found is as close to it as the accuracy asks for -/
def Accurate (search : (ℝ → ℝ) → ℝ → ℝ → ℝ → Nat → Option (ℝ × ℝ)) : Prop :=
  ∀ f alpha beta eps n c x y, 0 ≤ alpha → alpha < beta → 0 < eps → alpha ≤ c → c ≤ beta → Unimodal f c alpha beta →
    search f alpha beta eps n = some (x, y) → |x - c| ≤ eps * (2 * beta)

structure Inv (f : ℝ → ℝ) (a b : ℝ) (s : St) : Prop where
  v1 : s.f1 = f s.x1
  v2 : s.f2 = f s.x2
  b0 : a ≤ s.x0 ∧ s.x0 ≤ b
  b1 : a ≤ s.x1 ∧ s.x1 ≤ b
  b2 : a ≤ s.x2 ∧ s.x2 ≤ b
  b3 : a ≤ s.x3 ∧ s.x3 ≤ b
  seen1 : s.x1 ∈ s.seen
  seen2 : s.x2 ∈ s.seen
  low : ∀ x ∈ s.seen, a ≤ x ∧ x ≤ b ∧ min s.f1 s.f2 ≤ f x

theorem r_pos : 0 < R := by unfold R; norm_num
theorem c_pos : 0 < C := by unfold C R; norm_num
theorem r_c : R + C = 1 := by unfold C; ring

theorem mix {a b x y : ℝ} (hx : a ≤ x ∧ x ≤ b) (hy : a ≤ y ∧ y ≤ b) : a ≤ R * x + C * y ∧ R * x + C * y ≤ b := by
  have h1 := r_pos
  have h2 := c_pos
  have h3 := r_c
  constructor
  · have : a = R * a + C * a := by rw [← add_mul, h3, one_mul]
    rw [this]
    exact add_le_add (mul_le_mul_of_nonneg_left hx.1 h1.le) (mul_le_mul_of_nonneg_left hy.1 h2.le)
  · have : b = R * b + C * b := by rw [← add_mul, h3, one_mul]
    rw [this]
    exact add_le_add (mul_le_mul_of_nonneg_left hx.2 h1.le) (mul_le_mul_of_nonneg_left hy.2 h2.le)

theorem start_inv (f : ℝ → ℝ) {a b c : ℝ} (hab : a ≤ b) (hbc : b ≤ c) : Inv f a c (start f a b c) := by
  have h1 := r_pos
  have h2 := c_pos
  have h3 := r_c
  unfold start
  split
  · have hm : b + C * (c - b) = R * b + C * c := by
      have : R = 1 - C := by linarith
      rw [this]; ring
    rw [hm]
    have hb := mix (a := a) (b := c) ⟨hab, hbc⟩ ⟨hab.trans hbc, le_refl c⟩
    refine ⟨rfl, rfl, ⟨le_refl _, hab.trans hbc⟩, ⟨hab, hbc⟩, hb, ⟨hab.trans hbc, le_refl _⟩, by simp, by simp, ?_⟩
    intro x hx
    simp only [List.mem_cons, List.not_mem_nil, or_false] at hx
    rcases hx with rfl | rfl
    · exact ⟨hab, hbc, min_le_left _ _⟩
    · exact ⟨hb.1, hb.2, min_le_right _ _⟩
  · have hm : b - C * (b - a) = R * b + C * a := by
      have : R = 1 - C := by linarith
      rw [this]; ring
    rw [hm]
    have hb := mix (a := a) (b := c) ⟨hab, hbc⟩ ⟨le_refl a, hab.trans hbc⟩
    refine ⟨rfl, rfl, ⟨le_refl _, hab.trans hbc⟩, hb, ⟨hab, hbc⟩, ⟨hab.trans hbc, le_refl _⟩, by simp, by simp, ?_⟩
    intro x hx
    simp only [List.mem_cons, List.not_mem_nil, or_false] at hx
    rcases hx with rfl | rfl
    · exact ⟨hb.1, hb.2, min_le_left _ _⟩
    · exact ⟨hab, hbc, min_le_right _ _⟩

theorem step_inv {f : ℝ → ℝ} {a b : ℝ} {s : St} (h : Inv f a b s) : Inv f a b (step f s) := by
  unfold step
  split
  · rename_i hlt
    have hd := mix h.b1 h.b3
    refine ⟨h.v2, rfl, h.b1, h.b2, hd, h.b3, List.mem_cons_of_mem _ h.seen2, List.mem_cons_self .., ?_⟩
    intro x hx
    rcases List.mem_cons.1 hx with rfl | hx
    · exact ⟨hd.1, hd.2, min_le_right _ _⟩
    · obtain ⟨h1, h2, h3⟩ := h.low x hx
      rw [min_eq_right hlt.le] at h3
      exact ⟨h1, h2, (min_le_left _ _).trans h3⟩
  · rename_i hlt
    have hd := mix h.b2 h.b0
    refine ⟨rfl, h.v1, h.b0, hd, h.b1, h.b2, List.mem_cons_self .., List.mem_cons_of_mem _ h.seen1, ?_⟩
    intro x hx
    rcases List.mem_cons.1 hx with rfl | hx
    · exact ⟨hd.1, hd.2, min_le_left _ _⟩
    · obtain ⟨h1, h2, h3⟩ := h.low x hx
      rw [min_eq_left (not_lt.1 hlt)] at h3
      exact ⟨h1, h2, (min_le_right _ _).trans h3⟩

theorem run_inv {f : ℝ → ℝ} {a b eps : ℝ} {n : Nat} {s t : St} (h : Inv f a b s) (hr : run f eps n s = some t) :
    Inv f a b t ∧ (∀ x ∈ s.seen, x ∈ t.seen) ∧ ¬ goesOn eps t := by
  induction n generalizing s with
  | zero =>
    unfold run at hr
    split at hr
    · cases hr
    · cases hr; exact ⟨h, fun _ hx => hx, by assumption⟩
  | succ n ih =>
    unfold run at hr
    split at hr
    · obtain ⟨h1, h2, h3⟩ := ih (step_inv h) hr
      refine ⟨h1, fun x hx => h2 x ?_, h3⟩
      unfold step
      split
      · exact List.mem_cons_of_mem _ hx
      · exact List.mem_cons_of_mem _ hx
    · cases hr; exact ⟨h, fun _ hx => hx, by assumption⟩

/-- the arguments that `f` is called with in a search of at most n rounds -/
def calls (f : ℝ → ℝ) (alpha beta eps : ℝ) (n : Nat) : List ℝ :=
  match run f eps n (start f alpha ((alpha + beta) / 2) beta) with
  | some s => s.seen
  | none => []

/-- C125: if the search ends, then the result is the value of f for an overlap between alpha and beta, and no overlap that was
tried has a smaller value; the overlap in the middle was tried.
Missing: the search ends, and it is accurate, see C125_not_accurate -/
theorem C125_search_partial (f : ℝ → ℝ) (alpha beta eps : ℝ) (n : Nat) (x y : ℝ) (hab : alpha ≤ beta)
    (h : search f alpha beta eps n = some (x, y)) :
    y = f x ∧ alpha ≤ x ∧ x ≤ beta ∧ x ∈ calls f alpha beta eps n ∧ (∀ z ∈ calls f alpha beta eps n, alpha ≤ z ∧ z ≤ beta ∧ y ≤ f z) ∧
      y ≤ f ((alpha + beta) / 2) := by
  unfold search findMin at h
  unfold calls
  have h1 : alpha ≤ (alpha + beta) / 2 := by linarith
  have h2 : (alpha + beta) / 2 ≤ beta := by linarith
  cases hr : run f eps n (start f alpha ((alpha + beta) / 2) beta) with
  | none => rw [hr] at h; cases h
  | some s =>
    rw [hr] at h
    dsimp only
    obtain ⟨hi, hseen, -⟩ := run_inv (start_inv f h1 h2) hr
    have hmid : (alpha + beta) / 2 ∈ s.seen := by
      apply hseen
      unfold start
      split <;> simp
    simp only [Option.map_some, Option.some.injEq] at h
    unfold result at h
    split at h
    · rename_i hlt
      cases h
      have hmin : min s.f1 s.f2 = s.f1 := min_eq_left hlt.le
      have low := hi.low
      rw [hmin] at low
      exact ⟨hi.v1, hi.b1.1, hi.b1.2, hi.seen1, low, (low _ hmid).2.2⟩
    · rename_i hlt
      cases h
      have hmin : min s.f1 s.f2 = s.f2 := min_eq_right (not_lt.1 hlt)
      have low := hi.low
      rw [hmin] at low
      exact ⟨hi.v2, hi.b2.1, hi.b2.2, hi.seen2, low, (low _ hmid).2.2⟩

/-! #### the search misses the minimum -/

/-- the distance to 2/5 -/
def vee (x : ℝ) : ℝ := |x - 2 / 5|

theorem vee_unimodal (a b : ℝ) : Unimodal vee (2 / 5) a b := by
  constructor
  · intro x y _ hxy hy
    unfold vee
    rw [abs_of_nonpos (by linarith), abs_of_nonpos (by linarith)]
    linarith
  · intro x y hx hxy _
    unfold vee
    rw [abs_of_nonneg (by linarith), abs_of_nonneg (by linarith)]
    linarith

theorem run_stop {f : ℝ → ℝ} {eps : ℝ} {n : Nat} {s : St} (h : ¬ goesOn eps s) : run f eps n s = some s := by
  cases n with
  | zero => unfold run; rw [if_neg h]
  | succ n => unfold run; rw [if_neg h]

theorem run_go {f : ℝ → ℝ} {eps : ℝ} {n : Nat} {s : St} (h : goesOn eps s) : run f eps (n + 1) s = run f eps n (step f s) := by
  conv_lhs => unfold run
  rw [if_pos h]

theorem step_left {f : ℝ → ℝ} {s : St} (h : ¬ s.f2 < s.f1) :
    step f s = ⟨s.x0, R * s.x2 + C * s.x0, s.x1, s.x2, f (R * s.x2 + C * s.x0), s.f1, (R * s.x2 + C * s.x0) :: s.seen⟩ := by
  unfold step
  rw [if_neg h]

theorem step_right {f : ℝ → ℝ} {s : St} (h : s.f2 < s.f1) :
    step f s = ⟨s.x1, s.x2, R * s.x1 + C * s.x3, s.x3, s.f2, f (R * s.x1 + C * s.x3), (R * s.x1 + C * s.x3) :: s.seen⟩ := by
  unfold step
  rw [if_pos h]

/-- the points of the state lie in [a, b] -/
def Box (a b : ℝ) (s : St) : Prop :=
  (a ≤ s.x0 ∧ s.x0 ≤ b) ∧ (a ≤ s.x1 ∧ s.x1 ≤ b) ∧ (a ≤ s.x2 ∧ s.x2 ≤ b) ∧ (a ≤ s.x3 ∧ s.x3 ≤ b)

theorem step_box {f : ℝ → ℝ} {a b : ℝ} {s : St} (h : Box a b s) : Box a b (step f s) := by
  obtain ⟨h0, h1, h2, h3⟩ := h
  unfold step
  split
  · exact ⟨h1, h2, mix h1 h3, h3⟩
  · exact ⟨h0, mix h2 h0, h1, h2⟩

theorem run_box {f : ℝ → ℝ} {a b eps : ℝ} {n : Nat} {s t : St} (h : Box a b s) (hr : run f eps n s = some t) : Box a b t := by
  induction n generalizing s with
  | zero =>
    unfold run at hr
    split at hr
    · cases hr
    · cases hr; exact h
  | succ n ih =>
    unfold run at hr
    split at hr
    · exact ih (step_box h) hr
    · cases hr; exact h

theorem vee_start : start vee 0 ((0 + 1) / 2) 1 =
    ⟨0, 6180339 / 20000000, 1 / 2, 1, 1819661 / 20000000, 1 / 10, [6180339 / 20000000, 1 / 2]⟩ := by
  unfold start
  rw [if_neg (by norm_num)]
  have h1 : ((0 : ℝ) + 1) / 2 - C * ((0 + 1) / 2 - 0) = 6180339 / 20000000 := by unfold C R; norm_num
  have h2 : vee (6180339 / 20000000) = 1819661 / 20000000 := by
    unfold vee; rw [abs_of_nonpos (by norm_num)]; norm_num
  have h3 : vee ((0 + 1) / 2) = 1 / 10 := by
    unfold vee; rw [abs_of_nonneg (by norm_num)]; norm_num
  have h4 : ((0 : ℝ) + 1) / 2 = 1 / 2 := by norm_num
  rw [h1, h2, h3, h4]

theorem vee_first : step vee (start vee 0 ((0 + 1) / 2) 1) =
    ⟨0, 6180339 / 20000000, 6180339 / 20000000, 1 / 2, 1819661 / 20000000, 1819661 / 20000000,
      [6180339 / 20000000, 6180339 / 20000000, 1 / 2]⟩ := by
  rw [vee_start, step_left (by norm_num)]
  have h1 : R * (1 / 2) + C * 0 = 6180339 / 20000000 := by unfold R; norm_num
  have h2 : vee (6180339 / 20000000) = 1819661 / 20000000 := by
    unfold vee; rw [abs_of_nonpos (by norm_num)]; norm_num
  dsimp only
  rw [h1, h2]

theorem vee_box : Box 0 (6180339 / 20000000) (step vee (step vee (start vee 0 ((0 + 1) / 2) 1))) := by
  rw [vee_first, step_left (by norm_num)]
  have h : (0 : ℝ) ≤ R * (6180339 / 20000000) + C * 0 ∧ R * (6180339 / 20000000) + C * 0 ≤ 6180339 / 20000000 := by
    unfold R; norm_num
  exact ⟨by norm_num, h, by norm_num, by norm_num⟩

/-- C125, wrong in the code: however small the accuracy is chosen, the search for the minimum of the distance to 2/5 between
0 and 1 stops, if it does, at least 9/100 away from the minimum. SHIFT3 is a function, so the new argument is calculated from
the values of x1 and x2 before they are shifted (l.308-316). -/
theorem C125_missed (eps : ℝ) (he : eps ≤ 1 / 2) (n : Nat) (x y : ℝ) (h : search vee 0 1 eps n = some (x, y)) :
    9 / 100 ≤ |x - 2 / 5| ∧ 9 / 100 ≤ y := by
  have hv := C125_search_partial vee 0 1 eps n x y (by norm_num) h
  have hx : x ≤ 6180339 / 20000000 := by
    unfold search findMin at h
    have g1 : goesOn eps (start vee 0 ((0 + 1) / 2) 1) := by
      rw [vee_start]
      unfold goesOn
      dsimp only
      rw [abs_of_pos (by norm_num), abs_of_pos (by norm_num), abs_of_pos (by norm_num)]
      linarith
    have g2 : goesOn eps (step vee (start vee 0 ((0 + 1) / 2) 1)) := by
      rw [vee_first]
      unfold goesOn
      dsimp only
      rw [abs_of_pos (by norm_num), abs_of_pos (by norm_num)]
      linarith
    cases n with
    | zero =>
      unfold run at h
      rw [if_pos g1] at h
      cases h
    | succ n =>
      rw [run_go g1] at h
      cases n with
      | zero =>
        unfold run at h
        rw [if_pos g2] at h
        cases h
      | succ n =>
        rw [run_go g2] at h
        cases hr : run vee eps n (step vee (step vee (start vee 0 ((0 + 1) / 2) 1))) with
        | none => rw [hr] at h; cases h
        | some t =>
          rw [hr] at h
          have hb := run_box vee_box hr
          simp only [Option.map_some, Option.some.injEq] at h
          unfold result at h
          split at h
          · cases h; exact hb.2.1.2
          · cases h; exact hb.2.2.1.2
  have hd : 9 / 100 ≤ |x - 2 / 5| := by
    rw [abs_of_nonpos (by linarith)]
    linarith
  exact ⟨hd, by rw [hv.1]; exact hd⟩

theorem vee_ends : ∃ x y, search vee 0 1 (1 / 25) 5 = some (x, y) := by
  unfold search findMin
  rw [run_go (by rw [vee_start]; unfold goesOn; dsimp only; norm_num [abs_of_pos]),
    run_go (by rw [vee_first]; unfold goesOn; dsimp only; norm_num [abs_of_pos]), vee_first, step_left (by norm_num)]
  have h1 : R * (6180339 / 20000000) + C * 0 = 38196590154921 / 200000000000000 := by unfold R; norm_num
  have h2 : vee (38196590154921 / 200000000000000) = 41803409845079 / 200000000000000 := by
    unfold vee; rw [abs_of_nonpos (by norm_num)]; norm_num
  dsimp only
  rw [h1, h2]
  have a1 : R * (38196590154921 / 200000000000000) + C * (6180339 / 20000000) = 472135874252264298219 / 2000000000000000000000 := by unfold C R; norm_num
  have b1 : vee (472135874252264298219 / 2000000000000000000000) = 327864125747735701781 / 2000000000000000000000 := by
    unfold vee; rw [abs_of_nonpos (by norm_num)]; norm_num
  rw [run_go (by unfold goesOn; dsimp only; norm_num [abs_of_pos]), step_right (by norm_num)]
  dsimp only
  rw [a1, b1]
  have a2 : R * (472135874252264298219 / 2000000000000000000000) + C * (38196590154921 / 200000000000000) = 4376940014417721898400516241 / 20000000000000000000000000000 := by unfold C R; norm_num
  have b2 : vee (4376940014417721898400516241 / 20000000000000000000000000000) = 3623059985582278101599483759 / 20000000000000000000000000000 := by
    unfold vee; rw [abs_of_nonpos (by norm_num)]; norm_num
  rw [run_go (by unfold goesOn; dsimp only; norm_num [abs_of_pos]), step_left (by norm_num)]
  dsimp only
  rw [a2, b2]
  have a3 : R * (4376940014417721898400516241 / 20000000000000000000000000000) + C * (472135874252264298219 / 2000000000000000000000) = 45084962927589189955833585734385699 / 200000000000000000000000000000000000 := by unfold C R; norm_num
  have b3 : vee (45084962927589189955833585734385699 / 200000000000000000000000000000000000) = 34915037072410810044166414265614301 / 200000000000000000000000000000000000 := by
    unfold vee; rw [abs_of_nonpos (by norm_num)]; norm_num
  rw [run_go (by unfold goesOn; dsimp only; norm_num [abs_of_pos]), step_right (by norm_num)]
  dsimp only
  rw [a3, b3]
  rw [run_stop (by unfold goesOn; dsimp only; norm_num [abs_of_pos])]
  unfold result
  rw [Option.map_some]
  split <;> exact ⟨_, _, rfl⟩

/-- C125, wrong in the code -/
theorem C125_not_accurate : ¬ Accurate search := by
  intro hA
  obtain ⟨x, y, h⟩ := vee_ends
  have h1 := hA vee 0 1 (1 / 25) 5 (2 / 5) x y (le_refl 0) (by norm_num) (by norm_num) (by norm_num) (by norm_num) (vee_unimodal 0 1) h
  have h2 := (C125_missed (1 / 25) (by norm_num) 5 x y h).1
  linarith

/-! #### the claim can be met: the golden section search with the arguments calculated after the shift is accurate -/

open Classical in
/-- the loop body of the golden section search -/
def goodStep (f : ℝ → ℝ) (s : St) : St :=
  if s.f2 < s.f1 then
    let d := R * s.x2 + C * s.x3
    ⟨s.x1, s.x2, d, s.x3, s.f2, f d, d :: s.seen⟩
  else
    let d := R * s.x1 + C * s.x0
    ⟨s.x0, d, s.x1, s.x2, f d, s.f1, d :: s.seen⟩

open Classical in
def goodRun (f : ℝ → ℝ) (eps : ℝ) : Nat → St → Option St
  | 0, s => if goesOn eps s then none else some s
  | n + 1, s => if goesOn eps s then goodRun f eps n (goodStep f s) else some s

def goodSearch (f : ℝ → ℝ) (alpha beta eps : ℝ) (n : Nat) : Option (ℝ × ℝ) :=
  (goodRun f eps n (start f alpha ((alpha + beta) / 2) beta)).map result

/-- ordered points around the minimum -/
structure Bracket (f : ℝ → ℝ) (c a b : ℝ) (s : St) : Prop where
  v1 : s.f1 = f s.x1
  v2 : s.f2 = f s.x2
  o0 : a ≤ s.x0
  o1 : s.x0 < s.x1
  o2 : s.x1 < s.x2
  o3 : s.x2 < s.x3
  o4 : s.x3 ≤ b
  c0 : s.x0 ≤ c
  c3 : c ≤ s.x3

theorem between {x y : ℝ} (h : x < y) : x < R * x + C * y ∧ R * x + C * y < y := by
  have h1 := mul_pos c_pos (sub_pos.2 h)
  have h2 := mul_pos r_pos (sub_pos.2 h)
  have h3 : R = 1 - C := by linarith [r_c]
  constructor
  · rw [h3]; nlinarith
  · have : C = 1 - R := by linarith [r_c]
    rw [this]; nlinarith

theorem between' {x y : ℝ} (h : x < y) : x < R * y + C * x ∧ R * y + C * x < y := by
  have h1 := mul_pos c_pos (sub_pos.2 h)
  have h2 := mul_pos r_pos (sub_pos.2 h)
  have h3 : R = 1 - C := by linarith [r_c]
  constructor
  · have : C = 1 - R := by linarith [r_c]
    rw [this]; nlinarith
  · rw [h3]; nlinarith

theorem goodStep_bracket {f : ℝ → ℝ} {c a b : ℝ} {s : St} (hu : Unimodal f c a b) (h : Bracket f c a b s) :
    Bracket f c a b (goodStep f s) := by
  have h01 := h.o0
  have h12 := h.o1
  have h23 := h.o2
  have h34 := h.o3
  have h45 := h.o4
  unfold goodStep
  split
  · rename_i hlt
    have hd := between h.o3
    refine ⟨h.v2, rfl, by linarith, h.o2, hd.1, hd.2, h.o4, ?_, h.c3⟩
    by_contra hc
    have hc : c < s.x1 := not_le.1 hc
    have := hu.2 s.x1 s.x2 hc.le h.o2 (by linarith)
    rw [h.v1, h.v2] at hlt
    linarith
  · rename_i hlt
    have hd := between' h.o1
    refine ⟨rfl, h.v1, h.o0, hd.1, hd.2, h.o2, by linarith, h.c0, ?_⟩
    by_contra hc
    have hc : s.x2 < c := not_le.1 hc
    have := hu.1 s.x1 s.x2 (by linarith) h.o2 hc.le
    rw [h.v1, h.v2] at hlt
    exact hlt this

theorem goodRun_bracket {f : ℝ → ℝ} {c a b eps : ℝ} {n : Nat} {s t : St} (hu : Unimodal f c a b) (h : Bracket f c a b s)
    (hr : goodRun f eps n s = some t) : Bracket f c a b t ∧ ¬ goesOn eps t := by
  induction n generalizing s with
  | zero =>
    unfold goodRun at hr
    split at hr
    · cases hr
    · cases hr; exact ⟨h, by assumption⟩
  | succ n ih =>
    unfold goodRun at hr
    split at hr
    · exact ih (goodStep_bracket hu h) hr
    · cases hr; exact ⟨h, by assumption⟩

theorem start_bracket {f : ℝ → ℝ} {c a b : ℝ} (hab : a < b) (hc : a ≤ c) (hcb : c ≤ b) : Bracket f c a b (start f a ((a + b) / 2) b) := by
  have h1 : a < (a + b) / 2 := by linarith
  have h2 : (a + b) / 2 < b := by linarith
  have hr := r_c
  unfold start
  split
  · have hm : (a + b) / 2 + C * (b - (a + b) / 2) = R * ((a + b) / 2) + C * b := by
      have : R = 1 - C := by linarith
      rw [this]; ring
    rw [hm]
    have := between h2
    exact ⟨rfl, rfl, le_refl _, h1, this.1, this.2, le_refl _, hc, hcb⟩
  · have hm : (a + b) / 2 - C * ((a + b) / 2 - a) = R * ((a + b) / 2) + C * a := by
      have : R = 1 - C := by linarith
      rw [this]; ring
    rw [hm]
    have := between' h1
    exact ⟨rfl, rfl, le_refl _, this.1, this.2, h2, le_refl _, hc, hcb⟩

theorem goodSearch_accurate : Accurate goodSearch := by
  intro f alpha beta eps n c x y ha hab he hc hcb hu h
  unfold goodSearch at h
  cases hr : goodRun f eps n (start f alpha ((alpha + beta) / 2) beta) with
  | none => rw [hr] at h; cases h
  | some t =>
    rw [hr] at h
    obtain ⟨hb, hg⟩ := goodRun_bracket hu (start_bracket hab hc hcb) hr
    have h0 := hb.o0
    have h1 := hb.o1
    have h2 := hb.o2
    have h3 := hb.o3
    have h4 := hb.o4
    have h5 := hb.c0
    have h6 := hb.c3
    have hw : |t.x3 - t.x0| ≤ eps * (|t.x1| + |t.x2|) := not_lt.1 hg
    rw [abs_of_pos (by linarith), abs_of_pos (by linarith), abs_of_pos (by linarith)] at hw
    have hle : eps * (t.x1 + t.x2) ≤ eps * (2 * beta) := mul_le_mul_of_nonneg_left (by linarith) he.le
    have hx : t.x0 ≤ x ∧ x ≤ t.x3 := by
      simp only [Option.map_some, Option.some.injEq] at h
      unfold result at h
      split at h <;> cases h <;> constructor <;> linarith
    rw [abs_le]
    constructor <;> linarith [hx.1, hx.2]

example : ∃ x y, search vee 0 1 (1 / 25) 5 = some (x, y) := vee_ends

end

end Envire.Icp.Golden

#print axioms Envire.Icp.Golden.C125_search_partial
#print axioms Envire.Icp.Golden.C125_missed
#print axioms Envire.Icp.Golden.C125_not_accurate
