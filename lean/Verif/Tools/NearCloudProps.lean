import Verif.Tools.NearCloudModel

/-!
C187: heights from the point clouds of an environment (PointcloudAccess).
-/
namespace Envire.NearCloud
open Envire.MapSet

noncomputable section

/-! ### specification -/

/-- a point of a cloud of the environment, in the root frame -/
def Has (env : List Cloud) (q : V3) : Prop := ∃ c ∈ env, ∃ v ∈ c.vertices, q = c.frame.R.mulVec v + c.frame.t

/-! ### the tree -/

theorem root_rel (F : Pose) (v : V3) : (rel F Access.root).apply v = F.R.mulVec v + F.t := by
  simp [rel, Access.root, Pose.inv, Pose.mul, Pose.apply]

theorem fold_mem (t : V3 → V3) (l : List V3) (tree : List V3) (q : V3) :
    q ∈ l.foldl (fun tree v => tree ++ [t v]) tree ↔ q ∈ tree ∨ ∃ v ∈ l, q = t v := by
  induction l generalizing tree with
  | nil => simp
  | cons a l ih =>
    rw [List.foldl_cons, ih]
    simp only [List.mem_append, List.mem_singleton, List.mem_cons, exists_eq_or_imp]
    tauto

theorem fill_mem (env : List Cloud) (tree : List V3) (q : V3) :
    q ∈ env.foldl (fun tree c => fillOne c tree) tree ↔ q ∈ tree ∨ Has env q := by
  induction env generalizing tree with
  | nil => simp [Has]
  | cons c l ih =>
    rw [List.foldl_cons, ih]
    unfold fillOne
    dsimp only
    rw [fold_mem]
    simp only [root_rel, Has, List.mem_cons, exists_eq_or_imp, or_assoc]

theorem build_mem (env : List Cloud) (q : V3) : q ∈ build env ↔ Has env q := by
  unfold build
  rw [fill_mem]
  simp

/-- C187: with a bound, the height of a point of a cloud is given that is nearest in x and y among the points of all clouds of the environment, and
the other coordinates of the position stay; if there is none, no point of any cloud is nearer than the bound -/
theorem C187_nearest (L : Library) (env : List Cloud) (p : V3) (t : ℝ) :
    (∀ r, nearest L (build env) p t = some r →
      r 0 = p 0 ∧ r 1 = p 1 ∧ ∃ q, Has env q ∧ r 2 = q 2 ∧ dist p q ≤ t ∧ ∀ q', Has env q' → dist p q ≤ dist p q') ∧
    (nearest L (build env) p t = none → ∀ q, Has env q → t ≤ dist p q) := by
  constructor
  · intro r hr
    unfold nearest at hr
    cases hq : L.nearest (build env) p t with
    | none => rw [hq] at hr; exact absurd hr (by simp)
    | some q =>
      rw [hq] at hr
      obtain ⟨h1, h2, h3⟩ := L.nearest_some _ _ _ _ hq
      have e : r = Function.update p 2 (q 2) := (Option.some.inj hr).symm
      subst e
      refine ⟨by simp, by simp, q, (build_mem env q).1 h1, by simp, h2, fun q' h' => h3 q' ((build_mem env q').2 h')⟩
  · intro hn q hq
    unfold nearest at hn
    cases hh : L.nearest (build env) p t with
    | none => exact L.nearest_none _ _ _ hh q ((build_mem env q).2 hq)
    | some q => rw [hh] at hn; exact absurd hn (by simp)

theorem range_spec (L : Library) (absf : ℝ → ℝ) (env : List Cloud) (p : V3) (r zpos zt : ℝ) :
    (∀ q, range L absf (build env) p r zpos zt = some q → Has env q ∧ inSquare p r q ∧ absf (q 2 - zpos) < zt) ∧
    (range L absf (build env) p r zpos zt = none ↔ ∀ q, Has env q → inSquare p r q → ¬ absf (q 2 - zpos) < zt) := by
  constructor
  · intro q hq
    unfold range at hq
    have h1 := List.find?_some hq
    have h2 := (L.within_mem _ _ _ _).1 (List.mem_of_find?_eq_some hq)
    exact ⟨(build_mem env q).1 h2.1, h2.2, by simpa using h1⟩
  · unfold range
    rw [List.find?_eq_none]
    constructor
    · intro h q hq hs
      simpa using h q ((L.within_mem _ _ _ _).2 ⟨(build_mem env q).2 hq, hs⟩)
    · intro h q hq
      obtain ⟨a, b⟩ := (L.within_mem _ _ _ _).1 hq
      simpa using h q ((build_mem env q).1 a) b

/-- C187 (partial: if `abs` is the one for `double`) With a range, the position becomes a point of a cloud in the square around it whose height differs by
less than the bound from the one that is asked for; nothing is found exactly if there is no such point. -/
theorem C187_range_partial (L : Library) (env : List Cloud) (p : V3) (r zpos zt : ℝ) :
    (∀ q, range L (|·|) (build env) p r zpos zt = some q → Has env q ∧ |q 0 - p 0| ≤ r ∧ |q 1 - p 1| ≤ r ∧ |q 2 - zpos| < zt) ∧
    (range L (|·|) (build env) p r zpos zt = none ↔ ¬ ∃ q, Has env q ∧ |q 0 - p 0| ≤ r ∧ |q 1 - p 1| ≤ r ∧ |q 2 - zpos| < zt) := by
  obtain ⟨h1, h2⟩ := range_spec L (|·|) env p r zpos zt
  refine ⟨fun q hq => ?_, h2.trans ?_⟩
  · obtain ⟨a, b, c⟩ := h1 q hq
    exact ⟨a, b.1, b.2, c⟩
  · constructor
    · rintro h ⟨q, a, b, c, d⟩
      exact h q a ⟨b, c⟩ d
    · intro h q a b c
      exact h ⟨q, a, b.1, b.2, c⟩

theorem absInt_le (x : ℝ) : absInt x ≤ |x| := Int.floor_le _

theorem lt_absInt (x : ℝ) : |x| < absInt x + 1 := Int.lt_floor_add_one _

/-- C187, with the `abs` for `int`: a point that meets the bounds is never missed; the heights of points that are found are wrong by less than 1 more than
the bound -/
theorem C187_integer (L : Library) (env : List Cloud) (p : V3) (r zpos zt : ℝ) :
    (∀ q, range L absInt (build env) p r zpos zt = some q → Has env q ∧ |q 0 - p 0| ≤ r ∧ |q 1 - p 1| ≤ r ∧ |q 2 - zpos| < zt + 1) ∧
    (range L absInt (build env) p r zpos zt = none → ¬ ∃ q, Has env q ∧ |q 0 - p 0| ≤ r ∧ |q 1 - p 1| ≤ r ∧ |q 2 - zpos| < zt) := by
  obtain ⟨h1, h2⟩ := range_spec L absInt env p r zpos zt
  refine ⟨fun q hq => ?_, fun hn => ?_⟩
  · obtain ⟨a, b, c⟩ := h1 q hq
    exact ⟨a, b.1, b.2, lt_trans (lt_absInt _) (by linarith)⟩
  · rintro ⟨q, a, b, c, d⟩
    exact h2.1 hn q a ⟨b, c⟩ (lt_of_le_of_lt (absInt_le _) d)

/-- C187, the code violates the property if only the `abs` for `int` is visible: for every bound, however small, a point is accepted that is 0.9 too high -/
theorem C187_integer_deviation (L : Library) (r zt : ℝ) (hr : 0 ≤ r) (hz : 0 < zt) :
    ∃ env q, range L absInt (build env) 0 r 0 zt = some q ∧ q 2 = 0.9 := by
  let env : List Cloud := [⟨Access.root, [![0, 0, 0.9]]⟩]
  have hu : ∀ q, Has env q ↔ q = ![0, 0, 0.9] := by
    intro q
    simp [Has, env, Access.root]
  have ha : absInt 0.9 = 0 := by
    unfold absInt
    rw [abs_of_pos (by norm_num : (0 : ℝ) < 0.9)]
    have : ⌊(0.9 : ℝ)⌋ = 0 := by rw [Int.floor_eq_iff]; norm_num
    rw [this]
    simp
  obtain ⟨h1, h2⟩ := range_spec L absInt env 0 r 0 zt
  cases hq : range L absInt (build env) 0 r 0 zt with
  | none =>
    exfalso
    refine h2.1 hq ![0, 0, 0.9] ((hu _).2 rfl) ?_ ?_
    · simp [inSquare, hr]
    · show absInt (0.9 - 0) < zt
      rw [sub_zero, ha]
      exact hz
  | some q =>
    refine ⟨env, q, hq, ?_⟩
    rw [(hu q).1 (h1 q hq).1]
    rfl

/-- C187, the code violates the property: the square reaches farther than the bound, points at a distance of more than 1.4 times the bound are accepted -/
theorem C187_square_deviation (L : Library) (r : ℝ) (hr : 0 < r) :
    ∃ env q, range L (|·|) (build env) 0 r 0 1 = some q ∧ 1.4 * r < dist 0 q := by
  let env : List Cloud := [⟨Access.root, [![r, r, 0]]⟩]
  have hu : ∀ q, Has env q ↔ q = ![r, r, 0] := by
    intro q
    simp [Has, env, Access.root]
  obtain ⟨h1, h2⟩ := range_spec L (|·|) env 0 r 0 1
  cases hq : range L (|·|) (build env) 0 r 0 1 with
  | none =>
    exfalso
    refine h2.1 hq ![r, r, 0] ((hu _).2 rfl) ?_ ?_
    · simp [inSquare, abs_of_pos hr]
    · simp
  | some q =>
    refine ⟨env, q, hq, ?_⟩
    rw [(hu q).1 (h1 q hq).1]
    unfold dist
    apply Real.lt_sqrt_of_sq_lt
    simp
    nlinarith [mul_pos hr hr]

/-- C187: if the clouds had no points when the access object was made nothing is ever found, whatever they get later -/
theorem C187_later (L : Library) (env : List Cloud) (p : V3) (t : ℝ) (h : ∀ q, ¬ Has env q) :
    nearest L (build env) p t = none := by
  cases hh : nearest L (build env) p t with
  | none => rfl
  | some r =>
    obtain ⟨-, -, q, hq, -⟩ := (C187_nearest L env p t).1 r hh
    exact absurd hq (h q)

/-! ### examples -/

open Classical in
/-- a library that meets the assumptions: it looks at all points -/
def slow : Library where
  within l p r := l.filter fun q => decide (inSquare p r q)
  within_mem l p r q := by simp
  nearest l p t := (l.find? fun q => decide (∀ q' ∈ l, dist p q ≤ dist p q')).filter fun q => decide (dist p q ≤ t)
  nearest_some l p t q h := by
    rw [Option.filter_eq_some_iff] at h
    have h1 := List.find?_some h.1
    have h2 := List.mem_of_find?_eq_some h.1
    exact ⟨h2, by simpa using h.2, by simpa using h1⟩
  nearest_none l p t h q hq := by
    obtain ⟨m, hm, hle⟩ : ∃ m ∈ l, ∀ q' ∈ l, dist p m ≤ dist p q' := by
      have := l.toFinset.exists_min_image (dist p) ⟨q, by simpa using hq⟩
      simpa using this
    cases hf : l.find? fun q => decide (∀ q' ∈ l, dist p q ≤ dist p q') with
    | none =>
      rw [List.find?_eq_none] at hf
      exact absurd (by simpa using hle) (hf m hm)
    | some x =>
      have h1 := List.find?_some hf
      rw [hf] at h
      by_contra hlt
      rw [Option.filter_eq_none_iff] at h
      have h1' : ∀ q' ∈ l, dist p x ≤ dist p q' := by simpa using h1
      have := h x rfl
      simp only [decide_eq_true_eq, not_le] at this
      exact absurd (lt_of_lt_of_le this (h1' q hq)) (by linarith)

/-- the height is found -/
example : nearest slow (build [⟨⟨1, ![1, 0, 2]⟩, [![0, 0, 3]]⟩]) ![1, 0, 0] 0.05 = some ![1, 0, 5] := by
  have hu : ∀ q, Has [⟨⟨1, ![1, 0, 2]⟩, [![0, 0, 3]]⟩] q ↔ q = ![1, 0, 5] := by
    intro q
    simp [Has]
    norm_num
  have h := C187_nearest slow [⟨⟨1, ![1, 0, 2]⟩, [![0, 0, 3]]⟩] ![1, 0, 0] 0.05
  cases hh : nearest slow (build [⟨⟨1, ![1, 0, 2]⟩, [![0, 0, 3]]⟩]) ![1, 0, 0] 0.05 with
  | none =>
    have := h.2 hh ![1, 0, 5] ((hu _).2 rfl)
    simp [dist] at this
    norm_num at this
  | some r =>
    obtain ⟨a, b, q, hq, c, -⟩ := h.1 r hh
    rw [(hu q).1 hq] at c
    congr 1
    funext i
    fin_cases i
    · exact a
    · exact b
    · exact c

end

#print axioms C187_nearest
#print axioms C187_range_partial
#print axioms C187_integer
#print axioms C187_integer_deviation
#print axioms C187_square_deviation
#print axioms C187_later

end Envire.NearCloud
