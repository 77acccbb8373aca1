import Verif.Icp.StabilityModel
import Verif.Icp.PairsProps
import Mathlib.Tactic.FieldSimp

/-! C128: clusters of transforms; C129: samples around a transform -/

namespace Envire.Icp.Stability

open Envire.Icp Envire.Icp.Ransac

noncomputable section

/-! ### C128 -/

theorem furthest_some {best : Option Nat} {max : ℝ} {i k : Nat} {ds : List ℝ} (h : furthest best max i ds = some k) :
    (best = some k ∧ ∀ d ∈ ds, d ≤ max) ∨ ∃ j, k = i + j ∧ ∃ hj : j < ds.length, max < ds[j] ∧ ∀ d ∈ ds, d ≤ ds[j] := by
  induction ds generalizing best max i with
  | nil => exact Or.inl ⟨h, by simp⟩
  | cons d ds ih =>
    unfold furthest at h
    split at h
    · rename_i hlt
      rcases ih h with ⟨h1, h2⟩ | ⟨j, h1, hj, h2, h3⟩
      · refine Or.inr ⟨0, by cases h1; rfl, by simp, by simpa using hlt, ?_⟩
        intro x hx
        rcases List.mem_cons.1 hx with rfl | hx
        · exact le_refl _
        · exact h2 x hx
      · refine Or.inr ⟨j + 1, by omega, by simpa using hj, by simpa using hlt.trans h2, ?_⟩
        intro x hx
        rcases List.mem_cons.1 hx with rfl | hx
        · simpa using h2.le
        · simpa using h3 x hx
    · rename_i hlt
      rcases ih h with ⟨h1, h2⟩ | ⟨j, h1, hj, h2, h3⟩
      · refine Or.inl ⟨h1, ?_⟩
        intro x hx
        rcases List.mem_cons.1 hx with rfl | hx
        · exact not_lt.1 hlt
        · exact h2 x hx
      · refine Or.inr ⟨j + 1, by omega, by simpa using hj, by simpa using h2, ?_⟩
        intro x hx
        rcases List.mem_cons.1 hx with rfl | hx
        · simpa using (not_lt.1 hlt).trans h2.le
        · simpa using h3 x hx

theorem furthest_none {best : Option Nat} {max : ℝ} {i : Nat} {ds : List ℝ} (h : furthest best max i ds = none) :
    best = none ∧ ∀ d ∈ ds, d ≤ max := by
  induction ds generalizing best max i with
  | nil => exact ⟨h, by simp⟩
  | cons d ds ih =>
    unfold furthest at h
    split at h
    · obtain ⟨h1, -⟩ := ih h
      cases h1
    · rename_i hlt
      obtain ⟨h1, h2⟩ := ih h
      refine ⟨h1, ?_⟩
      intro x hx
      rcases List.mem_cons.1 hx with rfl | hx
      · exact not_lt.1 hlt
      · exact h2 x hx

/-- the mean of a coordinate and the mean of the squared deviations -/
def avg (l : List ℝ) : ℝ := l.sum / l.length
def spread (l : List ℝ) : ℝ := (l.map fun x => (x - avg l) ^ 2).sum / l.length

theorem varT_spread (ps : List Pose) (y : ℝ) (i : Fin 3) : varT ⟨meanT ps, y⟩ ps i = spread (ps.map fun p => p.t i) := by
  unfold varT spread avg meanT
  rw [List.length_map, List.map_map]
  congr 2
  apply List.map_congr_left
  intro p _
  simp only [Function.comp_apply, List.length_map]
  ring

theorem spread_eq {l : List ℝ} (hl : l ≠ []) : (l.map fun x => (x - avg l) ^ 2).sum = (l.map fun x => x ^ 2).sum - l.length * avg l ^ 2 := by
  have hn : (l.length : ℝ) ≠ 0 := by
    have := List.length_pos_iff.2 hl
    positivity
  have key : ∀ (a : ℝ) (l : List ℝ), (l.map fun x => (x - a) ^ 2).sum = (l.map fun x => x ^ 2).sum - 2 * a * l.sum + l.length * a ^ 2 := by
    intro a l
    induction l with
    | nil => simp
    | cons x l ih =>
      simp only [List.map_cons, List.sum_cons, List.length_cons, ih]
      push_cast
      ring
  rw [key]
  have hs : l.sum = l.length * avg l := by unfold avg; field_simp
  rw [hs]
  ring

theorem norm3_nonneg (v : V3) : 0 ≤ norm3 v := Real.sqrt_nonneg _

theorem norm3_sq (v : V3) : norm3 v ^ 2 = v 0 ^ 2 + v 1 ^ 2 + v 2 ^ 2 := by
  unfold norm3
  exact Real.sq_sqrt (by positivity)

/-- points whose distance from the origin is that of their mean are all equal -/
theorem no_spread {ps : List Pose} (hne : ps ≠ []) (y : ℝ) (h : ∀ p ∈ ps, norm3 p.t = norm3 (meanT ps)) :
    norm3 (varT ⟨meanT ps, y⟩ ps) = 0 := by
  have hmap : ∀ i, (ps.map fun p => p.t i) ≠ [] := fun i => by simpa using hne
  have hn : (0 : ℝ) < ps.length := by exact_mod_cast List.length_pos_iff.2 hne
  have havg : ∀ i, avg (ps.map fun p => p.t i) = meanT ps i := fun i => by unfold avg meanT; rw [List.length_map]
  have hsum : ∑ i, ((ps.map fun p => p.t i).map fun x => (x - avg (ps.map fun p => p.t i)) ^ 2).sum = 0 := by
    have e : ∀ i, ((ps.map fun p => p.t i).map fun x => (x - avg (ps.map fun p => p.t i)) ^ 2).sum =
        (ps.map fun p => p.t i ^ 2).sum - ps.length * meanT ps i ^ 2 := by
      intro i
      rw [spread_eq (hmap i), havg, List.map_map, List.length_map]
      rfl
    rw [Fin.sum_univ_three, e 0, e 1, e 2]
    have hs : (ps.map fun p => p.t 0 ^ 2).sum + (ps.map fun p => p.t 1 ^ 2).sum + (ps.map fun p => p.t 2 ^ 2).sum =
        (ps.map fun p => norm3 p.t ^ 2).sum := by
      rw [← List.sum_map_add, ← List.sum_map_add]
      congr 1
      apply List.map_congr_left
      intro p _
      rw [norm3_sq]
    have hc : (ps.map fun p => norm3 p.t ^ 2).sum = ps.length * norm3 (meanT ps) ^ 2 := by
      rw [List.map_congr_left (g := fun _ => norm3 (meanT ps) ^ 2) fun p hp => by rw [h p hp]]
      simp [List.sum_replicate]
    have := norm3_sq (meanT ps)
    rw [hc, this] at hs
    linarith
  have hnn : ∀ i, 0 ≤ ((ps.map fun p => p.t i).map fun x => (x - avg (ps.map fun p => p.t i)) ^ 2).sum := by
    intro i
    apply List.sum_nonneg
    intro x hx
    obtain ⟨a, -, rfl⟩ := List.mem_map.1 hx
    positivity
  have hz : ∀ i, varT ⟨meanT ps, y⟩ ps i = 0 := by
    intro i
    rw [varT_spread]
    unfold spread
    have := (Finset.sum_eq_zero_iff_of_nonneg fun i _ => hnn i).1 hsum i (Finset.mem_univ i)
    rw [this, zero_div]
  unfold norm3
  rw [hz, hz, hz]
  norm_num

/-- the rounds of the removal: in each one the spread is above a limit, and a point is removed whose difference to the mean (of
the distances from the origin, or of the angles) is one of the greatest -/
inductive Removes (wrap : ℝ → ℝ) (limT limY : ℝ) : List Pose → List Pose → Prop
  | refl (ps) : Removes wrap limT limY ps ps
  | far (ps qs i) (hi : i < ps.length) (hv : limT < norm3 (fun k => spread (ps.map fun p => p.t k)))
      (hm : ∀ p ∈ ps, |norm3 (meanT ps) - norm3 p.t| ≤ |norm3 (meanT ps) - norm3 ps[i].t|)
      (h : Removes wrap limT limY (ps.eraseIdx i) qs) : Removes wrap limT limY ps qs
  | turned (ps qs i) (hi : i < ps.length) (hv : limY < varYaw wrap ⟨meanT ps, meanYaw ps⟩ ps)
      (hv' : norm3 (fun k => spread (ps.map fun p => p.t k)) ≤ limT)
      (hm : ∀ p ∈ ps, |p.yaw - wrap (meanYaw ps)| ≤ |ps[i].yaw - wrap (meanYaw ps)|)
      (h : Removes wrap limT limY (ps.eraseIdx i) qs) : Removes wrap limT limY ps qs

theorem varYaw_eq (wrap : ℝ → ℝ) (m : Pose) (p : Pose) (ps : List Pose) : varYaw wrap m (p :: ps) = (wrap m.yaw - p.yaw) ^ 2 := by
  unfold varYaw
  have hn : ((p :: ps).length : ℝ) ≠ 0 := by
    rw [List.length_cons]; positivity
  rw [List.map_const', List.sum_replicate, nsmul_eq_mul]
  simp only [List.head?_cons, Option.map_some, Option.getD_some]
  field_simp

theorem stats_covT (wrap : ℝ → ℝ) (s : Clustering) : (s.stats wrap).covT = fun k => spread (s.points.map fun p => p.t k) :=
  funext fun i => varT_spread s.points _ i

theorem outlier_cases (wrap : ℝ → ℝ) (s : Clustering) (hne : s.points ≠ []) (hy : 0 ≤ s.limitOri 2 2) :
    ((s.stats wrap).outlier wrap = none ∧ norm3 (fun k => spread (s.points.map fun p => p.t k)) ≤ frob s.limitPos ∧
      varYaw wrap ⟨meanT s.points, meanYaw s.points⟩ s.points ≤ s.limitOri 2 2) ∨
    ∃ i, (s.stats wrap).outlier wrap = some i ∧ i < s.points.length ∧
      ∀ qs, Removes wrap (frob s.limitPos) (s.limitOri 2 2) (s.points.eraseIdx i) qs →
        Removes wrap (frob s.limitPos) (s.limitOri 2 2) s.points qs := by
  have hcov := stats_covT wrap s
  have hlp : (s.stats wrap).limitPos = s.limitPos := rfl
  have hlo : (s.stats wrap).limitOri = s.limitOri := rfl
  have hpts : (s.stats wrap).points = s.points := rfl
  have hmt : (s.stats wrap).mean.t = meanT s.points := rfl
  have hmy : (s.stats wrap).mean.yaw = meanYaw s.points := rfl
  have hcy : (s.stats wrap).covYaw = varYaw wrap ⟨meanT s.points, meanYaw s.points⟩ s.points := rfl
  unfold Clustering.outlier
  rw [hcov, hlp, hlo, hpts, hmt, hmy, hcy]
  by_cases h1 : frob s.limitPos < norm3 (fun k => spread (s.points.map fun p => p.t k))
  · rw [if_pos h1]
    right
    cases hf : furthest none 0 0 (s.points.map fun p => |norm3 (meanT s.points) - norm3 p.t|) with
    | none =>
      exfalso
      obtain ⟨-, h2⟩ := furthest_none hf
      have h0 : norm3 (varT ⟨meanT s.points, 0⟩ s.points) = 0 := by
        apply no_spread hne
        intro p hp
        have := h2 _ (List.mem_map.2 ⟨p, hp, rfl⟩)
        have := abs_nonpos_iff.1 this
        linarith
      have hcov' : varT ⟨meanT s.points, 0⟩ s.points = fun k => spread (s.points.map fun p => p.t k) :=
        funext fun i => varT_spread s.points _ i
      rw [hcov'] at h0
      rw [h0] at h1
      have : 0 ≤ frob s.limitPos := Real.sqrt_nonneg _
      linarith
    | some i =>
      rcases furthest_some hf with ⟨h2, -⟩ | ⟨j, h2, hj, -, h3⟩
      · cases h2
      · rw [zero_add] at h2
        subst h2
        rw [List.length_map] at hj
        refine ⟨i, rfl, hj, fun qs hq => .far _ _ i hj h1 ?_ hq⟩
        intro p hp
        have := h3 _ (List.mem_map.2 ⟨p, hp, rfl⟩)
        simpa using this
  · rw [if_neg h1]
    by_cases h2 : s.limitOri 2 2 < varYaw wrap ⟨meanT s.points, meanYaw s.points⟩ s.points
    · rw [if_pos h2]
      right
      cases hf : furthest none 0 0 (s.points.map fun p => |p.yaw - wrap (meanYaw s.points)|) with
      | none =>
        exfalso
        obtain ⟨-, h3⟩ := furthest_none hf
        cases hp : s.points with
        | nil => exact hne hp
        | cons p ps =>
          rw [hp] at h2 h3
          rw [varYaw_eq] at h2
          have := abs_nonpos_iff.1 (h3 _ (List.mem_map.2 ⟨p, by simp, rfl⟩))
          have h4 : wrap (meanYaw (p :: ps)) - p.yaw = 0 := by linarith
          simp only [h4] at h2
          norm_num at h2
          linarith
      | some i =>
        rcases furthest_some hf with ⟨h3, -⟩ | ⟨j, h3, hj, -, h4⟩
        · cases h3
        · rw [zero_add] at h3
          subst h3
          rw [List.length_map] at hj
          refine ⟨i, rfl, hj, fun qs hq => .turned _ _ i hj h2 (not_lt.1 h1) ?_ hq⟩
          intro p hp
          have := h4 _ (List.mem_map.2 ⟨p, hp, rfl⟩)
          simpa using this
    · rw [if_neg h2]
      exact Or.inl ⟨rfl, not_lt.1 h1, not_lt.1 h2⟩

/-- what is claimed of the removal -/
structure Cleaned (wrap : ℝ → ℝ) (s : Clustering) (ps : List Pose) (r : Bool × Clustering) : Prop where
  conf : r.2.conf = s.conf
  sub : r.2.points.Sublist ps
  chain : Removes wrap (frob s.limitPos) (s.limitOri 2 2) ps r.2.points
  no : r.1 = false → r.2.points.length < s.conf.min_number
  yes : r.1 = true → s.conf.min_number ≤ r.2.points.length ∧
    r.2.mean.t = (fun i => avg (r.2.points.map fun p => p.t i)) ∧ r.2.mean.yaw = avg (r.2.points.map Pose.yaw) ∧
    r.2.covT = (fun i => spread (r.2.points.map fun p => p.t i)) ∧ norm3 r.2.covT ≤ frob s.limitPos ∧
    r.2.covYaw = varYaw wrap r.2.mean r.2.points ∧ r.2.covYaw ≤ s.limitOri 2 2

theorem meanT_avg (ps : List Pose) : meanT ps = fun i => avg (ps.map fun p => p.t i) := by
  funext i
  unfold meanT avg
  rw [List.length_map]

theorem meanYaw_avg (ps : List Pose) : meanYaw ps = avg (ps.map Pose.yaw) := by
  unfold meanYaw avg
  rw [List.length_map]

theorem remove_cleaned (wrap : ℝ → ℝ) (fuel : Nat) (s : Clustering) (hm : 1 ≤ s.conf.min_number) (hy : 0 ≤ s.limitOri 2 2)
    (hf : s.points.length < fuel) : Cleaned wrap s s.points (s.removeOutliers wrap fuel) := by
  induction fuel generalizing s with
  | zero => omega
  | succ fuel ih =>
    unfold Clustering.removeOutliers
    by_cases h1 : s.points.length < s.conf.min_number
    · rw [if_pos h1]
      exact ⟨rfl, List.Sublist.refl _, .refl _, fun _ => h1, fun h => by cases h⟩
    · rw [if_neg h1]
      have hne : s.points ≠ [] := by
        intro h
        rw [h] at h1
        simp only [List.length_nil] at h1
        omega
      dsimp only
      rcases outlier_cases wrap s hne hy with ⟨h2, h3, h4⟩ | ⟨i, h2, h3, h4⟩
      · rw [h2]
        dsimp only
        refine ⟨rfl, List.Sublist.refl _, .refl _, (fun h => by cases h), fun _ => ⟨not_lt.1 h1, meanT_avg _, meanYaw_avg _, stats_covT wrap s, ?_, rfl, h4⟩⟩
        rw [stats_covT]
        exact h3
      · rw [h2]
        dsimp only
        have hlen : ((s.stats wrap).points.eraseIdx i).length = s.points.length - 1 := List.length_eraseIdx_of_lt h3
        have := ih { s.stats wrap with points := (s.stats wrap).points.eraseIdx i } hm hy (by
          dsimp only
          rw [hlen]
          omega)
        exact ⟨this.conf, this.sub.trans (List.eraseIdx_sublist _ _), h4 _ this.chain, this.no, this.yes⟩

/-- C128: with the removal of outliers, the points that are kept are points that were given, in their order. If the result is
true then they are at least as many as are asked for, their mean and spread are reported, and the spread is within the limits;
otherwise too few are left. Points are removed one by one, and only while the spread is above a limit.
Missing: the point that is removed is the one furthest from the mean, see C128_keeps_outlier; the spread of the angles, see
C128_yaw -/
theorem C128_outliers_partial (wrap : ℝ → ℝ) (s : Clustering) (ps : List Pose) (hr : s.conf.remove_outliers = true)
    (hm : 1 ≤ s.conf.min_number) (hy : 0 ≤ s.limitOri 2 2) : Cleaned wrap s ps (s.cluster wrap ps) := by
  unfold Clustering.cluster
  dsimp only
  by_cases h1 : ps.length < s.conf.min_number
  · rw [if_pos h1]
    exact ⟨rfl, List.Sublist.refl _, .refl _, fun _ => h1, fun h => by cases h⟩
  · rw [if_neg h1, hr, if_pos rfl]
    have := remove_cleaned wrap (ps.length + 1) { s with points := ps } hm hy (by simp)
    exact ⟨this.conf, this.sub, this.chain, this.no, this.yes⟩

/-- C128: without the removal of outliers the result is true if there are enough points; all of them are kept, and their mean
and the spread of their positions are reported -/
theorem C128_plain (wrap : ℝ → ℝ) (s : Clustering) (ps : List Pose) (hr : s.conf.remove_outliers = false) :
    (s.cluster wrap ps).2.points = ps ∧ ((s.cluster wrap ps).1 = true ↔ s.conf.min_number ≤ ps.length) ∧
      ((s.cluster wrap ps).1 = true → (s.cluster wrap ps).2.mean.t = (fun i => avg (ps.map fun p => p.t i)) ∧
        (s.cluster wrap ps).2.mean.yaw = avg (ps.map Pose.yaw) ∧ (s.cluster wrap ps).2.covT = fun i => spread (ps.map fun p => p.t i)) := by
  unfold Clustering.cluster
  dsimp only
  by_cases h1 : ps.length < s.conf.min_number
  · rw [if_pos h1]
    exact ⟨rfl, ⟨(fun h => by cases h), fun h => absurd h (by omega)⟩, fun h => by cases h⟩
  · rw [if_neg h1, hr]
    exact ⟨rfl, ⟨fun _ => not_lt.1 h1, fun _ => rfl⟩, fun _ => ⟨meanT_avg _, meanYaw_avg _, stats_covT wrap { s with points := ps }⟩⟩

/-- C128, wrong: the variance of the angles is not that of the points: with the angles 1, 0 and 2 it is 0. The loop takes the
angle of the first point in every round -/
theorem C128_yaw (wrap : ℝ → ℝ) (hw : wrap 1 = 1) : ∃ (s : Clustering) (ps : List Pose), s.conf.remove_outliers = false ∧
    (s.cluster wrap ps).1 = true ∧ (s.cluster wrap ps).2.covYaw = 0 ∧ spread (ps.map Pose.yaw) = 2 / 3 := by
  refine ⟨⟨⟨1, false, ⟨0, 0, 0⟩, ⟨0, 0, 0⟩⟩, [], ⟨0, 0⟩, 0, 0, 0, 0⟩, [⟨0, 1⟩, ⟨0, 0⟩, ⟨0, 2⟩], rfl, rfl, ?_, ?_⟩
  · show varYaw wrap ⟨meanT _, meanYaw [⟨0, 1⟩, ⟨0, 0⟩, ⟨0, 2⟩]⟩ [⟨0, 1⟩, ⟨0, 0⟩, ⟨0, 2⟩] = 0
    rw [varYaw_eq]
    have : meanYaw [⟨0, 1⟩, ⟨0, 0⟩, ⟨0, 2⟩] = 1 := by
      unfold meanYaw
      norm_num
    rw [this, hw]
    norm_num
  · unfold spread avg
    norm_num

/-- C128, wrong: the limit of the angles does not depend on the covariance of the orientation, but on that of the position -/
theorem C128_orientation (chol : M3 → M3) (s : Clustering) (covP covO covO' : M3) :
    s.defRegion chol covP covO = s.defRegion chol covP covO' := rfl

/-- a Cholesky factor -/
def IsChol (m l : M3) : Prop := l * l.transpose = m ∧ ∀ i j, i < j → l i j = 0

theorem norm3_x (x : ℝ) : norm3 ![x, 0, 0] = |x| := by
  unfold norm3
  simp [Real.sqrt_sq_eq_abs]

theorem clamp_id {c : SigmaConf} {j : Fin 3} {v : V3} (h1 : c.min_norm ≤ norm3 v) (h2 : norm3 v ≤ c.max_norm) : clamp c j v = v := by
  unfold clamp
  dsimp only
  rw [if_neg (not_lt.2 h1), if_neg (not_lt.2 h2)]

/-- C128: for a diagonal covariance of the position whose sigma points are within the bounds, the limit is the covariance, times
the square of the number of sigmas -/
theorem C128_limit_partial (chol : M3 → M3) (s : Clustering) (d : V3) (hd : ∀ i, 0 < d i) (covO : M3)
    (hc : IsChol (Matrix.diagonal d) (chol (Matrix.diagonal d))) (hr : s.conf.remove_outliers = true)
    (hb : ∀ j, s.conf.outliers_position.min_norm ≤ norm3 (fun k => (s.conf.outliers_position.n_sigma : ℝ) * chol (Matrix.diagonal d) k j) ∧
      norm3 (fun k => (s.conf.outliers_position.n_sigma : ℝ) * chol (Matrix.diagonal d) k j) ≤ s.conf.outliers_position.max_norm) :
    (s.defRegion chol (Matrix.diagonal d) covO).limitPos = ((s.conf.outliers_position.n_sigma : ℝ) ^ 2) • Matrix.diagonal d := by
  unfold Clustering.defRegion
  dsimp only
  rw [if_pos hr]
  dsimp only
  have hs : sigmaPoints s.conf.outliers_position (chol (Matrix.diagonal d)) =
      (s.conf.outliers_position.n_sigma : ℝ) • chol (Matrix.diagonal d) := by
    ext i j
    show clamp s.conf.outliers_position j (fun k => (s.conf.outliers_position.n_sigma : ℝ) * chol (Matrix.diagonal d) k j) i = _
    rw [clamp_id (hb j).1 (hb j).2]
    rfl
  obtain ⟨h1, h2⟩ := hc
  generalize chol (Matrix.diagonal d) = l at *
  have z01 := h2 0 1 (by decide)
  have z02 := h2 0 2 (by decide)
  have z12 := h2 1 2 (by decide)
  have e := fun i j => congrFun (congrFun h1 i) j
  simp only [Matrix.mul_apply, Matrix.transpose_apply, Fin.sum_univ_three] at e
  have e00 := e 0 0
  have e10 := e 1 0
  have e11 := e 1 1
  have e20 := e 2 0
  have e21 := e 2 1
  have e22 := e 2 2
  simp [z01, z02, z12, Matrix.diagonal] at e00 e10 e11 e20 e21 e22
  have n0 : l 0 0 ≠ 0 := by
    intro h
    rw [h] at e00
    have := hd 0
    linarith
  have l10 : l 1 0 = 0 := e10.resolve_right n0
  have l20 : l 2 0 = 0 := e20.resolve_right n0
  rw [l10] at e11 e21
  have n1 : l 1 1 ≠ 0 := by
    intro h
    rw [h] at e11
    have := hd 1
    linarith
  have l21 : l 2 1 = 0 := by
    simp at e21
    exact e21.resolve_right n1
  rw [l20, l21] at e22
  rw [hs]
  ext i j
  simp only [Matrix.mul_apply, Matrix.smul_apply, smul_eq_mul, Fin.sum_univ_three]
  fin_cases i <;> fin_cases j <;> simp [z01, z02, z12, l10, l20, l21, Matrix.diagonal]
  · rw [← e00]; ring
  · have : d 1 = l 1 1 * l 1 1 := by linarith
    rw [this]; ring
  · have : d 2 = l 2 2 * l 2 2 := by linarith
    rw [this]; ring

/-- C128, wrong: for other covariances the limit is not the covariance: the factor is multiplied with itself instead of its
transpose -/
theorem C128_limit_correlated : ∃ (cov l : M3), IsChol cov l ∧ ∀ (chol : M3 → M3) (s : Clustering) (covO : M3), chol cov = l →
    s.conf.remove_outliers = true → s.conf.outliers_position = ⟨0, 2, 1⟩ →
      (s.defRegion chol cov covO).limitPos ≠ cov ∧ frob (s.defRegion chol cov covO).limitPos < frob cov := by
  refine ⟨!![1, 1, 0; 1, 2, 0; 0, 0, 1], !![1, 0, 0; 1, 1, 0; 0, 0, 1], ⟨?_, ?_⟩, ?_⟩
  · ext i j
    fin_cases i <;> fin_cases j <;> simp [Matrix.mul_apply, Fin.sum_univ_three]
    norm_num
  · intro i j hij
    fin_cases i <;> fin_cases j <;> simp at hij ⊢
  · intro chol s covO hch hr hp
    have hs : sigmaPoints ⟨0, 2, 1⟩ (!![1, 0, 0; 1, 1, 0; 0, 0, 1] : M3) = !![1, 0, 0; 1, 1, 0; 0, 0, 1] := by
      ext i j
      show clamp _ j (fun k => ((1 : ℤ) : ℝ) * (!![1, 0, 0; 1, 1, 0; 0, 0, 1] : M3) k j) i = _
      have hn : norm3 (fun k => ((1 : ℤ) : ℝ) * (!![1, 0, 0; 1, 1, 0; 0, 0, 1] : M3) k j) ≤ 2 := by
        unfold norm3
        rw [Real.sqrt_le_left (by norm_num)]
        fin_cases j <;> simp <;> norm_num
      rw [clamp_id (norm3_nonneg _) hn]
      simp
    have hl : (s.defRegion chol !![1, 1, 0; 1, 2, 0; 0, 0, 1] covO).limitPos = !![1, 0, 0; 2, 1, 0; 0, 0, 1] := by
      unfold Clustering.defRegion
      dsimp only
      rw [if_pos hr, hp, hch, hs]
      ext i j
      fin_cases i <;> fin_cases j <;> simp [Matrix.mul_apply, Fin.sum_univ_three]
      norm_num
    rw [hl]
    constructor
    · intro h
      have := congrFun (congrFun h 0) 1
      simp at this
    · unfold frob
      apply Real.sqrt_lt_sqrt
      · positivity
      · simp [Fin.sum_univ_three]
        norm_num

/-- a transform along the x axis -/
def along (x : ℝ) : Pose := ⟨![x, 0, 0], 0⟩

theorem along_mean (xs : List ℝ) : meanT (xs.map along) = ![xs.sum / xs.length, 0, 0] := by
  funext i
  unfold meanT
  fin_cases i <;> simp [Function.comp_def, along]

theorem along_step (wrap : ℝ → ℝ) (fuel : Nat) (s : Clustering) (x : ℝ) (xs : List ℝ) (hp : s.points = (x :: xs).map along)
    (hc : s.conf.min_number = 1) (hl : s.limitPos = 0)
    (hs : 0 < norm3 (fun k => spread (((x :: xs).map along).map fun p => p.t k)))
    (hd : ∀ y ∈ x :: xs, abs (abs ((x :: xs).sum / (x :: xs).length) - abs y) = abs (abs ((x :: xs).sum / (x :: xs).length) - abs x)) (hx : abs ((x :: xs).sum / (x :: xs).length) ≠ abs x) :
    s.removeOutliers wrap (fuel + 1) = ({ s.stats wrap with points := xs.map along } : Clustering).removeOutliers wrap fuel := by
  conv_lhs => unfold Clustering.removeOutliers
  have hlen : ¬ s.points.length < s.conf.min_number := by
    rw [hp, hc]; simp
  rw [if_neg hlen]
  dsimp only
  have hf : frob s.limitPos = 0 := by rw [hl]; unfold frob; simp
  have hout : (s.stats wrap).outlier wrap = some 0 := by
    unfold Clustering.outlier
    have hlp : (s.stats wrap).limitPos = s.limitPos := rfl
    have hpts : (s.stats wrap).points = s.points := rfl
    have hmt : (s.stats wrap).mean.t = meanT s.points := rfl
    rw [stats_covT, hlp, hpts, hmt, hf, hp, if_pos hs, along_mean, norm3_x, List.map_map]
    have hnorm : ∀ y, norm3 (along y).t = |y| := fun y => norm3_x y
    have hpos : 0 < abs (abs ((x :: xs).sum / (x :: xs).length) - abs x) := abs_pos.2 (sub_ne_zero.2 hx)
    rw [List.map_cons, furthest, Function.comp_apply, hnorm, if_pos hpos]
    have : ∀ (ys : List ℝ) (i : Nat) (m : ℝ), (∀ y ∈ ys, y ≤ m) → furthest (some 0) m i ys = some 0 := by
      intro ys
      induction ys with
      | nil => intro i m _; rfl
      | cons y ys ih =>
        intro i m h
        rw [furthest, if_neg (not_lt.2 (h y (by simp)))]
        exact ih _ _ fun z hz => h z (List.mem_cons_of_mem _ hz)
    apply this
    intro y hy
    obtain ⟨z, hz, rfl⟩ := List.mem_map.1 hy
    rw [Function.comp_apply, hnorm, hd z (List.mem_cons_of_mem _ hz)]
  rw [hout]
  dsimp only
  have hpts : (s.stats wrap).points = s.points := rfl
  rw [hpts, hp]
  rfl

theorem norm3_pos {v : V3} (h : 0 < v 0) : 0 < norm3 v := by
  unfold norm3
  apply Real.sqrt_pos.2
  positivity

/-- C128, wrong: of three transforms at (1, 0, 0) and one at (-1, 0, 0) the last one is kept as the cluster. The distances from
the origin are compared instead of the distances from the mean -/
theorem C128_keeps_outlier (wrap : ℝ → ℝ) (hw : wrap 0 = 0) (s : Clustering) (hr : s.conf.remove_outliers = true)
    (hm : s.conf.min_number = 1) (hp : s.limitPos = 0) (ho : s.limitOri = 0) :
    (s.cluster wrap [along 1, along 1, along 1, along (-1)]).1 = true ∧
      (s.cluster wrap [along 1, along 1, along 1, along (-1)]).2.points = [along (-1)] := by
  unfold Clustering.cluster
  dsimp only
  rw [if_neg (by rw [hm]; simp), if_pos hr]
  have e : [along 1, along 1, along 1, along (-1)] = ([1, 1, 1, -1] : List ℝ).map along := rfl
  show (Clustering.removeOutliers wrap (4 + 1) _).1 = _ ∧ (Clustering.removeOutliers wrap (4 + 1) _).2.points = _
  have step : ∀ (n : Nat) (t : Clustering) (ys : List ℝ), (ys = [1, 1, -1] ∨ ys = [1, -1] ∨ ys = [-1]) → t.points = (1 :: ys).map along →
      t.conf.min_number = 1 → t.limitPos = 0 → t.limitOri = 0 → ∃ t' : Clustering, Clustering.removeOutliers wrap (n + 1) t =
        Clustering.removeOutliers wrap n t' ∧ t'.points = ys.map along ∧ t'.conf.min_number = 1 ∧ t'.limitPos = 0 ∧ t'.limitOri = 0 := by
    intro n t ys hys ht h1 h2 h3
    refine ⟨_, along_step wrap n t 1 ys ht h1 h2 ?_ ?_ ?_, rfl, h1, h2, h3⟩
    · apply norm3_pos
      rcases hys with rfl | rfl | rfl <;> · unfold spread avg along; norm_num
    · intro y hy
      rcases hys with rfl | rfl | rfl <;> simp at hy <;> (try rcases hy with rfl | rfl) <;> (try subst hy) <;> norm_num [abs_of_pos]
    · rcases hys with rfl | rfl | rfl <;> norm_num [abs_of_pos]
  obtain ⟨t1, e1, p1, m1, l1, o1⟩ := step 4 { s with points := [along 1, along 1, along 1, along (-1)] } [1, 1, -1] (Or.inl rfl) e hm hp ho
  obtain ⟨t2, e2, p2, m2, l2, o2⟩ := step 3 t1 [1, -1] (Or.inr (Or.inl rfl)) p1 m1 l1 o1
  obtain ⟨t3, e3, p3, m3, l3, o3⟩ := step 2 t2 [-1] (Or.inr (Or.inr rfl)) p2 m2 l2 o2
  rw [e1, e2, e3]
  unfold Clustering.removeOutliers
  rw [if_neg (by rw [m3, p3]; simp)]
  dsimp only
  have hnone : ∀ t : Clustering, t.points = [along (-1)] → t.limitPos = 0 → t.limitOri = 0 → (t.stats wrap).outlier wrap = none := by
    intro t ht hp ho
    rcases outlier_cases wrap t (by rw [ht]; simp) (by rw [ho]; simp) with ⟨h, -⟩ | ⟨i, h, -, -⟩
    · exact h
    · exfalso
      unfold Clustering.outlier at h
      have hlp : (t.stats wrap).limitPos = 0 := hp
      have hlo : (t.stats wrap).limitOri = 0 := ho
      have hf : frob 0 = 0 := by unfold frob; simp
      rw [stats_covT, ht, hlp, hlo, hf, if_neg] at h
      · have hcy : (t.stats wrap).covYaw = varYaw wrap ⟨meanT t.points, meanYaw t.points⟩ t.points := rfl
        rw [hcy, ht, varYaw_eq, if_neg] at h
        · cases h
        · have : meanYaw [along (-1)] = 0 := by unfold meanYaw along; simp
          simp only [this, hw]
          simp [along]
      · have hz : (fun k => spread ([along (-1)].map fun p => p.t k)) = 0 := by
          funext k
          unfold spread avg
          simp
        rw [hz]
        unfold norm3
        simp
  rw [hnone _ p3 l3 o3]
  exact ⟨rfl, p3⟩

/-- two transforms, with limits that are large enough: nothing is removed -/
example : ∃ s : Clustering, s.conf.remove_outliers = true ∧ 1 ≤ s.conf.min_number ∧ 0 ≤ s.limitOri 2 2 :=
  ⟨⟨⟨2, true, ⟨0, 1, 3⟩, ⟨0, 1, 3⟩⟩, [], ⟨0, 0⟩, 0, 0, 1, 1⟩, rfl, by norm_num, by norm_num⟩

/-! ### C129 -/

theorem axis_norm (a : ℝ) (j : Fin 3) : norm3 (axis a j) = |a| := by
  unfold norm3 axis
  fin_cases j <;> simp [Real.sqrt_sq_eq_abs]

/-- C129: the norms of the sigma points are within the bounds; points that are within them are not changed -/
theorem C129_bounds (c : SigmaConf) (l : M3) (h0 : 0 ≤ c.min_norm) (h1 : c.min_norm ≤ c.max_norm) (j : Fin 3) :
    c.min_norm ≤ norm3 (col (sigmaPoints c l) j) ∧ norm3 (col (sigmaPoints c l) j) ≤ c.max_norm ∧
      (c.min_norm ≤ |(c.n_sigma : ℝ)| * norm3 (col l j) → |(c.n_sigma : ℝ)| * norm3 (col l j) ≤ c.max_norm →
        col (sigmaPoints c l) j = (c.n_sigma : ℝ) • col l j) := by
  have hcol : col (sigmaPoints c l) j = clamp c j ((c.n_sigma : ℝ) • col l j) := rfl
  have hn : norm3 ((c.n_sigma : ℝ) • col l j) = |(c.n_sigma : ℝ)| * norm3 (col l j) := by
    unfold norm3
    rw [← Real.sqrt_sq_eq_abs, ← Real.sqrt_mul (sq_nonneg _)]
    congr 1
    simp only [Pi.smul_apply, smul_eq_mul]
    ring
  refine ⟨?_, ?_, fun h2 h3 => ?_⟩
  · rw [hcol]
    unfold clamp
    dsimp only
    by_cases ha : norm3 ((c.n_sigma : ℝ) • col l j) < c.min_norm
    · rw [if_pos ha, axis_norm, abs_of_nonneg h0, if_neg (not_lt.2 h1), axis_norm, abs_of_nonneg h0]
    · rw [if_neg ha]
      by_cases hb : c.max_norm < norm3 ((c.n_sigma : ℝ) • col l j)
      · rw [if_pos hb, axis_norm, abs_of_nonneg (h0.trans h1)]
        exact h1
      · rw [if_neg hb]
        exact not_lt.1 ha
  · rw [hcol]
    unfold clamp
    dsimp only
    by_cases ha : norm3 ((c.n_sigma : ℝ) • col l j) < c.min_norm
    · rw [if_pos ha, axis_norm, abs_of_nonneg h0, if_neg (not_lt.2 h1), axis_norm, abs_of_nonneg h0]
      exact h1
    · rw [if_neg ha]
      by_cases hb : c.max_norm < norm3 ((c.n_sigma : ℝ) • col l j)
      · rw [if_pos hb, axis_norm, abs_of_nonneg (h0.trans h1)]
      · rw [if_neg hb]
        exact not_lt.1 hb
  · rw [hcol]
    apply clamp_id
    · rw [hn]; exact h2
    · rw [hn]; exact h3

/-- C129: if all sigma points are within the bounds, they are those of the covariance times the square of the number of sigmas -/
theorem C129_exact (c : SigmaConf) (m l : M3) (hc : IsChol m l)
    (hb : ∀ j, c.min_norm ≤ |(c.n_sigma : ℝ)| * norm3 (col l j) ∧ |(c.n_sigma : ℝ)| * norm3 (col l j) ≤ c.max_norm)
    (h0 : 0 ≤ c.min_norm) : sigmaPoints c l * (sigmaPoints c l).transpose = ((c.n_sigma : ℝ) ^ 2) • m := by
  have hs : sigmaPoints c l = (c.n_sigma : ℝ) • l := by
    ext i j
    exact congrFun ((C129_bounds c l h0 ((hb j).1.trans (hb j).2) j).2.2 (hb j).1 (hb j).2) i
  rw [hs, Matrix.transpose_smul, Matrix.smul_mul, Matrix.mul_smul, hc.1, smul_smul]
  congr 1
  ring

/-- `n` calls of getSigmaOffset -/
def calls : Nat → Sampling → Option (List Pose)
  | 0, _ => some []
  | n + 1, s =>
    match s.next with
    | none => none
    | some (p, s') => (calls n s').map (p :: ·)

/-- the sequence of the samples: no offset, the first two sigma points of the position and the third one of the orientation as
yaw, then the opposite ones -/
def samples7 (p o : M3) : List Pose :=
  [⟨0, 0⟩, ⟨col p 0, 0⟩, ⟨col p 1, 0⟩, ⟨0, norm3 (col o 2)⟩, ⟨-col p 0, 0⟩, ⟨-col p 1, 0⟩, ⟨0, -norm3 (col o 2)⟩]

theorem calc_eq (s : Sampling) : s.calc = samples7 s.sigmaP s.sigmaO := by
  unfold Sampling.calc samples7
  simp

theorem calls_from (k n : Nat) (s : Sampling) (hk : k ≤ 7) (hl : s.last = some k)
    (hs : k = 0 ∨ s.samples = samples7 s.sigmaP s.sigmaO) :
    calls n s = some (((samples7 s.sigmaP s.sigmaO).drop k).take n ++ List.replicate (n - (7 - k)) ⟨0, 0⟩) := by
  induction n generalizing k s with
  | zero => simp [calls]
  | succ n ih =>
    have hlen : (samples7 s.sigmaP s.sigmaO).length = 7 := rfl
    obtain ⟨s1, hs1, hp1, ho1, hl1⟩ : ∃ s1 : Sampling, (if k = 0 then { s with samples := s.calc } else s) = s1 ∧
        s1.sigmaP = s.sigmaP ∧ s1.sigmaO = s.sigmaO ∧ s1.last = some k := by
      by_cases h0 : k = 0
      · exact ⟨_, if_pos h0, rfl, rfl, hl⟩
      · exact ⟨_, if_neg h0, rfl, rfl, hl⟩
    have hsam : s1.samples = samples7 s.sigmaP s.sigmaO := by
      rw [← hs1]
      by_cases h0 : k = 0
      · rw [if_pos h0]; exact calc_eq s
      · rw [if_neg h0]; exact hs.resolve_left h0
    unfold calls Sampling.next
    rw [hl]
    dsimp only
    rw [hl] at hs1
    rw [hs1, hsam, hlen]
    by_cases h7 : k = 7
    · rw [if_pos h7]
      dsimp only
      rw [ih k s1 hk hl1 (Or.inr (by rw [hsam, hp1, ho1])), hp1, ho1]
      subst h7
      rw [List.drop_of_length_le (by rw [hlen]), List.take_nil, List.take_nil]
      simp [List.replicate_succ]
    · rw [if_neg h7]
      have hlt : k < (samples7 s.sigmaP s.sigmaO).length := by rw [hlen]; omega
      rw [List.getElem?_eq_getElem hlt]
      dsimp only
      rw [ih (k + 1) { s1 with last := some (k + 1), samples := samples7 s.sigmaP s.sigmaO } (by omega) rfl
        (Or.inr (by dsimp only; rw [hp1, ho1]))]
      dsimp only
      rw [hp1, ho1, List.drop_eq_getElem_cons hlt, List.take_succ_cons, Option.map_some, show n + 1 - (7 - k) = n - (7 - (k + 1)) by omega,
        List.cons_append]

/-- C129: after the definition of the search region the calls return the seven samples, in order, and no offset from then on -/
theorem C129_samples (chol : M3 → M3) (s : Sampling) (covP covO : M3) (n : Nat) :
    calls n (s.defRegion chol covP covO) = some ((samples7 (sigmaPoints s.position (chol covP)) (sigmaPoints s.orientation (chol covO))).take n ++
      List.replicate (n - 7) ⟨0, 0⟩) := by
  have := calls_from 0 n (s.defRegion chol covP covO) (by omega) rfl (Or.inl rfl)
  rw [this]
  rfl

/-- C129: the samples are balanced: their positions and angles add up to zero -/
theorem C129_balanced (p o : M3) : (∀ i, ((samples7 p o).map fun q => q.t i).sum = 0) ∧ ((samples7 p o).map Pose.yaw).sum = 0 := by
  constructor
  · intro i
    simp [samples7]
  · simp [samples7]

/-- C129: without a search region a sample is undefined behaviour -/
theorem C129_no_region (s : Sampling) (h : s.last = none) : s.next = none := by
  unfold Sampling.next
  rw [h]

/-- C129: a uniform sample has height 0; its other coordinates and its angle are within the sums of the sigma points -/
theorem C129_uniform (s : Sampling) (r : Fin 3 → ℝ) (r3 : ℝ) (hr : ∀ c, |r c| ≤ 1) (hr3 : |r3| ≤ 1) :
    (s.uniform r r3).t 2 = 0 ∧ (∀ i, |(s.uniform r r3).t i| ≤ ∑ c, |col s.sigmaP c i|) ∧ |(s.uniform r r3).yaw| ≤ norm3 (col s.sigmaO 2) := by
  refine ⟨rfl, ?_, ?_⟩
  · intro i
    unfold Sampling.uniform
    dsimp only
    split
    · rw [abs_zero]
      exact Finset.sum_nonneg fun c _ => abs_nonneg _
    · refine (Finset.abs_sum_le_sum_abs _ _).trans (Finset.sum_le_sum fun c _ => ?_)
      rw [abs_mul]
      exact mul_le_of_le_one_left (abs_nonneg _) (hr c)
  · unfold Sampling.uniform
    dsimp only
    rw [abs_mul, abs_of_nonneg (norm3_nonneg (col s.sigmaO 2))]
    exact mul_le_of_le_one_left (norm3_nonneg _) hr3

/-- C129, wrong: a sigma point beyond the bound is not shortened, it is replaced by one along a coordinate axis -/
theorem C129_direction : ∃ (c : SigmaConf) (m l : M3), IsChol m l ∧ 0 ≤ c.min_norm ∧ c.min_norm ≤ c.max_norm ∧
    ∀ a : ℝ, col (sigmaPoints c l) 0 ≠ a • col l 0 := by
  refine ⟨⟨0, 1, 1⟩, !![1, 1, 0; 1, 2, 0; 0, 0, 1], !![1, 0, 0; 1, 1, 0; 0, 0, 1], ⟨?_, ?_⟩, le_refl _, by norm_num, ?_⟩
  · ext i j
    fin_cases i <;> fin_cases j <;> simp [Matrix.mul_apply, Fin.sum_univ_three]
    norm_num
  · intro i j hij
    fin_cases i <;> fin_cases j <;> simp at hij ⊢
  · intro a ha
    have hcol : col (sigmaPoints ⟨0, 1, 1⟩ (!![1, 0, 0; 1, 1, 0; 0, 0, 1] : M3)) 0 = axis 1 0 := by
      show clamp ⟨0, 1, 1⟩ 0 (fun k => ((1 : ℤ) : ℝ) * (!![1, 0, 0; 1, 1, 0; 0, 0, 1] : M3) k 0) = _
      unfold clamp
      dsimp only
      rw [if_neg (not_lt.2 (norm3_nonneg _)), if_pos]
      unfold norm3
      rw [Real.lt_sqrt (by norm_num)]
      simp
    rw [hcol] at ha
    have h0 := congrFun ha 0
    have h1 := congrFun ha 1
    simp [axis, col] at h0 h1
    rw [← h1] at h0
    norm_num at h0

/-- a covariance of variances 4 and its sigma points -/
example : IsChol ((4 : ℝ) • (1 : M3)) ((2 : ℝ) • 1) := by
  constructor
  · rw [Matrix.transpose_smul, Matrix.smul_mul, Matrix.mul_smul, smul_smul]
    norm_num
  · intro i j hij
    simp [hij.ne]

end

end Envire.Icp.Stability

#print axioms Envire.Icp.Stability.C128_outliers_partial
#print axioms Envire.Icp.Stability.C128_plain
#print axioms Envire.Icp.Stability.C128_yaw
#print axioms Envire.Icp.Stability.C128_orientation
#print axioms Envire.Icp.Stability.C128_limit_partial
#print axioms Envire.Icp.Stability.C128_limit_correlated
#print axioms Envire.Icp.Stability.C128_keeps_outlier
#print axioms Envire.Icp.Stability.C129_bounds
#print axioms Envire.Icp.Stability.C129_exact
#print axioms Envire.Icp.Stability.C129_samples
#print axioms Envire.Icp.Stability.C129_balanced
#print axioms Envire.Icp.Stability.C129_no_region
#print axioms Envire.Icp.Stability.C129_uniform
#print axioms Envire.Icp.Stability.C129_direction
