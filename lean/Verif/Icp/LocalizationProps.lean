import Verif.Icp.LocalizationModel
import Verif.Icp.AlignProps
import Mathlib.Tactic.FinCases
import Mathlib.Data.List.DropRight

/-!
Properties of ICPLocalization: C130 (window of scan lines), C131 (point clouds of the window), C132 (results of a match).
-/

namespace Envire.Icp.Loc

open Envire.Icp Envire.Icp.Ransac

noncomputable section

/-! ### rigid transforms -/

theorem orth' (a : Rigid) : a.r * a.r.transpose = 1 := mul_eq_one_comm.1 a.orth

theorem mul_apply (a b : Rigid) (v : V3) : (a.mul b).apply v = a.apply (b.apply v) := by
  unfold Rigid.apply Rigid.mul
  dsimp only
  rw [Matrix.mulVec_add, Matrix.mulVec_mulVec]
  abel

theorem inv_apply (a : Rigid) (v : V3) : a.inv.apply (a.apply v) = v := by
  unfold Rigid.apply Rigid.inv
  dsimp only
  rw [Matrix.mulVec_add, Matrix.mulVec_mulVec, a.orth, Matrix.one_mulVec]
  abel

theorem apply_inv (a : Rigid) (v : V3) : a.apply (a.inv.apply v) = v := by
  unfold Rigid.apply Rigid.inv
  dsimp only
  rw [Matrix.mulVec_add, Matrix.mulVec_mulVec, Matrix.mulVec_neg, Matrix.mulVec_mulVec, orth' a, Matrix.one_mulVec, Matrix.one_mulVec]
  abel

theorem norm3_orth {r : M3} (h : r.transpose * r = 1) (v : V3) : norm3 (r.mulVec v) = norm3 v := by
  have := orth h v
  unfold sq at this
  unfold norm3
  rw [this]

/-- the distance of two positions -/
theorem norm3_between (a b : Rigid) : norm3 (a.inv.mul b).t = norm3 (b.t - a.t) := by
  have : (a.inv.mul b).t = a.r.transpose.mulVec (b.t - a.t) := by
    unfold Rigid.inv Rigid.mul
    dsimp only
    rw [Matrix.mulVec_sub]
    abel
  rw [this]
  exact norm3_orth (by rw [Matrix.transpose_transpose]; exact orth' a) _

theorem apply_sub (a : Rigid) (v : V3) : a.apply v - a.t = a.r.mulVec v := by
  unfold Rigid.apply
  abel

theorem norm3_unitY (a : Rigid) : norm3 (a.r.mulVec unitY) = 1 := by
  rw [norm3_orth a.orth]
  unfold norm3 unitY
  simp

theorem normalize_unit {v : V3} (h : norm3 v = 1) : normalize v = v := by
  unfold normalize
  rw [h]
  simp

/-! ### C130 -/

/-- the angle between the y axes of the laser -/
def headAngle (a b : Rigid) : ℝ := Real.arccos (dot (a.r.mulVec unitY) (b.r.mulVec unitY))

/-- the claim of C130 for two scans: the body has turned or moved, or the head has turned, by more than the limit -/
def Far (c : LineConf) (x y : Lat) : Prop :=
  c.rotation < angle (x.odo.r.transpose * y.odo.r) ∨ c.distance < norm3 (y.odo.t - x.odo.t) ∨ c.head < headAngle x.laser y.laser

theorem angle_nonneg (r : M3) : 0 ≤ angle r := Real.arccos_nonneg _

theorem exceeds_iff (c : LineConf) (x back y : Lat) (h : back.laser = y.laser) : exceeds c x back y ↔ Far c x y := by
  unfold exceeds Far
  rw [abs_of_nonneg (angle_nonneg _), norm3_between]
  have h1 : laserChange x back y = headAngle x.laser y.laser := by
    unfold laserChange headAngle
    rw [h, apply_sub, apply_sub, normalize_unit (norm3_unitY _), normalize_unit (norm3_unitY _)]
  rw [h1]
  rfl

theorem accepts_iff (c : LineConf) (x back : Lat) (l : List Lat) : accepts c x back l = true ↔ ∀ y ∈ l, exceeds c x back y := by
  induction l with
  | nil => simp [accepts]
  | cons y l ih =>
    unfold accepts
    by_cases h : exceeds c x back y
    · rw [if_pos h, ih]
      simp [h]
    · rw [if_neg h]
      simp [h]

theorem getLast?_mem {l : List Lat} {x : Lat} (h : l.getLast? = some x) : x ∈ l := List.mem_of_getLast? h

/-- C130: if the laser is mounted alike in all scans of the window, a scan is added if it differs from every one of them by more
than one of the limits, and changes nothing otherwise.

Missing: scans with another mounting, see C130_same_scan -/
theorem C130_accept_partial (s : State) (x : Lat) (l : Rigid) (hl : ∀ y ∈ s.scans, y.laser = l) :
    ((∀ y ∈ s.scans, Far s.conf x y) → s.add x = s.push x) ∧ (¬ (∀ y ∈ s.scans, Far s.conf x y) → s.add x = s) := by
  unfold State.add
  cases hb : s.scans.getLast? with
  | none =>
    rw [List.getLast?_eq_none_iff] at hb
    dsimp only
    refine ⟨fun _ => rfl, fun h => absurd ?_ h⟩
    rw [hb]
    simp
  | some back =>
    dsimp only
    have hiff : accepts s.conf x back s.scans = true ↔ ∀ y ∈ s.scans, Far s.conf x y := by
      rw [accepts_iff]
      constructor
      · intro h y hy
        exact (exceeds_iff _ _ _ _ ((hl back (getLast?_mem hb)).trans (hl y hy).symm)).1 (h y hy)
      · intro h y hy
        exact (exceeds_iff _ _ _ _ ((hl back (getLast?_mem hb)).trans (hl y hy).symm)).2 (h y hy)
    constructor
    · intro h
      rw [if_pos (hiff.2 h)]
    · intro h
      rw [if_neg (fun hc => h (hiff.1 hc))]

theorem push_scans (s : State) (x : Lat) {n : Nat} (hn : s.conf.lines = n) :
    (s.push x).scans = (s.scans ++ [x]).rtake n := by
  unfold State.push
  dsimp only
  rw [if_pos (by rw [hn]; exact Int.natCast_nonneg n), hn, List.rtake]
  simp

theorem rtake_rtake_append {α : Type} (l : List α) (x : α) (n : Nat) : ((l.rtake n) ++ [x]).rtake n = (l ++ [x]).rtake n := by
  unfold List.rtake
  rw [List.length_append, List.length_append, List.length_drop, List.length_singleton]
  rcases Nat.eq_zero_or_pos n with rfl | hn
  · simp
  · rw [List.drop_append_of_le_length (by rw [List.length_drop]; omega), List.drop_append_of_le_length (by omega), List.drop_drop]
    congr 2
    omega

/-- calls of addScanLineToPointCloud -/
def run (s : State) (xs : List Lat) : State := xs.foldl State.add s

/-- C130: after any calls the window holds the last lines_per_point_cloud of the scans that were accepted, in their order; the
accepted scans are counted, and the first scan is one of them -/
theorem C130_window (c : LineConf) (n : Nat) (hn : c.lines = n) (xs : List Lat) : ∃ acc : List Lat, acc.Sublist xs ∧
    (run (init c) xs).scans = acc.rtake n ∧ (run (init c) xs).count = acc.length ∧ acc.head? = xs.head? ∧
      (run (init c) xs).conf = c ∧ (run (init c) xs).lastIndex = 0 := by
  induction xs using List.reverseRecOn with
  | nil => exact ⟨[], List.Sublist.refl _, by simp [run, init], rfl, rfl, rfl, rfl⟩
  | append_singleton xs x ih =>
    obtain ⟨acc, h1, h2, h3, h4, h5, h6⟩ := ih
    have hrun : run (init c) (xs ++ [x]) = (run (init c) xs).add x := by
      unfold run
      rw [List.foldl_append]
      rfl
    have hpush : ∃ acc : List Lat, acc.Sublist (xs ++ [x]) ∧ ((run (init c) xs).push x).scans = acc.rtake n ∧
        ((run (init c) xs).push x).count = acc.length ∧ acc.head? = (xs ++ [x]).head? ∧ ((run (init c) xs).push x).conf = c ∧
          ((run (init c) xs).push x).lastIndex = 0 := by
      refine ⟨acc ++ [x], h1.append (List.Sublist.refl _), ?_, ?_, ?_, h5, h6⟩
      · rw [push_scans _ _ (h5 ▸ hn), h2, rtake_rtake_append]
      · show (run (init c) xs).count + 1 = _
        rw [h3]
        simp
      · rw [List.head?_append, List.head?_append, h4]
    have hskip : xs ≠ [] → ∃ acc : List Lat, acc.Sublist (xs ++ [x]) ∧ (run (init c) xs).scans = acc.rtake n ∧
        (run (init c) xs).count = acc.length ∧ acc.head? = (xs ++ [x]).head? ∧ (run (init c) xs).conf = c ∧
          (run (init c) xs).lastIndex = 0 := by
      intro hne
      refine ⟨acc, h1.trans (List.sublist_append_left _ _), h2, h3, ?_, h5, h6⟩
      rw [h4, List.head?_append]
      cases xs with
      | nil => exact absurd rfl hne
      | cons a l => rfl
    rw [hrun]
    unfold State.add
    cases hb : (run (init c) xs).scans.getLast? with
    | none => exact hpush
    | some back =>
      dsimp only
      by_cases ha : accepts (run (init c) xs).conf x back (run (init c) xs).scans = true
      · rw [if_pos ha]
        exact hpush
      · rw [if_neg ha]
        apply hskip
        rintro rfl
        simp [run, init] at hb

/-- C130: with a fixed mounting of the laser every scan of the window differs from all older ones in it -/
theorem C130_distinct (c : LineConf) (n : Nat) (hn : c.lines = n) (l : Rigid) (xs : List Lat) (hx : ∀ x ∈ xs, x.laser = l) :
    (run (init c) xs).scans.Pairwise (fun y x => Far c x y) := by
  induction xs using List.reverseRecOn with
  | nil => simp [run, init]
  | append_singleton xs x ih =>
    have ih := ih (fun y hy => hx y (List.mem_append_left _ hy))
    obtain ⟨acc, h1, h2, -, -, h5, -⟩ := C130_window c n hn xs
    have hmem : ∀ y ∈ (run (init c) xs).scans, y.laser = l := by
      intro y hy
      rw [h2] at hy
      exact hx y (List.mem_append_left _ (h1.subset (List.mem_of_mem_drop hy)))
    have hrun : run (init c) (xs ++ [x]) = (run (init c) xs).add x := by
      unfold run
      rw [List.foldl_append]
      rfl
    rw [hrun]
    obtain ⟨ha, hr⟩ := C130_accept_partial (run (init c) xs) x l hmem
    rw [h5] at ha hr
    by_cases hfar : ∀ y ∈ (run (init c) xs).scans, Far c x y
    · rw [ha hfar, push_scans _ _ (h5 ▸ hn)]
      refine List.Pairwise.sublist (List.drop_sublist _ _) ?_
      rw [List.pairwise_append]
      refine ⟨ih, List.pairwise_singleton _ _, ?_⟩
      intro y hy z hz
      rw [List.mem_singleton.1 hz]
      exact hfar y hy
    · rw [hr hfar]
      exact ih

/-- C130, wrong: a point cloud is not reported as soon as the configured number of lines is there: one more is needed -/
theorem C130_late (s : State) (h : s.count = s.conf.lines) : s.hasNew = false := by
  unfold State.hasNew
  rw [h]
  simp

/-- C130: a point cloud is reported when more than lines_per_point_cloud scans were accepted, more than min_line_advance of
them since the last point cloud -/
theorem C130_new (s : State) (i : Input) (s' : State) (hg : s.generate = some (i, s')) (xs : List Lat) :
    (run s' xs).hasNew = true ↔ s.conf.lines < (run s' xs).count ∧ s.conf.advance < (run s' xs).count - s.count := by
  have hs : s'.conf = s.conf ∧ s'.lastIndex = s.count := by
    unfold State.generate at hg
    cases hl : s.scans.getLast? with
    | none => rw [hl] at hg; cases hg
    | some last => rw [hl] at hg; cases hg; exact ⟨rfl, rfl⟩
  have hrun : ∀ xs : List Lat, (run s' xs).conf = s'.conf ∧ (run s' xs).lastIndex = s'.lastIndex := by
    intro xs
    induction xs using List.reverseRecOn with
    | nil => exact ⟨rfl, rfl⟩
    | append_singleton xs x ih =>
      have : run s' (xs ++ [x]) = (run s' xs).add x := by
        unfold run
        rw [List.foldl_append]
        rfl
      rw [this, ← ih.1, ← ih.2]
      unfold State.add
      split
      · exact ⟨rfl, rfl⟩
      · split
        · exact ⟨rfl, rfl⟩
        · exact ⟨rfl, rfl⟩
  unfold State.hasNew
  rw [(hrun xs).1, (hrun xs).2, hs.1, hs.2]
  simp

/-- the identity -/
def ident : Rigid := ⟨1, 0, by simp⟩

/-- half a turn about the x axis -/
def flip : Rigid := ⟨!![1, 0, 0; 0, -1, 0; 0, 0, -1], 0, by
  ext i j
  fin_cases i <;> fin_cases j <;> simp [Matrix.mul_apply, Fin.sum_univ_three]⟩

theorem flip_y : flip.apply unitY - flip.t = -unitY := by
  rw [apply_sub]
  ext i
  fin_cases i <;> simp [flip, unitY, Matrix.mulVec, dotProduct, Fin.sum_univ_three]

theorem ident_y : ident.apply unitY - ident.t = unitY := by
  rw [apply_sub]
  ext i
  fin_cases i <;> simp [ident, unitY]

theorem norm3_y : norm3 unitY = 1 := by unfold norm3 unitY; simp

theorem norm3_neg_y : norm3 (-unitY) = 1 := by unfold norm3 unitY; simp

theorem change_flip (x y z : Lat) (hx : x.laser = ident) (hy : y.laser = flip) (hz : z.laser.t = 0) : laserChange x y z = Real.pi := by
  unfold laserChange
  rw [hx, hy, ident_y, hz]
  have : flip.apply unitY - 0 = -unitY := by
    have := flip_y
    exact this
  rw [this, normalize_unit norm3_y, normalize_unit norm3_neg_y]
  have : dot unitY (-unitY) = -1 := by unfold dot unitY; simp
  rw [this, Real.arccos_neg_one]

theorem change_flip' (x y z : Lat) (hx : x.laser = flip) (hy : y.laser = ident) (hz : z.laser.t = 0) : laserChange x y z = Real.pi := by
  unfold laserChange
  rw [hx, hy, flip_y, hz]
  have : ident.apply unitY - 0 = unitY := ident_y
  rw [this, normalize_unit norm3_y, normalize_unit norm3_neg_y]
  have : dot (-unitY) unitY = -1 := by unfold dot unitY; simp
  rw [this, Real.arccos_neg_one]

/-- C130, wrong: all scans of the window are compared with the head direction of the last one, so the same scan is stored twice
after the head was turned in between, although it does not differ from the first one -/
theorem C130_same_scan (c : LineConf) (h3 : c.lines = 3) (hr : 0 ≤ c.rotation) (hd : 0 ≤ c.distance) (h0 : 0 ≤ c.head)
    (hh : c.head < Real.pi) : ∃ (x y : Lat), (run (init c) [x, y, x]).scans = [x, y, x] ∧ ¬ Far c x x := by
  let x : Lat := ⟨ident, ident, ident, []⟩
  let y : Lat := ⟨ident, ident, flip, []⟩
  have e1 : (init c).add x = ⟨c, 0, 1, [x]⟩ := by
    unfold State.add init State.push
    simp [h3]
  have e2 : State.add ⟨c, 0, 1, [x]⟩ y = ⟨c, 0, 2, [x, y]⟩ := by
    unfold State.add
    have ha : accepts c y x [x] = true := by
      rw [accepts_iff]
      intro z hz
      rw [List.mem_singleton.1 hz]
      exact Or.inr (Or.inr (by rw [change_flip' y x x rfl rfl rfl]; exact hh))
    show (if accepts c y x [x] = true then _ else _) = _
    rw [if_pos ha]
    unfold State.push
    simp [h3]
  have e3 : State.add ⟨c, 0, 2, [x, y]⟩ x = ⟨c, 0, 3, [x, y, x]⟩ := by
    unfold State.add
    have ha : accepts c x y [x, y] = true := by
      rw [accepts_iff]
      intro z hz
      have hz0 : z.laser.t = 0 := by
        simp only [List.mem_cons, List.not_mem_nil, or_false] at hz
        rcases hz with rfl | rfl <;> rfl
      exact Or.inr (Or.inr (by rw [change_flip x y z rfl rfl hz0]; exact hh))
    show (if accepts c x y [x, y] = true then _ else _) = _
    rw [if_pos ha]
    unfold State.push
    simp [h3]
  refine ⟨x, y, ?_, ?_⟩
  · show (((init c).add x).add y |>.add x).scans = _
    rw [e1, e2, e3]
  · rintro (h | h | h)
    · have : angle (x.odo.r.transpose * x.odo.r) = 0 := by
        rw [x.odo.orth]
        unfold angle tr
        norm_num
      rw [this] at h
      linarith
    · rw [sub_self] at h
      have : norm3 0 = 0 := by unfold norm3; simp
      rw [this] at h
      linarith
    · have : headAngle x.laser x.laser = 0 := by
        unfold headAngle
        have : (x.laser.r).mulVec unitY = unitY := by
          show (1 : M3).mulVec unitY = unitY
          rw [Matrix.one_mulVec]
        rw [this]
        have : dot unitY unitY = 1 := by unfold dot unitY; simp
        rw [this, Real.arccos_one]
      rw [this] at h
      linarith

/-! ### C131 -/

/-- C131: every reading of the window is in the point cloud, in order, and the pose of the cloud puts it where the odometry since
the scan puts it, relative to the last pose of the body -/
theorem C131_points (s : State) (i : Input) (s' : State) (hg : s.generate = some (i, s')) :
    ∃ last, s.scans.getLast? = some last ∧ i.pc2World = last.world ∧ i.vertices.map i.pc2World.apply =
      s.scans.flatMap (fun y => y.scan.map fun p => last.world.apply (last.odo.inv.apply (y.odo.apply (y.laser.apply p)))) ∧
      s' = { s with lastIndex := s.count } := by
  unfold State.generate at hg
  cases hl : s.scans.getLast? with
  | none => rw [hl] at hg; cases hg
  | some last =>
    rw [hl] at hg
    cases hg
    refine ⟨last, rfl, rfl, ?_, rfl⟩
    rw [List.map_flatMap]
    congr 1
    funext y
    rw [List.map_map]
    congr 1
    funext p
    simp only [Function.comp_apply, mul_apply, apply_inv]

/-- C131: if the odometry agrees with the poses in the world, the points are where the scans measured them -/
theorem C131_world (s : State) (i : Input) (s' : State) (hg : s.generate = some (i, s')) (w : Rigid)
    (hw : ∀ y ∈ s.scans, y.world = w.mul y.odo) :
    i.vertices.map i.pc2World.apply = s.scans.flatMap fun y => y.scan.map fun p => y.world.apply (y.laser.apply p) := by
  obtain ⟨last, hl, -, hv, -⟩ := C131_points s i s' hg
  rw [hv]
  apply List.flatMap_congr
  intro y hy
  apply List.map_congr_left
  intro p _
  rw [hw last (getLast?_mem hl), hw y hy, mul_apply, mul_apply, apply_inv]

/-- C131: the cloud is given in the frame of the body at the time of the last scan; the points of this scan do not depend on the
odometry -/
theorem C131_last (s : State) (i : Input) (s' : State) (hg : s.generate = some (i, s')) :
    ∃ last pts, s.scans.getLast? = some last ∧ i.vertices = pts ++ last.scan.map last.laser.apply := by
  unfold State.generate at hg
  cases hl : s.scans.getLast? with
  | none => rw [hl] at hg; cases hg
  | some last =>
    rw [hl] at hg
    cases hg
    obtain ⟨init, hi⟩ := List.getLast?_eq_some_iff.1 hl
    refine ⟨last, init.flatMap fun y => y.scan.map
      (last.world.inv.mul (((last.world.mul last.odo.inv).mul y.odo).mul y.laser)).apply, rfl, ?_⟩
    dsimp only
    rw [hi, List.flatMap_append, List.flatMap_singleton]
    congr 1
    apply List.map_congr_left
    intro p _
    rw [mul_apply, mul_apply, mul_apply, mul_apply, inv_apply, inv_apply]

/-- C131, wrong: with zero lines a point cloud is reported after the first scan, and its generation is undefined behaviour -/
theorem C131_no_lines (c : LineConf) (h0 : c.lines = 0) (ha : c.advance = 0) (x : Lat) :
    ((init c).add x).hasNew = true ∧ ((init c).add x).generate = none := by
  unfold State.add State.hasNew init State.push State.generate
  simp [h0, ha]

/-- C131: a sample of a point cloud is turned about the origin of the cloud and then moved -/
theorem C131_sample (d : Input) (o : Rigid) (p : V3) : (sample d o).vertices = d.vertices ∧
    (sample d o).pc2World.apply p = o.r.mulVec (d.pc2World.apply p - d.pc2World.t) + d.pc2World.t + o.t := by
  refine ⟨rfl, ?_⟩
  rw [apply_sub, Matrix.mulVec_mulVec]
  unfold sample Rigid.apply Rigid.mul
  dsimp only
  abel

/-! ### C132 -/

/-- C132: if pairs were found, the resulting pose is that of the cloud followed by the transform of the alignment -/
theorem C132_pose (u : Setup) (model : List V3) (c : MatchConf) (vertices : List V3) (t : Tf) (mse : ℝ) (r : Result)
    (ha : align u model (.mk' vertices c.density t) c.maxIter mse = .ok r) :
    ∃ m, doScanMatch u model c vertices t mse = .ok m ∧ m.pairs = r.pairs ∧ m.points = vertices.length ∧ m.start = t ∧
      (r.pairs ≠ 0 → m.dest = some (r.c * t) ∧ m.mse = some r.mse ∧ m.distances = r.distances) ∧
      (r.pairs = 0 → m.dest = none ∧ m.mse = none ∧ m.covPosition = none ∧ m.covOrientation = none) := by
  unfold doScanMatch
  rw [ha]
  refine ⟨_, rfl, ?_⟩
  by_cases h0 : r.pairs = 0
  · rw [if_pos h0]
    exact ⟨rfl, rfl, rfl, fun h => absurd h0 h, fun _ => ⟨rfl, rfl, rfl, rfl⟩⟩
  · rw [if_neg h0]
    refine ⟨rfl, rfl, rfl, fun _ => ⟨?_, rfl, rfl⟩, fun h => absurd h h0⟩
    unfold applyTransform
    rw [mul_inv_cancel, one_mul]

/-- C132, wrong: without a pair (here: nothing to compare with) the match ends with a result whose pose, error and covariances
are not initialised -/
theorem C132_no_pairs (u : Setup) (c : MatchConf) (vertices : List V3) (t : Tf) (mse : ℝ) (hd : 0 < c.density) (hi : 0 < c.maxIter) :
    ∃ m, doScanMatch u [] c vertices t mse = .ok m ∧ m.dest = none ∧ m.mse = none ∧ m.covPosition = none ∧ m.covOrientation = none := by
  obtain ⟨n, hn⟩ : ∃ n, c.maxIter = n + 1 := ⟨c.maxIter - 1, by omega⟩
  obtain ⟨pts, hp⟩ := points_ok ((Adapter.mk' vertices c.density t).setOffset 1) hd
  have hfind : ∀ (pts : List V3) (d : Option ℝ) (s : Pairs), findPairs u.kd [] pts d s = s := by
    intro pts d
    induction pts with
    | nil => intro s; rfl
    | cons p l ih =>
      intro s
      unfold findPairs at ih ⊢
      rw [List.foldl_cons]
      have : u.kd.nearest [] p d = none := by
        cases h : u.kd.nearest [] p d with
        | none => rfl
        | some ar =>
          obtain ⟨a, r⟩ := ar
          have := (u.kd.found _ _ _ _ _ h).1
          cases this
      rw [this]
      exact ih s
  have hz : ∃ r, align u [] (.mk' vertices c.density t) c.maxIter mse = .ok r ∧ r.pairs = 0 := by
    rw [hn]
    unfold align loop
    rw [if_pos ⟨(fun x hx => by cases hx), (fun x hx => by cases hx)⟩]
    unfold round
    rw [hp]
    dsimp only
    rw [hfind]
    have hs : ∀ k, ((Pairs.clear ⟨[], [], [], mse⟩).trim u.so k).1.size = 0 := by
      intro k
      unfold Pairs.trim Pairs.clear Pairs.size
      have := (u.so.perm []).length_eq
      simp at this
      simp [this]
    rw [if_pos (by rw [hs]; omega)]
    exact ⟨_, rfl, hs _⟩
  obtain ⟨r, hr, h0⟩ := hz
  obtain ⟨m, hm, -, -, -, -, h⟩ := C132_pose u [] c vertices t mse r hr
  exact ⟨m, hm, h h0⟩

theorem factor_eq {density m : ℝ} (hm : 0 < m) (c : ℝ) :
    c / (mseFactor density m / 2) ^ 4 = c * 4096 * m ^ 2 / max 1 density ^ 4 := by
  have hs : √m ^ 4 = m ^ 2 := by
    rw [show (4 : ℕ) = 2 * 2 from rfl, pow_mul, Real.sq_sqrt hm.le]
  have hd : (0 : ℝ) < max 1 density := lt_max_of_lt_left one_pos
  have hp : 0 < √m := Real.sqrt_pos.2 hm
  unfold mseFactor
  rw [show max 1 density / 4 / √m / 2 = max 1 density / (8 * √m) by field_simp; ring, div_pow, mul_pow, hs]
  field_simp
  norm_num

/-- C132: the covariances that are based on the error grow with its square; an error of zero gives no covariance, an infinite
one an infinite covariance -/
theorem C132_covariance (c density : ℝ) : covOf c density none = none ∧
    (∀ m, 0 ≤ m → covOf c density (some m) = some (c * 4096 * m ^ 2 / max 1 density ^ 4)) := by
  refine ⟨rfl, fun m hm => ?_⟩
  unfold covOf
  rw [Option.map_some]
  rcases hm.eq_or_lt with rfl | h
  · rw [if_pos rfl]
    simp
  · rw [if_neg h.ne', factor_eq h]

/-- C132: if pairs were found, the covariances are the ones of the configuration, the ones of the error or infinite ones -/
theorem C132_modes (u : Setup) (model : List V3) (c : MatchConf) (vertices : List V3) (t : Tf) (mse : ℝ) (r : Result) (m : MatchResult)
    (ha : align u model (.mk' vertices c.density t) c.maxIter mse = .ok r) (hr : r.pairs ≠ 0)
    (hm : doScanMatch u model c vertices t mse = .ok m) :
    (c.mode = .hard → m.covPosition = some (some c.covPosition) ∧ m.covOrientation = some (some c.covOrientation)) ∧
    (c.mode = .no → m.covPosition = some none ∧ m.covOrientation = some none) ∧
    (c.mode = .mse → r.mse = none → m.covPosition = some none ∧ m.covOrientation = some none) ∧
    (c.mode = .mse → ∀ e, 0 ≤ e → r.mse = some e →
      m.covPosition = some (some (2 / 1000 * 4096 * e ^ 2 / max 1 c.density ^ 4)) ∧
      m.covOrientation = some (some (Real.pi / 180 * 4096 * e ^ 2 / max 1 c.density ^ 4))) := by
  unfold doScanMatch at hm
  rw [ha] at hm
  dsimp only at hm
  rw [if_neg hr] at hm
  injection hm with hm
  subst hm
  dsimp only
  refine ⟨fun h => ?_, fun h => ?_, fun h h1 => ?_, fun h e he h1 => ?_⟩
  · rw [h]; exact ⟨rfl, rfl⟩
  · rw [h]; exact ⟨rfl, rfl⟩
  · rw [h, h1]; exact ⟨rfl, rfl⟩
  · rw [h, h1]
    dsimp only
    rw [(C132_covariance _ _).2 e he, (C132_covariance _ _).2 e he]
    refine ⟨?_, rfl⟩
    norm_num

/-- C132: a cloud whose points are all shifted by one vector from their nearest points in the model is moved by this vector -/
theorem C132_shift (u : Setup) (he : ∀ q, EigOf q (u.e q)) (model : List V3) (c : MatchConf) (vertices : List V3) (t : Tf)
    (hd : 0 < c.density) (hd1 : c.density ≤ 1) (hn : vertices.Nodup) (d : V3) (hm : ∀ v ∈ vertices, t v + d ∈ model)
    (hfar : ∀ v ∈ vertices, ∀ b ∈ model, b ≠ t v + d → dist (t v + d) (t v) < dist b (t v)) (hi : 0 < c.maxIter) (mse : ℝ)
    (h3 : 3 ≤ min ⌊⌊(vertices.length : ℝ) * c.density⌋₊ * u.overlap⌋₊ ⌈(vertices.length : ℝ) * c.density⌉₊) :
    ∃ m t', doScanMatch u model c vertices t mse = .ok m ∧ m.dest = some t' ∧ ∀ v, t' v = t v + d := by
  obtain ⟨n, hn'⟩ : ∃ n, c.maxIter = n + 1 := ⟨c.maxIter - 1, by omega⟩
  obtain ⟨r, hr, h⟩ := C124_shift u he model vertices c.density t hd hd1 hn d hm hfar n mse
  rw [if_pos h3] at h
  rw [← hn'] at hr
  obtain ⟨m, hm, -, -, -, h1, -⟩ := C132_pose u model c vertices t mse r hr
  refine ⟨m, _, hm, (h1 (by rw [h.2.2.2]; omega)).1, fun v => ?_⟩
  show r.c (t v) = _
  rw [h.1]

/-- a window of three scans of a body that moves, see C130_same_scan for another one -/
example : ∃ c : LineConf, c.lines = 3 ∧ 0 ≤ c.rotation ∧ 0 ≤ c.distance ∧ 0 ≤ c.head ∧ c.head < Real.pi :=
  ⟨⟨3, 1, 0, 0, 0⟩, rfl, le_refl _, le_refl _, le_refl _, Real.pi_pos⟩

/-- scans whose odometry agrees with the poses in the world -/
example : ∃ s : State, s.scans.length = 2 ∧ (∀ y ∈ s.scans, y.world = flip.mul y.odo) ∧ ∃ i s', s.generate = some (i, s') :=
  ⟨⟨⟨2, 0, 0, 0, 0⟩, 0, 2, [⟨ident, flip.mul ident, ident, [unitY]⟩, ⟨flip, flip.mul flip, ident, [unitY]⟩]⟩, rfl, by simp, _, _, rfl⟩

end

end Envire.Icp.Loc

#print axioms Envire.Icp.Loc.C130_accept_partial
#print axioms Envire.Icp.Loc.C130_window
#print axioms Envire.Icp.Loc.C130_distinct
#print axioms Envire.Icp.Loc.C130_late
#print axioms Envire.Icp.Loc.C130_new
#print axioms Envire.Icp.Loc.C130_same_scan
#print axioms Envire.Icp.Loc.C131_points
#print axioms Envire.Icp.Loc.C131_world
#print axioms Envire.Icp.Loc.C131_last
#print axioms Envire.Icp.Loc.C131_no_lines
#print axioms Envire.Icp.Loc.C131_sample
#print axioms Envire.Icp.Loc.C132_pose
#print axioms Envire.Icp.Loc.C132_no_pairs
#print axioms Envire.Icp.Loc.C132_covariance
#print axioms Envire.Icp.Loc.C132_modes
#print axioms Envire.Icp.Loc.C132_shift
