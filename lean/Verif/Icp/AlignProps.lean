import Verif.Icp.AlignModel

/-! C123: the points that PointcloudAdapter visits; C124: the alignment -/

namespace Envire.Icp

noncomputable section

/-! ### C123 -/

theorem floor_lt_iff {n : Nat} {d : ℝ} (hd : 0 < d) (k : Nat) : ⌊(k : ℝ) * (1 / d)⌋₊ < n ↔ k < ⌈(n : ℝ) * d⌉₊ := by
  rw [Nat.floor_lt (by positivity), Nat.lt_ceil, mul_one_div, div_lt_iff₀ hd]

theorem visit_eq {n : Nat} {d : ℝ} (hd : 0 < d) (fuel k : Nat) :
    visit n d fuel (k * (1 / d)) =
      (List.range' k (min fuel (⌈(n : ℝ) * d⌉₊ - k))).map fun j : Nat => ⌊(j : ℝ) * (1 / d)⌋₊ := by
  induction fuel generalizing k with
  | zero => simp [visit]
  | succ f ih =>
    unfold visit
    by_cases h : k < ⌈(n : ℝ) * d⌉₊
    · rw [if_pos ((floor_lt_iff hd k).2 h)]
      have hm : min (f + 1) (⌈(n : ℝ) * d⌉₊ - k) = min f (⌈(n : ℝ) * d⌉₊ - (k + 1)) + 1 := by omega
      rw [hm, List.range'_succ, List.map_cons]
      congr 1
      have hk : (k : ℝ) * (1 / d) + 1 / d = ((k + 1 : Nat) : ℝ) * (1 / d) := by push_cast; ring
      rw [hk, ih]
    · rw [if_neg (fun hc => h ((floor_lt_iff hd k).1 hc))]
      have hm : min (f + 1) (⌈(n : ℝ) * d⌉₊ - k) = 0 := by omega
      rw [hm]
      rfl

theorem points_eq (a : Adapter) (hd : 0 < a.density) :
    a.points = .ok ((List.range ⌈a.vertices.length * a.density⌉₊).map
      fun k : Nat => a.local2globalnew (a.vertices.getD ⌊(k : ℝ) * (1 / a.density)⌋₊ 0)) := by
  unfold Adapter.points
  rw [if_neg (fun h => absurd h.1 (not_le.2 hd))]
  have h0 : (0 : ℝ) = ((0 : Nat) : ℝ) * (1 / a.density) := by simp
  rw [h0, visit_eq hd, List.map_map]
  congr 2
  rw [Nat.sub_zero, min_eq_right (Nat.le_succ _), List.range_eq_range']

/-- C123: with a positive density d and n vertices a pass reads ceil(n d) points: the k-th is the vertex floor(k / d), which
exists, mapped by the current transform; with a density up to 1 no vertex is read twice. size() is the number of points, or
one less -/
theorem C123_density (a : Adapter) (hd : 0 < a.density) :
    ∃ idx : List Nat, a.points = .ok (idx.map fun i => a.local2globalnew (a.vertices.getD i 0)) ∧
      idx.length = ⌈(a.vertices.length : ℝ) * a.density⌉₊ ∧
      (∀ k (h : k < idx.length), idx[k] = ⌊(k : ℝ) / a.density⌋₊ ∧ idx[k] < a.vertices.length) ∧
      (a.density ≤ 1 → idx.Pairwise (· < ·)) ∧
      a.size ≤ idx.length ∧ idx.length ≤ a.size + 1 := by
  refine ⟨(List.range ⌈a.vertices.length * a.density⌉₊).map fun k : Nat => ⌊(k : ℝ) * (1 / a.density)⌋₊, ?_, ?_, ?_, ?_, ?_, ?_⟩
  · rw [points_eq a hd, List.map_map]
    rfl
  · simp
  · intro k h
    rw [List.length_map, List.length_range] at h
    rw [List.getElem_map, List.getElem_range]
    exact ⟨by rw [mul_one_div], (floor_lt_iff hd k).2 h⟩
  · intro h1
    rw [List.pairwise_map]
    apply List.Pairwise.imp _ List.pairwise_lt_range
    intro i j hij
    have h2 : (i : ℝ) * (1 / a.density) + 1 ≤ j * (1 / a.density) := by
      have : (1 : ℝ) ≤ 1 / a.density := by rw [le_div_iff₀ hd]; linarith
      have hij' : (i : ℝ) + 1 ≤ j := by exact_mod_cast hij
      nlinarith [mul_le_mul_of_nonneg_right hij' (le_trans zero_le_one this)]
    have hi : (0 : ℝ) ≤ (i : ℝ) * (1 / a.density) := by positivity
    have h3 := Nat.floor_mono h2
    rw [Nat.floor_add_one hi] at h3
    omega
  · simp only [List.length_map, List.length_range]
    exact Nat.floor_le_ceil _
  · simp only [List.length_map, List.length_range]
    exact Nat.ceil_le_floor_add_one _

/-- C123: with density 1 a pass reads every vertex once, in order, and size() is the number of vertices -/
theorem C123_all (a : Adapter) (hd : a.density = 1) :
    a.points = .ok (a.vertices.map a.local2globalnew) ∧ a.size = a.vertices.length := by
  constructor
  · rw [points_eq a (by rw [hd]; norm_num)]
    congr 1
    apply List.ext_getElem
    · simp [hd]
    · intro i h1 h2
      rw [List.length_map] at h2
      rw [List.getElem_map, List.getElem_range, List.getElem_map, hd]
      simp [List.getD_eq_getElem?_getD, List.getElem?_eq_getElem h2]
  · simp [Adapter.size, hd]

/-- C123, wrong: the number of points that are read need not be size() -/
theorem C123_size : ∃ (a : Adapter) (pts : List V3), 0 < a.density ∧ a.density ≤ 1 ∧ a.points = .ok pts ∧ pts.length = 2 ∧ a.size = 1 := by
  refine ⟨⟨[0, 0, 0], 1 / 2, 1, 1⟩, _, by norm_num, by norm_num, points_eq _ (by norm_num), ?_, ?_⟩
  · simp only [List.length_map, List.length_range, List.length_cons, List.length_nil]
    rw [Nat.ceil_eq_iff (by norm_num)]
    norm_num
  · simp only [Adapter.size, List.length_cons, List.length_nil]
    rw [Nat.floor_eq_iff (by norm_num)]
    norm_num

/-- C123: the model has the points of all clouds that were added to it, in the order they are read -/
theorem C123_model (as : List Adapter) (hd : ∀ a ∈ as, 0 < a.density) :
    ∃ ptss : List (List V3), ptss.length = as.length ∧
      (∀ i (h : i < as.length) (h' : i < ptss.length), as[i].points = .ok ptss[i]) ∧
      ∀ model, as.foldl (fun (m : Res (List V3)) a => match m with
        | .ok l => addModel l a
        | e => e) (.ok model) = .ok (model ++ ptss.flatten) := by
  induction as with
  | nil => exact ⟨[], rfl, fun i h => absurd h (by simp), fun model => by simp⟩
  | cons a as ih =>
    obtain ⟨ptss, h1, h2, h3⟩ := ih fun b hb => hd b (List.mem_cons_of_mem _ hb)
    obtain ⟨pts, hp⟩ : ∃ pts, a.points = .ok pts := ⟨_, points_eq a (hd a (List.mem_cons_self ..))⟩
    refine ⟨pts :: ptss, by simp [h1], ?_, fun model => ?_⟩
    · intro i h h'
      cases i with
      | zero => exact hp
      | succ i => exact h2 i (by simpa using h) (by simpa using h')
    · rw [List.foldl_cons]
      have : addModel model a = .ok (model ++ pts) := by unfold addModel; rw [hp]
      dsimp only
      rw [this, h3]
      simp

/-- C123: a density that is not positive is undefined behaviour, if there is a vertex -/
theorem C123_undefined (a : Adapter) (h : a.density ≤ 0) (hv : a.vertices ≠ []) : a.points = .undefined := by
  unfold Adapter.points
  rw [if_pos ⟨h, hv⟩]

/-! ### C124 -/

/-- the mean of the squares -/
def meanSq (l : List ℝ) : ℝ := (l.map fun x => x ^ 2).sum / l.length

theorem points_ok (a : Adapter) (hd : 0 < a.density) : ∃ pts, a.points = .ok pts := ⟨_, points_eq a hd⟩

theorem findPairs_good (kd : Kd) (model pts : List V3) (d : Option ℝ) (s : Pairs) (hg : Good s) :
    Good (findPairs kd model pts d s) := by
  unfold findPairs
  induction pts generalizing s with
  | nil => exact hg
  | cons p pts ih =>
    rw [List.foldl_cons]
    apply ih
    cases h : kd.nearest model p d with
    | none => exact hg
    | some x => exact good_step (Classical.choice sorting_exists) s hg (.add x.1 p x.2)

theorem clear_good (s : Pairs) : Good s.clear := ⟨rfl, le_refl 0, by simp [Pairs.clear]⟩

theorem trim_good (so : Sorting) (s : Pairs) (n : Nat) (h : Good s) : Good (s.trim so n).1 := good_step so s h (.trim n)

/-- what a round does -/
theorem round_ok (u : Setup) (he : ∀ q, EigOf q (u.e q)) (model : List V3) (m : Adapter) (hd : 0 < m.density) (r : Result) (s : Pairs) :
    ∃ r' s' b, round u model m r s = .ok (r', s', b) ∧
      (b = true → r'.iter = r.iter ∧ r'.pairs < 3 ∧ r'.c = r.c ∧ r'.mse = r.mse ∧ r'.mseDiff = r.mseDiff ∧ r'.distances = r.distances) ∧
      (b = false → r'.iter = r.iter + 1 ∧ r'.pairs = s'.pairs.length ∧ 3 ≤ r'.pairs ∧
        r'.mse = some (meanSq (s'.pairs.map Entry.distance)) ∧ r'.distances = r.distances) := by
  obtain ⟨pts, hp⟩ := points_ok (m.setOffset r.c) hd
  unfold round
  rw [hp]
  dsimp only
  set t := ((findPairs u.kd model pts r.dbox s.clear).trim u.so ⌊m.size * u.overlap⌋₊) with ht
  have hg : Good t.1 := trim_good _ _ _ (findPairs_good _ _ _ _ _ (clear_good s))
  by_cases h3 : t.1.size < 3
  · rw [if_pos h3]
    exact ⟨_, _, true, rfl, fun _ => ⟨rfl, h3, rfl, rfl, rfl, rfl⟩, fun h => by cases h⟩
  · rw [if_neg h3]
    obtain ⟨l, hl⟩ := good_rows hg
    obtain ⟨mo, s', ho, -, -, hs'⟩ := C121_defined u.e he t.1 l hl (by omega)
    rw [ho]
    refine ⟨_, _, false, rfl, (fun h => by cases h), fun _ => ⟨rfl, ?_, (by show 3 ≤ t.1.size; omega), ?_, rfl⟩⟩
    · rw [hs']; rfl
    · rw [hs']
      dsimp only
      unfold meanSq
      rw [List.map_map, List.length_map]
      congr 2
      · obtain ⟨hall, hfm⟩ := of_mapM hl
        rw [hfm, List.map_filterMap]
        have : ∀ e ∈ t.1.pairs, Option.map (fun a : Row => a.2.2 ^ 2) (t.1.row e) = some (e.distance ^ 2) := by
          intro e hemem
          obtain ⟨b, hb⟩ := Option.isSome_iff_exists.1 (hall e hemem)
          rw [hb, Option.map_some, row_dist hb]
        rw [List.filterMap_congr this]
        simp
        rfl
      · rw [rows_length hl]; rfl

/-- the result of the loop -/
structure Done (u : Setup) (maxIter : Nat) (r : Result) : Prop where
  iter : r.iter ≤ maxIter
  stop : r.iter = maxIter ∨ ¬ above r.mse u.minMse ∨ ¬ above r.mseDiff u.minMseDiff ∨ r.pairs < 3
  report : r.distances ≠ [] → r.pairs = r.distances.length ∧ 3 ≤ r.pairs ∧
    r.mse = some (meanSq r.distances)
  empty : r.distances = [] → r.iter = 0 ∨ r.pairs < 3

theorem loop_done (u : Setup) (he : ∀ q, EigOf q (u.e q)) (model : List V3) (m : Adapter) (hd : 0 < m.density) (n : Nat) (r : Result) (s : Pairs)
    (hdist : r.distances = [])
    (hinv : (r.iter = 0 ∧ s.pairs = []) ∨
      (r.pairs = s.pairs.length ∧ 3 ≤ r.pairs ∧ r.mse = some (meanSq (s.pairs.map Entry.distance)))) :
    ∃ r', loop u model m n r s = .ok r' ∧ Done u (r.iter + n) r' := by
  have fin : ∀ n, ((n = 0) ∨ ¬ above r.mse u.minMse ∨ ¬ above r.mseDiff u.minMseDiff) →
      Done u (r.iter + n) { r with distances := s.pairs.map Entry.distance } := by
    intro n hn
    refine ⟨by show r.iter ≤ r.iter + n; omega, ?_, ?_, ?_⟩
    · rcases hn with h | h | h
      · left; show r.iter = r.iter + n; omega
      · right; left; exact h
      · right; right; left; exact h
    · intro hne
      dsimp only at hne ⊢
      rcases hinv with ⟨_, h⟩ | ⟨h1, h2, h3⟩
      · rw [h] at hne; exact absurd rfl hne
      · refine ⟨by rw [List.length_map]; exact h1, h2, ?_⟩
        exact h3
    · intro he
      dsimp only at he ⊢
      rcases hinv with ⟨h, _⟩ | ⟨h1, h2, -⟩
      · exact Or.inl h
      · rw [List.map_eq_nil_iff] at he
        rw [he] at h1
        simp at h1
        omega
  induction n generalizing r s with
  | zero => exact ⟨_, rfl, fin 0 (Or.inl rfl)⟩
  | succ n ih =>
    unfold loop
    by_cases hc : above r.mse u.minMse ∧ above r.mseDiff u.minMseDiff
    · rw [if_pos hc]
      obtain ⟨r', s', b, hr, ht, hf⟩ := round_ok u he model m hd r s
      rw [hr]
      cases b with
      | true =>
        obtain ⟨h1, h2, -, -, -, h6⟩ := ht rfl
        refine ⟨r', rfl, by omega, Or.inr (Or.inr (Or.inr h2)), fun hne => absurd (h6.trans hdist) hne, fun _ => Or.inr h2⟩
      | false =>
        obtain ⟨h1, h2, h3, h4, h5⟩ := hf rfl
        dsimp only
        have hinv' : (r'.iter = 0 ∧ s'.pairs = []) ∨ (r'.pairs = s'.pairs.length ∧ 3 ≤ r'.pairs ∧
            r'.mse = some (meanSq (s'.pairs.map Entry.distance))) := Or.inr ⟨h2, h3, h4⟩
        have fin' : ∀ n, ((n = 0) ∨ ¬ above r'.mse u.minMse ∨ ¬ above r'.mseDiff u.minMseDiff) →
            Done u (r'.iter + n) { r' with distances := s'.pairs.map Entry.distance } := by
          intro n hn
          refine ⟨by show r'.iter ≤ r'.iter + n; omega, ?_, ?_, ?_⟩
          · rcases hn with h | h | h
            · left; show r'.iter = r'.iter + n; omega
            · right; left; exact h
            · right; right; left; exact h
          · intro hne
            dsimp only at hne ⊢
            refine ⟨by rw [List.length_map]; exact h2, h3, ?_⟩
            exact h4
          · intro he
            dsimp only at he ⊢
            rw [List.map_eq_nil_iff] at he
            rw [he] at h2
            simp at h2
            omega
        obtain ⟨r'', hr'', hd''⟩ := ih r' s' (h5.trans hdist) hinv' fin'
        refine ⟨r'', hr'', ?_⟩
        rw [h1] at hd''
        have : r.iter + 1 + n = r.iter + (n + 1) := by omega
        rw [this] at hd''
        exact hd''
    · rw [if_neg hc]
      refine ⟨_, rfl, fin (n + 1) (Or.inr ?_)⟩
      by_contra hcon
      push Not at hcon
      exact hc hcon

/-- C124: with a positive density the alignment ends, without an exception, after at most max_iter rounds; it ends early only
if the error or its change is small enough or if there are less than three pairs. The distances that are reported are those
of the pairs of the last round, the error is the mean of their squares. If less than three pairs are found no distances are
reported -/
theorem C124_ends (u : Setup) (he : ∀ q, EigOf q (u.e q)) (model : List V3) (m : Adapter) (hd : 0 < m.density) (maxIter : Nat) (mse : ℝ) :
    ∃ r, align u model m maxIter mse = .ok r ∧ r.iter ≤ maxIter ∧
      (r.iter = maxIter ∨ ¬ above r.mse u.minMse ∨ ¬ above r.mseDiff u.minMseDiff ∨ r.pairs < 3) ∧
      (r.distances ≠ [] → r.pairs = r.distances.length ∧ 3 ≤ r.pairs ∧
        r.mse = some (meanSq r.distances)) ∧
      (r.distances = [] → r.iter = 0 ∨ r.pairs < 3) := by
  obtain ⟨r, h, hdone⟩ := loop_done u he model m hd maxIter ⟨1, 0, 0, none, none, none, []⟩ ⟨[], [], [], mse⟩ rfl (Or.inl ⟨rfl, rfl⟩)
  have h1 := hdone.iter
  have h2 := hdone.stop
  simp only [Nat.zero_add] at h1 h2
  exact ⟨r, h, h1, h2, hdone.report, hdone.empty⟩

theorem sq_nonneg' (v : V3) : 0 ≤ sq v := by unfold sq; positivity

theorem dist_zero {a b : V3} (h : dist a b = 0) : a = b := by
  unfold dist at h
  rw [Real.sqrt_eq_zero (sq_nonneg' _)] at h
  unfold sq at h
  have a0 := sq_nonneg ((a - b) 0)
  have a1 := sq_nonneg ((a - b) 1)
  have a2 := sq_nonneg ((a - b) 2)
  have z : ∀ {x : ℝ}, x ^ 2 = 0 → x = 0 := fun {x} hx => pow_eq_zero_iff (n := 2) (by norm_num) |>.1 hx
  apply sub_eq_zero.1
  funext i
  fin_cases i
  · show (a - b) 0 = 0
    exact z (by linarith)
  · show (a - b) 1 = 0
    exact z (by linarith)
  · show (a - b) 2 = 0
    exact z (by linarith)

theorem dist_shift (p d : V3) : dist (p + d) p = √(sq d) := by
  unfold dist
  rw [add_sub_cancel_left]

/-- the shift by a vector -/
def shift (d : V3) : Tf := Equiv.addRight d

/-- the tree finds the shifted point -/
theorem nearest_shift (kd : Kd) {model : List V3} {p d : V3} {db : Option ℝ} (hm : p + d ∈ model)
    (hfar : ∀ b ∈ model, b ≠ p + d → √(sq d) < dist b p) (hdb : ∀ x, db = some x → √(sq d) ≤ x) :
    kd.nearest model p db = some (p + d, √(sq d)) := by
  cases h : kd.nearest model p db with
  | none =>
    obtain ⟨x, h1, h2⟩ := kd.none model p db h _ hm
    rw [dist_shift] at h2
    exact absurd (hdb x h1) (not_le.2 h2)
  | some r =>
    obtain ⟨a, r⟩ := r
    obtain ⟨h1, h2, h3, -⟩ := kd.found model p db a r h
    have h4 := h3 _ hm
    rw [dist_shift] at h4
    by_cases ha : a = p + d
    · rw [h2, ha, dist_shift]
    · have := hfar a h1 ha
      rw [h2] at h4
      exact absurd h4 (not_le.2 this)

theorem findPairs_shift (kd : Kd) {model pts : List V3} {d : V3} {db : Option ℝ} (hm : ∀ p ∈ pts, p + d ∈ model)
    (hfar : ∀ p ∈ pts, ∀ b ∈ model, b ≠ p + d → √(sq d) < dist b p) (hdb : ∀ x, db = some x → √(sq d) ≤ x) (s : Pairs) :
    findPairs kd model pts db s.clear = added (pts.map fun p => (p, p + d, √(sq d))) s.mse := by
  unfold added findPairs
  rw [List.foldl_map]
  have hs : s.clear = ⟨[], [], [], s.mse⟩ := rfl
  rw [hs]
  generalize (⟨[], [], [], s.mse⟩ : Pairs) = s0
  induction pts generalizing s0 with
  | nil => rfl
  | cons p pts ih =>
    rw [List.foldl_cons, List.foldl_cons]
    rw [nearest_shift kd (hm p (List.mem_cons_self ..)) (hfar p (List.mem_cons_self ..)) hdb]
    exact ih (fun q hq => hm q (List.mem_cons_of_mem _ hq)) (fun q hq => hfar q (List.mem_cons_of_mem _ hq)) _

theorem tf_of_apply {m : Motion} (hu : m.q.w ^ 2 + m.q.v 0 ^ 2 + m.q.v 1 ^ 2 + m.q.v 2 ^ 2 = 1) (v : V3) : m.tf v = m.apply v := by
  unfold Motion.tf
  rw [dif_pos hu]
  rfl

/-- the number of pairs that remain -/
def enough (u : Setup) (m : Adapter) : Prop := 3 ≤ min ⌊m.size * u.overlap⌋₊ ⌈(m.vertices.length : ℝ) * m.density⌉₊

theorem pts_mem {a : Adapter} (hd : 0 < a.density) {pts : List V3} (h : a.points = .ok pts) {p : V3} (hp : p ∈ pts) :
    ∃ v ∈ a.vertices, p = a.local2globalnew v := by
  obtain ⟨idx, h1, h2, h3, -⟩ := C123_density a hd
  rw [h1] at h
  cases h
  obtain ⟨i, hi, rfl⟩ := List.mem_map.1 hp
  obtain ⟨k, hk, rfl⟩ := List.getElem_of_mem hi
  have hlt := (h3 k hk).2
  exact ⟨_, List.getElem_mem hlt, by rw [List.getD_eq_getElem?_getD, List.getElem?_eq_getElem hlt]; rfl⟩

theorem pts_nodup {a : Adapter} (hd : 0 < a.density) (hd1 : a.density ≤ 1) (hn : a.vertices.Nodup) {pts : List V3}
    (h : a.points = .ok pts) : pts.Nodup ∧ pts.length = ⌈(a.vertices.length : ℝ) * a.density⌉₊ := by
  obtain ⟨idx, h1, h2, h3, h4, -⟩ := C123_density a hd
  rw [h1] at h
  cases h
  refine ⟨?_, by rw [List.length_map, h2]⟩
  have hi : idx.Nodup := (h4 hd1).imp fun {a b} hab => Nat.ne_of_lt hab
  apply hi.map_on
  intro x hx y hy hxy
  have hx' : x < a.vertices.length := by
    obtain ⟨k, hk, rfl⟩ := List.getElem_of_mem hx
    exact (h3 k hk).2
  have hy' : y < a.vertices.length := by
    obtain ⟨k, hk, rfl⟩ := List.getElem_of_mem hy
    exact (h3 k hk).2
  have := a.local2globalnew.injective hxy
  rw [List.getD_eq_getElem?_getD, List.getElem?_eq_getElem hx', List.getD_eq_getElem?_getD, List.getElem?_eq_getElem hy'] at this
  exact (hn.getElem_inj_iff).1 this

/-- a round in which every point is shifted by `d` from its nearest point -/
theorem round_shift (u : Setup) (he : ∀ q, EigOf q (u.e q)) (model : List V3) (m : Adapter) (hd : 0 < m.density)
    (hd1 : m.density ≤ 1) (hn : m.vertices.Nodup) (r : Result) (s : Pairs) (d : V3)
    (hm : ∀ v ∈ m.vertices, r.c (m.local2global v) + d ∈ model)
    (hfar : ∀ v ∈ m.vertices, ∀ b ∈ model, b ≠ r.c (m.local2global v) + d → √(sq d) < dist b (r.c (m.local2global v)))
    (hdb : ∀ x, r.dbox = some x → √(sq d) ≤ x) :
    ∃ r' s' b, round u model m r s = .ok (r', s', b) ∧ (b = true ↔ ¬ enough u m) ∧
      r'.pairs = min ⌊m.size * u.overlap⌋₊ ⌈(m.vertices.length : ℝ) * m.density⌉₊ ∧
      (b = true → r'.c = r.c ∧ r'.mse = r.mse) ∧
      (b = false → r'.c = shift d * r.c ∧ r'.mse = some (sq d) ∧ r'.dbox = some (√(sq d) * 2)) := by
  obtain ⟨pts, hp⟩ := points_ok (m.setOffset r.c) hd
  have hpm : ∀ p ∈ pts, ∃ v ∈ m.vertices, p = r.c (m.local2global v) := fun p h => pts_mem (a := m.setOffset r.c) hd hp h
  obtain ⟨hnod, hlen⟩ := pts_nodup (a := m.setOffset r.c) hd hd1 hn hp
  have hlen' : pts.length = ⌈(m.vertices.length : ℝ) * m.density⌉₊ := hlen
  have hfp : findPairs u.kd model pts r.dbox s.clear = added (pts.map fun p => (p, p + d, √(sq d))) s.mse := by
    apply findPairs_shift u.kd _ _ hdb
    · intro p h
      obtain ⟨v, hv, rfl⟩ := hpm p h
      exact hm v hv
    · intro p h
      obtain ⟨v, hv, rfl⟩ := hpm p h
      exact hfar v hv
  unfold round
  rw [hp]
  dsimp only
  rw [hfp]
  set l := pts.map fun p => ((p, p + d, √(sq d)) : Row) with hl
  obtain ⟨kept, rest, hk, hperm, hkl, -, hdist⟩ := C122_trim u.so (added l s.mse) l (C122_added l s.mse).1 ⌊m.size * u.overlap⌋₊
  set t := (added l s.mse).trim u.so ⌊m.size * u.overlap⌋₊ with ht
  have hkm : ∀ a ∈ kept, a.2.1 = a.1 + d ∧ a.2.2 = √(sq d) := by
    intro a ha
    have : a ∈ l := hperm.mem_iff.2 (List.mem_append_left _ ha)
    obtain ⟨p, -, rfl⟩ := List.mem_map.1 this
    exact ⟨rfl, rfl⟩
  have hsize : t.1.size = min ⌊m.size * u.overlap⌋₊ ⌈(m.vertices.length : ℝ) * m.density⌉₊ := by
    rw [← rows_length hk, hkl, hl, List.length_map, hlen']
  by_cases h3 : t.1.size < 3
  · rw [if_pos h3]
    refine ⟨_, _, true, rfl, ⟨fun _ => ?_, fun _ => rfl⟩, hsize, fun _ => ⟨rfl, rfl⟩, fun h => by cases h⟩
    unfold enough
    rw [← hsize]
    omega
  · rw [if_neg h3]
    have hk3 : 3 ≤ kept.length := by rw [rows_length hk]; omega
    obtain ⟨mo, s', ho, -, -, hs'⟩ := C121_defined u.e he t.1 kept hk (by omega)
    obtain ⟨-, hq, -, -⟩ := ok_iff hk ho
    have hc := chosen (sigma kept) _ (he _) mo.q hq
    -- two different points
    have hknod : (kept.map fun a => a.1).Nodup := by
      have h1 : (l.map fun a : Row => a.1).Nodup := by
        rw [hl, List.map_map]
        have : ((fun a : Row => a.1) ∘ fun p : V3 => ((p, p + d, √(sq d)) : Row)) = id := rfl
        rw [this, List.map_id]
        exact hnod
      have h2 := (hperm.map fun a : Row => a.1).nodup_iff.1 h1
      rw [List.map_append] at h2
      exact (List.nodup_append.1 h2).1
    have htwo : ∃ a ∈ kept, ∃ b ∈ kept, a.1 ≠ b.1 := by
      match kept, hk3, hknod with
      | a :: b :: rest, _, hno =>
        refine ⟨a, by simp, b, by simp, ?_⟩
        intro hab
        simp [hab] at hno
    have hsh := (C121_shift u.e he t.1 kept hk d (fun a ha => (hkm a ha).1) mo s' ho).2 htwo
    have htf : mo.tf = shift d := by
      ext1 v
      rw [tf_of_apply hc.unit, hsh]
      rfl
    have hmse : s'.mse = sq d := by
      rw [hs']
      dsimp only
      have : kept.map (fun a : Row => a.2.2 ^ 2) = kept.map fun _ => sq d :=
        List.map_congr_left fun a ha => by rw [(hkm a ha).2, Real.sq_sqrt (sq_nonneg' _)]
      rw [this]
      have hne : (kept.length : ℝ) ≠ 0 := by
        have : 0 < kept.length := by omega
        exact_mod_cast this.ne'
      simp
      field_simp
    have hdb' : t.2 = some (√(sq d)) := by
      cases h2 : t.2 with
      | none =>
        rw [h2] at hdist
        rw [show kept = [] from hdist] at hk3
        simp at hk3
      | some x =>
        rw [h2] at hdist
        obtain ⟨⟨a, ha, hx⟩, -⟩ := hdist
        rw [← hx, (hkm a ha).2]
    rw [ho]
    refine ⟨_, _, false, rfl, ⟨(fun h => by cases h), fun h => ?_⟩, hsize, (fun h => by cases h), fun _ => ⟨?_, ?_, ?_⟩⟩
    · unfold enough at h
      rw [← hsize] at h
      omega
    · show mo.tf * r.c = _
      rw [htf]
    · show some s'.mse = _
      rw [hmse]
    · show Option.map _ t.2 = _
      rw [hdb']
      rfl

theorem sq_zero : sq 0 = 0 := by simp [sq]

theorem shift_zero : shift 0 = 1 := by
  ext1 v
  simp [shift]

/-- once all points are on points of the model they stay there -/
theorem loop_stay (u : Setup) (he : ∀ q, EigOf q (u.e q)) (model : List V3) (m : Adapter) (hd : 0 < m.density)
    (hd1 : m.density ≤ 1) (hn : m.vertices.Nodup) (n : Nat) (r : Result) (s : Pairs)
    (hm : ∀ v ∈ m.vertices, r.c (m.local2global v) ∈ model) (hdb : ∀ x, r.dbox = some x → 0 ≤ x) :
    ∃ r', loop u model m n r s = .ok r' ∧ r'.c = r.c ∧ (r'.mse = r.mse ∨ r'.mse = some 0) ∧
      (r'.pairs = r.pairs ∨ r'.pairs = min ⌊m.size * u.overlap⌋₊ ⌈(m.vertices.length : ℝ) * m.density⌉₊) := by
  induction n generalizing r s with
  | zero => exact ⟨_, rfl, rfl, Or.inl rfl, Or.inl rfl⟩
  | succ n ih =>
    unfold loop
    by_cases hc : above r.mse u.minMse ∧ above r.mseDiff u.minMseDiff
    · rw [if_pos hc]
      obtain ⟨r', s', b, hr, -, hpa, ht, hf⟩ := round_shift u he model m hd hd1 hn r s 0
        (fun v hv => by rw [add_zero]; exact hm v hv)
        (fun v _ b _ hb => by
          rw [add_zero] at hb
          rw [sq_zero, Real.sqrt_zero]
          rcases (Real.sqrt_nonneg (sq (b - r.c (m.local2global v)))).eq_or_lt with h | h
          · exact absurd (dist_zero h.symm) hb
          · exact h)
        (fun x hx => by rw [sq_zero, Real.sqrt_zero]; exact hdb x hx)
      rw [hr]
      cases b with
      | true =>
        obtain ⟨h1, h2⟩ := ht rfl
        exact ⟨r', rfl, h1, Or.inl h2, Or.inr hpa⟩
      | false =>
        obtain ⟨h1, h2, h3⟩ := hf rfl
        rw [shift_zero, one_mul] at h1
        rw [sq_zero] at h2
        dsimp only
        obtain ⟨r'', g1, g2, g3, g4⟩ := ih r' s' (by rw [h1]; exact hm) (fun x hx => by
          rw [h3, sq_zero, Real.sqrt_zero, zero_mul] at hx
          cases hx
          exact le_refl _)
        refine ⟨r'', g1, g2.trans h1, Or.inr ?_, Or.inr (g4.elim (·.trans hpa) id)⟩
        rcases g3 with g | g
        · rw [g, h2]
        · exact g
    · rw [if_neg hc]
      exact ⟨_, rfl, rfl, Or.inl rfl, Or.inl rfl⟩

/-- C124: a measurement whose points all are points of the model is not moved -/
theorem C124_fixed (u : Setup) (he : ∀ q, EigOf q (u.e q)) (model vertices : List V3) (density : ℝ) (t : Tf) (hd : 0 < density)
    (hd1 : density ≤ 1) (hn : vertices.Nodup) (hm : ∀ v ∈ vertices, t v ∈ model) (maxIter : Nat) (mse : ℝ) :
    ∃ r, align u model (.mk' vertices density t) maxIter mse = .ok r ∧ r.c = 1 ∧ (r.mse = none ∨ r.mse = some 0) := by
  obtain ⟨r, h1, h2, h3, -⟩ :=
    loop_stay u he model (.mk' vertices density t) hd hd1 hn maxIter ⟨1, 0, 0, none, none, none, []⟩ ⟨[], [], [], mse⟩
      (fun v hv => hm v hv) (fun x hx => by cases hx)
  exact ⟨r, h1, h2, h3⟩

/-- C124: if every point of the measurement is shifted by one vector from its nearest point in the model, then one round or
more finds the shift (unless less than three pairs remain: then nothing is moved). After one round the error that is reported
is the one before the round -/
theorem C124_shift (u : Setup) (he : ∀ q, EigOf q (u.e q)) (model vertices : List V3) (density : ℝ) (t : Tf) (hd : 0 < density)
    (hd1 : density ≤ 1) (hn : vertices.Nodup) (d : V3) (hm : ∀ v ∈ vertices, t v + d ∈ model)
    (hfar : ∀ v ∈ vertices, ∀ b ∈ model, b ≠ t v + d → dist (t v + d) (t v) < dist b (t v)) (maxIter : Nat) (mse : ℝ) :
    ∃ r, align u model (.mk' vertices density t) (maxIter + 1) mse = .ok r ∧
      (if 3 ≤ min ⌊⌊(vertices.length : ℝ) * density⌋₊ * u.overlap⌋₊ ⌈(vertices.length : ℝ) * density⌉₊
        then (∀ p, r.c p = p + d) ∧ (r.mse = some (sq d) ∨ r.mse = some 0) ∧ (maxIter = 0 → r.mse = some (sq d)) ∧
          r.pairs = min ⌊⌊(vertices.length : ℝ) * density⌋₊ * u.overlap⌋₊ ⌈(vertices.length : ℝ) * density⌉₊
        else ∀ p, r.c p = p) := by
  unfold align loop
  rw [if_pos ⟨(fun x hx => by cases hx), (fun x hx => by cases hx)⟩]
  obtain ⟨r', s', b, hr, hb, hpa, ht, hf⟩ := round_shift u he model (.mk' vertices density t) hd hd1 hn
    ⟨1, 0, 0, none, none, none, []⟩ ⟨[], [], [], mse⟩ d hm
    (fun v hv b hbm hbn => by rw [← dist_shift (t v) d]; exact hfar v hv b hbm hbn) (fun x hx => by cases hx)
  rw [hr]
  cases b with
  | true =>
    obtain ⟨h1, h2⟩ := ht rfl
    refine ⟨r', rfl, ?_⟩
    have hno : ¬ 3 ≤ min ⌊⌊(vertices.length : ℝ) * density⌋₊ * u.overlap⌋₊ ⌈(vertices.length : ℝ) * density⌉₊ := hb.1 rfl
    rw [if_neg hno]
    intro p
    rw [h1]
    rfl
  | false =>
    obtain ⟨h1, h2, h3⟩ := hf rfl
    dsimp only
    have henough : 3 ≤ min ⌊⌊(vertices.length : ℝ) * density⌋₊ * u.overlap⌋₊ ⌈(vertices.length : ℝ) * density⌉₊ := by
      by_contra hc
      cases hb.2 hc
    obtain ⟨r'', g1, g2, g3, g4⟩ := loop_stay u he model (.mk' vertices density t) hd hd1 hn maxIter r' s'
      (fun v hv => by rw [h1]; exact hm v hv) (fun x hx => by
        rw [h3] at hx
        cases hx
        positivity)
    refine ⟨r'', g1, ?_⟩
    rw [if_pos henough]
    refine ⟨fun p => ?_, ?_, ?_, g4.elim (·.trans hpa) id⟩
    · rw [g2, h1]
      rfl
    · rcases g3 with g | g
      · left; rw [g, h2]
      · right; exact g
    · rintro rfl
      cases g1
      exact h2

/-- C124, wrong: the error that is reported is not the error of the alignment that was found: here it is 1 although the
alignment maps every point of the measurement onto the model -/
theorem C124_stale_error (kd : Kd) (so : Sorting) (e : M4 → Eig) (he : ∀ q, EigOf q (e q)) :
    ∃ (model vertices : List V3) (r : Result),
      align ⟨kd, so, e, 0, 0, 1⟩ model (.mk' vertices 1 1) 1 0 = .ok r ∧ r.mse = some 1 ∧ ∀ v ∈ vertices, r.c v ∈ model := by
  let vs : List V3 := [![0, 0, 0], ![9, 0, 0], ![0, 9, 0]]
  have hv : vs.Nodup := by
    simp only [vs, List.nodup_cons, List.mem_cons, List.not_mem_nil, or_false, not_or, List.nodup_nil, and_true, not_false_eq_true]
    refine ⟨⟨?_, ?_⟩, ?_⟩
    · intro h; have := congrFun h 0; simp at this
    · intro h; have := congrFun h 1; simp at this
    · intro h; have := congrFun h 0; simp at this
  obtain ⟨r, hr, h⟩ := C124_shift ⟨kd, so, e, 0, 0, 1⟩ he (vs.map (· + ![0, 0, 1])) vs 1 1 one_pos (le_refl _) hv ![0, 0, 1]
    (fun v hv => List.mem_map.2 ⟨v, hv, rfl⟩)
    (by
      intro v hv b hb hne
      rw [dist_shift]
      obtain ⟨w, hw, rfl⟩ := List.mem_map.1 hb
      unfold dist
      apply Real.sqrt_lt_sqrt (sq_nonneg' _)
      simp only [vs, List.mem_cons, List.not_mem_nil, or_false] at hv hw
      rcases hv with rfl | rfl | rfl <;> rcases hw with rfl | rfl | rfl <;>
        first
        | exact absurd rfl hne
        | (simp [sq]; try norm_num)) 0 0
  have h3 : 3 ≤ min ⌊⌊(vs.length : ℝ) * 1⌋₊ * (1 : ℝ)⌋₊ ⌈(vs.length : ℝ) * 1⌉₊ := by
    simp [vs]
  rw [if_pos h3] at h
  refine ⟨_, vs, r, hr, ?_, ?_⟩
  · rw [h.2.2.1 rfl]
    simp [sq]
  · intro v hv
    rw [h.1]
    exact List.mem_map.2 ⟨v, hv, rfl⟩

/-! #### the frame node -/

open Env in
/-- frames above the one that is changed keep their way to the root -/
theorem inRoot_update {G : Type} [Group G] {s : Env} (ha : Acyclic s) {tf : Obj → G} {f p r : Obj} {t : G} (g : G)
    (h : InRoot s (groupOps G) tf p t r) (hf : s.height f < s.height p) :
    InRoot s (groupOps G) (Function.update tf f g) p t r := by
  induction h with
  | root h1 => exact .root h1
  | @up a b r t h1 h2 ih =>
    have hab : a ≠ f := by
      rintro rfl
      omega
    have hlt := height_lt ha (look_some_mem h1)
    have h3 := InRoot.up (m := groupOps G) (tf := Function.update tf f g) h1 (ih (by omega))
    rw [Function.update_of_ne hab] at h3
    exact h3

open Env in
/-- C124: in a frame tree without cycles, applyTransform changes the pose of the frame of the cloud, relative to the root
node, from L to C L, where C is the transform of the alignment. This needs that the cloud is not attached to the root node
itself: then the pose is the identity before and after -/
theorem C124_applied {G : Type} [Group G] {s : Env} (ha : Acyclic s) (tf : Obj → G) (f r : Obj) (hr : s.getParent r = none)
    (hroot : RootOf s f r) (l c : G) (hl : s.relativeTransform (groupOps G) tf f r = .ok l) :
    s.relativeTransform (groupOps G) (Function.update tf f (applyTransform (tf f) l c)) f r =
      .ok (if f = r then 1 else c * l) := by
  by_cases hfr : f = r
  · subst hfr
    rw [if_pos rfl]
    unfold Env.relativeTransform
    rw [if_pos rfl]
    rfl
  · rw [if_neg hfr]
    cases hroot with
    | root => exact absurd rfl hfr
    | @up _ p _ hp hpr =>
      obtain ⟨t, r', hin⟩ := InRoot.exists ha tf p
      have hr' : r' = r := hin.rootOf.unique hpr
      subst hr'
      have h0 : InRoot s (groupOps G) tf f (t * tf f) r' := InRoot.up hp hin
      have h1 := C09_relativeTransform_exact ha tf h0 (InRoot.root hr)
      rw [if_pos rfl, hl] at h1
      have hlt : l = t * tf f := by
        have h1' := RelRes.ok.inj h1
        rw [h1']
        show (1 : G)⁻¹ * (t * tf f) = t * tf f
        rw [inv_one, one_mul]
      have hup := inRoot_update ha (applyTransform (tf f) l c) hin (height_lt ha (look_some_mem hp))
      have h2 : InRoot s (groupOps G) (Function.update tf f (applyTransform (tf f) l c)) f
          (t * (Function.update tf f (applyTransform (tf f) l c)) f) r' := InRoot.up hp hup
      have h3 := C09_relativeTransform_exact ha _ h2 (InRoot.root hr)
      rw [h3, if_pos rfl]
      congr 1
      show (1 : G)⁻¹ * (t * (Function.update tf f (applyTransform (tf f) l c)) f) = c * l
      rw [inv_one, one_mul, Function.update_self]
      unfold applyTransform
      have : tf f * l⁻¹ = t⁻¹ := by rw [hlt, mul_inv_rev, mul_inv_cancel_left]
      rw [this, mul_assoc, mul_inv_cancel_left]

/-- the hypotheses of C124_fixed and C124_shift can be met, see C124_stale_error; a search of the tree exists -/
theorem kd_exists : Nonempty Kd := by
  classical
  have key : ∀ (m : List V3) (p : V3), m ≠ [] → ∃ a ∈ m, ∀ b ∈ m, dist a p ≤ dist b p := by
    intro m p hm
    obtain ⟨a, ha, hmin⟩ := (m.toFinset).exists_min_image (fun a => dist a p) (by
      obtain ⟨a, ha⟩ := List.exists_mem_of_ne_nil m hm
      exact ⟨a, List.mem_toFinset.2 ha⟩)
    exact ⟨a, List.mem_toFinset.1 ha, fun b hb => hmin b (List.mem_toFinset.2 hb)⟩
  refine ⟨⟨fun m p d => if h : m ≠ [] then
      (if ∀ x, d = some x → dist (key m p h).choose p ≤ x then some ((key m p h).choose, dist (key m p h).choose p) else none)
      else none, ?_, ?_⟩⟩
  · intro m p d a r h
    by_cases hm : m ≠ []
    · rw [dif_pos hm] at h
      by_cases hx : ∀ x, d = some x → dist (key m p hm).choose p ≤ x
      · rw [if_pos hx] at h
        cases h
        exact ⟨(key m p hm).choose_spec.1, rfl, (key m p hm).choose_spec.2, hx⟩
      · rw [if_neg hx] at h; cases h
    · rw [dif_neg hm] at h; cases h
  · intro m p d h b hb
    have hm : m ≠ [] := List.ne_nil_of_mem hb
    rw [dif_pos hm] at h
    by_cases hx : ∀ x, d = some x → dist (key m p hm).choose p ≤ x
    · rw [if_pos hx] at h; cases h
    · push Not at hx
      obtain ⟨x, h1, h2⟩ := hx
      exact ⟨x, h1, lt_of_lt_of_le h2 ((key m p hm).choose_spec.2 b hb)⟩

/-- the hypotheses of C124_ends can be met -/
example : ∃ (u : Setup) (m : Adapter), (∀ q, EigOf q (u.e q)) ∧ 0 < m.density := by
  obtain ⟨kd⟩ := kd_exists
  obtain ⟨so⟩ := sorting_exists
  obtain ⟨e, he⟩ := exists_solver
  exact ⟨⟨kd, so, e, 0, 0, 1⟩, ⟨[0], 1, 1, 1⟩, he, one_pos⟩

end

end Envire.Icp

#print axioms Envire.Icp.C123_density
#print axioms Envire.Icp.C123_all
#print axioms Envire.Icp.C123_size
#print axioms Envire.Icp.C123_model
#print axioms Envire.Icp.C123_undefined
#print axioms Envire.Icp.C124_ends
#print axioms Envire.Icp.C124_fixed
#print axioms Envire.Icp.C124_shift
#print axioms Envire.Icp.C124_stale_error
#print axioms Envire.Icp.C124_applied
