import Verif.Maps.SegmentModel
import Mathlib.Tactic.NormNum
import Mathlib.Tactic.Linarith
import Mathlib.Tactic.FieldSimp

/-!
C84: map segments.
-/

namespace Envire.Segment

variable {M P : Type*}

/-! ### specification: what was added by a history -/

/-- the hypotheses that were added, in order: pose, map, weight, variance of z -/
def added (h : List (Op M P)) : List (P × M × ℝ × ℝ) :=
  h.filterMap fun o => match o with
    | .add pose map w z => some (pose, map, w, z)
    | .update => none

/-- the part of a hypothesis -/
def partOf (a : P × M × ℝ × ℝ) : Part M P := ⟨a.2.1, a.1, a.2.2.1⟩

/-! ### lemmas -/

theorem added_append (h h' : List (Op M P)) : added (h ++ h') = added h ++ added h' := by
  unfold added
  rw [List.filterMap_append]

theorem run_append (vec : P → Vec6) (stats : List (Vec6 × ℝ) → Gauss) (rot : ℝ) (h h' : List (Op M P)) (s : Segment M P) :
    run vec stats rot (h ++ h') s = (run vec stats rot h s).bind (run vec stats rot h') := by
  induction h generalizing s with
  | nil => rfl
  | cons o h ih =>
    cases o with
    | add pose map w z => exact ih _
    | update =>
      simp only [List.cons_append, run]
      cases s.update vec stats rot with
      | none => rfl
      | some t => exact ih t

theorem run_parts (vec : P → Vec6) (stats : List (Vec6 × ℝ) → Gauss) (rot : ℝ) (h : List (Op M P)) (s t : Segment M P)
    (e : run vec stats rot h s = some t) : t.parts = s.parts ++ (added h).map partOf ∧ t.trajectories = s.trajectories ∧
      t.zVar = s.zVar + ((added h).map fun a => a.2.2.1 * a.2.2.2).sum := by
  induction h generalizing s with
  | nil => cases e; simp [added]
  | cons o h ih =>
    cases o with
    | add pose map w z =>
      obtain ⟨h1, h2, h3⟩ := ih _ e
      refine ⟨?_, h2, ?_⟩
      · rw [h1]
        simp [Segment.addPart, added, partOf]
      · rw [h3]
        simp [Segment.addPart, added, add_assoc]
    | update =>
      simp only [run] at e
      unfold Segment.update at e
      dsimp only at e
      split at e
      · cases e
      · obtain ⟨h1, h2, h3⟩ := ih _ e
        exact ⟨h1, h2, h3⟩

theorem sumWeights_eq (parts : List (Part M P)) : sumWeights parts = (parts.map (·.weight)).sum := by
  have : ∀ a, parts.foldl (fun a p => a + p.weight) a = a + (parts.map (·.weight)).sum := by
    induction parts with
    | nil => intro a; simp
    | cons p l ih => intro a; rw [List.foldl_cons, ih, List.map_cons, List.sum_cons, add_assoc]
  unfold sumWeights
  rw [this, zero_add]

theorem largest_one (g : Gauss) : largest [(1.0, g)] none 0 = some g := by
  unfold largest largest
  rw [if_pos (by norm_num)]

/-- adding hypotheses does not change the distribution -/
theorem run_adds (vec : P → Vec6) (stats : List (Vec6 × ℝ) → Gauss) (rot : ℝ) (h : List (Op M P)) (hh : ∀ o ∈ h, o ≠ .update)
    (s t : Segment M P) (e : run vec stats rot h s = some t) : t.gmm = s.gmm := by
  induction h generalizing s with
  | nil => cases e; rfl
  | cons o h ih =>
    cases o with
    | add pose map w z => exact (ih (fun o ho => hh o (List.mem_cons_of_mem _ ho)) _ e).trans rfl
    | update => exact absurd rfl (hh _ List.mem_cons_self)

/-! ### C84 -/

/-- C84, the distribution: after any history whose last `update` came after the calls `h` (then only further hypotheses were added, `h'`),
`getTransform` returns the mean of the poses added in `h` with their weights, and their covariance plus one square degree for both rotations
about x and y and the weighted mean of the given variances for z. -/
theorem C84_transform (vec : P → Vec6) (stats : List (Vec6 × ℝ) → Gauss) (rot : ℝ) (h h' : List (Op M P)) (hh : ∀ o ∈ h', o ≠ .update)
    (s : Segment M P) (e : run vec stats rot (h ++ .update :: h') {} = some s) :
    ∃ g, s.getTransform = some g ∧ g.mean = (stats ((added h).map fun a => (vec a.1, a.2.2.1))).mean ∧
      (∀ a b, a ≠ b → g.cov a b = (stats ((added h).map fun a => (vec a.1, a.2.2.1))).cov a b) ∧
      g.cov 0 0 = (stats ((added h).map fun a => (vec a.1, a.2.2.1))).cov 0 0 + rot ∧
      g.cov 1 1 = (stats ((added h).map fun a => (vec a.1, a.2.2.1))).cov 1 1 + rot ∧
      (∀ c ∈ [2, 3, 4], g.cov c c = (stats ((added h).map fun a => (vec a.1, a.2.2.1))).cov c c) ∧
      (g.cov 5 5 - (stats ((added h).map fun a => (vec a.1, a.2.2.1))).cov 5 5) * ((added h).map fun a => a.2.2.1).sum =
        ((added h).map fun a => a.2.2.1 * a.2.2.2).sum := by
  rw [run_append] at e
  cases e1 : run vec stats rot h {} with
  | none => rw [e1] at e; cases e
  | some t =>
    rw [e1] at e
    simp only [Option.bind_some, run] at e
    obtain ⟨p1, -, p3⟩ := run_parts _ _ _ _ _ _ e1
    rw [List.nil_append] at p1
    rw [zero_add] at p3
    cases e2 : t.update vec stats rot with
    | none => rw [e2] at e; cases e
    | some u =>
      rw [e2] at e
      have hg := run_adds _ _ _ _ hh _ _ e
      unfold Segment.update at e2
      dsimp only at e2
      split at e2
      · cases e2
      · rename_i hne
        have e3 := (Option.some.inj e2).symm
        unfold Segment.getTransform
        rw [hg, e3]
        refine ⟨_, largest_one _, ?_⟩
        rw [p1, List.map_map]
        have hw : sumWeights ((added h).map partOf) = ((added h).map fun a => a.2.2.1).sum := by
          rw [sumWeights_eq, List.map_map]
          rfl
        rw [p1, hw] at hne
        rw [hw, p3]
        refine ⟨rfl, ?_, ?_, ?_, ?_, ?_⟩
        · intro a b hab
          dsimp only
          rw [if_neg hab, add_zero]
          rfl
        · dsimp only
          rw [if_pos rfl]
          rfl
        · dsimp only
          rw [if_pos rfl]
          rfl
        · intro c hc
          dsimp only
          rw [if_pos rfl]
          simp only [List.mem_cons, List.not_mem_nil, or_false] at hc
          rcases hc with rfl | rfl | rfl <;> exact add_zero _
        · dsimp only
          rw [if_pos rfl]
          change ((stats ((added h).map fun a => (vec a.1, a.2.2.1))).cov 5 5 + _ / _ - (stats _).cov 5 5) * _ = _
          rw [add_sub_cancel_left, div_mul_cancel₀ _ hne]

/-- C84: a history is undefined (division by zero) exactly if an `update` happens when the weights sum up to 0; without an `update` there is no
transform. -/
theorem C84_defined (vec : P → Vec6) (stats : List (Vec6 × ℝ) → Gauss) (rot : ℝ) (h : List (Op M P)) :
    (run vec stats rot h {} = none ↔ ∃ h1 h2, h = h1 ++ .update :: h2 ∧ ((added h1).map fun a => a.2.2.1).sum = 0) ∧
    ((∀ o ∈ h, o ≠ .update) → ∃ s, run vec stats rot h {} = some s ∧ s.getTransform = none) := by
  constructor
  · constructor
    · intro e
      induction h using List.reverseRecOn with
      | nil => cases e
      | append_singleton h o ih =>
        rw [run_append] at e
        cases e1 : run vec stats rot h {} with
        | none =>
          obtain ⟨h1, h2, rfl, hs⟩ := ih e1
          exact ⟨h1, h2 ++ [o], by simp, hs⟩
        | some t =>
          rw [e1] at e
          cases o with
          | add pose map w z => cases e
          | update =>
            refine ⟨h, [], rfl, ?_⟩
            obtain ⟨p1, -, -⟩ := run_parts _ _ _ _ _ _ e1
            rw [List.nil_append] at p1
            simp only [Option.bind_some, run, Option.bind_fun_some] at e
            unfold Segment.update at e
            dsimp only at e
            split at e
            · rename_i hz
              rw [p1, sumWeights_eq, List.map_map] at hz
              exact hz
            · cases e
    · rintro ⟨h1, h2, rfl, hs⟩
      rw [run_append]
      cases e1 : run vec stats rot h1 {} with
      | none => rfl
      | some t =>
        obtain ⟨p1, -, -⟩ := run_parts _ _ _ _ _ _ e1
        rw [List.nil_append] at p1
        have : t.update vec stats rot = none := by
          unfold Segment.update
          dsimp only
          rw [if_pos]
          rw [p1, sumWeights_eq, List.map_map]
          exact hs
        simp only [Option.bind_some, run, this, Option.bind_none]
  · intro hh
    have : ∀ (s : Segment M P), ∃ t, run vec stats rot h s = some t := by
      induction h with
      | nil => intro s; exact ⟨s, rfl⟩
      | cons o h ih =>
        intro s
        cases o with
        | add pose map w z => exact ih (fun o ho => hh o (List.mem_cons_of_mem _ ho)) _
        | update => exact absurd rfl (hh _ List.mem_cons_self)
    obtain ⟨t, ht⟩ := this {}
    refine ⟨t, ht, ?_⟩
    unfold Segment.getTransform
    rw [run_adds _ _ _ _ hh _ _ ht]
    rfl

theorem bestMap_spec (l : List (Part M P)) (best : Option M) (w : ℝ) :
    (bestMap l best w = best ∧ ∀ p ∈ l, p.weight ≤ w) ∨ ∃ l1 p l2, l = l1 ++ p :: l2 ∧ bestMap l best w = some p.map ∧ w < p.weight ∧
      (∀ q ∈ l1, q.weight < p.weight) ∧ ∀ q ∈ l2, q.weight ≤ p.weight := by
  induction l generalizing best w with
  | nil => exact .inl ⟨rfl, by simp⟩
  | cons p l ih =>
    unfold bestMap
    by_cases hp : p.weight > w
    · rw [if_pos hp]
      right
      rcases ih (some p.map) p.weight with ⟨h1, h2⟩ | ⟨l1, q, l2, h1, h2, h3, h4, h5⟩
      · exact ⟨[], p, l, rfl, h1, hp, by simp, h2⟩
      · refine ⟨p :: l1, q, l2, by rw [h1]; rfl, h2, hp.trans h3, ?_, h5⟩
        intro r hr
        rcases List.mem_cons.1 hr with rfl | hr
        · exact h3
        · exact h4 r hr
    · rw [if_neg hp]
      push Not at hp
      rcases ih best w with ⟨h1, h2⟩ | ⟨l1, q, l2, h1, h2, h3, h4, h5⟩
      · refine .inl ⟨h1, ?_⟩
        intro r hr
        rcases List.mem_cons.1 hr with rfl | hr
        · exact hp
        · exact h2 r hr
      · refine .inr ⟨p :: l1, q, l2, by rw [h1]; rfl, h2, h3, ?_, h5⟩
        intro r hr
        rcases List.mem_cons.1 hr with rfl | hr
        · exact hp.trans_lt h3
        · exact h4 r hr

/-- C84, the best map. Full claim: `getBestMap` returns the map of the hypothesis with the highest weight, if there is one. Proved for all
histories if a weight is positive: it is the first one of those with the highest weight. Missing: other weights (`C84_no_best_map`). -/
theorem C84_best_map_partial (vec : P → Vec6) (stats : List (Vec6 × ℝ) → Gauss) (rot : ℝ) (h : List (Op M P)) (s : Segment M P)
    (e : run vec stats rot h {} = some s) (hp : ∃ a ∈ added h, 0 < a.2.2.1) :
    ∃ l1 a l2, added h = l1 ++ a :: l2 ∧ s.getBestMap = some a.2.1 ∧ (∀ b ∈ l1, b.2.2.1 < a.2.2.1) ∧ ∀ b ∈ l2, b.2.2.1 ≤ a.2.2.1 := by
  obtain ⟨p1, -, -⟩ := run_parts _ _ _ _ _ _ e
  rw [List.nil_append] at p1
  unfold Segment.getBestMap
  rw [p1]
  rcases bestMap_spec ((added h).map partOf) none 0 with ⟨h1, h2⟩ | ⟨l1, p, l2, h1, h2, h3, h4, h5⟩
  · obtain ⟨a, ha, hw⟩ := hp
    have : (partOf a).weight ≤ 0 := h2 _ (List.mem_map_of_mem ha)
    exact absurd hw (not_lt.2 this)
  · obtain ⟨m1, m2, em, e1, e2⟩ := List.map_eq_append_iff.1 h1
    obtain ⟨a, m3, rfl, e3, e4⟩ := List.map_eq_cons_iff.1 e2
    subst e1 e3 e4
    refine ⟨m1, a, m3, em, h2, fun b hb => h4 _ (List.mem_map_of_mem hb), fun b hb => h5 _ (List.mem_map_of_mem hb)⟩

/-- C84 is violated: with a single hypothesis of weight 0 no map is returned -/
theorem C84_no_best_map (vec : P → Vec6) (stats : List (Vec6 × ℝ) → Gauss) (rot : ℝ) (pose : P) (map : M) (z : ℝ) :
    ∃ s, run vec stats rot [.add pose map 0 z] {} = some s ∧ s.getBestMap = none := by
  refine ⟨_, rfl, ?_⟩
  unfold Segment.getBestMap Segment.addPart
  simp only [List.nil_append]
  unfold bestMap bestMap
  rw [if_neg (lt_irrefl _)]

theorem search_spec (vec : P → Vec6) (tr : List Nat) (pose : P) (l : List (Part M P)) (i : Nat) (v : Search M P) :
    (search vec tr pose l i v = v ∧ ∀ p ∈ l, ∃ b, v.best = some b ∧ b ≤ dist (vec p.pose) (vec pose)) ∨
    ∃ l1 p l2, l = l1 ++ p :: l2 ∧ (∀ b, v.best = some b → dist (vec p.pose) (vec pose) < b) ∧
      (search vec tr pose l i v).map = some p.map ∧ (search vec tr pose l i v).best = some (dist (vec p.pose) (vec pose)) ∧
      (search vec tr pose l i v).pose = p.pose ∧
      (∀ n, tr[i + l1.length]? = some n → (search vec tr pose l i v).size = n) ∧
      (∀ q ∈ l1, dist (vec p.pose) (vec pose) < dist (vec q.pose) (vec pose)) ∧
      ∀ q ∈ l2, dist (vec p.pose) (vec pose) ≤ dist (vec q.pose) (vec pose) := by
  induction l generalizing i v with
  | nil => exact .inl ⟨rfl, by simp⟩
  | cons p l ih =>
    unfold search
    dsimp only
    by_cases hd : closer (dist (vec p.pose) (vec pose)) v.best
    · rw [if_pos hd]
      right
      have hd' : ∀ b, v.best = some b → dist (vec p.pose) (vec pose) < b := by
        intro b hb
        rw [hb] at hd
        exact hd
      rcases ih (i + 1) { map := some p.map, best := some (dist (vec p.pose) (vec pose)), pose := p.pose
                          size := if h : i < tr.length then tr[i] else v.size } with ⟨h1, h2⟩ | ⟨l1, q, l2, h0, h1, h2, h3, h4, h5, h6, h7⟩
      · refine ⟨[], p, l, rfl, hd', ?_⟩
        rw [h1]
        refine ⟨rfl, rfl, rfl, ?_, by simp, ?_⟩
        · intro n hn
          obtain ⟨hi, hn⟩ := List.getElem?_eq_some_iff.1 hn
          have hi' : i < tr.length := hi
          dsimp only
          rw [dif_pos hi']
          exact hn
        · intro q hq
          obtain ⟨b, hb, hle⟩ := h2 q hq
          cases hb
          exact hle
      · have hlt := h1 _ rfl
        refine ⟨p :: l1, q, l2, by rw [h0]; rfl, fun b hb => hlt.trans (hd' b hb), h2, h3, h4, ?_, ?_, h7⟩
        · intro n hn
          apply h5
          rw [← hn]
          congr 1
          simp only [List.length_cons]
          omega
        · intro r hr
          rcases List.mem_cons.1 hr with rfl | hr
          · exact hlt
          · exact h6 r hr
    · rw [if_neg hd]
      obtain ⟨b, hb, hle⟩ : ∃ b, v.best = some b ∧ b ≤ dist (vec p.pose) (vec pose) := by
        cases hv : v.best with
        | none => rw [hv] at hd; exact absurd trivial hd
        | some b => rw [hv] at hd; exact ⟨b, rfl, not_lt.1 hd⟩
      rcases ih (i + 1) v with ⟨h1, h2⟩ | ⟨l1, q, l2, h0, h1, h2, h3, h4, h5, h6, h7⟩
      · refine .inl ⟨h1, ?_⟩
        intro r hr
        rcases List.mem_cons.1 hr with rfl | hr
        · exact ⟨b, hb, hle⟩
        · exact h2 r hr
      · refine .inr ⟨p :: l1, q, l2, by rw [h0]; rfl, h1, h2, h3, h4, ?_, ?_, h7⟩
        · intro n hn
          apply h5
          rw [← hn]
          congr 1
          simp only [List.length_cons]
          omega
        · intro r hr
          rcases List.mem_cons.1 hr with rfl | hr
          · exact (h1 b hb).trans_le hle
          · exact h6 r hr

/-- C84, the map for a pose. Full claim: `getMapForPose` returns the hypothesis whose pose is closest to the given one: its map, its pose and
the size of its trajectory. Proved for all histories with hypotheses (it is the first one of the closest ones), for the size if the closest one has a
trajectory. Without hypotheses nothing is returned and the references are not changed. Missing: a hypothesis without a
trajectory (`C84_stale_size`). -/
theorem C84_map_for_pose_partial (vec : P → Vec6) (stats : List (Vec6 × ℝ) → Gauss) (rot : ℝ) (h : List (Op M P)) (tr : List Nat)
    (s : Segment M P) (e : run vec stats rot h { trajectories := tr } = some s) (pose mapPose : P) (trajSize : Nat) :
    (added h = [] → s.getMapForPose vec pose mapPose trajSize = (none, mapPose, trajSize)) ∧
    (added h ≠ [] → ∃ l1 a l2, added h = l1 ++ a :: l2 ∧
      (∀ b ∈ l1, ∑ c, (vec a.1 c - vec pose c) ^ 2 < ∑ c, (vec b.1 c - vec pose c) ^ 2) ∧
      (∀ b ∈ l2, ∑ c, (vec a.1 c - vec pose c) ^ 2 ≤ ∑ c, (vec b.1 c - vec pose c) ^ 2) ∧
      ∃ n, s.getMapForPose vec pose mapPose trajSize = (some a.2.1, a.1, n) ∧ ∀ m, tr[l1.length]? = some m → n = m) := by
  obtain ⟨p1, p2, -⟩ := run_parts _ _ _ _ _ _ e
  rw [List.nil_append] at p1
  change _ = tr at p2
  unfold Segment.getMapForPose
  rw [p1, p2]
  constructor
  · intro h0
    rw [h0]
    rfl
  · intro hne
    rcases search_spec vec tr pose ((added h).map partOf) 0 ⟨none, none, mapPose, trajSize⟩ with
      ⟨-, h2⟩ | ⟨l1, p, l2, h0, h1, h2, h3, h4, h5, h6, h7⟩
    · exfalso
      obtain ⟨a, ha⟩ := List.exists_mem_of_ne_nil _ hne
      obtain ⟨b, hb, -⟩ := h2 _ (List.mem_map_of_mem ha)
      cases hb
    · obtain ⟨m1, m2, em, e1, e2⟩ := List.map_eq_append_iff.1 h0
      obtain ⟨a, m3, rfl, e3, e4⟩ := List.map_eq_cons_iff.1 e2
      subst e1 e3 e4
      have nn : ∀ u v : Vec6, 0 ≤ ∑ c, (u c - v c) ^ 2 := fun u v => Finset.sum_nonneg fun c _ => sq_nonneg _
      refine ⟨m1, a, m3, em, ?_, ?_,
        (search vec tr pose ((added h).map partOf) 0 ⟨none, none, mapPose, trajSize⟩).size, ?_, ?_⟩
      · intro b hb
        exact (Real.sqrt_lt_sqrt_iff (nn _ _)).1 (h6 _ (List.mem_map_of_mem hb))
      · intro b hb
        exact (Real.sqrt_le_sqrt_iff (nn _ _)).1 (h7 _ (List.mem_map_of_mem hb))
      · dsimp only
        rw [h2, h4]
        rfl
      · intro m hm
        apply h5
        rw [zero_add, List.length_map]
        exact hm

/-- C84 is violated: with two hypotheses of which only the first one has a trajectory (of 7 points), the second one is returned with the size
7 -/
theorem C84_stale_size (stats : List (Vec6 × ℝ) → Gauss) (rot : ℝ) (m1 m2 : M) : ∃ s,
    run (id : Vec6 → Vec6) stats rot [.add (fun _ => 1) m1 1 0, .add (fun _ => 0) m2 1 0] { trajectories := [7] } = some s ∧
    s.getMapForPose id (fun _ => 0) (fun _ => 0) 0 = (some m2, fun _ => 0, 7) := by
  refine ⟨_, rfl, ?_⟩
  unfold Segment.getMapForPose Segment.addPart
  simp only [List.nil_append, List.cons_append]
  unfold search search search
  have d1 : dist (id fun _ => 1) (id fun _ => 0) = Real.sqrt 6 := by
    unfold dist
    norm_num
  have d0 : dist (id fun _ => 0) (id fun _ => 0) = 0 := by
    unfold dist
    norm_num
  dsimp only
  rw [d1, d0]
  simp [closer]

/-- the hypotheses of the theorems are met: two hypotheses with weights 1 and 3, variances 2 and 4 -/
example (stats : List (Vec6 × ℝ) → Gauss) (rot : ℝ) : ∃ s,
    run (id : Vec6 → Vec6) stats rot [.add (fun _ => 1) "a" 1 2, .add (fun _ => 0) "b" 3 4, .update] { trajectories := [] } = some s ∧
    s.getBestMap = some "b" ∧ ∃ g, s.getTransform = some g ∧ g.cov 5 5 = (stats [(fun _ => 1, 1), (fun _ => 0, 3)]).cov 5 5 + 7 / 2 := by
  have hd := (C84_defined (id : Vec6 → Vec6) stats rot [.add (fun _ => 1) "a" 1 2, .add (fun _ => 0) "b" 3 4, .update]).1.not.2 (by
    rintro ⟨h1, h2, he, hs⟩
    match h1, he with
    | [], he => cases he
    | [_], he => cases he
    | [_, _], he =>
      cases he
      change ([1, 3] : List ℝ).sum = 0 at hs
      norm_num at hs
    | _ :: _ :: _ :: h1, he => 
      have := congrArg List.length he
      simp at this)
  obtain ⟨s, hs⟩ := Option.ne_none_iff_exists'.1 hd
  refine ⟨s, hs, ?_, ?_⟩
  · obtain ⟨l1, a, l2, h1, h2, h3, h4⟩ := C84_best_map_partial _ _ _ _ _ hs ⟨(fun _ => 0, "b", 3, 4), by simp [added], by norm_num⟩
    simp only [added, List.filterMap_cons, List.filterMap_nil] at h1
    match l1, h1 with
    | [], h1 =>
      cases h1
      have := h4 (fun _ => 0, "b", 3, 4) (by simp)
      norm_num at this
    | [_], h1 =>
      cases h1
      exact h2
    | _ :: _ :: l, h1 =>
      have := congrArg List.length h1
      simp at this
  · obtain ⟨g, h1, -, -, -, -, -, h2⟩ := C84_transform (id : Vec6 → Vec6) stats rot
      [.add (fun _ => 1) "a" 1 2, .add (fun _ => 0) "b" 3 4] [] (by simp) s hs
    refine ⟨g, h1, ?_⟩
    change (g.cov 5 5 - (stats [(fun _ => 1, 1), (fun _ => 0, 3)]).cov 5 5) * ([1, 3] : List ℝ).sum = ([1 * 2, 3 * 4] : List ℝ).sum at h2
    norm_num at h2
    have : g.cov 5 5 - (stats [(fun _ => 1, 1), (fun _ => 0, 3)]).cov 5 5 = 7 / 2 := by linarith
    linarith

end Envire.Segment

#print axioms Envire.Segment.C84_transform
#print axioms Envire.Segment.C84_defined
#print axioms Envire.Segment.C84_best_map_partial
#print axioms Envire.Segment.C84_no_best_map
#print axioms Envire.Segment.C84_map_for_pose_partial
#print axioms Envire.Segment.C84_stale_size
