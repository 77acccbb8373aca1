import Verif.Tools.KMeansModel
import Mathlib.Algebra.Order.BigOperators.Group.Finset
import Mathlib.Algebra.BigOperators.Field
import Mathlib.Algebra.Order.Ring.Rat
import Mathlib.Data.Fintype.Pi
import Mathlib.Data.Fintype.Card
import Mathlib.LinearAlgebra.Matrix.DotProduct
import Mathlib.Tactic.Linarith
import Mathlib.Tactic.Ring
import Mathlib.Tactic.FieldSimp
import Mathlib.Tactic.Positivity
import Mathlib.Tactic.NormNum

/-!
C80: k-means clustering. See KMeansModel.lean.
-/

namespace Envire.KMeans

variable {K : Type*} [Field K] [LinearOrder K] [IsStrictOrderedRing K] {d N k : Nat}

/-! ### specification -/

/-- the search of the kd-tree returns a nearest centre -/
def Nearest (find : (Fin k → Vec K d) → Vec K d → Fin k) : Prop :=
  ∀ (tree : Fin k → Vec K d) (v : Vec K d) (j : Fin k), ∑ c, (v c - tree (find tree v) c) ^ 2 ≤ ∑ c, (v c - tree j c) ^ 2

/-- the weighted sum of squared distances of the samples to the centres of their classes -/
def cost (D : Data K d N) (index : Fin N → Fin k) (centre : Fin k → Vec K d) : K :=
  ∑ i, D.weight i * ∑ c, (D.sample i c - centre (index i) c) ^ 2

/-- `m` is the weighted mean of the samples of class `j` -/
def IsMean (D : Data K d N) (index : Fin N → Fin k) (j : Fin k) (m : Vec K d) : Prop :=
  ∀ c, (∑ i with index i = j, D.weight i) * m c = ∑ i with index i = j, D.weight i * D.sample i c

/-! ### lemmas -/

theorem sumOf_eq (D : Data K d N) (index : Fin N → Fin k) (j : Fin k) :
    sumOf D index j = ∑ i with index i = j, D.weight i := by
  unfold sumOf
  rw [Finset.sum_filter]

theorem total_eq (D : Data K d N) (index : Fin N → Fin k) (j : Fin k) (c : Fin d) :
    total D index j c = ∑ i with index i = j, D.weight i * D.sample i c := by
  unfold total
  rw [Finset.sum_filter]
  exact Finset.sum_congr rfl fun i _ => by rw [mul_comm]

theorem isMean_calc {D : Data K d N} {index : Fin N → Fin k} {tree : Fin k → Vec K d} (h : calcMeans D index = some tree)
    (j : Fin k) : sumOf D index j ≠ 0 ∧ IsMean D index j (tree j) := by
  unfold calcMeans at h
  split at h
  · cases h
  rename_i hn
  have hj : sumOf D index j ≠ 0 := fun e => hn ⟨j, e⟩
  cases h
  refine ⟨hj, fun c => ?_⟩
  rw [← sumOf_eq, ← total_eq]
  field_simp

/-- the distances to any point, in terms of those to the mean -/
theorem huygens {D : Data K d N} {index : Fin N → Fin k} {j : Fin k} {m : Vec K d} (hm : IsMean D index j m) (p : Vec K d) :
    ∑ i with index i = j, D.weight i * ∑ c, (D.sample i c - p c) ^ 2 =
      (∑ i with index i = j, D.weight i * ∑ c, (D.sample i c - m c) ^ 2) +
        (∑ i with index i = j, D.weight i) * ∑ c, (m c - p c) ^ 2 := by
  have e1 : ∀ p : Vec K d, ∑ i with index i = j, D.weight i * ∑ c, (D.sample i c - p c) ^ 2 =
      ∑ c, ∑ i with index i = j, D.weight i * (D.sample i c - p c) ^ 2 := by
    intro p
    rw [Finset.sum_comm]
    exact Finset.sum_congr rfl fun i _ => Finset.mul_sum _ _ _
  rw [e1, e1, Finset.mul_sum, ← Finset.sum_add_distrib]
  refine Finset.sum_congr rfl fun c _ => ?_
  have h := hm c
  have e2 : ∀ q : K, ∑ i with index i = j, D.weight i * (D.sample i c - q) ^ 2 =
      (∑ i with index i = j, D.weight i * D.sample i c ^ 2) - 2 * q * (∑ i with index i = j, D.weight i * D.sample i c)
        + q ^ 2 * ∑ i with index i = j, D.weight i := by
    intro q
    rw [Finset.mul_sum, Finset.mul_sum, ← Finset.sum_sub_distrib, ← Finset.sum_add_distrib]
    exact Finset.sum_congr rfl fun i _ => by ring
  rw [e2, e2, ← h]
  ring

theorem cost_eq (D : Data K d N) (index : Fin N → Fin k) (centre : Fin k → Vec K d) :
    cost D index centre = ∑ j, ∑ i with index i = j, D.weight i * ∑ c, (D.sample i c - centre j c) ^ 2 := by
  unfold cost
  rw [← Finset.sum_fiberwise_of_maps_to (g := index) (t := Finset.univ) (fun i _ => Finset.mem_univ _)]
  refine Finset.sum_congr rfl fun j _ => Finset.sum_congr rfl fun i hi => ?_
  rw [(Finset.mem_filter.1 hi).2]

theorem cost_means {D : Data K d N} {index : Fin N → Fin k} {m : Fin k → Vec K d} (hm : ∀ j, IsMean D index j (m j))
    (p : Fin k → Vec K d) :
    cost D index p = cost D index m + ∑ j, (∑ i with index i = j, D.weight i) * ∑ c, (m j c - p j c) ^ 2 := by
  rw [cost_eq, cost_eq, ← Finset.sum_add_distrib]
  exact Finset.sum_congr rfl fun j _ => huygens (hm j) (p j)

theorem cost_find {find : (Fin k → Vec K d) → Vec K d → Fin k} (hf : Nearest find) {D : Data K d N} (hw : ∀ i, 0 < D.weight i)
    (tree : Fin k → Vec K d) (index : Fin N → Fin k) : cost D (fun i => find tree (D.sample i)) tree ≤ cost D index tree :=
  Finset.sum_le_sum fun i _ => mul_le_mul_of_nonneg_left (hf _ _ _) (hw i).le

theorem sumOf_nonneg {D : Data K d N} (hw : ∀ i, 0 < D.weight i) (index : Fin N → Fin k) (j : Fin k) : 0 ≤ sumOf D index j := by
  rw [sumOf_eq]
  exact Finset.sum_nonneg fun i _ => (hw i).le

/-- new centres never cost more, and the same only if they are the old ones -/
theorem cost_calc {D : Data K d N} (hw : ∀ i, 0 < D.weight i) {index : Fin N → Fin k} {tree : Fin k → Vec K d}
    (h : calcMeans D index = some tree) (p : Fin k → Vec K d) :
    cost D index tree ≤ cost D index p ∧ (cost D index p ≤ cost D index tree → p = tree) := by
  have hm := fun j => (isMean_calc h j).2
  have hs : ∀ j, 0 < ∑ i with index i = j, D.weight i := fun j => by
    rw [← sumOf_eq]
    exact lt_of_le_of_ne (sumOf_nonneg hw index j) (Ne.symm (isMean_calc h j).1)
  have hn : ∀ j, 0 ≤ (∑ i with index i = j, D.weight i) * ∑ c, (tree j c - p j c) ^ 2 := fun j =>
    mul_nonneg (hs j).le (Finset.sum_nonneg fun c _ => sq_nonneg _)
  rw [cost_means hm p]
  constructor
  · linarith [Finset.sum_nonneg fun j (_ : j ∈ Finset.univ) => hn j]
  · intro hle
    have h0 : ∑ j, (∑ i with index i = j, D.weight i) * ∑ c, (tree j c - p j c) ^ 2 = 0 :=
      le_antisymm (by linarith) (Finset.sum_nonneg fun j _ => hn j)
    funext j c
    have h1 := (Finset.sum_eq_zero_iff_of_nonneg fun j _ => hn j).1 h0 j (Finset.mem_univ _)
    have h2 := (mul_eq_zero.1 h1).resolve_left (hs j).ne'
    have h3 := (Finset.sum_eq_zero_iff_of_nonneg fun c _ => sq_nonneg _).1 h2 c (Finset.mem_univ _)
    have h4 := pow_eq_zero_iff (two_ne_zero) |>.1 h3
    linarith

theorem switches_zero {find : (Fin k → Vec K d) → Vec K d → Fin k} {D : Data K d N} {s : State K d N k} :
    (associate find D s).2 = 0 ↔ (associate find D s).1 = s.index := by
  unfold associate
  dsimp only
  rw [Finset.sum_eq_zero_iff]
  constructor
  · intro h
    funext i
    have := h i (Finset.mem_univ _)
    by_contra hne
    rw [if_pos hne] at this
    cases this
  · intro h i _
    rw [if_neg]
    intro hne
    exact hne (congrFun h i)

theorem iterate_running {find : (Fin k → Vec K d) → Vec K d → Fin k} {D : Data K d N} {o : Outcome K d N k} {t : State K d N k}
    (h : iterate find D o = .running t) : ∃ s, o = .running s ∧ t.index = (fun i => find s.tree (D.sample i)) ∧
      t.index ≠ s.index ∧ calcMeans D t.index = some t.tree := by
  cases o with
  | done s => exact absurd h (by unfold iterate; simp)
  | degenerate i => exact absurd h (by unfold iterate; simp)
  | running s =>
    unfold iterate at h
    dsimp only at h
    split at h
    · cases h
    rename_i hne
    split at h
    · cases h
    rename_i tree ht
    cases h
    exact ⟨s, rfl, rfl, fun e => hne (switches_zero.2 e), ht⟩

theorem iterate_done {find : (Fin k → Vec K d) → Vec K d → Fin k} {D : Data K d N} {o : Outcome K d N k} {t : State K d N k}
    (h : iterate find D o = .done t) : o = .done t ∨ (o = .running t ∧ t.index = fun i => find t.tree (D.sample i)) := by
  cases o with
  | done s => exact .inl h
  | degenerate i => exact absurd h (by unfold iterate; simp)
  | running s =>
    unfold iterate at h
    dsimp only at h
    split at h
    · rename_i h0
      have e := switches_zero.1 h0
      cases h
      right
      rw [e]
      exact ⟨rfl, e.symm⟩
    · split at h <;> cases h

theorem iterate_degenerate {find : (Fin k → Vec K d) → Vec K d → Fin k} {D : Data K d N} {o : Outcome K d N k}
    {index : Fin N → Fin k} (h : iterate find D o = .degenerate index) :
    o = .degenerate index ∨ calcMeans D index = none := by
  cases o with
  | done s => exact absurd h (by unfold iterate; simp)
  | degenerate i => exact .inl h
  | running s =>
    unfold iterate at h
    dsimp only at h
    split at h
    · cases h
    split at h
    · rename_i ht
      cases h
      exact .inr ht
    · cases h

theorem running_prefix {find : (Fin k → Vec K d) → Vec K d → Fin k} {D : Data K d N} {s t : State K d N k} {n : Nat}
    (h : run find D s n = .running t) : ∀ m ≤ n, ∃ u, run find D s m = .running u := by
  induction n generalizing t with
  | zero => intro m hm; exact ⟨t, by rw [Nat.le_zero.1 hm]; exact h⟩
  | succ n ih =>
    intro m hm
    rcases Nat.lt_or_ge n m with h1 | h1
    · exact ⟨t, by rw [show m = n + 1 by omega]; exact h⟩
    · obtain ⟨u, hu, _⟩ := iterate_running (show iterate find D (run find D s n) = _ from h)
      exact ih hu m h1

/-- the costs never rise -/
theorem cost_next {find : (Fin k → Vec K d) → Vec K d → Fin k} (hf : Nearest find) {D : Data K d N} (hw : ∀ i, 0 < D.weight i)
    {s t : State K d N k} (h : iterate find D (.running s) = .running t) :
    cost D t.index t.tree ≤ cost D s.index s.tree ∧ (cost D s.index s.tree ≤ cost D t.index t.tree → t.tree = s.tree) := by
  obtain ⟨s', e, h1, -, h2⟩ := iterate_running h
  cases e
  have c1 : cost D t.index s.tree ≤ cost D s.index s.tree := by rw [h1]; exact cost_find hf hw _ _
  have c2 := cost_calc hw h2 s.tree
  exact ⟨c2.1.trans c1, fun hle => (c2.2 (c1.trans hle)).symm⟩

/-- the costs fall, except perhaps before the last association -/
theorem cost_next_lt {find : (Fin k → Vec K d) → Vec K d → Fin k} (hf : Nearest find) {D : Data K d N}
    (hw : ∀ i, 0 < D.weight i) {s t u : State K d N k} (h : iterate find D (.running s) = .running t)
    (h' : iterate find D (.running t) = .running u) : cost D t.index t.tree < cost D s.index s.tree := by
  obtain ⟨c1, c2⟩ := cost_next hf hw h
  refine lt_of_le_of_ne c1 fun e => ?_
  have ht := c2 e.ge
  obtain ⟨_, e1, h1, -, -⟩ := iterate_running h
  cases e1
  obtain ⟨_, e2, h2, hne, -⟩ := iterate_running h'
  cases e2
  apply hne
  rw [h2, ht, h1]

theorem running_bound {find : (Fin k → Vec K d) → Vec K d → Fin k} (hf : Nearest find) {D : Data K d N}
    (hw : ∀ i, 0 < D.weight i) {s t : State K d N k} {M : Nat} (h : run find D s (M + 1) = .running t) : M ≤ k ^ N := by
  choose f hfr using running_prefix h
  let g : Nat → State K d N k := fun n => if hn : n ≤ M + 1 then f n hn else s
  have hg : ∀ n ≤ M + 1, run find D s n = .running (g n) := fun n hn => by
    rw [hfr n hn]
    simp only [g, dif_pos hn]
  have hstep : ∀ n, n + 1 ≤ M + 1 → iterate find D (.running (g n)) = .running (g (n + 1)) := fun n hn => by
    rw [← hg (n + 1) hn, ← hg n (by omega)]
    rfl
  have hlt : ∀ n, n + 2 ≤ M + 1 → cost D (g (n + 1)).index (g (n + 1)).tree < cost D (g n).index (g n).tree := fun n hn =>
    cost_next_lt hf hw (hstep n (by omega)) (hstep (n + 1) hn)
  have hanti : ∀ a b, a < b → b ≤ M → cost D (g b).index (g b).tree < cost D (g a).index (g a).tree := by
    intro a b hab hb
    induction b with
    | zero => omega
    | succ b ih =>
      rcases Nat.lt_or_ge a b with h1 | h1
      · exact (hlt b (by omega)).trans (ih h1 (by omega))
      · rw [show a = b by omega]
        exact hlt b (by omega)
  have htree : ∀ n, n + 1 ≤ M + 1 → calcMeans D (g (n + 1)).index = some (g (n + 1)).tree := fun n hn => by
    obtain ⟨_, _, _, _, h4⟩ := iterate_running (hstep n hn)
    exact h4
  have hinj : Function.Injective fun i : Fin M => (g (i.1 + 1)).index := by
    intro a b hab
    dsimp only at hab
    have ht : (g (a.1 + 1)).tree = (g (b.1 + 1)).tree := by
      have h1 := htree a.1 (by omega)
      rw [hab, htree b.1 (by omega)] at h1
      exact (Option.some.inj h1).symm
    rcases lt_trichotomy a.1 b.1 with h1 | h1 | h1
    · have := hanti (a.1 + 1) (b.1 + 1) (by omega) (by omega)
      rw [hab, ht] at this
      exact absurd this (lt_irrefl _)
    · exact Fin.ext h1
    · have := hanti (b.1 + 1) (a.1 + 1) (by omega) (by omega)
      rw [hab, ht] at this
      exact absurd this (lt_irrefl _)
  have hc := Fintype.card_le_of_injective _ hinj
  simpa [Fintype.card_fun] using hc

/-! ### moments -/

theorem gather_eq (D : Data K d N) (index : Fin N → Fin k) (j : Fin k) :
    (gather D index j).sum = (∑ i with index i = j, D.weight i) ∧
    (∀ c, (gather D index j).Sx c = ∑ i with index i = j, D.weight i * D.sample i c) ∧
    ∀ a b, (gather D index j).Sxx a b = ∑ i with index i = j, D.weight i * (D.sample i a * D.sample i b) := by
  have key : ∀ (l : List (Fin N)) (s : Stats K d),
      let r := l.foldl (fun s i => if index i = j then s.insert (D.sample i) (D.weight i) else s) s
      r.sum = s.sum + (l.map fun i => if index i = j then D.weight i else 0).sum ∧
      (∀ c, r.Sx c = s.Sx c + (l.map fun i => if index i = j then D.weight i * D.sample i c else 0).sum) ∧
      ∀ a b, r.Sxx a b = s.Sxx a b + (l.map fun i => if index i = j then D.weight i * (D.sample i a * D.sample i b) else 0).sum := by
    intro l
    induction l with
    | nil => intro s; simp
    | cons i l ih =>
      intro s
      dsimp only at ih ⊢
      simp only [List.foldl_cons, List.map_cons, List.sum_cons]
      by_cases hi : index i = j
      · simp only [if_pos hi]
        obtain ⟨h1, h2, h3⟩ := ih (s.insert (D.sample i) (D.weight i))
        refine ⟨?_, fun c => ?_, fun a b => ?_⟩
        · rw [h1]; simp only [Stats.insert]; ring
        · rw [h2]; simp only [Stats.insert, Pi.add_apply]; ring
        · rw [h3]; simp only [Stats.insert, Matrix.add_apply, Matrix.of_apply]; ring
      · simp only [if_neg hi, zero_add]
        exact ih s
  obtain ⟨h1, h2, h3⟩ := key (List.finRange N) Stats.zero
  have hs : ∀ f : Fin N → K, ((List.finRange N).map fun i => if index i = j then f i else 0).sum = ∑ i with index i = j, f i := by
    intro f
    rw [Finset.sum_filter, ← List.ofFn_eq_map, List.sum_ofFn]
  refine ⟨?_, fun c => ?_, fun a b => ?_⟩
  · refine h1.trans ?_
    rw [hs]
    simp [Stats.zero]
  · refine (h2 c).trans ?_
    rw [hs fun i => D.weight i * D.sample i c]
    simp [Stats.zero]
  · refine (h3 a b).trans ?_
    rw [hs fun i => D.weight i * (D.sample i a * D.sample i b)]
    simp [Stats.zero]

/-! ### the property -/

/-- C80, end of the loop: for all samples with positive weights, all starting states and every search that returns a nearest
centre, `run` leaves its loop after at most `k^N + 2` iterations (unless a class loses all samples). -/
theorem C80_ends (find : (Fin k → Vec K d) → Vec K d → Fin k) (hf : Nearest find) (D : Data K d N) (hw : ∀ i, 0 < D.weight i)
    (s : State K d N k) : ∃ n ≤ k ^ N + 2, (∃ t, run find D s n = .done t) ∨
      ∃ index, run find D s n = .degenerate index ∧ ∃ j, ∀ i, index i ≠ j := by
  refine ⟨k ^ N + 2, le_refl _, ?_⟩
  have hdeg : ∀ n index, run find D s n = .degenerate index → calcMeans D index = none := by
    intro n
    induction n with
    | zero => intro index h; cases h
    | succ n ih =>
      intro index h
      exact (iterate_degenerate (show iterate find D (run find D s n) = _ from h)).elim (ih index) id
  cases h : run find D s (k ^ N + 2) with
  | running t =>
    have := running_bound hf hw (M := k ^ N + 1) h
    omega
  | done t => exact .inl ⟨t, rfl⟩
  | degenerate index =>
    refine .inr ⟨index, rfl, ?_⟩
    have hn := hdeg _ _ h
    unfold calcMeans at hn
    split at hn
    · rename_i hj
      obtain ⟨j, hj⟩ := hj
      refine ⟨j, fun i hi => ?_⟩
      rw [sumOf_eq] at hj
      have := (Finset.sum_eq_zero_iff_of_nonneg fun i _ => (hw i).le).1 hj i (Finset.mem_filter.2 ⟨Finset.mem_univ _, hi⟩)
      exact absurd this (hw i).ne'
    · cases hn

/-- C80, result. Full claim: after `initialize` and `run`, every class has samples, every sample is in the class of a nearest centre,
and `getClusters` returns for each class the weighted mean of its samples, which is that centre, and their weighted covariance.
Proved for all samples with positive weights and every search that returns a nearest centre, if `run` ended normally and if the
first association switched a sample (from class 0, where `initialize` puts them all); the classes are then not worse, in the sum of
squared distances, than any classes around the first centres. Missing: classes may lose all their samples (`C80_class_lost`, `C80_equal_samples`). -/
theorem C80_clusters_partial (find : (Fin k → Vec K d) → Vec K d → Fin k) (hf : Nearest find) (D : Data K d N)
    (hw : ∀ i, 0 < D.weight i) (s t : State K d N k) (n : Nat)
    (h : run find D s n = .done t) :
    (∀ i j, ∑ c, (D.sample i c - t.tree (t.index i) c) ^ 2 ≤ ∑ c, (D.sample i c - t.tree j c) ^ 2) ∧
    ((∃ i, find s.tree (D.sample i) ≠ s.index i) → ∀ j, (∃ i, t.index i = j) ∧
      ∃ cov, getClusters D t.index j = some (t.tree j, cov) ∧ IsMean D t.index j (t.tree j) ∧
        ∀ a b, (∑ i with t.index i = j, D.weight i) * cov a b =
          ∑ i with t.index i = j, D.weight i * ((D.sample i a - t.tree j a) * (D.sample i b - t.tree j b))) ∧
    ∀ index, cost D t.index t.tree ≤ cost D index s.tree := by
  -- the state before the last association
  have hrun : ∀ n t, run find D s n = .done t → ∃ m, run find D s m = .running t ∧ t.index = fun i => find t.tree (D.sample i) := by
    intro n
    induction n with
    | zero => intro t h; cases h
    | succ n ih =>
      intro t h
      rcases iterate_done (show iterate find D (run find D s n) = _ from h) with h1 | h1
      · exact ih t h1
      · exact ⟨n, h1⟩
  obtain ⟨m, hm, hidx⟩ := hrun n t h
  have hnear : ∀ i j, ∑ c, (D.sample i c - t.tree (t.index i) c) ^ 2 ≤ ∑ c, (D.sample i c - t.tree j c) ^ 2 := by
    intro i j
    rw [hidx]
    exact hf _ _ _
  refine ⟨hnear, ?_, ?_⟩
  · rintro ⟨i0, hi0⟩ j
    have hcalc : calcMeans D t.index = some t.tree := by
      cases m with
      | zero =>
        cases hm
        exact absurd (congrFun hidx i0).symm hi0
      | succ m =>
        obtain ⟨_, _, _, _, h4⟩ := iterate_running (show iterate find D (run find D s m) = _ from hm)
        exact h4
    obtain ⟨hj, hmean⟩ := isMean_calc hcalc j
    rw [sumOf_eq] at hj
    obtain ⟨g1, g2, g3⟩ := gather_eq D t.index j
    have hex : ∃ i, t.index i = j := by
      by_contra hno
      apply hj
      refine Finset.sum_eq_zero fun i hi => ?_
      exact absurd ⟨i, (Finset.mem_filter.1 hi).2⟩ hno
    have htree : ∀ c, t.tree j c = (gather D t.index j).Sx c / (gather D t.index j).sum := by
      intro c
      rw [g1, g2, ← hmean c]
      field_simp
    refine ⟨hex, Matrix.of fun a b => (gather D t.index j).Sxx a b / (gather D t.index j).sum - t.tree j a * t.tree j b,
      ?_, hmean, ?_⟩
    · unfold getClusters Stats.update
      rw [if_neg (by rw [g1]; exact hj)]
      simp only [Option.some.injEq, Prod.mk.injEq]
      exact ⟨(funext htree).symm, by simp only [← htree]⟩
    · intro a b
      have e : ∑ i with t.index i = j, D.weight i * ((D.sample i a - t.tree j a) * (D.sample i b - t.tree j b)) =
          (∑ i with t.index i = j, D.weight i * (D.sample i a * D.sample i b))
            - t.tree j b * (∑ i with t.index i = j, D.weight i * D.sample i a)
            - t.tree j a * (∑ i with t.index i = j, D.weight i * D.sample i b)
            + t.tree j a * t.tree j b * ∑ i with t.index i = j, D.weight i := by
        rw [Finset.mul_sum, Finset.mul_sum, Finset.mul_sum, ← Finset.sum_sub_distrib, ← Finset.sum_sub_distrib,
          ← Finset.sum_add_distrib]
        exact Finset.sum_congr rfl fun i _ => by ring
      rw [e, ← hmean a, ← hmean b]
      simp only [Matrix.of_apply]
      rw [g1, g3]
      field_simp
      ring
  · intro index
    have hle : ∀ m t, run find D s m = .running t → m = 0 ∨ ∀ index, cost D t.index t.tree ≤ cost D index s.tree := by
      intro m
      induction m with
      | zero => intro t _; exact .inl rfl
      | succ m ih =>
        intro t h
        right
        intro index
        obtain ⟨u, hu, h1, _, h3⟩ := iterate_running (show iterate find D (run find D s m) = _ from h)
        rcases ih u hu with e | e
        · subst e
          cases hu
          refine (cost_calc hw h3 s.tree).1.trans ?_
          rw [h1]
          exact cost_find hf hw _ _
        · refine le_trans (cost_next hf hw ?_).1 (e index)
          rw [← hu]
          exact h
    rcases hle m t hm with e | e
    · subst e
      cases hm
      rw [hidx]
      exact cost_find hf hw _ _
    · exact e index

/-- C80: after `initialize` class j starts at a sample, all k classes at different positions of the list; the assertion fails exactly if
there are more classes than samples or none -/
theorem C80_start (s : Fin N → Vec K d) : ((∃ t, start k s = some t) ↔ 0 < k ∧ k ≤ N) ∧
    ∀ t, start k s = some t → (∃ f : Fin k → Fin N, Function.Injective f ∧ ∀ j, t.tree j = s (f j)) ∧
      ∀ i, (t.index i).1 = 0 := by
  unfold start
  constructor
  · constructor
    · rintro ⟨t, h⟩
      split at h
      · rename_i hk
        exact ⟨hk.2, hk.1⟩
      · cases h
    · rintro ⟨h1, h2⟩
      exact ⟨_, dif_pos ⟨h2, h1⟩⟩
  · intro t h
    split at h
    · rename_i hk
      cases h
      refine ⟨⟨_, ?_, fun j => rfl⟩, fun i => rfl⟩
      intro a b hab
      have hp : 0 < N / k := Nat.div_pos hk.1 hk.2
      exact Fin.ext (Nat.eq_of_mul_eq_mul_right hp (congrArg Fin.val hab))
    · cases h

theorem find_unique {find : (Fin k → Vec K d) → Vec K d → Fin k} (hf : Nearest find) {tree : Fin k → Vec K d} {v : Vec K d}
    (j : Fin k) (h : ∀ j', j' ≠ j → ∑ c, (v c - tree j c) ^ 2 < ∑ c, (v c - tree j' c) ^ 2) : find tree v = j := by
  by_contra hne
  exact absurd (hf tree v j) (not_le.2 (h _ hne))

theorem iterate_some {find : (Fin k → Vec K d) → Vec K d → Fin k} {D : Data K d N} {s : State K d N k} {idx : Fin N → Fin k}
    {tree : Fin k → Vec K d} (h1 : (fun i => find s.tree (D.sample i)) = idx) (h2 : idx ≠ s.index)
    (h3 : calcMeans D idx = some tree) : iterate find D (.running s) = .running ⟨idx, tree⟩ := by
  have e : (associate find D s).1 = idx := h1
  unfold iterate
  dsimp only
  rw [if_neg (by rw [switches_zero, e]; exact h2), e, h3]

theorem iterate_none {find : (Fin k → Vec K d) → Vec K d → Fin k} {D : Data K d N} {s : State K d N k} {idx : Fin N → Fin k}
    (h1 : (fun i => find s.tree (D.sample i)) = idx) (h2 : idx ≠ s.index)
    (h3 : calcMeans D idx = none) : iterate find D (.running s) = .degenerate idx := by
  have e : (associate find D s).1 = idx := h1
  unfold iterate
  dsimp only
  rw [if_neg (by rw [switches_zero, e]; exact h2), e, h3]

theorem iterate_same {find : (Fin k → Vec K d) → Vec K d → Fin k} {D : Data K d N} {s : State K d N k}
    (h1 : (fun i => find s.tree (D.sample i)) = s.index) : iterate find D (.running s) = .done s := by
  have e : (associate find D s).1 = s.index := h1
  unfold iterate
  dsimp only
  rw [if_pos (by rw [switches_zero, e]), e]

/-- nine different numbers -/
def nine : Data ℚ 1 9 :=
  { sample := fun i _ => ![-10, 110, 111, 0, 100, 112, 210, 113, 114] i
    weight := fun _ => 1 }

/-- C80 is violated: with nine different samples and three classes, whatever nearest centre the search returns, the second
association leaves a class without samples; its mean is 0/0. -/
theorem C80_class_lost (find : (Fin 3 → Vec ℚ 1) → Vec ℚ 1 → Fin 3) (hf : Nearest find) :
    Function.Injective nine.sample ∧ ∃ s, start 3 nine.sample = some s ∧
      ∃ index, run find nine s 2 = .degenerate index ∧ ∀ i, index i ≠ 1 := by
  refine ⟨by decide +kernel, _, rfl, ?_⟩
  have i1 : ∀ i, find (fun j => nine.sample ⟨j * 3, by omega⟩) (nine.sample i) = ![0, 2, 2, 1, 1, 2, 2, 2, 2] i := by
    intro i
    apply find_unique hf
    revert i
    decide +kernel
  have c1 : calcMeans nine (![0, 2, 2, 1, 1, 2, 2, 2, 2] : Fin 9 → Fin 3) = some fun j _ => ![-10, 50, 385 / 3] j := by
    unfold calcMeans
    rw [if_neg (by decide +kernel)]
    refine congrArg some ?_
    funext j c
    revert j c
    decide +kernel
  have i2 : ∀ i, find (fun j _ => ![-10, 50, 385 / 3] j) (nine.sample i) = ![0, 2, 2, 0, 2, 2, 2, 2, 2] i := by
    intro i
    apply find_unique hf
    revert i
    decide +kernel
  have c2 : calcMeans nine (![0, 2, 2, 0, 2, 2, 2, 2, 2] : Fin 9 → Fin 3) = none := by
    unfold calcMeans
    rw [if_pos (by decide +kernel)]
  refine ⟨![0, 2, 2, 0, 2, 2, 2, 2, 2], ?_, by decide +kernel⟩
  unfold run
  rw [show run find nine _ 1 = .running ⟨![0, 2, 2, 1, 1, 2, 2, 2, 2], fun j _ => ![-10, 50, 385 / 3] j⟩ from
    iterate_some (funext i1) (by decide +kernel) c1]
  exact iterate_none (funext i2) (by decide +kernel) c2

/-- a search among two centres of numbers that takes the first one if both are nearest -/
def first (tree : Fin 2 → Vec ℚ 1) (v : Vec ℚ 1) : Fin 2 := if (v 0 - tree 0 0) ^ 2 ≤ (v 0 - tree 1 0) ^ 2 then 0 else 1

theorem nearest_first : Nearest first := by
  intro tree v j
  simp only [Finset.univ_unique, Fin.default_eq_zero, Finset.sum_singleton, first]
  by_cases h : (v 0 - tree 0 0) ^ 2 ≤ (v 0 - tree 1 0) ^ 2
  · rw [if_pos h]
    match j with
    | 0 => exact le_refl _
    | 1 => exact h
  · rw [if_neg h]
    match j with
    | 0 => exact (not_le.1 h).le
    | 1 => exact le_refl _

/-- C80 is violated: if all samples are equal, a search that takes the first of several nearest centres ends at once, and the second
class is returned without a mean (0/0), for any number of samples. -/
theorem C80_equal_samples (x : ℚ) (N : Nat) (hN : 2 ≤ N) : Nearest first ∧
    ∃ s t, start 2 (fun _ : Fin N => fun _ => x) = some s ∧ run first ⟨fun _ _ => x, fun _ => 1⟩ s 1 = .done t ∧
      getClusters (⟨fun _ _ => x, fun _ => 1⟩ : Data ℚ 1 N) t.index 1 = none := by
  refine ⟨nearest_first, _, ⟨fun _ => 0, fun _ _ => x⟩, dif_pos ⟨hN, by norm_num⟩, ?_, ?_⟩
  · exact iterate_same (by funext i; simp [first])
  · unfold getClusters Stats.update
    rw [if_pos]
    rw [(gather_eq _ _ _).1]
    simp

/-- four numbers -/
def four : Data ℚ 1 4 :=
  { sample := fun i _ => ![0, 1, 10, 12] i
    weight := fun _ => 1 }

/-- the hypotheses of the theorems are met: four numbers, two classes, the first association switches a sample, the run ends in the
second iteration with the classes {0, 1} and {10, 12} -/
example : Nearest first ∧ (∀ i, 0 < four.weight i) ∧ ∃ s t, start 2 four.sample = some s ∧
      (∃ i, first s.tree (four.sample i) ≠ s.index i) ∧ run first four s 2 = .done t ∧ t.index = ![0, 0, 1, 1] := by
  refine ⟨nearest_first, by decide +kernel, _, ⟨![0, 0, 1, 1], fun j _ => ![1 / 2, 11] j⟩, rfl, ⟨3, by decide +kernel⟩, ?_, rfl⟩
  have c : calcMeans four (![0, 0, 1, 1] : Fin 4 → Fin 2) = some fun j _ => ![1 / 2, 11] j := by
    unfold calcMeans
    rw [if_neg (by decide +kernel)]
    refine congrArg some ?_
    funext j c
    revert j c
    decide +kernel
  unfold run
  rw [show run first four _ 1 = .running ⟨![0, 0, 1, 1], fun j _ => ![1 / 2, 11] j⟩ from
    iterate_some (by decide +kernel) (by decide +kernel) c]
  exact iterate_same (by decide +kernel)

end Envire.KMeans

#print axioms Envire.KMeans.C80_ends
#print axioms Envire.KMeans.C80_clusters_partial
#print axioms Envire.KMeans.C80_start
#print axioms Envire.KMeans.C80_class_lost
#print axioms Envire.KMeans.C80_equal_samples
