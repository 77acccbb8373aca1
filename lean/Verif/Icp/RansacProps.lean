import Verif.Icp.RansacModel
import Verif.Icp.PairsProps
import Mathlib.Data.List.GetD

/-! C126: a model that fits most samples -/

namespace Envire.Icp.Ransac

open Envire.Icp

/-- the number of samples that a model fits -/
def score {M : Type} (f : Fit M) (m : M) : Nat := (List.range f.samples).countP fun i => f.below i m

theorem score_eq {M : Type} (f : Fit M) (m : M) : (inliers f m).length = score f m := by
  unfold inliers score
  rw [List.countP_eq_length_filter]

theorem attempt_some {M : Type} {f : Fit M} {pick : Nat → List Nat} {r t : Nat} {m : M} {u : Nat}
    (h : attempt f pick r t = (some m, u)) : ∃ k, f.fit (pick k) = some m := by
  induction r generalizing t with
  | zero => cases h
  | succ r ih =>
    unfold attempt at h
    split at h
    · rename_i hf
      cases h
      exact ⟨t, hf⟩
    · exact ih h

theorem attempt_none {M : Type} {f : Fit M} {pick : Nat → List Nat} {r t : Nat} {u : Nat}
    (h : attempt f pick r t = (none, u)) : ∀ k < r, f.fit (pick (t + k)) = none := by
  induction r generalizing t with
  | zero => intro k hk; omega
  | succ r ih =>
    unfold attempt at h
    split at h
    · cases h
    · rename_i hf
      intro k hk
      cases k with
      | zero => exact hf
      | succ k =>
        have := ih h k (by omega)
        rw [show t + (k + 1) = t + 1 + k by omega]
        exact this

/-- what is known of the state -/
structure Inv {M : Type} (f : Fit M) (pick : Nat → List Nat) (s : St M) : Prop where
  iter : s.tried.length = s.iter
  fits : ∀ m ∈ s.tried, ∃ k, f.fit (pick k) = some m
  start : s.tried = [] → s.best = none ∧ s.bestScore = 0 ∧ s.softIterLimit = 1
  best : s.tried ≠ [] → ∃ m, s.best = some (m, inliers f m) ∧ m ∈ s.tried ∧ s.bestScore = score f m ∧ 0 < score f m ∧
    ∀ m' ∈ s.tried, score f m' ≤ score f m

theorem rate_inv {M : Type} {f : Fit M} {pick : Nat → List Nat} {soft : Nat → Nat} {s : St M} {m : M} {c : Nat}
    (h : Inv f pick s) (hm : ∃ k, f.fit (pick k) = some m) (hp : inliers f m ≠ []) : Inv f pick (rate f soft m c s) := by
  have hpos : 0 < score f m := by
    rw [← score_eq]
    exact List.length_pos_iff.2 hp
  unfold rate
  dsimp only
  split
  · rename_i hlt
    rw [score_eq] at hlt
    refine ⟨by simp [h.iter], ?_, by simp, fun _ => ⟨m, rfl, by simp, score_eq f m, hpos, ?_⟩⟩
    · intro m' hm'
      rcases List.mem_cons.1 hm' with rfl | hm'
      · exact hm
      · exact h.fits m' hm'
    · intro m' hm'
      rcases List.mem_cons.1 hm' with rfl | hm'
      · exact le_refl _
      · by_cases ht : s.tried = []
        · rw [ht] at hm'; cases hm'
        · obtain ⟨b, -, -, h3, -, h5⟩ := h.best ht
          have := h5 m' hm'
          omega
  · rename_i hlt
    rw [score_eq] at hlt
    refine ⟨by simp [h.iter], ?_, by simp, fun _ => ?_⟩
    · intro m' hm'
      rcases List.mem_cons.1 hm' with rfl | hm'
      · exact hm
      · exact h.fits m' hm'
    · by_cases ht : s.tried = []
      · have := (h.start ht).2.1
        omega
      · obtain ⟨b, h1, h2, h3, h4, h5⟩ := h.best ht
        refine ⟨b, h1, List.mem_cons_of_mem _ h2, h3, h4, ?_⟩
        intro m' hm'
        rcases List.mem_cons.1 hm' with rfl | hm'
        · omega
        · exact h5 m' hm'

/-- what is claimed of an outcome -/
def Good {M : Type} (f : Fit M) (pick : Nat → List Nat) (hard : Nat) : Out M → Prop
  | .done true best tried => tried ≠ [] ∧ tried.length ≤ hard ∧ (∀ m ∈ tried, ∃ k, f.fit (pick k) = some m) ∧
      ∃ m, best = some (m, (List.range f.samples).filter fun i => f.below i m) ∧ m ∈ tried ∧ 0 < score f m ∧
        ∀ m' ∈ tried, score f m' ≤ score f m
  | .done false _ tried => tried.length ≤ hard ∧ ∃ t, ∀ k < hard, f.fit (pick (t + k)) = none
  | .assertion => ∃ m k, f.fit (pick k) = some m ∧ score f m = 0

theorem loop_good {M : Type} {f : Fit M} {pick : Nat → List Nat} {soft : Nat → Nat} {hard r : Nat} {s : St M}
    (h : Inv f pick s) (hr : s.iter + r = hard) (h0 : 0 < hard) : Good f pick hard (loop f pick soft hard r s) := by
  have hdone : s.tried ≠ [] → Good f pick hard (.done true s.best s.tried) := by
    intro ht
    obtain ⟨m, h1, h2, h3, h4, h5⟩ := h.best ht
    have := h.iter
    exact ⟨ht, by omega, h.fits, m, h1, h2, h4, h5⟩
  induction r generalizing s with
  | zero =>
    apply hdone
    intro ht
    have := h.iter
    rw [ht] at this
    simp only [List.length_nil] at this
    omega
  | succ r ih =>
    unfold loop
    split
    · split
      · rename_i u ha
        refine ⟨?_, s.calls, attempt_none ha⟩
        have := h.iter
        omega
      · rename_i m c ha
        have hm := attempt_some ha
        split
        · rename_i he
          obtain ⟨k, hk⟩ := hm
          exact ⟨m, k, hk, by rw [← score_eq, he]; rfl⟩
        · rename_i he
          have hi := rate_inv (soft := soft) (c := c) h hm he
          refine ih hi ?_ ?_
          · unfold rate
            dsimp only
            split <;> dsimp only <;> omega
          · intro ht
            obtain ⟨m, h1, h2, h3, h4, h5⟩ := hi.best ht
            have h7 := hi.iter
            have h8 : (rate f soft m c s).iter = s.iter + 1 := by
              unfold rate
              dsimp only
              split <;> rfl
            have h9 : (rate f soft m c s).iter = (rate f soft m c s).iter := rfl
            refine ⟨ht, ?_, hi.fits, m, h1, h2, h4, h5⟩
            rw [h7]
            unfold rate
            dsimp only
            split <;> dsimp only <;> omega
    · rename_i hs
      apply hdone
      intro ht
      obtain ⟨-, -, h3⟩ := h.start ht
      have := h.iter
      rw [ht] at this
      simp only [List.length_nil] at this
      omega

/-- C126: with at least one round, the search ends. If it returns true then the model is the fit of one of the picked sets, the
inliers are the samples below the threshold, in order, there is at least one, and none of the models that were tried has more.
It returns false only after as many failed fits in a row as there are rounds. An assertion fails only if a model fits no
sample, or if there are less samples than are to be picked -/
theorem C126_best_partial {M : Type} (f : Fit M) (pick : Nat → List Nat) (soft : Nat → Nat) (kernel hard : Nat) (h0 : 0 < hard)
    (hk : kernel ≤ f.samples) : Good f pick hard (ransac f pick soft kernel hard) := by
  unfold ransac
  rw [if_neg (by omega)]
  exact loop_good ⟨rfl, by simp, fun _ => ⟨rfl, rfl, rfl⟩, fun h => absurd rfl h⟩ (by simp) h0

/-- C126, wrong: without a round the search succeeds without a model -/
theorem C126_no_round {M : Type} (f : Fit M) (pick : Nat → List Nat) (soft : Nat → Nat) (kernel : Nat) :
    ransac f pick soft kernel 0 = .done true none [] := by
  unfold ransac
  rw [if_neg (by omega)]
  rfl

/-- C126: with less samples than are to be picked an assertion fails -/
theorem C126_few {M : Type} (f : Fit M) (pick : Nat → List Nat) (soft : Nat → Nat) (kernel hard : Nat) (h0 : 0 < hard)
    (hk : f.samples < kernel) : ransac f pick soft kernel hard = .assertion := by
  unfold ransac
  rw [if_pos ⟨h0, hk⟩]

/-! ### fits of rigid motions -/

noncomputable section

/-- the pair of a sample -/
def sampleRow (s : FitTransform) (i : Nat) : Row := (s.p.getD i 0, s.x.getD i 0, norm3 (s.p.getD i 0 - s.x.getD i 0))

theorem pairs_eq (s : FitTransform) (l : List Nat) : s.pairs l = added (l.map (sampleRow s)) 0 := by
  unfold FitTransform.pairs added
  rw [List.foldl_map]
  rfl

theorem fitModel_some {s : FitTransform} {e : M4 → Eig} {l : List Nat} {m : Motion} (h : s.fitModel e l = some m) :
    3 ≤ l.length ∧ (∃ q, (added (l.map (sampleRow s)) 0).getTransform e = .ok (m, q)) ∧
      ∀ i ∈ l, s.testSample i m ≤ s.errorThreshold := by
  unfold FitTransform.fitModel at h
  by_cases hl : l.length < 3
  · rw [if_pos hl] at h; cases h
  rw [if_neg hl, pairs_eq] at h
  split at h
  · rename_i m' q hg
    by_cases hx : ∃ i ∈ l, s.errorThreshold < s.testSample i m'
    · rw [if_pos hx] at h; cases h
    · rw [if_neg hx] at h
      cases h
      refine ⟨by omega, ⟨q, hg⟩, ?_⟩
      intro i hi
      by_contra hc
      exact hx ⟨i, hi, not_le.1 hc⟩
  · cases h

/-- C126: a model is accepted only if it is a rigid motion that maps all picked points, at least three, to within the error
threshold of their partners -/
theorem C126_fit (s : FitTransform) (e : M4 → Eig) (he : ∀ q, EigOf q (e q)) (l : List Nat) (m : Motion)
    (h : s.fitModel e l = some m) :
    3 ≤ l.length ∧ (∃ r : M3, IsRotation r ∧ ∀ v, m.apply v = r.mulVec v + m.t) ∧
      ∀ i ∈ l, norm3 (m.apply (s.p.getD i 0) - s.x.getD i 0) ≤ s.errorThreshold := by
  obtain ⟨h3, ⟨q, hg⟩, hall⟩ := fitModel_some h
  obtain ⟨hr, hs⟩ := C122_added (l.map (sampleRow s)) 0
  obtain ⟨m', q', hg', hrot, -⟩ := C121_defined e he _ _ hr (by rw [hs, List.length_map]; exact h3)
  rw [hg] at hg'
  cases hg'
  exact ⟨h3, hrot, hall⟩

/-- C126: if the error threshold of the fit is below the threshold of the inliers, then no assertion fails, and a model that is
returned has at least as many inliers as samples are picked -/
theorem C126_kernel (s : FitTransform) (e : M4 → Eig) (fitness : ℝ) (hf : s.errorThreshold < fitness)
    (pick : Nat → List Nat) (soft : Nat → Nat) (kernel hard : Nat) (h0 : 0 < hard) (hk : kernel ≤ s.x.length)
    (hp : ∀ t, IsPick s.x.length kernel (pick t)) :
    ransac (s.toFit e fitness) pick soft kernel hard ≠ .assertion ∧
      ∀ best tried, ransac (s.toFit e fitness) pick soft kernel hard = .done true best tried →
        ∃ m inl, best = some (m, inl) ∧ kernel ≤ inl.length ∧ 3 ≤ kernel := by
  have hg := C126_best_partial (s.toFit e fitness) pick soft kernel hard h0 hk
  have key : ∀ k m, (s.toFit e fitness).fit (pick k) = some m → 3 ≤ kernel ∧ kernel ≤ (inliers (s.toFit e fitness) m).length := by
    intro k m hm
    obtain ⟨h3, -, hall⟩ := fitModel_some (show s.fitModel e (pick k) = some m from hm)
    rw [(hp k).length] at h3
    refine ⟨h3, ?_⟩
    rw [← (hp k).length]
    apply List.Subperm.length_le
    apply List.Nodup.subperm (hp k).nodup
    intro i hi
    unfold inliers
    rw [List.mem_filter, List.mem_range]
    exact ⟨(hp k).range i hi, decide_eq_true (lt_of_le_of_lt (hall i hi) hf)⟩
  constructor
  · intro ha
    rw [ha] at hg
    obtain ⟨m, k, hm, hz⟩ := hg
    have := key k m hm
    rw [score_eq] at this
    omega
  · intro best tried hd
    rw [hd] at hg
    obtain ⟨-, -, hfit, m, hb, hmem, -, -⟩ := hg
    obtain ⟨k, hm⟩ := hfit m hmem
    have := key k m hm
    exact ⟨m, _, hb, this.2, this.1⟩

theorem norm3_zero {v : V3} (h : v = 0) : norm3 v = 0 := by
  subst h
  unfold norm3
  simp

theorem shift_fit (s : FitTransform) (e : M4 → Eig) (he : ∀ q, EigOf q (e q)) (d : V3) (hlen : s.x.length = s.p.length)
    (hn : s.p.Nodup) (hx : ∀ i < s.p.length, s.x.getD i 0 = s.p.getD i 0 + d) (ht : 0 ≤ s.errorThreshold) (kernel : Nat)
    (h3 : 3 ≤ kernel) (l : List Nat) (hl : IsPick s.x.length kernel l) :
    ∃ m, s.fitModel e l = some m ∧ ∀ v, m.apply v = v + d := by
  obtain ⟨hr, hs⟩ := C122_added (l.map (sampleRow s)) 0
  have hlen3 : 3 ≤ l.length := by rw [hl.length]; exact h3
  obtain ⟨m, q, hg, -⟩ := C121_defined e he _ _ hr (by rw [hs, List.length_map]; exact hlen3)
  have hd : ∀ a ∈ l.map (sampleRow s), a.2.1 = a.1 + d := by
    intro a ha
    obtain ⟨i, hi, rfl⟩ := List.mem_map.1 ha
    exact hx i (by rw [← hlen]; exact hl.range i hi)
  have hsh := (C121_shift e he _ _ hr d hd m q hg).2
  have hm : ∀ v, m.apply v = v + d := by
    apply hsh
    match l, hl, hlen3 with
    | a :: b :: _, hl, _ =>
      refine ⟨sampleRow s a, by simp, sampleRow s b, by simp, ?_⟩
      have hab : a ≠ b := by
        have := hl.nodup
        simp only [List.nodup_cons, List.mem_cons, not_or] at this
        exact this.1.1
      have ha := hl.range a (by simp)
      have hb := hl.range b (by simp)
      rw [hlen] at ha hb
      intro hc
      apply hab
      have : s.p[a] = s.p[b] := by
        have hc : s.p.getD a 0 = s.p.getD b 0 := hc
        rw [List.getD_eq_getElem _ _ ha, List.getD_eq_getElem _ _ hb] at hc
        exact hc
      exact (hn.getElem_inj_iff).1 this
  refine ⟨m, ?_, hm⟩
  unfold FitTransform.fitModel
  rw [if_neg (by omega), pairs_eq, hg]
  dsimp only
  rw [if_neg]
  rintro ⟨i, hi, hlt⟩
  unfold FitTransform.testSample at hlt
  rw [norm3_zero] at hlt
  · linarith
  · rw [hm, hx i (by rw [← hlen]; exact hl.range i hi), sub_self]

/-- C126: samples that are shifted copies of distinct points are all inliers of the model that is found, which is the shift -/
theorem C126_shift (s : FitTransform) (e : M4 → Eig) (he : ∀ q, EigOf q (e q)) (d : V3) (hlen : s.x.length = s.p.length)
    (hn : s.p.Nodup) (hx : ∀ i < s.p.length, s.x.getD i 0 = s.p.getD i 0 + d) (ht : 0 ≤ s.errorThreshold) (fitness : ℝ)
    (hf : 0 < fitness) (pick : Nat → List Nat) (soft : Nat → Nat) (kernel hard : Nat) (h0 : 0 < hard) (h3 : 3 ≤ kernel)
    (hk : kernel ≤ s.x.length) (hp : ∀ t, IsPick s.x.length kernel (pick t)) :
    ∃ m tried, ransac (s.toFit e fitness) pick soft kernel hard = .done true (some (m, List.range s.x.length)) tried ∧
      ∀ v, m.apply v = v + d := by
  have hg := C126_best_partial (s.toFit e fitness) pick soft kernel hard h0 hk
  have key : ∀ k, ∃ m, (s.toFit e fitness).fit (pick k) = some m ∧ ∀ v, m.apply v = v + d := fun k =>
    shift_fit s e he d hlen hn hx ht kernel h3 (pick k) (hp k)
  have hinl : ∀ k m, (s.toFit e fitness).fit (pick k) = some m → (∀ v, m.apply v = v + d) ∧
      ((List.range (s.toFit e fitness).samples).filter fun i => (s.toFit e fitness).below i m) = List.range s.x.length := by
    intro k m hm
    obtain ⟨m', hm', hsh⟩ := key k
    rw [hm] at hm'
    cases hm'
    refine ⟨hsh, ?_⟩
    rw [List.filter_eq_self.2]
    · rfl
    · intro i hi
      rw [List.mem_range] at hi
      show decide (s.testSample i m < fitness) = true
      apply decide_eq_true
      unfold FitTransform.testSample
      rw [norm3_zero]
      · exact hf
      · rw [hsh, hx i (by rw [← hlen]; exact hi), sub_self]
  cases hout : ransac (s.toFit e fitness) pick soft kernel hard with
  | assertion =>
    rw [hout] at hg
    obtain ⟨m, k, hm, hz⟩ := hg
    rw [← score_eq] at hz
    have := (hinl k m hm).2
    unfold inliers at hz
    rw [this, List.length_range] at hz
    omega
  | done ret best tried =>
    rw [hout] at hg
    cases ret with
    | false =>
      obtain ⟨-, t, hnone⟩ := hg
      obtain ⟨m, hm, -⟩ := key (t + 0)
      rw [hnone 0 h0] at hm
      cases hm
    | true =>
      obtain ⟨-, -, hfit, m, hb, hmem, -⟩ := hg
      obtain ⟨k, hm⟩ := hfit m hmem
      obtain ⟨hsh, hi⟩ := hinl k m hm
      rw [hi] at hb
      exact ⟨m, tried, by rw [hb], hsh⟩

/-! #### exact samples that are rejected -/

theorem mean_perm {l l' : List Row} (h : l.Perm l') (f : Row → ℝ) : mean l f = mean l' f := by
  unfold mean
  rw [(h.map f).sum_eq, h.length_eq]

theorem sigma_perm {l l' : List Row} (h : l.Perm l') : sigma l = sigma l' := by
  funext i j
  unfold sigma muP muX
  rw [mean_perm h, mean_perm h, mean_perm h]

/-- the end points of three axes of length k, turned by a right angle about the z axis -/
def axes (k thr : ℝ) : FitTransform := ⟨[![0, k, 0], ![-k, 0, 0], ![0, 0, k]], [![k, 0, 0], ![0, k, 0], ![0, 0, k]], thr⟩

theorem axes_sigma (k thr : ℝ) : sigma ([0, 1, 2].map (sampleRow (axes k thr))) =
    !![k ^ 2 / 9, 2 * k ^ 2 / 9, -(k ^ 2 / 9); -(2 * k ^ 2 / 9), -(k ^ 2 / 9), -(k ^ 2 / 9); k ^ 2 / 9, -(k ^ 2 / 9), 2 * k ^ 2 / 9] := by
  ext i j
  fin_cases i <;> fin_cases j <;> simp [sigma, mean, muP, muX, sampleRow, axes] <;> ring

theorem norm3_coord {v : V3} {t : ℝ} (h : norm3 v ≤ t) (i : Fin 3) : |v i| ≤ t := by
  refine le_trans ?_ h
  unfold norm3
  apply Real.abs_le_sqrt
  have h0 := sq_nonneg (v 0)
  have h1 := sq_nonneg (v 1)
  have h2 := sq_nonneg (v 2)
  fin_cases i
  · show v 0 ^ 2 ≤ _
    linarith
  · show v 1 ^ 2 ≤ _
    linarith
  · show v 2 ^ 2 ≤ _
    linarith

theorem axes_none (e : M4 → Eig) (he : ∀ q, EigOf q (e q)) (k thr : ℝ) (hk : 4 * thr < k) (ht : 0 ≤ thr) (l : List Nat)
    (hl : IsPick 3 3 l) : (axes k thr).fitModel e l = none := by
  have hk0 : 0 < k := by linarith
  by_contra hne
  obtain ⟨m, hm⟩ := Option.ne_none_iff_exists'.1 hne
  obtain ⟨h3, ⟨q, hg⟩, hall⟩ := fitModel_some hm
  have hperm : l.Perm [0, 1, 2] := by
    apply List.Subperm.perm_of_length_le
    · apply List.Nodup.subperm hl.nodup
      intro i hi
      have := hl.range i hi
      simp only [List.mem_cons, List.not_mem_nil, or_false]
      omega
    · rw [hl.length]; rfl
  obtain ⟨hr, -⟩ := C122_added (l.map (sampleRow (axes k thr))) 0
  obtain ⟨-, hq, -, -⟩ := ok_iff hr hg
  have hc := chosen _ _ (he _) m.q hq
  rw [sigma_perm (hperm.map _), axes_sigma] at hc
  set S : M3 := !![k ^ 2 / 9, 2 * k ^ 2 / 9, -(k ^ 2 / 9); -(2 * k ^ 2 / 9), -(k ^ 2 / 9), -(k ^ 2 / 9); k ^ 2 / 9, -(k ^ 2 / 9), 2 * k ^ 2 / 9] with hS
  have htr : tr S = 2 * k ^ 2 / 9 := by simp [tr, hS]
  have hd0 : delta S 0 = 0 := by simp [delta, diff, hS]
  have hd1 : delta S 1 = 2 * k ^ 2 / 9 := by simp [delta, diff, hS]; ring
  have hd2 : delta S 2 = 4 * k ^ 2 / 9 := by simp [delta, diff, hS]; ring
  have hpos : 0 < top S + tr S := by
    rw [htr]
    have := top_nonneg S
    positivity
  have a0 := along hc 0
  have a1 := along hc 1
  have a2 := along hc 2
  rw [hd0, zero_mul] at a0
  rw [hd1] at a1
  rw [hd2] at a2
  have v0 : m.q.v 0 = 0 := by
    rcases mul_eq_zero.1 a0 with h | h
    · exact absurd h hpos.ne'
    · exact h
  have v2 : m.q.v 2 = 2 * m.q.v 1 := by
    apply mul_left_cancel₀ hpos.ne'
    linear_combination a2 - 2 * a1
  have t0 := hall 0 (hperm.mem_iff.2 (by simp))
  have t1 := hall 1 (hperm.mem_iff.2 (by simp))
  unfold FitTransform.testSample at t0 t1
  have b0 := fun i => abs_le.1 (norm3_coord t0 i)
  have b1 := fun i => abs_le.1 (norm3_coord t1 i)
  -- the difference of the two points along the axis (0, 1, 2)
  have hu := hc.unit
  have happ : ∀ v : V3, m.apply v = m.q.mat.mulVec v + m.t := fun v => by simp [Motion.apply, rot_mat]
  have y01 := b0 1
  have y02 := b0 2
  have y11 := b1 1
  have y12 := b1 2
  simp only [happ, axes, Pi.sub_apply, Pi.add_apply] at y01 y02 y11 y12
  simp [Matrix.mulVec, dotProduct, Fin.sum_univ_three, Quat.mat, v0, v2] at y01 y02 y11 y12
  linarith [y01.1, y01.2, y02.1, y02.2, y11.1, y11.2, y12.1, y12.2]

/-- C126, wrong: for every error threshold there are three samples that a rotation matches exactly (about the z axis, by a right
angle), for which the search always returns false, as the motion that is fitted is wrong (C121_wrong_in_space) -/
theorem C126_rejected (e : M4 → Eig) (he : ∀ q, EigOf q (e q)) (thr : ℝ) (ht : 0 ≤ thr) :
    ∃ s : FitTransform, s.errorThreshold = thr ∧ s.x.length = 3 ∧ s.p.length = 3 ∧
      (∃ r, IsRotation r ∧ ∀ i < 3, s.x.getD i 0 = r.mulVec (s.p.getD i 0)) ∧
      ∀ fitness pick soft hard, 0 < hard → (∀ t, IsPick 3 3 (pick t)) →
        ransac (s.toFit e fitness) pick soft 3 hard = .done false none [] := by
  refine ⟨axes (4 * thr + 1) thr, rfl, rfl, rfl, ⟨turnZ 0 1, turnZ_rotation (by norm_num), ?_⟩, ?_⟩
  · intro i hi
    obtain rfl | rfl | rfl : i = 0 ∨ i = 1 ∨ i = 2 := by omega
    all_goals
      ext j
      fin_cases j <;> simp [axes, turnZ, Matrix.mulVec, dotProduct, Fin.sum_univ_three]
  · intro fitness pick soft hard h0 hp
    have hnone : ∀ t, ((axes (4 * thr + 1) thr).toFit e fitness).fit (pick t) = none := fun t =>
      axes_none e he _ thr (by linarith) ht _ (hp t)
    have hatt : ∀ r t, (attempt ((axes (4 * thr + 1) thr).toFit e fitness) pick r t).1 = none := by
      intro r
      induction r with
      | zero => intro t; rfl
      | succ r ih =>
        intro t
        unfold attempt
        rw [hnone t]
        exact ih _
    unfold ransac
    rw [if_neg (by rintro ⟨-, h⟩; exact absurd h (by decide : ¬ 3 < 3))]
    cases hard with
    | zero => omega
    | succ hard =>
      unfold loop
      rw [if_pos (by decide)]
      have := hatt (hard + 1) 0
      dsimp only
      split
      · rfl
      · rename_i hx
        rw [hx] at this
        cases this

/-! ### examples -/

theorem pick_exists : ∀ _ : Nat, IsPick 3 3 [2, 0, 1] := fun _ => ⟨rfl, by decide, by decide⟩

/-- three points that are shifted -/
example (e : M4 → Eig) (he : ∀ q, EigOf q (e q)) :
    ∃ m tried, ransac ((⟨[![1, 0, 1], ![0, 1, 1], ![0, 0, 2]], [![1, 0, 0], ![0, 1, 0], ![0, 0, 1]], 1 / 10⟩ : FitTransform).toFit e (1 / 5))
      (fun _ => [2, 0, 1]) (fun _ => 0) 3 100 = .done true (some (m, [0, 1, 2])) tried ∧ ∀ v, m.apply v = v + ![0, 0, 1] := by
  refine C126_shift _ e he ![0, 0, 1] rfl ?_ ?_ (by norm_num) _ (by norm_num) _ _ 3 100 (by norm_num) (by norm_num) (by simp) pick_exists
  · have h01 : (![1, 0, 0] : V3) ≠ ![0, 1, 0] := fun h => by have := congrFun h 0; simp at this
    have h02 : (![1, 0, 0] : V3) ≠ ![0, 0, 1] := fun h => by have := congrFun h 0; simp at this
    have h12 : (![0, 1, 0] : V3) ≠ ![0, 0, 1] := fun h => by have := congrFun h 1; simp at this
    simp only [List.nodup_cons, List.mem_cons, List.not_mem_nil, or_false, not_or, not_false_eq_true, List.nodup_nil, and_true]
    exact ⟨⟨h01, h02⟩, h12⟩
  · intro i hi
    have hi : i < 3 := hi
    obtain rfl | rfl | rfl : i = 0 ∨ i = 1 ∨ i = 2 := by omega
    all_goals
      ext j
      fin_cases j <;> norm_num

/-- numbers as models: the model that fits most samples is found -/
example : ransac (⟨4, fun l => l.head?, fun i m => decide (i / 2 = m)⟩ : Fit Nat) (fun t => [t % 2]) (fun _ => 5) 1 3 =
    .done true (some (0, [0, 1])) [0, 1, 0] := rfl

end

end Envire.Icp.Ransac

#print axioms Envire.Icp.Ransac.C126_best_partial
#print axioms Envire.Icp.Ransac.C126_no_round
#print axioms Envire.Icp.Ransac.C126_few
#print axioms Envire.Icp.Ransac.C126_fit
#print axioms Envire.Icp.Ransac.C126_kernel
#print axioms Envire.Icp.Ransac.C126_shift
#print axioms Envire.Icp.Ransac.C126_rejected
