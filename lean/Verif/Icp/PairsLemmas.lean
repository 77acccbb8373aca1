import Verif.Icp.PairsModel
import Mathlib.Tactic.LinearCombination
import Mathlib.Tactic.Linarith
import Mathlib.LinearAlgebra.Matrix.Notation

/-! The eigenvalues of the matrix of Pairs::getTransform, and the squared error of a motion -/

namespace Envire.Icp

noncomputable section

/-- the largest eigenvalue -/
def top (s : M3) : ℝ := √(tr s ^ 2 + (delta s 0 ^ 2 + delta s 1 ^ 2 + delta s 2 ^ 2))

theorem top_sq (s : M3) : top s ^ 2 = tr s ^ 2 + (delta s 0 ^ 2 + delta s 1 ^ 2 + delta s 2 ^ 2) :=
  Real.sq_sqrt (by positivity)

theorem top_nonneg (s : M3) : 0 ≤ top s := Real.sqrt_nonneg _

theorem le_top (s : M3) {x : ℝ} (h : x ^ 2 ≤ tr s ^ 2 + (delta s 0 ^ 2 + delta s 1 ^ 2 + delta s 2 ^ 2)) : x ≤ top s :=
  Real.le_sqrt_of_sq_le h

theorem qMat_eq (s : M3) : qMat s =
    !![tr s, delta s 0, delta s 1, delta s 2;
       delta s 0, - tr s, delta s 2, - delta s 1;
       delta s 1, - delta s 2, - tr s, delta s 0;
       delta s 2, delta s 1, - delta s 0, - tr s] := by
  ext i j
  fin_cases i <;> fin_cases j <;> simp [qMat, delta, diff]

theorem comp (s : M3) (u : Fin 4 → ℂ) (m : ℂ)
    (h : ((qMat s).map (algebraMap ℝ ℂ)).mulVec u = m • u) :
    (tr s : ℂ) * u 0 + delta s 0 * u 1 + delta s 1 * u 2 + delta s 2 * u 3 = m * u 0 ∧
    (delta s 0 : ℂ) * u 0 - tr s * u 1 + delta s 2 * u 2 - delta s 1 * u 3 = m * u 1 ∧
    (delta s 1 : ℂ) * u 0 - delta s 2 * u 1 - tr s * u 2 + delta s 0 * u 3 = m * u 2 ∧
    (delta s 2 : ℂ) * u 0 + delta s 1 * u 1 - delta s 0 * u 2 - tr s * u 3 = m * u 3 := by
  rw [qMat_eq] at h
  have h0 := congrFun h 0
  have h1 := congrFun h 1
  have h2 := congrFun h 2
  have h3 := congrFun h 3
  simp [Matrix.mulVec, dotProduct, Fin.sum_univ_four] at h0 h1 h2 h3
  refine ⟨?_, ?_, ?_, ?_⟩
  · linear_combination h0
  · linear_combination h1
  · linear_combination h2
  · linear_combination h3

/-- no eigenvalue has a larger real part -/
theorem re_le (s : M3) (u : Fin 4 → ℂ) (m : ℂ) (hu : u ≠ 0)
    (h : ((qMat s).map (algebraMap ℝ ℂ)).mulVec u = m • u) : m.re ≤ top s := by
  obtain ⟨h0, h1, h2, h3⟩ := comp s u m h
  by_cases hs : u 0 = 0
  · -- the part of the vector is not zero
    have hv : u 1 ≠ 0 ∨ u 2 ≠ 0 ∨ u 3 ≠ 0 := by
      by_contra hc
      push Not at hc
      apply hu
      funext i
      fin_cases i
      · exact hs
      · exact hc.1
      · exact hc.2.1
      · exact hc.2.2
    rw [hs] at h0 h1 h2 h3
    have key : (m + tr s) ^ 2 = -((delta s 0 : ℂ) ^ 2 + delta s 1 ^ 2 + delta s 2 ^ 2) := by
      have e0 : (delta s 0 : ℂ) * u 1 + delta s 1 * u 2 + delta s 2 * u 3 = 0 := by linear_combination h0
      have c1 : ((m + tr s) ^ 2 + ((delta s 0 : ℂ) ^ 2 + delta s 1 ^ 2 + delta s 2 ^ 2)) * u 1 = 0 := by
        linear_combination (-(m + tr s)) * h1 - (delta s 2) * h2 + (delta s 1) * h3 + (delta s 0) * e0
      have c2 : ((m + tr s) ^ 2 + ((delta s 0 : ℂ) ^ 2 + delta s 1 ^ 2 + delta s 2 ^ 2)) * u 2 = 0 := by
        linear_combination (-(m + tr s)) * h2 + (delta s 2) * h1 - (delta s 0) * h3 + (delta s 1) * e0
      have c3 : ((m + tr s) ^ 2 + ((delta s 0 : ℂ) ^ 2 + delta s 1 ^ 2 + delta s 2 ^ 2)) * u 3 = 0 := by
        linear_combination (-(m + tr s)) * h3 - (delta s 1) * h1 + (delta s 0) * h2 + (delta s 2) * e0
      have : (m + tr s) ^ 2 + ((delta s 0 : ℂ) ^ 2 + delta s 1 ^ 2 + delta s 2 ^ 2) = 0 := by
        rcases hv with hv | hv | hv
        · exact (mul_eq_zero.1 c1).resolve_right hv
        · exact (mul_eq_zero.1 c2).resolve_right hv
        · exact (mul_eq_zero.1 c3).resolve_right hv
      linear_combination this
    have r := congrArg Complex.re key
    have i := congrArg Complex.im key
    simp [sq] at r i
    have hre : m.re + tr s = 0 := by
      have i' : (m.re + tr s) * m.im = 0 := by linarith
      rcases mul_eq_zero.1 i' with h | h
      · exact h
      · rw [h] at r
        have : (m.re + tr s) * (m.re + tr s) ≤ 0 := by
          nlinarith [mul_self_nonneg (delta s 0), mul_self_nonneg (delta s 1), mul_self_nonneg (delta s 2)]
        exact mul_self_eq_zero.1 (le_antisymm this (mul_self_nonneg _))
    apply le_top
    have : m.re = - tr s := by linarith
    rw [this]
    nlinarith [sq_nonneg (delta s 0), sq_nonneg (delta s 1), sq_nonneg (delta s 2)]
  · have key : m ^ 2 = (tr s : ℂ) ^ 2 + ((delta s 0 : ℂ) ^ 2 + delta s 1 ^ 2 + delta s 2 ^ 2) := by
      apply mul_right_cancel₀ hs
      linear_combination (-(m + tr s)) * h0 - (delta s 0) * h1 - (delta s 1) * h2 - (delta s 2) * h3
    have r := congrArg Complex.re key
    have i := congrArg Complex.im key
    simp [sq] at r i
    apply le_top
    have i' : m.re * m.im = 0 := by linarith
    rcases mul_eq_zero.1 i' with h | h
    · rw [h, zero_pow two_ne_zero]; positivity
    · rw [h] at r; nlinarith

/-- the largest eigenvalue has an eigenvector -/
theorem top_eigen (s : M3) : ∃ u : Fin 4 → ℂ, u ≠ 0 ∧
    ((qMat s).map (algebraMap ℝ ℂ)).mulVec u = (top s : ℂ) • u := by
  have ht := top_sq s
  have htc : (top s : ℂ) ^ 2 = (tr s : ℂ) ^ 2 + ((delta s 0 : ℂ) ^ 2 + delta s 1 ^ 2 + delta s 2 ^ 2) := by
    exact_mod_cast congrArg (fun x : ℝ => (x : ℂ)) ht
  by_cases hz : top s + tr s = 0
  · -- the matrix has the eigenvalue -trace
    have hd : delta s 0 = 0 ∧ delta s 1 = 0 ∧ delta s 2 = 0 := by
      have h1 : top s = - tr s := by linarith
      rw [h1] at ht
      have a := sq_nonneg (delta s 0)
      have b := sq_nonneg (delta s 1)
      have c := sq_nonneg (delta s 2)
      refine ⟨?_, ?_, ?_⟩ <;> · apply pow_eq_zero_iff (n := 2) (by norm_num) |>.1; linarith
    refine ⟨![0, 1, 0, 0], ?_, ?_⟩
    · intro h; simpa using congrFun h 1
    · rw [qMat_eq]
      have h1 : (top s : ℂ) = - (tr s : ℂ) := by
        have : top s = - tr s := by linarith
        rw [this]; push_cast; rfl
      ext i
      fin_cases i <;> simp [Matrix.mulVec, dotProduct, Fin.sum_univ_four, hd.1, hd.2.1, hd.2.2, h1]
  · refine ⟨![(top s + tr s : ℝ), delta s 0, delta s 1, delta s 2], ?_, ?_⟩
    · intro h
      have := congrFun h 0
      simp at this
      exact hz (by exact_mod_cast this)
    · rw [qMat_eq]
      ext i
      fin_cases i
      · simp [Matrix.mulVec, dotProduct, Fin.sum_univ_four]
        linear_combination -htc
      · simp [Matrix.mulVec, dotProduct, Fin.sum_univ_four]
        ring
      · simp [Matrix.mulVec, dotProduct, Fin.sum_univ_four]
        ring
      · simp [Matrix.mulVec, dotProduct, Fin.sum_univ_four]
        ring

/-- what is known of the quaternion that getTransform selects -/
structure Chosen (s : M3) (q : Quat) : Prop where
  unit : q.w ^ 2 + q.v 0 ^ 2 + q.v 1 ^ 2 + q.v 2 ^ 2 = 1
  e0 : tr s * q.w + delta s 0 * q.v 0 + delta s 1 * q.v 1 + delta s 2 * q.v 2 = top s * q.w
  e1 : delta s 0 * q.w - tr s * q.v 0 + delta s 2 * q.v 1 - delta s 1 * q.v 2 = top s * q.v 0
  e2 : delta s 1 * q.w - delta s 2 * q.v 0 - tr s * q.v 1 + delta s 0 * q.v 2 = top s * q.v 1
  e3 : delta s 2 * q.w + delta s 1 * q.v 0 - delta s 0 * q.v 1 - tr s * q.v 2 = top s * q.v 2

theorem maxEig_eq (s : M3) (e : Eig) (h : EigOf (qMat s) e) : e.maxEig = top s := by
  apply le_antisymm
  · apply Finset.sup'_le
    intro i _
    apply re_le s (e.vecs i) (e.vals i) _ (h.eigen i)
    intro h0
    have := h.unit i
    rw [h0] at this
    simp at this
  · obtain ⟨u, hu, hm⟩ := top_eigen s
    obtain ⟨i, hi⟩ := h.all _ u hu hm
    have : (e.vals i).re ≤ e.maxEig := Finset.le_sup' (fun i => (e.vals i).re) (Finset.mem_univ i)
    rw [hi] at this
    simpa using this

/-- a quaternion is selected -/
theorem select_some (s : M3) (e : Eig) (h : EigOf (qMat s) e) : ∃ q, e.select = some q := by
  obtain ⟨u, hu, hm⟩ := top_eigen s
  obtain ⟨i, hi⟩ := h.all _ u hu hm
  unfold Eig.select
  rw [maxEig_eq s e h]
  cases hf : (List.finRange 4).find? fun i => decide (e.vals i = (top s : ℂ)) with
  | none =>
    rw [List.find?_eq_none] at hf
    exact absurd (by simpa using hi) (hf i (List.mem_finRange i))
  | some j => exact ⟨_, rfl⟩

theorem chosen (s : M3) (e : Eig) (h : EigOf (qMat s) e) (q : Quat) (hq : e.select = some q) : Chosen s q := by
  unfold Eig.select at hq
  rw [maxEig_eq s e h] at hq
  cases hf : (List.finRange 4).find? fun i => decide (e.vals i = (top s : ℂ)) with
  | none => rw [hf] at hq; cases hq
  | some j =>
    rw [hf] at hq
    have hj : e.vals j = (top s : ℂ) := by simpa using List.find?_some hf
    have him := h.real j (by rw [hj]; simp)
    obtain ⟨h0, h1, h2, h3⟩ := comp s _ _ (h.eigen j)
    have hu := h.unit j
    rw [hj] at h0 h1 h2 h3
    simp only [Option.map_some, Option.some.injEq] at hq
    subst hq
    have r0 := congrArg Complex.re h0
    have r1 := congrArg Complex.re h1
    have r2 := congrArg Complex.re h2
    have r3 := congrArg Complex.re h3
    simp at r0 r1 r2 r3
    simp only [Fin.sum_univ_four, Complex.normSq_apply, him, mul_zero, add_zero] at hu
    refine ⟨?_, ?_, ?_, ?_, ?_⟩
    · simp; linear_combination hu
    · simp; linear_combination r0
    · simp; linear_combination r1
    · simp; linear_combination r2
    · simp; linear_combination r3

/-- every real matrix has a decomposition -/
theorem exists_solver : ∃ e : M4 → Eig, ∀ q, EigOf q (e q) := by
  suffices h : ∀ q : M4, ∃ e, EigOf q e by
    choose e he using h
    exact ⟨e, he⟩
  intro q
  set c := q.map (algebraMap ℝ ℂ) with hc
  have hex : ∀ m : ℂ, m ∈ c.charpoly.roots → ∃ u : Fin 4 → ℂ,
      c.mulVec u = m • u ∧ ∑ k, Complex.normSq (u k) = 1 ∧ (m.im = 0 → ∀ k, (u k).im = 0) := by
    intro m hm
    -- a vector that is not zero
    have hv : ∃ u : Fin 4 → ℂ, u ≠ 0 ∧ c.mulVec u = m • u ∧ (m.im = 0 → ∀ k, (u k).im = 0) := by
      have hroot : (Matrix.scalar (Fin 4) m - c).det = 0 := by
        rw [Polynomial.mem_roots (Matrix.charpoly_monic c).ne_zero, Polynomial.IsRoot, Matrix.eval_charpoly] at hm
        exact hm
      by_cases hr : m.im = 0
      · have hre : m = (m.re : ℂ) := by apply Complex.ext <;> simp [hr]
        have hd : (Matrix.scalar (Fin 4) m.re - q).det = 0 := by
          have : Matrix.scalar (Fin 4) m - c = (Matrix.scalar (Fin 4) m.re - q).map (algebraMap ℝ ℂ) := by
            ext i j
            simp only [Matrix.sub_apply, Matrix.map_apply, hc, Matrix.scalar_apply, Matrix.diagonal_apply]
            by_cases hij : i = j
            · simp only [hij, if_true]
              rw [map_sub]
              rw [hre]
              simp
            · simp [hij]
          rw [this] at hroot
          have hmap := RingHom.map_det (algebraMap ℝ ℂ) (Matrix.scalar (Fin 4) m.re - q)
          rw [RingHom.mapMatrix_apply, hroot] at hmap
          simpa using hmap
        obtain ⟨v, hv0, hv⟩ := Matrix.exists_mulVec_eq_zero_iff.2 hd
        refine ⟨fun k => (v k : ℂ), ?_, ?_, ?_⟩
        · intro h
          apply hv0
          funext k
          have := congrFun h k
          simpa using this
        · funext k
          have hk := congrFun hv k
          rw [Matrix.sub_mulVec] at hk
          simp only [Pi.sub_apply, Pi.zero_apply, Matrix.scalar_apply, Matrix.mulVec_diagonal] at hk
          have hk' : q.mulVec v k = m.re * v k := by linarith
          rw [hre]
          simp only [Pi.smul_apply, smul_eq_mul, hc]
          rw [← Complex.ofReal_re m.re, ← Complex.ofReal_mul]
          simp only [Complex.ofReal_re]
          rw [← hk']
          simp [Matrix.mulVec, dotProduct]
        · intro _ k; simp
      · obtain ⟨v, hv0, hv⟩ := Matrix.exists_mulVec_eq_zero_iff.2 hroot
        refine ⟨v, hv0, ?_, fun h => absurd h hr⟩
        funext k
        have hk := congrFun hv k
        rw [Matrix.sub_mulVec] at hk
        simp only [Pi.sub_apply, Pi.zero_apply, Matrix.scalar_apply, Matrix.mulVec_diagonal] at hk
        simp only [Pi.smul_apply, smul_eq_mul]
        linear_combination -hk
    obtain ⟨u, hu0, hu, hur⟩ := hv
    have hpos : 0 < ∑ k, Complex.normSq (u k) := by
      obtain ⟨k, hk⟩ : ∃ k, u k ≠ 0 := by
        by_contra hcon
        push Not at hcon
        exact hu0 (funext hcon)
      exact Finset.sum_pos' (fun k _ => Complex.normSq_nonneg _) ⟨k, Finset.mem_univ k, Complex.normSq_pos.2 hk⟩
    set N := ∑ k, Complex.normSq (u k) with hN
    refine ⟨((√N)⁻¹ : ℝ) • u, ?_, ?_, ?_⟩
    · rw [Matrix.mulVec_smul, hu, smul_comm]
    · have : ∀ k, Complex.normSq ((((√N)⁻¹ : ℝ) • u) k) = N⁻¹ * Complex.normSq (u k) := by
        intro k
        simp only [Pi.smul_apply, Complex.real_smul, Complex.normSq_mul, Complex.normSq_ofReal]
        rw [← mul_inv, Real.mul_self_sqrt hpos.le]
      simp only [this]
      rw [← Finset.mul_sum, ← hN]
      exact inv_mul_cancel₀ hpos.ne'
    · intro h k
      simp [hur h k]
  have hcard : c.charpoly.roots.card = 4 := by
    rw [IsAlgClosed.card_roots_eq_natDegree, Matrix.charpoly_natDegree_eq_dim]
    rfl
  have hlen : c.charpoly.roots.toList.length = 4 := by rw [Multiset.length_toList, hcard]
  let vals : Fin 4 → ℂ := fun i => c.charpoly.roots.toList[i.val]'(by rw [hlen]; exact i.isLt)
  have hvals : ∀ i, vals i ∈ c.charpoly.roots := by
    intro i
    rw [← Multiset.mem_toList]
    exact List.getElem_mem _
  choose! f hf using hex
  refine ⟨⟨vals, fun i => f (vals i)⟩, ?_, ?_, ?_, ?_⟩
  · intro i; exact (hf _ (hvals i)).1
  · intro i; exact (hf _ (hvals i)).2.1
  · intro i; exact (hf _ (hvals i)).2.2
  · intro m u hu hm
    have hroot : m ∈ c.charpoly.roots := by
      rw [Polynomial.mem_roots (Matrix.charpoly_monic c).ne_zero, Polynomial.IsRoot, Matrix.eval_charpoly]
      apply Matrix.exists_mulVec_eq_zero_iff.1
      refine ⟨u, hu, ?_⟩
      rw [Matrix.sub_mulVec, hm]
      funext k
      simp [Matrix.scalar_apply, Matrix.mulVec_diagonal]
    rw [← Multiset.mem_toList] at hroot
    obtain ⟨n, hn, hget⟩ := List.getElem_of_mem hroot
    exact ⟨⟨n, by rw [hlen] at hn; exact hn⟩, hget⟩

/-! ### the squared error -/

/-- squared length -/
def sq (v : V3) : ℝ := v 0 ^ 2 + v 1 ^ 2 + v 2 ^ 2

/-- a proper rotation -/
def IsRotation (r : M3) : Prop := r * r.transpose = 1 ∧ r.det = 1

/-- sum of the squared distances between the points x and the points p, after p is mapped with `f` -/
def err (l : List Row) (f : V3 → V3) : ℝ := (l.map fun r => sq (f r.1 - r.2.1)).sum

/-- sums over the pairs -/
def tot (l : List Row) (f : Row → ℝ) : ℝ := (l.map f).sum

/-- trace of the product -/
def gain (r s : M3) : ℝ := ∑ i, ∑ j, r i j * s j i

theorem tot_cons (a : Row) (l : List Row) (f : Row → ℝ) : tot (a :: l) f = f a + tot l f := by simp [tot]

theorem orth {r : M3} (h : r.transpose * r = 1) (v : V3) : sq (r.mulVec v) = sq v := by
  have e : ∀ i j, r 0 i * r 0 j + r 1 i * r 1 j + r 2 i * r 2 j = (1 : M3) i j := by
    intro i j
    rw [← h]
    simp [Matrix.mul_apply, Fin.sum_univ_three]
  have h00 := e 0 0
  have h11 := e 1 1
  have h22 := e 2 2
  have h01 := e 0 1
  have h02 := e 0 2
  have h12 := e 1 2
  simp at h00 h11 h22 h01 h02 h12
  simp only [sq, Matrix.mulVec, dotProduct, Fin.sum_univ_three]
  linear_combination (v 0) ^ 2 * h00 + (v 1) ^ 2 * h11 + (v 2) ^ 2 * h22 + 2 * v 0 * v 1 * h01 + 2 * v 0 * v 2 * h02
    + 2 * v 1 * v 2 * h12

theorem err_tot {r : M3} (h : r.transpose * r = 1) (t : V3) (l : List Row) :
    err l (fun v => r.mulVec v + t) =
      tot l (fun a => sq a.1) + tot l (fun a => sq a.2.1) + l.length * sq t
      + 2 * ∑ i, ∑ j, t i * r i j * tot l (fun a => a.1 j)
      - 2 * ∑ i, ∑ j, r i j * tot l (fun a => a.1 j * a.2.1 i)
      - 2 * ∑ i, t i * tot l (fun a => a.2.1 i) := by
  induction l with
  | nil => simp [err, tot]
  | cons a l ih =>
    have hc : err (a :: l) (fun v => r.mulVec v + t) =
        sq (r.mulVec a.1 + t - a.2.1) + err l (fun v => r.mulVec v + t) := by simp [err]
    rw [hc, ih]
    have ho := orth h a.1
    have he : sq (r.mulVec a.1 + t - a.2.1) = sq (r.mulVec a.1) + sq t + sq a.2.1
        + 2 * ∑ i, t i * r.mulVec a.1 i - 2 * ∑ i, r.mulVec a.1 i * a.2.1 i - 2 * ∑ i, t i * a.2.1 i := by
      simp only [sq, Pi.sub_apply, Pi.add_apply, Fin.sum_univ_three]
      ring
    rw [he, ho]
    simp only [tot_cons, Fin.sum_univ_three, List.length_cons, Matrix.mulVec, dotProduct]
    push_cast
    ring

/-- the part of the error that does not depend on the motion -/
def base (l : List Row) : ℝ :=
  tot l (fun a => sq a.1) + tot l (fun a => sq a.2.1) - l.length * sq (muP l) - l.length * sq (muX l)

theorem tot_mean {l : List Row} (hl : l ≠ []) (f : Row → ℝ) : tot l f = l.length * mean l f := by
  have : (l.length : ℝ) ≠ 0 := by simpa using hl
  unfold tot mean
  field_simp

theorem err_eq {r : M3} (h : r.transpose * r = 1) (t : V3) {l : List Row} (hl : l ≠ []) :
    err l (fun v => r.mulVec v + t) =
      base l - 2 * l.length * gain r (sigma l) + l.length * sq (r.mulVec (muP l) + t - muX l) := by
  rw [err_tot h t l]
  have ho := orth h (muP l)
  have hs : ∀ i j, tot l (fun a => a.1 j * a.2.1 i) = l.length * (sigma l j i + muP l j * muX l i) := by
    intro i j
    rw [tot_mean hl]
    simp [sigma]
  have hp : ∀ j, tot l (fun a => a.1 j) = l.length * muP l j := fun j => tot_mean hl _
  have hx : ∀ j, tot l (fun a => a.2.1 j) = l.length * muX l j := fun j => tot_mean hl _
  simp only [hs, hp, hx, base, gain]
  rw [← ho]
  simp only [sq, Pi.sub_apply, Pi.add_apply, Fin.sum_univ_three, Matrix.mulVec, dotProduct]
  ring

/-! ### the matrix of a quaternion -/

def Quat.mat (q : Quat) : M3 :=
  !![1 - 2 * (q.v 1 ^ 2 + q.v 2 ^ 2), 2 * (q.v 0 * q.v 1 - q.w * q.v 2), 2 * (q.v 0 * q.v 2 + q.w * q.v 1);
     2 * (q.v 0 * q.v 1 + q.w * q.v 2), 1 - 2 * (q.v 0 ^ 2 + q.v 2 ^ 2), 2 * (q.v 1 * q.v 2 - q.w * q.v 0);
     2 * (q.v 0 * q.v 2 - q.w * q.v 1), 2 * (q.v 1 * q.v 2 + q.w * q.v 0), 1 - 2 * (q.v 0 ^ 2 + q.v 1 ^ 2)]

theorem rot_mat (q : Quat) (v : V3) : q.rot v = q.mat.mulVec v := by
  ext i
  fin_cases i <;>
  · simp [Quat.rot, Quat.mat, Matrix.mulVec, dotProduct, Fin.sum_univ_three, cross_apply, Matrix.vecHead, Matrix.vecTail]
    ring

theorem mat_orth {q : Quat} (h : q.w ^ 2 + q.v 0 ^ 2 + q.v 1 ^ 2 + q.v 2 ^ 2 = 1) :
    q.mat.transpose * q.mat = 1 := by
  have hw : q.w ^ 2 = 1 - (q.v 0 ^ 2 + q.v 1 ^ 2 + q.v 2 ^ 2) := by linarith
  ext i j
  fin_cases i <;> fin_cases j <;>
  · simp [Quat.mat, Matrix.mul_apply, Fin.sum_univ_three]
    ring_nf
    try simp only [hw]
    try ring

theorem mat_det {q : Quat} (h : q.w ^ 2 + q.v 0 ^ 2 + q.v 1 ^ 2 + q.v 2 ^ 2 = 1) : q.mat.det = 1 := by
  have hw : q.w ^ 2 = 1 - (q.v 0 ^ 2 + q.v 1 ^ 2 + q.v 2 ^ 2) := by linarith
  rw [Matrix.det_fin_three]
  simp [Quat.mat]
  ring_nf
  simp only [hw]
  ring

/-- the error of the motion of getTransform -/
theorem err_code {q : Quat} (h : q.w ^ 2 + q.v 0 ^ 2 + q.v 1 ^ 2 + q.v 2 ^ 2 = 1) {l : List Row} (hl : l ≠ []) :
    err l (fun v => q.rot v + (muX l - q.rot (muP l))) = base l - 2 * l.length * gain q.mat (sigma l) := by
  simp only [rot_mat]
  rw [err_eq (mat_orth h) _ hl]
  have : sq (q.mat.mulVec (muP l) + (muX l - q.mat.mulVec (muP l)) - muX l) = 0 := by simp [sq]
  rw [this]; ring

theorem code_le {q : Quat} (h : q.w ^ 2 + q.v 0 ^ 2 + q.v 1 ^ 2 + q.v 2 ^ 2 = 1) {l : List Row} (hl : l ≠ [])
    {r : M3} (hr : r.transpose * r = 1) (t : V3) (hg : gain r (sigma l) ≤ gain q.mat (sigma l)) :
    err l (fun v => q.rot v + (muX l - q.rot (muP l))) ≤ err l (fun v => r.mulVec v + t) := by
  rw [err_code h hl, err_eq hr t hl]
  have hn : (0 : ℝ) ≤ l.length := Nat.cast_nonneg _
  have h2 : (0 : ℝ) ≤ sq (r.mulVec (muP l) + t - muX l) := by unfold sq; positivity
  nlinarith [mul_nonneg hn h2, mul_le_mul_of_nonneg_left hg hn]

end

end Envire.Icp
