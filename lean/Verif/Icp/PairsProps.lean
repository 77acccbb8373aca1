import Verif.Icp.PairsLemmas
import Mathlib.LinearAlgebra.Matrix.Adjugate

/-! C121: the transform of Pairs::getTransform; C122: add, trim and clear of the pairs -/

namespace Envire.Icp

noncomputable section

/-! ### C121 -/

/-- sum over the pairs of the product of two values, both taken relative to their mean -/
def cov (l : List Row) (f g : Row → ℝ) : ℝ :=
  (l.map fun a => (f a - (l.map f).sum / l.length) * (g a - (l.map g).sum / l.length)).sum

/-- the i-th coordinate of the point p and of the point x of a pair -/
def px (i : Fin 3) (a : Row) : ℝ := a.1 i
def xx (i : Fin 3) (a : Row) : ℝ := a.2.1 i

theorem sum_shift (l : List Row) (f g : Row → ℝ) (u v : ℝ) :
    (l.map fun a => (f a - u) * (g a - v)).sum =
      (l.map fun a => f a * g a).sum - u * (l.map g).sum - v * (l.map f).sum + l.length * (u * v) := by
  induction l with
  | nil => simp
  | cons a l ih =>
    simp only [List.map_cons, List.sum_cons, List.length_cons, ih]
    push_cast
    ring

theorem cov_eq {l : List Row} (hl : l ≠ []) (f g : Row → ℝ) :
    cov l f g = l.length * (mean l (fun a => f a * g a) - mean l f * mean l g) := by
  have : (l.length : ℝ) ≠ 0 := by simpa using hl
  unfold cov
  rw [sum_shift]
  unfold mean
  field_simp
  ring

theorem cov_sigma {l : List Row} (hl : l ≠ []) (i j : Fin 3) : cov l (px i) (xx j) = l.length * sigma l i j := by
  rw [cov_eq hl]; rfl

theorem ok_iff {s : Pairs} {l : List Row} {e : M4 → Eig} {m : Motion} {s' : Pairs} (hr : s.rows = some l)
    (h : s.getTransform e = .ok (m, s')) :
    3 ≤ s.size ∧ (e (qMat (sigma l))).select = some m.q ∧ m.t = muX l - m.q.rot (muP l) ∧ s' = { s with mse := muD l } := by
  unfold Pairs.getTransform at h
  by_cases hs : s.size < 3
  · rw [if_pos hs] at h; cases h
  · rw [if_neg hs, hr] at h
    simp only at h
    cases hq : (e (qMat (sigma l))).select with
    | none => rw [hq] at h; cases h
    | some q =>
      rw [hq] at h
      simp only [Res.ok.injEq, Prod.mk.injEq] at h
      obtain ⟨h1, h2⟩ := h
      subst h1
      exact ⟨by omega, rfl, rfl, h2.symm⟩

theorem rows_length {s : Pairs} {l : List Row} (hr : s.rows = some l) : l.length = s.size := by
  unfold Pairs.rows at hr
  unfold Pairs.size
  generalize s.pairs = ps at hr
  induction ps generalizing l with
  | nil => simp at hr; subst hr; rfl
  | cons a ps ih =>
    rw [List.mapM_cons] at hr
    cases h1 : s.row a with
    | none => rw [h1] at hr; cases hr
    | some b =>
      cases h2 : ps.mapM s.row with
      | none => rw [h1, h2] at hr; cases hr
      | some bs =>
        rw [h1, h2] at hr
        cases hr
        simp [ih h2]

theorem rows_ne {s : Pairs} {l : List Row} (hr : s.rows = some l) (h : 3 ≤ s.size) : l ≠ [] := by
  have := rows_length hr
  intro h0
  rw [h0] at this
  simp at this
  omega

/-- C121: with three pairs or more the transform is found, it is a rigid motion that maps the centre of the points p to
the centre of the points x, and the mean square error is the mean of the squared distances that were given to add -/
theorem C121_defined (e : M4 → Eig) (he : ∀ q, EigOf q (e q)) (s : Pairs) (l : List Row) (hr : s.rows = some l)
    (hs : 3 ≤ s.size) :
    ∃ m s', s.getTransform e = .ok (m, s') ∧
      (∃ r : M3, IsRotation r ∧ ∀ v, m.apply v = r.mulVec v + m.t) ∧
      m.apply (fun i => (l.map fun a => a.1 i).sum / l.length) = (fun i => (l.map fun a => a.2.1 i).sum / l.length) ∧
      s' = { s with mse := (l.map fun a => a.2.2 ^ 2).sum / l.length } := by
  obtain ⟨q, hq⟩ := select_some (sigma l) _ (he _)
  have hc := chosen (sigma l) _ (he _) q hq
  refine ⟨⟨q, muX l - q.rot (muP l)⟩, { s with mse := muD l }, ?_, ⟨q.mat, ⟨?_, mat_det hc.unit⟩, ?_⟩, ?_, ?_⟩
  · unfold Pairs.getTransform
    rw [if_neg (by omega), hr]
    simp only [hq]
  · exact mul_eq_one_comm.1 (mat_orth hc.unit)
  · intro v
    simp [Motion.apply, rot_mat]
  · have hp : (fun i => (l.map fun a => a.1 i).sum / l.length) = muP l := by
      funext i; simp [muP, mean, div_eq_mul_inv]
    have hx : (fun i => (l.map fun a => a.2.1 i).sum / l.length) = muX l := by
      funext i; simp [muX, mean, div_eq_mul_inv]
    rw [hp, hx]
    simp [Motion.apply]
  · have : muD l = (l.map fun a => a.2.2 ^ 2).sum / l.length := by
      simp [muD, mean, div_eq_mul_inv, pow_two]
    rw [this]

/-- C121: with less than three pairs the call throws -/
theorem C121_throws (e : M4 → Eig) (s : Pairs) (h : s.size < 3) : s.getTransform e = .throws := by
  unfold Pairs.getTransform
  rw [if_pos h]

theorem cross_zero {s : M3} {q : Quat} (h : Chosen s q) :
    delta s 2 * q.v 1 = delta s 1 * q.v 2 ∧ delta s 0 * q.v 2 = delta s 2 * q.v 0 ∧ delta s 1 * q.v 0 = delta s 0 * q.v 1 := by
  obtain ⟨-, -, h1, h2, h3⟩ := h
  have key : (delta s 2 * q.v 1 - delta s 1 * q.v 2) ^ 2 + (delta s 0 * q.v 2 - delta s 2 * q.v 0) ^ 2
      + (delta s 1 * q.v 0 - delta s 0 * q.v 1) ^ 2 = 0 := by
    linear_combination (delta s 2 * q.v 1 - delta s 1 * q.v 2) * h1 + (delta s 0 * q.v 2 - delta s 2 * q.v 0) * h2
      + (delta s 1 * q.v 0 - delta s 0 * q.v 1) * h3
  have a := sq_nonneg (delta s 2 * q.v 1 - delta s 1 * q.v 2)
  have b := sq_nonneg (delta s 0 * q.v 2 - delta s 2 * q.v 0)
  have c := sq_nonneg (delta s 1 * q.v 0 - delta s 0 * q.v 1)
  have z : ∀ {x : ℝ}, x ^ 2 = 0 → x = 0 := fun {x} hx => pow_eq_zero_iff (n := 2) (by norm_num) |>.1 hx
  refine ⟨sub_eq_zero.1 (z ?_), sub_eq_zero.1 (z ?_), sub_eq_zero.1 (z ?_)⟩ <;> linarith

/-- the quaternion is along (top + trace, delta) -/
theorem along {s : M3} {q : Quat} (h : Chosen s q) (i : Fin 3) : (top s + tr s) * q.v i = delta s i * q.w := by
  obtain ⟨c0, c1, c2⟩ := cross_zero h
  obtain ⟨-, -, h1, h2, h3⟩ := h
  fin_cases i
  · show (top s + tr s) * q.v 0 = delta s 0 * q.w
    linear_combination -h1 + c0
  · show (top s + tr s) * q.v 1 = delta s 1 * q.w
    linear_combination -h2 + c1
  · show (top s + tr s) * q.v 2 = delta s 2 * q.w
    linear_combination -h3 + c2

theorem mean_add (l : List Row) (f g : Row → ℝ) : mean l (fun a => f a + g a) = mean l f + mean l g := by
  unfold mean
  rw [List.sum_map_add]
  ring

theorem mean_mul (l : List Row) (f : Row → ℝ) (c : ℝ) : mean l (fun a => c * f a) = c * mean l f := by
  unfold mean
  rw [List.sum_map_mul_left]
  ring

theorem mean_const {l : List Row} (hl : l ≠ []) (c : ℝ) : mean l (fun _ => c) = c := by
  have : (l.length : ℝ) ≠ 0 := by simpa using hl
  unfold mean
  simp
  field_simp

theorem mean_congr {l : List Row} {f g : Row → ℝ} (h : ∀ a ∈ l, f a = g a) : mean l f = mean l g := by
  unfold mean
  rw [List.map_congr_left h]

theorem shift_cases (e : M4 → Eig) (he : ∀ q, EigOf q (e q)) (s : Pairs) (l : List Row) (hr : s.rows = some l) (d : V3)
    (hd : ∀ a ∈ l, a.2.1 = a.1 + d) (m : Motion) (s' : Pairs) (h : s.getTransform e = .ok (m, s')) :
    ((∀ a ∈ l, a.1 = muP l) ∧ ∀ a ∈ l, m.apply a.1 = a.2.1) ∨ ∀ v, m.apply v = v + d := by
  obtain ⟨h3, hq, ht, -⟩ := ok_iff hr h
  have hl := rows_ne hr h3
  have hc := chosen (sigma l) _ (he _) m.q hq
  have hx : ∀ i, muX l i = muP l i + d i := by
    intro i
    have : mean l (fun a => a.2.1 i) = mean l (fun a => a.1 i + d i) :=
      mean_congr fun a ha => by rw [hd a ha]; rfl
    show mean l (fun a => a.2.1 i) = _
    rw [this, mean_add, mean_const hl]
    rfl
  have hsig : ∀ i j, l.length * sigma l i j = cov l (px i) (px j) := by
    intro i j
    rw [cov_eq hl]
    congr 1
    show mean l (fun a => a.1 i * a.2.1 j) - muP l i * muX l j = _
    have : mean l (fun a => a.1 i * a.2.1 j) = mean l (fun a => a.1 i * a.1 j) + d j * muP l i := by
      rw [mean_congr (g := fun a => a.1 i * a.1 j + d j * a.1 i) fun a ha => by
        rw [hd a ha]; simp only [Pi.add_apply]; ring]
      rw [mean_add, mean_mul]
      rfl
    rw [this, hx]
    show _ = mean l (fun a => a.1 i * a.1 j) - muP l i * muP l j
    ring
  have hn : (0 : ℝ) < l.length := by
    have : 0 < l.length := List.length_pos_iff.2 hl
    exact_mod_cast this
  have hsym : ∀ i j, sigma l i j = sigma l j i := by
    intro i j
    apply mul_left_cancel₀ hn.ne'
    rw [hsig, hsig]
    unfold cov
    congr 1
    apply List.map_congr_left
    intro a _
    ring
  have hdel : delta (sigma l) = 0 := by
    funext i
    fin_cases i
    · simp [delta, diff, hsym 1 2]
    · simp [delta, diff, hsym 2 0]
    · simp [delta, diff, hsym 0 1]
  have hdiag : ∀ i, 0 ≤ cov l (px i) (px i) := by
    intro i
    apply List.sum_nonneg
    intro x hx
    obtain ⟨a, -, rfl⟩ := List.mem_map.1 hx
    exact mul_self_nonneg _
  have htr : 0 ≤ tr (sigma l) := by
    have h0 := hdiag 0
    have h1 := hdiag 1
    have h2 := hdiag 2
    rw [← hsig] at h0 h1 h2
    unfold tr
    have : 0 ≤ l.length * (sigma l 0 0 + sigma l 1 1 + sigma l 2 2) := by linarith
    exact nonneg_of_mul_nonneg_right this hn
  have htop : top (sigma l) = tr (sigma l) := by
    unfold top
    rw [hdel]
    simp [Real.sqrt_sq htr]
  rcases htr.eq_or_lt with h0 | h0
  · -- all points are equal
    have hz : ∀ i, cov l (px i) (px i) = 0 := by
      have h0' : l.length * sigma l 0 0 + l.length * sigma l 1 1 + l.length * sigma l 2 2 = 0 := by
        have : l.length * tr (sigma l) = 0 := by rw [← h0]; ring
        unfold tr at this
        linarith
      rw [hsig, hsig, hsig] at h0'
      intro i
      have a0 := hdiag 0
      have a1 := hdiag 1
      have a2 := hdiag 2
      fin_cases i
      · show cov l (px 0) (px 0) = 0; linarith
      · show cov l (px 1) (px 1) = 0; linarith
      · show cov l (px 2) (px 2) = 0; linarith
    have hpe : ∀ a ∈ l, a.1 = muP l := by
      intro a ha
      funext i
      have hzi := hz i
      have hmem : (px i a - (l.map (px i)).sum / l.length) * (px i a - (l.map (px i)).sum / l.length) ≤ 0 := by
        rw [← hzi]
        apply List.single_le_sum
        · intro x hx
          obtain ⟨b, -, rfl⟩ := List.mem_map.1 hx
          exact mul_self_nonneg _
        · exact List.mem_map.2 ⟨a, ha, rfl⟩
      have := mul_self_eq_zero.1 (le_antisymm hmem (mul_self_nonneg _))
      show px i a = mean l (px i)
      unfold mean
      rw [← div_eq_mul_one_div]
      linarith
    refine Or.inl ⟨hpe, ?_⟩
    intro a ha
    unfold Motion.apply
    rw [ht, hpe a ha, hd a ha, hpe a ha]
    funext i
    simp [hx]
  · have hv : m.q.v = 0 := by
      funext i
      have := along hc i
      rw [htop, hdel] at this
      simp only [Pi.zero_apply, zero_mul] at this
      exact (mul_eq_zero.1 this).resolve_left (by linarith)
    have hrot : ∀ v, m.q.rot v = v := by
      intro v
      simp [Quat.rot, hv]
    right
    intro v
    unfold Motion.apply
    rw [ht, hrot, hrot]
    funext i
    simp [hx]

/-- C121: if every point x is the point p shifted by one vector then the transform maps every p to its x, and unless all
points are equal it is the shift -/
theorem C121_shift (e : M4 → Eig) (he : ∀ q, EigOf q (e q)) (s : Pairs) (l : List Row) (hr : s.rows = some l) (d : V3)
    (hd : ∀ a ∈ l, a.2.1 = a.1 + d) (m : Motion) (s' : Pairs) (h : s.getTransform e = .ok (m, s')) :
    (∀ a ∈ l, m.apply a.1 = a.2.1) ∧ ((∃ a ∈ l, ∃ b ∈ l, a.1 ≠ b.1) → ∀ v, m.apply v = v + d) := by
  rcases shift_cases e he s l hr d hd m s' h with ⟨h1, h2⟩ | h1
  · exact ⟨h2, fun ⟨a, ha, b, hb, hab⟩ => absurd ((h1 a ha).trans (h1 b hb).symm) hab⟩
  · exact ⟨fun a ha => by rw [h1, hd a ha], fun _ => h1⟩

/-! #### points in a horizontal plane -/

theorem adj {r : M3} (h : IsRotation r) : r.adjugate = r.transpose := by
  have h1 : r.transpose * r = 1 := mul_eq_one_comm.1 h.1
  have h2 := Matrix.mul_adjugate r
  rw [h.2, one_smul] at h2
  calc r.adjugate = (r.transpose * r) * r.adjugate := by rw [h1, one_mul]
    _ = r.transpose := by rw [mul_assoc, h2, mul_one]

theorem block {r : M3} (h : IsRotation r) :
    (r 0 0 + r 1 1) ^ 2 + (r 1 0 - r 0 1) ^ 2 = (1 + r 2 2) ^ 2 ∧
    (r 0 0 - r 1 1) ^ 2 + (r 0 1 + r 1 0) ^ 2 = (1 - r 2 2) ^ 2 ∧ r 2 2 ^ 2 ≤ 1 := by
  have e : ∀ i j, r i 0 * r j 0 + r i 1 * r j 1 + r i 2 * r j 2 = (1 : M3) i j := by
    intro i j
    rw [← h.1]
    simp [Matrix.mul_apply, Fin.sum_univ_three]
  have e' : ∀ i j, r 0 i * r 0 j + r 1 i * r 1 j + r 2 i * r 2 j = (1 : M3) i j := by
    intro i j
    rw [← mul_eq_one_comm.1 h.1]
    simp [Matrix.mul_apply, Fin.sum_univ_three]
  have h00 := e 0 0
  have h11 := e 1 1
  have h22 := e' 2 2
  simp at h00 h11 h22
  have hd := congrFun (congrFun (adj h) 2) 2
  rw [Matrix.adjugate_fin_three] at hd
  simp at hd
  refine ⟨?_, ?_, ?_⟩
  · linear_combination h00 + h11 - h22 + 2 * hd
  · linear_combination h00 + h11 - h22 - 2 * hd
  · nlinarith [mul_self_nonneg (r 0 2), mul_self_nonneg (r 1 2)]

theorem cauchy {a b u v k c : ℝ} (hk : 0 ≤ k) (hc : 0 ≤ c) (h : a ^ 2 + b ^ 2 = k ^ 2) (h' : u ^ 2 + v ^ 2 = c ^ 2) :
    a * u + b * v ≤ k * c := by
  apply abs_le_of_sq_le_sq' _ (by positivity) |>.2
  nlinarith [sq_nonneg (a * v - b * u)]

theorem plane_sigma {l : List Row} (hl : l ≠ []) {zp zx : ℝ} (hp : ∀ a ∈ l, a.1 2 = zp) (hx : ∀ a ∈ l, a.2.1 2 = zx) :
    (∀ j, sigma l 2 j = 0) ∧ ∀ i, sigma l i 2 = 0 := by
  have hmp : muP l 2 = zp := by
    show mean l (fun a => a.1 2) = zp
    rw [mean_congr hp, mean_const hl]
  have hmx : muX l 2 = zx := by
    show mean l (fun a => a.2.1 2) = zx
    rw [mean_congr hx, mean_const hl]
  constructor
  · intro j
    show mean l (fun a => a.1 2 * a.2.1 j) - muP l 2 * muX l j = 0
    rw [mean_congr (g := fun a => zp * a.2.1 j) fun a ha => by rw [hp a ha], mean_mul, hmp]
    show zp * muX l j - zp * muX l j = 0
    ring
  · intro i
    show mean l (fun a => a.1 i * a.2.1 2) - muP l i * muX l 2 = 0
    rw [mean_congr (g := fun a => zx * a.1 i) fun a ha => by rw [hx a ha]; ring, mean_mul, hmx]
    show zx * muP l i - muP l i * zx = 0
    ring

theorem plane_gain {l : List Row} (hl : l ≠ []) {zp zx : ℝ} (hp : ∀ a ∈ l, a.1 2 = zp) (hx : ∀ a ∈ l, a.2.1 2 = zx)
    {q : Quat} (hc : Chosen (sigma l) q)
    (hd : 0 < tr (sigma l) ∨ delta (sigma l) 2 ≠ 0) :
    gain q.mat (sigma l) = top (sigma l) := by
  obtain ⟨r2, c2⟩ := plane_sigma hl hp hx
  have d0 : delta (sigma l) 0 = 0 := by simp [delta, diff, r2, c2]
  have d1 : delta (sigma l) 1 = 0 := by simp [delta, diff, r2, c2]
  have hpos : 0 < top (sigma l) + tr (sigma l) := by
    have h0 := top_nonneg (sigma l)
    rcases hd with hd | hd
    · linarith
    · have hs := top_sq (sigma l)
      have hp : 0 < delta (sigma l) 2 ^ 2 := by positivity
      rw [d0, d1] at hs
      by_contra hcon
      push Not at hcon
      nlinarith
  have v0 : q.v 0 = 0 := by
    have := along hc 0
    rw [d0, zero_mul] at this
    exact (mul_eq_zero.1 this).resolve_left hpos.ne'
  have v1 : q.v 1 = 0 := by
    have := along hc 1
    rw [d1, zero_mul] at this
    exact (mul_eq_zero.1 this).resolve_left hpos.ne'
  obtain ⟨hu, e0, -, -, e3⟩ := hc
  have hd2 : delta (sigma l) 2 = sigma l 0 1 - sigma l 1 0 := by simp [delta, diff]
  rw [v0, v1, d0, d1, hd2] at e0 e3
  rw [v0, v1] at hu
  have ht : tr (sigma l) = sigma l 0 0 + sigma l 1 1 := by simp [tr, r2]
  rw [ht] at e0 e3
  simp only [gain, Fin.sum_univ_three, r2, c2, Quat.mat]
  simp [v0, v1]
  linear_combination q.w * e0 + q.v 2 * e3 + (top (sigma l) - sigma l 0 0 - sigma l 1 1) * hu

/-- the rotation of a plane -/
theorem plane_bound {l : List Row} (hl : l ≠ []) {zp zx : ℝ} (hp : ∀ a ∈ l, a.1 2 = zp) (hx : ∀ a ∈ l, a.2.1 2 = zx)
    {r : M3} (hr : IsRotation r)
    (hz : r 2 2 = 1 ∨ 0 ≤ sigma l 0 0 * sigma l 1 1 - sigma l 0 1 * sigma l 1 0) :
    gain r (sigma l) ≤ top (sigma l) := by
  obtain ⟨r2, c2⟩ := plane_sigma hl hp hx
  obtain ⟨b1, b2, b3⟩ := block hr
  have d0 : delta (sigma l) 0 = 0 := by simp [delta, diff, r2, c2]
  have d1 : delta (sigma l) 1 = 0 := by simp [delta, diff, r2, c2]
  have hd2 : delta (sigma l) 2 = sigma l 0 1 - sigma l 1 0 := by simp [delta, diff]
  have ht : tr (sigma l) = sigma l 0 0 + sigma l 1 1 := by simp [tr, r2]
  have hts := top_sq (sigma l)
  rw [d0, d1, hd2, ht] at hts
  have hz2 := abs_le_of_sq_le_sq' (show r 2 2 ^ 2 ≤ 1 ^ 2 by linarith) (by norm_num)
  have k1 : (r 0 0 + r 1 1) * (sigma l 0 0 + sigma l 1 1) + (r 1 0 - r 0 1) * (sigma l 0 1 - sigma l 1 0)
      ≤ (1 + r 2 2) * top (sigma l) :=
    cauchy (by linarith [hz2.1]) (top_nonneg _) b1 (by linarith)
  have hg : gain r (sigma l) = r 0 0 * sigma l 0 0 + r 0 1 * sigma l 1 0 + r 1 0 * sigma l 0 1 + r 1 1 * sigma l 1 1 := by
    simp only [gain, Fin.sum_univ_three, r2, c2]
    ring
  set w := √((sigma l 0 0 - sigma l 1 1) ^ 2 + (sigma l 0 1 + sigma l 1 0) ^ 2) with hw
  have hws : (sigma l 0 0 - sigma l 1 1) ^ 2 + (sigma l 0 1 + sigma l 1 0) ^ 2 = w ^ 2 := (Real.sq_sqrt (by positivity)).symm
  have hw0 : 0 ≤ w := Real.sqrt_nonneg _
  have k2 : (r 0 0 - r 1 1) * (sigma l 0 0 - sigma l 1 1) + (r 0 1 + r 1 0) * (sigma l 0 1 + sigma l 1 0)
      ≤ (1 - r 2 2) * w :=
    cauchy (by linarith [hz2.2]) hw0 b2 hws
  have k3 : (1 - r 2 2) * w ≤ (1 - r 2 2) * top (sigma l) := by
    rcases hz with hz | hz
    · rw [hz]; simp
    · apply mul_le_mul_of_nonneg_left _ (by linarith [hz2.2])
      apply le_top
      rw [d0, d1, hd2, ht, ← hws]
      nlinarith
  rw [hg]
  linarith

theorem code_err {s : Pairs} {l : List Row} {m : Motion} (ht : m.t = muX l - m.q.rot (muP l)) :
    err l m.apply = err l (fun v => m.q.rot v + (muX l - m.q.rot (muP l))) := by
  have : m.apply = fun v => m.q.rot v + (muX l - m.q.rot (muP l)) := by
    funext v
    unfold Motion.apply
    rw [ht]
  rw [this]

/-- The claim of C121, icp.hpp l.46-49: no rigid motion has a smaller error -/
def Minimal (l : List Row) (m : Motion) : Prop :=
  ∀ (r : M3) (t : V3), IsRotation r → err l m.apply ≤ err l fun v => r.mulVec v + t

/-- C121: if the points p have one height and the points x have one height, then no motion that keeps heights level (a
rotation about the z axis and a shift) has a smaller sum of squared distances, unless the points are turned by half a turn.
Missing: points in space, see C121_wrong_in_space, half turns, see C121_half_turn, and the motions that turn the plane over,
see C121_plane -/
theorem C121_level_partial (e : M4 → Eig) (he : ∀ q, EigOf q (e q)) (s : Pairs) (l : List Row) (hr : s.rows = some l)
    (zp zx : ℝ) (hp : ∀ a ∈ l, a.1 2 = zp) (hx : ∀ a ∈ l, a.2.1 2 = zx)
    (hturn : 0 < cov l (px 0) (xx 0) + cov l (px 1) (xx 1) ∨ cov l (px 0) (xx 1) ≠ cov l (px 1) (xx 0))
    (m : Motion) (s' : Pairs) (h : s.getTransform e = .ok (m, s')) :
    ∀ (r : M3) (t : V3), IsRotation r → r 2 2 = 1 → err l m.apply ≤ err l fun v => r.mulVec v + t := by
  obtain ⟨h3, hq, ht, -⟩ := ok_iff hr h
  have hl := rows_ne hr h3
  have hc := chosen (sigma l) _ (he _) m.q hq
  have hn : (0 : ℝ) < l.length := by exact_mod_cast List.length_pos_iff.2 hl
  have hd : 0 < tr (sigma l) ∨ delta (sigma l) 2 ≠ 0 := by
    simp only [cov_sigma hl] at hturn
    rcases hturn with h | h
    · left
      have : sigma l 2 2 = 0 := (plane_sigma hl hp hx).1 2
      unfold tr
      rw [this, add_zero]
      rw [← mul_add] at h
      exact pos_of_mul_pos_right h hn.le
    · right
      intro h0
      simp [delta, diff] at h0
      apply h
      rw [sub_eq_zero.1 h0]
  intro r t hr hz
  rw [code_err (s := s) ht]
  apply code_le hc.unit hl (mul_eq_one_comm.1 hr.1)
  rw [plane_gain hl hp hx hc hd]
  exact plane_bound hl hp hx hr (Or.inl hz)

/-- C121: if moreover the determinant of the covariance of the plane is not negative (the points x do not look like a mirror
image of the points p) then no rigid motion at all has a smaller error -/
theorem C121_plane (e : M4 → Eig) (he : ∀ q, EigOf q (e q)) (s : Pairs) (l : List Row) (hr : s.rows = some l)
    (zp zx : ℝ) (hp : ∀ a ∈ l, a.1 2 = zp) (hx : ∀ a ∈ l, a.2.1 2 = zx)
    (hturn : 0 < cov l (px 0) (xx 0) + cov l (px 1) (xx 1) ∨ cov l (px 0) (xx 1) ≠ cov l (px 1) (xx 0))
    (hdet : cov l (px 0) (xx 1) * cov l (px 1) (xx 0) ≤ cov l (px 0) (xx 0) * cov l (px 1) (xx 1))
    (m : Motion) (s' : Pairs) (h : s.getTransform e = .ok (m, s')) : Minimal l m := by
  obtain ⟨h3, hq, ht, -⟩ := ok_iff hr h
  have hl := rows_ne hr h3
  have hc := chosen (sigma l) _ (he _) m.q hq
  have hn : (0 : ℝ) < l.length := by exact_mod_cast List.length_pos_iff.2 hl
  have hd : 0 < tr (sigma l) ∨ delta (sigma l) 2 ≠ 0 := by
    simp only [cov_sigma hl] at hturn
    rcases hturn with h | h
    · left
      have : sigma l 2 2 = 0 := (plane_sigma hl hp hx).1 2
      unfold tr
      rw [this, add_zero]
      rw [← mul_add] at h
      exact pos_of_mul_pos_right h hn.le
    · right
      intro h0
      simp [delta, diff] at h0
      apply h
      rw [sub_eq_zero.1 h0]
  intro r t hr
  rw [code_err (s := s) ht]
  apply code_le hc.unit hl (mul_eq_one_comm.1 hr.1)
  rw [plane_gain hl hp hx hc hd]
  apply plane_bound hl hp hx hr (Or.inr _)
  simp only [cov_sigma hl] at hdet
  have h2 : 0 < (l.length : ℝ) * l.length := by positivity
  have : 0 ≤ ((l.length : ℝ) * l.length) * (sigma l 0 0 * sigma l 1 1 - sigma l 0 1 * sigma l 1 0) := by linarith
  exact nonneg_of_mul_nonneg_right this h2

/-- rotation about the z axis, given by cosine and sine -/
def turnZ (c s : ℝ) : M3 := !![c, -s, 0; s, c, 0; 0, 0, 1]

/-- C121, wrong: if the points are not all on one height and the points x are the points p turned about the z axis, by
neither zero nor half a turn, then the result is never the turn -/
theorem C121_wrong_in_space (e : M4 → Eig) (he : ∀ q, EigOf q (e q)) (s : Pairs) (l : List Row) (hr : s.rows = some l)
    (c sn : ℝ) (hs : sn ≠ 0) (hcs : c ^ 2 + sn ^ 2 = 1) (t : V3)
    (hx : ∀ a ∈ l, a.2.1 = (turnZ c sn).mulVec a.1 + t)
    (hz : ∃ a ∈ l, ∃ b ∈ l, a.1 2 ≠ b.1 2)
    (m : Motion) (s' : Pairs) (h : s.getTransform e = .ok (m, s')) :
    ¬ ∀ v, m.apply v = (turnZ c sn).mulVec v + t := by
  obtain ⟨h3, hq, ht, -⟩ := ok_iff hr h
  have hl := rows_ne hr h3
  have hn : (0 : ℝ) < l.length := by exact_mod_cast List.length_pos_iff.2 hl
  have hc := chosen (sigma l) _ (he _) m.q hq
  -- the covariance of the points p
  set C : Fin 3 → Fin 3 → ℝ := fun i j => mean l (fun a => a.1 i * a.1 j) - muP l i * muP l j with hC
  have x0 : ∀ a ∈ l, a.2.1 0 = c * a.1 0 + (-sn * a.1 1 + t 0) := by
    intro a ha; rw [hx a ha]; simp [turnZ, Matrix.mulVec, dotProduct, Fin.sum_univ_three]; ring
  have x1 : ∀ a ∈ l, a.2.1 1 = sn * a.1 0 + (c * a.1 1 + t 1) := by
    intro a ha; rw [hx a ha]; simp [turnZ, Matrix.mulVec, dotProduct, Fin.sum_univ_three]; ring
  have x2 : ∀ a ∈ l, a.2.1 2 = a.1 2 + t 2 := by
    intro a ha; rw [hx a ha]; simp [turnZ, Matrix.mulVec, dotProduct, Fin.sum_univ_three]
  have m0 : muX l 0 = c * muP l 0 + (-sn * muP l 1 + t 0) := by
    show mean l (fun a => a.2.1 0) = _
    rw [mean_congr x0, mean_add, mean_add, mean_mul, mean_mul, mean_const hl]; rfl
  have m1 : muX l 1 = sn * muP l 0 + (c * muP l 1 + t 1) := by
    show mean l (fun a => a.2.1 1) = _
    rw [mean_congr x1, mean_add, mean_add, mean_mul, mean_mul, mean_const hl]; rfl
  have m2 : muX l 2 = muP l 2 + t 2 := by
    show mean l (fun a => a.2.1 2) = _
    rw [mean_congr x2, mean_add, mean_const hl]; rfl
  have s0 : ∀ i, sigma l i 0 = c * C i 0 - sn * C i 1 := by
    intro i
    show mean l (fun a => a.1 i * a.2.1 0) - muP l i * muX l 0 = _
    rw [mean_congr (g := fun a => c * (a.1 i * a.1 0) + (-sn * (a.1 i * a.1 1) + t 0 * a.1 i)) fun a ha => by
      rw [x0 a ha]; ring]
    rw [mean_add, mean_add, mean_mul, mean_mul, mean_mul, m0, hC]
    show _ + (_ + t 0 * muP l i) - _ = _
    ring
  have s1 : ∀ i, sigma l i 1 = sn * C i 0 + c * C i 1 := by
    intro i
    show mean l (fun a => a.1 i * a.2.1 1) - muP l i * muX l 1 = _
    rw [mean_congr (g := fun a => sn * (a.1 i * a.1 0) + (c * (a.1 i * a.1 1) + t 1 * a.1 i)) fun a ha => by
      rw [x1 a ha]; ring]
    rw [mean_add, mean_add, mean_mul, mean_mul, mean_mul, m1, hC]
    show _ + (_ + t 1 * muP l i) - _ = _
    ring
  have s2 : ∀ i, sigma l i 2 = C i 2 := by
    intro i
    show mean l (fun a => a.1 i * a.2.1 2) - muP l i * muX l 2 = _
    rw [mean_congr (g := fun a => a.1 i * a.1 2 + t 2 * a.1 i) fun a ha => by rw [x2 a ha]; ring]
    rw [mean_add, mean_mul, m2, hC]
    show _ + t 2 * muP l i - _ = _
    ring
  have hsym : C 0 1 = C 1 0 := by
    simp only [hC]
    rw [mean_congr (g := fun a => a.1 1 * a.1 0) fun a _ => by ring]
    ring
  have htr : tr (sigma l) = c * (C 0 0 + C 1 1) + C 2 2 := by
    unfold tr
    rw [s0, s1, s2, hsym]; ring
  have hdel : delta (sigma l) 2 = sn * (C 0 0 + C 1 1) := by
    simp [delta, diff]
    rw [s0, s1, hsym]; ring
  -- the heights differ
  have hC2 : 0 < C 2 2 := by
    have hcov : cov l (px 2) (px 2) = l.length * C 2 2 := cov_eq hl _ _
    have hnn : 0 ≤ cov l (px 2) (px 2) := by
      apply List.sum_nonneg
      intro x hx
      obtain ⟨a, -, rfl⟩ := List.mem_map.1 hx
      exact mul_self_nonneg _
    rcases hnn.eq_or_lt with h0 | h0
    · exfalso
      obtain ⟨a, ha, b, hb, hab⟩ := hz
      have hall : ∀ a ∈ l, a.1 2 = (l.map (px 2)).sum / l.length := by
        intro a ha
        have hmem : (px 2 a - (l.map (px 2)).sum / l.length) * (px 2 a - (l.map (px 2)).sum / l.length) ≤ 0 := by
          rw [h0]
          apply List.single_le_sum
          · intro x hx
            obtain ⟨b, -, rfl⟩ := List.mem_map.1 hx
            exact mul_self_nonneg _
          · exact List.mem_map.2 ⟨a, ha, rfl⟩
        have := mul_self_eq_zero.1 (le_antisymm hmem (mul_self_nonneg _))
        show px 2 a = _
        linarith
      exact hab ((hall a ha).trans (hall b hb).symm)
    · rw [hcov] at h0
      exact pos_of_mul_pos_right h0 hn.le
  intro hall
  -- the matrices are equal
  have hmat : ∀ v, m.q.mat.mulVec v = (turnZ c sn).mulVec v := by
    have h0 := hall 0
    unfold Motion.apply at h0 hall
    simp only [rot_mat, Matrix.mulVec_zero, zero_add] at h0 hall
    intro v
    have := hall v
    rw [h0] at this
    exact add_right_cancel this
  have hm22 := congrFun (hmat ![0, 0, 1]) 2
  have hm00 := congrFun (hmat ![1, 0, 0]) 0
  have hm10 := congrFun (hmat ![1, 0, 0]) 1
  simp [Quat.mat, turnZ, Matrix.mulVec, dotProduct, Fin.sum_univ_three] at hm22 hm00 hm10
  have hv0 : m.q.v 0 = 0 := by nlinarith [sq_nonneg (m.q.v 0), sq_nonneg (m.q.v 1)]
  have hv1 : m.q.v 1 = 0 := by nlinarith [sq_nonneg (m.q.v 0), sq_nonneg (m.q.v 1)]
  obtain ⟨hu, e0, -, -, e3⟩ := hc
  rw [hv0, hv1, htr, hdel] at e0 e3
  rw [hv0, hv1] at hu
  rw [hv1] at hm00
  rw [hv0] at hm10
  have key : C 2 2 * sn = 0 := by
    linear_combination m.q.v 2 * e0 - m.q.w * e3 + (sn * (C 0 0 + C 1 1)) * (hm00 + hu)
      - (c * (C 0 0 + C 1 1) + C 2 2) * hm10
  rcases mul_eq_zero.1 key with h | h
  · exact hC2.ne' h
  · exact hs h

/-! ### C122 -/

theorem mapM_of {α β : Type} {f : α → Option β} {ps : List α} (h : ∀ a ∈ ps, (f a).isSome) :
    ps.mapM f = some (ps.filterMap f) := by
  induction ps with
  | nil => rfl
  | cons a ps ih =>
    have ha := h a (List.mem_cons_self ..)
    obtain ⟨b, hb⟩ := Option.isSome_iff_exists.1 ha
    rw [List.mapM_cons, hb, ih fun c hc => h c (List.mem_cons_of_mem _ hc), List.filterMap_cons_some hb]
    rfl

theorem of_mapM {α β : Type} {f : α → Option β} {ps : List α} {l : List β} (h : ps.mapM f = some l) :
    (∀ a ∈ ps, (f a).isSome) ∧ l = ps.filterMap f := by
  have hall : ∀ a ∈ ps, (f a).isSome := by
    induction ps generalizing l with
    | nil => simp
    | cons a ps ih =>
      rw [List.mapM_cons] at h
      cases h1 : f a with
      | none => rw [h1] at h; cases h
      | some b =>
        cases h2 : ps.mapM f with
        | none => rw [h1, h2] at h; cases h
        | some bs =>
          intro c hc
          rcases List.mem_cons.1 hc with rfl | hc
          · rw [h1]; rfl
          · exact ih h2 c hc
  refine ⟨hall, ?_⟩
  rw [mapM_of hall] at h
  exact (Option.some.inj h).symm

theorem row_dist {s : Pairs} {e : Entry} {r : Row} (h : s.row e = some r) : r.2.2 = e.distance := by
  unfold Pairs.row at h
  split at h
  · cases h; rfl
  · cases h

/-- the operations of a user -/
inductive Op | clear | add (a b : V3) (dist : ℝ) | trim (n : Nat)

def step (so : Sorting) (s : Pairs) : Op → Pairs
  | .clear => s.clear
  | .add a b d => s.add a b d
  | .trim n => (s.trim so n).1

/-- the pairs refer to points that exist -/
structure Good (s : Pairs) : Prop where
  len : s.x.length = s.p.length
  num : s.pairs.length ≤ s.x.length
  idx : ∀ e ∈ s.pairs, e.index < s.x.length

theorem kept_sub (so : Sorting) (s : Pairs) (n : Nat) :
    (s.trim so n).1.pairs = (so.sort s.pairs).take n := by
  unfold Pairs.trim
  dsimp only
  split
  · rfl
  · rw [List.take_of_length_le (by omega)]

theorem good_step (so : Sorting) (s : Pairs) (h : Good s) (o : Op) : Good (step so s o) := by
  cases o with
  | clear => exact ⟨rfl, le_refl 0, by simp [step, Pairs.clear]⟩
  | add a b d =>
    refine ⟨?_, ?_, ?_⟩
    · simp [step, Pairs.add, h.len]
    · simp only [step, Pairs.add, List.length_append, List.length_singleton]
      have := h.num
      omega
    · intro e he
      simp only [step, Pairs.add, List.mem_append, List.mem_singleton, List.length_append, List.length_singleton] at he ⊢
      rcases he with he | he
      · have := h.idx e he
        omega
      · subst he
        have := h.num
        show s.pairs.length < _
        omega
  | trim n =>
    refine ⟨h.len, ?_, ?_⟩
    · show (s.trim so n).1.pairs.length ≤ s.x.length
      rw [kept_sub, List.length_take, (so.perm _).length_eq]
      have := h.num
      omega
    · intro e he
      show e.index < s.x.length
      apply h.idx
      apply (so.perm _).mem_iff.1
      change e ∈ (s.trim so n).1.pairs at he
      rw [kept_sub] at he
      exact List.mem_of_mem_take he

theorem good_rows {s : Pairs} (h : Good s) : ∃ l, s.rows = some l := by
  refine ⟨_, mapM_of ?_⟩
  intro e he
  have h1 := h.idx e he
  have h2 : e.index < s.p.length := by rw [← h.len]; exact h1
  unfold Pairs.row
  rw [List.getElem?_eq_getElem h1, List.getElem?_eq_getElem h2]
  rfl

/-- C122: whatever was added, trimmed and cleared, every pair refers to points that exist, so getTransform is defined
from three pairs on -/
theorem C122_defined (so : Sorting) (e : M4 → Eig) (he : ∀ q, EigOf q (e q)) (ops : List Op) (mse : ℝ) :
    let s := ops.foldl (step so) ⟨[], [], [], mse⟩
    if s.size < 3 then s.getTransform e = .throws else ∃ m s', s.getTransform e = .ok (m, s') := by
  intro s
  have hg : Good s := by
    have : ∀ (s0 : Pairs), Good s0 → Good (ops.foldl (step so) s0) := by
      induction ops with
      | nil => intro s0 h; exact h
      | cons o ops ih => intro s0 h; exact ih _ (good_step so s0 h o)
    exact this _ ⟨rfl, le_refl 0, by simp⟩
  obtain ⟨l, hl⟩ := good_rows hg
  split
  · exact C121_throws e s (by assumption)
  · obtain ⟨m, s', h, -⟩ := C121_defined e he s l hl (by omega)
    exact ⟨m, s', h⟩

/-- the state after some pairs are added to an object without pairs -/
def added (l : List Row) (mse : ℝ) : Pairs := l.foldl (fun (s : Pairs) (r : Row) => s.add r.2.1 r.1 r.2.2) ⟨[], [], [], mse⟩

theorem added_state (l : List Row) (mse : ℝ) :
    (added l mse).x = l.map (fun r => r.2.1) ∧ (added l mse).p = l.map (fun r => r.1) ∧
    (added l mse).pairs.length = l.length ∧ (added l mse).mse = mse ∧ (added l mse).rows = some l := by
  induction l using List.reverseRecOn with
  | nil => exact ⟨rfl, rfl, rfl, rfl, rfl⟩
  | append_singleton l r ih =>
    obtain ⟨h1, h2, h3, h4, h5⟩ := ih
    have hs : added (l ++ [r]) mse = (added l mse).add r.2.1 r.1 r.2.2 := by
      unfold added
      rw [List.foldl_append]
      rfl
    rw [hs]
    refine ⟨by simp [Pairs.add, h1], by simp [Pairs.add, h2], by simp [Pairs.add, h3], h4, ?_⟩
    obtain ⟨hall, hl⟩ := of_mapM h5
    have keep : ∀ e ∈ (added l mse).pairs, ((added l mse).add r.2.1 r.1 r.2.2).row e = (added l mse).row e := by
      intro e he
      have hsome := hall e he
      have b1 : e.index < (added l mse).p.length := by
        by_contra hc
        unfold Pairs.row at hsome
        rw [List.getElem?_eq_none (by omega)] at hsome
        simp at hsome
      have b2 : e.index < (added l mse).x.length := by
        rw [h1, List.length_map]
        rw [h2, List.length_map] at b1
        exact b1
      unfold Pairs.row Pairs.add
      dsimp only
      rw [List.getElem?_append_left b1, List.getElem?_append_left b2]
    have new : ((added l mse).add r.2.1 r.1 r.2.2).row ⟨l.length, r.2.2⟩ = some r := by
      unfold Pairs.row Pairs.add
      dsimp only
      rw [h1, h2]
      rw [List.getElem?_append_right (by simp), List.getElem?_append_right (by simp)]
      simp
    have hp : ((added l mse).add r.2.1 r.1 r.2.2).pairs = (added l mse).pairs ++ [⟨l.length, r.2.2⟩] := by
      simp [Pairs.add, h3]
    unfold Pairs.rows
    rw [hp, mapM_of]
    · rw [List.filterMap_append, List.filterMap_congr keep, ← hl]
      rw [List.filterMap_cons_some new]
      rfl
    · intro e he
      rcases List.mem_append.1 he with he | he
      · rw [keep e he]; exact hall e he
      · rw [List.mem_singleton.1 he, new]; rfl

/-- C122: pairs that are added to an object without pairs are the pairs of the transform, each with its own two points and
its distance -/
theorem C122_added (l : List Row) (mse : ℝ) : (added l mse).rows = some l ∧ (added l mse).size = l.length :=
  ⟨(added_state l mse).2.2.2.2, (added_state l mse).2.2.1⟩

/-- C122: trim keeps the n pairs of lowest distance (all if there are less), with their points, and returns the largest
distance that is kept, NaN if none is -/
theorem C122_trim (so : Sorting) (s : Pairs) (l : List Row) (hr : s.rows = some l) (n : Nat) :
    ∃ kept rest, (s.trim so n).1.rows = some kept ∧ l.Perm (kept ++ rest) ∧ kept.length = min n l.length ∧
      (∀ a ∈ kept, ∀ b ∈ rest, a.2.2 ≤ b.2.2) ∧
      (match (s.trim so n).2 with
        | none => kept = []
        | some d => (∃ a ∈ kept, a.2.2 = d) ∧ ∀ a ∈ kept, a.2.2 ≤ d) := by
  obtain ⟨hall, hl⟩ := of_mapM hr
  have hlen := rows_length hr
  have hrow : (s.trim so n).1.row = s.row := rfl
  have hall' : ∀ e ∈ so.sort s.pairs, (s.row e).isSome := fun e he => hall e ((so.perm _).mem_iff.1 he)
  have hsorted := so.sorted s.pairs
  rw [← List.take_append_drop n (so.sort s.pairs)] at hsorted
  rw [List.pairwise_append] at hsorted
  have hk : (s.trim so n).1.rows = some (((so.sort s.pairs).take n).filterMap s.row) := by
    unfold Pairs.rows
    rw [hrow, kept_sub]
    exact mapM_of fun e he => hall' e (List.mem_of_mem_take he)
  refine ⟨((so.sort s.pairs).take n).filterMap s.row, ((so.sort s.pairs).drop n).filterMap s.row, hk, ?_, ?_, ?_, ?_⟩
  · rw [← List.filterMap_append, List.take_append_drop, hl]
    exact (so.perm _).symm.filterMap _
  · rw [rows_length hk]
    unfold Pairs.size
    rw [kept_sub, List.length_take, (so.perm _).length_eq, hlen]
    rfl
  · intro a ha b hb
    obtain ⟨ea, hea, ha⟩ := List.mem_filterMap.1 ha
    obtain ⟨eb, heb, hb⟩ := List.mem_filterMap.1 hb
    rw [row_dist ha, row_dist hb]
    exact hsorted.2.2 ea hea eb heb
  · have hd : (s.trim so n).2 = ((so.sort s.pairs).take n).getLast?.map Entry.distance := by
      unfold Pairs.trim
      dsimp only
      split
      · rfl
      · rw [List.take_of_length_le (by omega)]
    rw [hd]
    cases hg : ((so.sort s.pairs).take n).getLast? with
    | none =>
      rw [List.getLast?_eq_none_iff] at hg
      simp [hg]
    | some e =>
      have hmem : e ∈ (so.sort s.pairs).take n := List.mem_of_getLast? hg
      obtain ⟨r, hre⟩ := Option.isSome_iff_exists.1 (hall' e (List.mem_of_mem_take hmem))
      simp only [Option.map_some]
      refine ⟨⟨r, List.mem_filterMap.2 ⟨e, hmem, hre⟩, row_dist hre⟩, ?_⟩
      intro a ha
      obtain ⟨ea, hea, ha⟩ := List.mem_filterMap.1 ha
      rw [row_dist ha]
      obtain ⟨ys, hys⟩ := List.getLast?_eq_some_iff.1 hg
      have hpw := hsorted.1
      rw [hys, List.pairwise_append] at hpw
      rw [hys] at hea
      rcases List.mem_append.1 hea with h | h
      · exact hpw.2.2 ea h e (List.mem_singleton.2 rfl)
      · rw [List.mem_singleton.1 h]

/-- C122: a cleared object has no pairs; its mean square error is still the one of the last transform -/
theorem C122_clear (s : Pairs) : s.clear.size = 0 ∧ s.clear.rows = some [] ∧ s.clear.mse = s.mse :=
  ⟨rfl, rfl, rfl⟩

/-- C122, wrong: a pair that is added after a trim does not get its own points, but those of a pair that was trimmed away -/
theorem C122_add_after_trim (so : Sorting) :
    ∃ (l : List Row) (n : Nat) (r : Row), ∀ mse,
      ∃ kept, (((added l mse).trim so n).1.add r.2.1 r.1 r.2.2).rows = some kept ∧ r ∉ kept := by
  refine ⟨[(0, 0, 1), (fun _ => 1, fun _ => 2, 2)], 1, (fun _ => 5, fun _ => 6, 3), ?_⟩
  intro mse
  have hso : so.sort [⟨0, 1⟩, ⟨1, 2⟩] = [⟨0, 1⟩, ⟨1, 2⟩] := by
    have hp := so.perm [⟨0, 1⟩, ⟨1, 2⟩]
    have hs := so.sorted [⟨0, 1⟩, ⟨1, 2⟩]
    rw [← List.reverse_perm'] at hp
    rcases List.perm_pair.1 ((List.reverse_perm _).symm.trans hp) with h | h
    · exact h
    · rw [h] at hs
      simp at hs
  have hst : added [((0 : V3), (0 : V3), (1 : ℝ)), (fun _ => 1, fun _ => 2, 2)] mse =
      ⟨[0, fun _ => 2], [0, fun _ => 1], [⟨0, 1⟩, ⟨1, 2⟩], mse⟩ := rfl
  rw [hst]
  refine ⟨[(0, 0, 1), (fun _ => 1, fun _ => 2, 3)], ?_, ?_⟩
  · unfold Pairs.trim
    dsimp only
    rw [hso]
    rfl
  · intro h
    rcases List.mem_cons.1 h with h | h
    · have := congrArg (fun r : Row => r.1 0) h
      norm_num at this
    · have := congrArg (fun r : Row => r.1 0) (List.mem_singleton.1 h)
      norm_num at this

/-- a sorting exists -/
theorem sorting_exists : Nonempty Sorting := by
  classical
  refine ⟨⟨fun l => l.insertionSort fun a b => a.distance ≤ b.distance, fun l => List.perm_insertionSort _ l, fun l => ?_⟩⟩
  haveI : Std.Total fun a b : Entry => a.distance ≤ b.distance := ⟨fun a b => le_total _ _⟩
  haveI : IsTrans Entry fun a b => a.distance ≤ b.distance := ⟨fun a b c => le_trans⟩
  exact List.pairwise_insertionSort _ l

/-! ### examples -/

/-- six points around the origin, and the points turned by a right angle about the z axis -/
def cross6 : List Row :=
  [(![1, 0, 0], ![0, 1, 0], 0), (![-1, 0, 0], ![0, -1, 0], 0), (![0, 1, 0], ![-1, 0, 0], 0),
   (![0, -1, 0], ![1, 0, 0], 0), (![0, 0, 1], ![0, 0, 1], 0), (![0, 0, -1], ![0, 0, -1], 0)]

theorem turnZ_rotation {c s : ℝ} (h : c ^ 2 + s ^ 2 = 1) : IsRotation (turnZ c s) := by
  constructor
  · ext i j
    fin_cases i <;> fin_cases j <;> simp [turnZ, Matrix.mul_apply, Fin.sum_univ_three] <;> nlinarith
  · rw [Matrix.det_fin_three]
    simp [turnZ]
    nlinarith

/-- C121, wrong: there are six pairs that a rigid motion matches without error, whereas the motion that is returned leaves
an error -/
theorem C121_not_minimal (e : M4 → Eig) (he : ∀ q, EigOf q (e q)) (mse : ℝ) :
    ∃ l m s', (added l mse).getTransform e = .ok (m, s') ∧ 0 < err l m.apply ∧
      (∃ r t, IsRotation r ∧ err l (fun v => r.mulVec v + t) = 0) ∧ ¬ Minimal l m := by
  obtain ⟨hr, hs⟩ := C122_added cross6 mse
  obtain ⟨m, s', h, ⟨r, hrot, happ⟩, -⟩ := C121_defined e he _ _ hr (by rw [hs]; decide)
  have hx : ∀ a ∈ cross6, a.2.1 = (turnZ 0 1).mulVec a.1 + 0 := by
    intro a ha
    simp only [cross6, List.mem_cons, List.not_mem_nil, or_false] at ha
    rcases ha with rfl | rfl | rfl | rfl | rfl | rfl <;> ext i <;> fin_cases i <;>
      simp [turnZ, Matrix.mulVec, dotProduct, Fin.sum_univ_three]
  have hw := C121_wrong_in_space e he _ _ hr 0 1 one_ne_zero (by norm_num) 0 hx
    ⟨(![0, 0, 1], ![0, 0, 1], 0), by simp [cross6], (![0, 0, -1], ![0, 0, -1], 0), by simp [cross6], by simp; norm_num⟩
    m s' h
  have hnn : ∀ (f : V3 → V3) (l : List Row), 0 ≤ err l f := by
    intro f l
    apply List.sum_nonneg
    intro x hx
    obtain ⟨a, -, rfl⟩ := List.mem_map.1 hx
    unfold sq
    positivity
  have hzero : err cross6 (fun v => (turnZ 0 1).mulVec v + 0) = 0 := by
    unfold err
    rw [List.map_congr_left (g := fun _ => 0) fun a ha => by rw [hx a ha]; simp [sq]]
    simp
  have hpos : 0 < err cross6 m.apply := by
    rcases (hnn m.apply cross6).eq_or_lt with h0 | h0
    · exfalso
      apply hw
      have hm : ∀ a ∈ cross6, m.apply a.1 = a.2.1 := by
        intro a ha
        have hle : sq (m.apply a.1 - a.2.1) ≤ 0 := by
          rw [h0]
          apply List.single_le_sum
          · intro x hx
            obtain ⟨b, -, rfl⟩ := List.mem_map.1 hx
            unfold sq
            positivity
          · exact List.mem_map.2 ⟨a, ha, rfl⟩
        unfold sq at hle
        have a0 := sq_nonneg ((m.apply a.1 - a.2.1) 0)
        have a1 := sq_nonneg ((m.apply a.1 - a.2.1) 1)
        have a2 := sq_nonneg ((m.apply a.1 - a.2.1) 2)
        have z : ∀ {x : ℝ}, x ^ 2 = 0 → x = 0 := fun {x} hx => pow_eq_zero_iff (n := 2) (by norm_num) |>.1 hx
        apply sub_eq_zero.1
        funext i
        fin_cases i
        · show (m.apply a.1 - a.2.1) 0 = 0
          exact z (by linarith)
        · show (m.apply a.1 - a.2.1) 1 = 0
          exact z (by linarith)
        · show (m.apply a.1 - a.2.1) 2 = 0
          exact z (by linarith)
      -- the motion is affine
      have p0 := hm (![1, 0, 0], ![0, 1, 0], 0) (by simp [cross6])
      have p1 := hm (![-1, 0, 0], ![0, -1, 0], 0) (by simp [cross6])
      have p2 := hm (![0, 1, 0], ![-1, 0, 0], 0) (by simp [cross6])
      have p4 := hm (![0, 0, 1], ![0, 0, 1], 0) (by simp [cross6])
      rw [happ] at p0 p1 p2 p4
      have q : ∀ i : Fin 3, m.t i = 0 ∧ r i 0 = (![0, 1, 0] : V3) i ∧ r i 1 = (![-1, 0, 0] : V3) i ∧ r i 2 = (![0, 0, 1] : V3) i := by
        intro i
        have a0 := congrFun p0 i
        have a1 := congrFun p1 i
        have a2 := congrFun p2 i
        have a4 := congrFun p4 i
        simp only [Pi.add_apply, Matrix.mulVec, dotProduct, Fin.sum_univ_three] at a0 a1 a2 a4
        simp at a0 a1 a2 a4
        fin_cases i
        · simp at a0 a1 a2 a4 ⊢
          refine ⟨?_, ?_, ?_, ?_⟩ <;> linarith
        · simp at a0 a1 a2 a4 ⊢
          refine ⟨?_, ?_, ?_, ?_⟩ <;> linarith
        · simp at a0 a1 a2 a4 ⊢
          refine ⟨?_, ?_, ?_, ?_⟩ <;> linarith
      intro v
      rw [happ]
      ext i
      obtain ⟨t0, r0, r1, r2⟩ := q i
      simp only [Pi.add_apply, Matrix.mulVec, dotProduct, Fin.sum_univ_three, t0, r0, r1, r2]
      fin_cases i <;> simp [turnZ]
    · exact h0
  refine ⟨cross6, m, s', h, hpos, ⟨turnZ 0 1, 0, turnZ_rotation (by norm_num), hzero⟩, ?_⟩
  intro hmin
  have := hmin (turnZ 0 1) 0 (turnZ_rotation (by norm_num))
  rw [hzero] at this
  linarith

/-- four points in a plane, and the points turned by half a turn about the z axis -/
def half4 : List Row :=
  [(![1, 0, 0], ![-1, 0, 0], 0), (![-1, 0, 0], ![1, 0, 0], 0), (![0, 1, 0], ![0, -1, 0], 0), (![0, -1, 0], ![0, 1, 0], 0)]

/-- a decomposition of the matrix of these points -/
def half4Eig : Eig := ⟨![-1, 1, 1, 1], fun i k => if i = k then 1 else 0⟩

theorem half4_mat : qMat (sigma half4) = !![-1, 0, 0, 0; 0, 1, 0, 0; 0, 0, 1, 0; 0, 0, 0, 1] := by
  have h : sigma half4 = !![-(1 / 2), 0, 0; 0, -(1 / 2), 0; 0, 0, 0] := by
    ext i j
    fin_cases i <;> fin_cases j <;> simp [sigma, mean, muP, muX, half4] <;> norm_num
  rw [qMat_eq, h]
  ext i j
  fin_cases i <;> fin_cases j <;> simp [delta, diff, tr] <;> norm_num

theorem half4_eig : EigOf (qMat (sigma half4)) half4Eig := by
  rw [half4_mat]
  refine ⟨?_, ?_, ?_, ?_⟩
  · intro i
    ext k
    fin_cases i <;> fin_cases k <;> simp [half4Eig, Matrix.mulVec, dotProduct, Fin.sum_univ_four]
  · intro i
    fin_cases i <;> simp [half4Eig, Fin.sum_univ_four]
  · intro i _ k
    simp only [half4Eig]
    split <;> simp
  · intro m u hu hm
    by_cases h0 : u 0 = 0
    · obtain ⟨k, hk⟩ : ∃ k, u k ≠ 0 := by
        by_contra hc
        push Not at hc
        exact hu (funext hc)
      refine ⟨1, ?_⟩
      have := congrFun hm k
      show (1 : ℂ) = m
      fin_cases k
      · exact absurd h0 hk
      all_goals
        simp [Matrix.mulVec, dotProduct, Fin.sum_univ_four] at this hk
        exact (mul_right_cancel₀ hk (by rw [one_mul]; exact this))
    · refine ⟨0, ?_⟩
      have := congrFun hm 0
      show (-1 : ℂ) = m
      simp [Matrix.mulVec, dotProduct, Fin.sum_univ_four] at this
      exact mul_right_cancel₀ h0 (by linear_combination this)

/-- C121, wrong: points in a plane that are turned by half a turn. There is a decomposition for which the motion that is
returned leaves an error, although the half turn matches all pairs -/
theorem C121_half_turn (mse : ℝ) :
    ∃ e : M4 → Eig, (∀ q, EigOf q (e q)) ∧ ∃ m s', (added half4 mse).getTransform e = .ok (m, s') ∧
      m.apply ![1, 0, 0] = ![1, 0, 0] ∧ ¬ Minimal half4 m := by
  classical
  obtain ⟨e, he⟩ := exists_solver
  refine ⟨Function.update e (qMat (sigma half4)) half4Eig, ?_, ?_⟩
  · intro q
    by_cases hq : q = qMat (sigma half4)
    · subst hq; rw [Function.update_self]; exact half4_eig
    · rw [Function.update_of_ne hq]; exact he q
  · obtain ⟨hr, hs⟩ := C122_added half4 mse
    have hmax : half4Eig.maxEig = 1 := by
      apply le_antisymm
      · apply Finset.sup'_le
        intro i _
        fin_cases i <;> simp [half4Eig]
      · exact le_trans (by simp [half4Eig]) (Finset.le_sup' (fun i => (half4Eig.vals i).re) (Finset.mem_univ 1))
    have hsel : half4Eig.select = some ⟨0, ![1, 0, 0]⟩ := by
      unfold Eig.select
      rw [hmax]
      have hf : (List.finRange 4).find? (fun i => decide (half4Eig.vals i = ((1 : ℝ) : ℂ))) = some 1 := by
        have hl : List.finRange 4 = [0, 1, 2, 3] := by decide
        rw [hl, List.find?_cons_of_neg, List.find?_cons_of_pos]
        · simp [half4Eig]
        · simp [half4Eig]; norm_num
      rw [hf]
      simp [half4Eig]
    have hp : muP half4 = 0 := by
      ext i
      fin_cases i <;> simp [muP, mean, half4]
    have hx : muX half4 = 0 := by
      ext i
      fin_cases i <;> simp [muX, mean, half4]
    have hrot : ∀ v : V3, (⟨0, ![1, 0, 0]⟩ : Quat).rot v = ![v 0, - v 1, - v 2] := by
      intro v
      rw [rot_mat]
      ext i
      fin_cases i <;> simp [Quat.mat, Matrix.mulVec, dotProduct, Fin.sum_univ_three] <;> ring
    refine ⟨⟨⟨0, ![1, 0, 0]⟩, muX half4 - (⟨0, ![1, 0, 0]⟩ : Quat).rot (muP half4)⟩,
      { added half4 mse with mse := muD half4 }, ?_, ?_, ?_⟩
    · unfold Pairs.getTransform
      rw [if_neg (by rw [hs]; decide), hr]
      simp only [Function.update_self, hsel]
    · unfold Motion.apply
      rw [hrot, hrot, hp, hx]
      ext i
      fin_cases i <;> simp
    · intro hmin
      have h1 := hmin (turnZ (-1) 0) 0 (turnZ_rotation (by norm_num))
      have h2 : err half4 (fun v => (turnZ (-1) 0).mulVec v + 0) = 0 := by
        simp [err, half4, sq, turnZ, Matrix.mulVec, dotProduct, Fin.sum_univ_three]
      have h3 : err half4 (⟨⟨0, ![1, 0, 0]⟩, muX half4 - (⟨0, ![1, 0, 0]⟩ : Quat).rot (muP half4)⟩ : Motion).apply = 8 := by
        simp only [err, half4, List.map_cons, List.map_nil, List.sum_cons, List.sum_nil, Motion.apply]
        rw [show [((![1, 0, 0] : V3), (![-1, 0, 0] : V3), (0 : ℝ)), (![-1, 0, 0], ![1, 0, 0], 0), (![0, 1, 0], ![0, -1, 0], 0), (![0, -1, 0], ![0, 1, 0], 0)] = half4 from rfl]
        simp only [hrot, hp, hx, sq]
        simp
        norm_num
      rw [h2, h3] at h1
      norm_num at h1

/-- the hypotheses of C121_level_partial and C121_plane can be met: three points of a plane and the points turned by a
right angle -/
example : ∃ (l : List Row) (e : M4 → Eig) (m : Motion) (s' : Pairs), (∀ q, EigOf q (e q)) ∧
    (added l 0).getTransform e = .ok (m, s') ∧ (∀ a ∈ l, a.1 2 = 7) ∧ (∀ a ∈ l, a.2.1 2 = 8) ∧
    cov l (px 0) (xx 1) ≠ cov l (px 1) (xx 0) ∧
    cov l (px 0) (xx 1) * cov l (px 1) (xx 0) ≤ cov l (px 0) (xx 0) * cov l (px 1) (xx 1) := by
  obtain ⟨e, he⟩ := exists_solver
  let l : List Row := [(![1, 0, 7], ![0, 1, 8], 0), (![0, 1, 7], ![-1, 0, 8], 0), (![-1, -1, 7], ![1, -1, 8], 0)]
  obtain ⟨hr, hs⟩ := C122_added l 0
  obtain ⟨m, s', h, -⟩ := C121_defined e he _ _ hr (by rw [hs]; decide)
  refine ⟨l, e, m, s', he, h, ?_, ?_, ?_, ?_⟩
  · simp [l]
  · simp [l]
  · simp [l, cov, px, xx]; norm_num
  · simp [l, cov, px, xx]; norm_num

/-- the hypothesis of C122_trim can be met -/
example (so : Sorting) : ∃ (l : List Row) (n : Nat), (added l 0).rows = some l ∧ ((added l 0).trim so n).1.size = 2 ∧ l.length = 3 := by
  refine ⟨[(0, 0, 3), (0, 0, 1), (0, 0, 2)], 2, (C122_added _ 0).1, ?_, rfl⟩
  unfold Pairs.size
  rw [kept_sub, List.length_take, (so.perm _).length_eq]
  rfl

end

end Envire.Icp

#print axioms Envire.Icp.C121_defined
#print axioms Envire.Icp.C121_throws
#print axioms Envire.Icp.C121_shift
#print axioms Envire.Icp.C121_level_partial
#print axioms Envire.Icp.C121_plane
#print axioms Envire.Icp.C121_wrong_in_space
#print axioms Envire.Icp.C121_not_minimal
#print axioms Envire.Icp.C121_half_turn
#print axioms Envire.Icp.C122_defined
#print axioms Envire.Icp.C122_added
#print axioms Envire.Icp.C122_trim
#print axioms Envire.Icp.C122_clear
#print axioms Envire.Icp.C122_add_after_trim
