import Verif.Icp.HistogramModel
import Mathlib.Data.List.Pairwise

/-! C127: the histogram of the distances of the pairs -/

namespace Envire.Icp.Hist

noncomputable section

/-- bin `b` of 1, …, bins + 2 contains `x`: the first and the last one take the outliers -/
def InBin (c : Conf) (b : Nat) (x : ℝ) : Prop :=
  (b ≤ 1 ∨ inner c (b - 2) ≤ x) ∧ (c.bins + 2 ≤ b ∨ x < inner c (b - 1))

open Classical in
/-- the number of values in a bin -/
def count (c : Conf) (b : Nat) (xs : List ℝ) : Nat := xs.countP fun x => InBin c b x

/-- The claim of C127: the entry of a bin is the number of its points divided by the number of points and the width of the bin -/
def Density (c : Conf) (xs h lims : List ℝ) : Prop :=
  h.length = c.bins + 2 ∧ ∀ b, 1 ≤ b → b ≤ c.bins + 2 →
    h.getD (b - 1) 0 = count c b xs / (xs.length * |lims.getD (b - 1) 0 - lims.getD b 0|)

theorem inner_mono (c : Conf) (ha : 0 ≤ c.area) {i j : Nat} (h : i ≤ j) : inner c i ≤ inner c j := by
  unfold inner
  apply mul_le_mul_of_nonneg_right
  · have : (i : ℝ) ≤ j := by exact_mod_cast h
    linarith
  · unfold binSize
    positivity

open Classical in
/-- the divisor of the entry of bin `b`, if the loop is at `bin` -/
def divisor (lim : Nat → ℝ) (c : Conf) (bin : Nat) (rest : List ℝ) (b : Nat) : ℝ :=
  if (rest = [] ∧ b = bin) ∨ ∃ x ∈ rest.getLast?, InBin c b x then width lim b else c.area

open Classical in
theorem fill_eq (lim : Nat → ℝ) (c : Conf) (n : Nat) (hl : ∀ k, 1 ≤ k → k ≤ c.bins + 1 → lim k = inner c (k - 1)) (ha : 0 ≤ c.area)
    (m bin cnt : Nat) (rest : List ℝ) (hm : (c.bins + 2 - bin) + rest.length = m) (h1 : 1 ≤ bin) (h2 : bin ≤ c.bins + 1)
    (hs : rest.Pairwise (· ≤ ·)) (hlow : ∀ x ∈ rest, bin ≤ 1 ∨ inner c (bin - 2) ≤ x) :
    (fill lim c n bin cnt rest).length = c.bins + 3 - bin ∧
    ∀ k, bin + k ≤ c.bins + 2 → (fill lim c n bin cnt rest).getD k 0 =
      (((if k = 0 then cnt else 0) + count c (bin + k) rest : Nat) : ℝ) / (n * divisor lim c bin rest (bin + k)) := by
  induction m using Nat.strong_induction_on generalizing bin cnt rest with
  | _ m ih =>
  cases rest with
  | nil =>
    rw [fill]
    constructor
    · simp only [List.length_cons, List.length_replicate]; omega
    · intro k hk
      cases k with
      | zero =>
        simp only [List.getD_cons_zero, count, List.countP_nil, if_true, add_zero, divisor, true_and, true_or]
      | succ k =>
        rw [List.getD_cons_succ, if_neg (by omega)]
        simp only [count, List.countP_nil, add_zero, Nat.cast_zero, zero_div, List.getD_eq_getElem?_getD, List.getElem?_replicate]
        split <;> rfl
  | cons d rest =>
    rw [fill]
    have hlimbin := hl bin h1 h2
    have hd := hlow d (by simp)
    by_cases hlt : d < lim bin
    · rw [if_pos hlt]
      have hs' := (List.pairwise_cons.1 hs).2
      obtain ⟨e1, e2⟩ := ih _ (by rw [← hm]; simp only [List.length_cons]; omega) bin (cnt + 1) rest rfl h1 h2 hs'
        fun x hx => hlow x (List.mem_cons_of_mem _ hx)
      refine ⟨e1, fun k hk => ?_⟩
      rw [e2 k hk]
      have hin : InBin c bin d := ⟨hd, Or.inr (by rw [← hlimbin]; exact hlt)⟩
      have hnot : 0 < k → ¬ InBin c (bin + k) d := by
        rintro hk0 ⟨h3 | h3, -⟩
        · omega
        · have := inner_mono c ha (i := bin - 1) (j := bin + k - 2) (by omega)
          rw [hlimbin] at hlt
          linarith
      have hcount : (if k = 0 then cnt + 1 else 0) + count c (bin + k) rest = (if k = 0 then cnt else 0) + count c (bin + k) (d :: rest) := by
        unfold count
        rw [List.countP_cons]
        by_cases hk0 : k = 0
        · subst hk0
          simp only [if_true, add_zero]
          rw [if_pos (decide_eq_true hin)]
          omega
        · rw [if_neg hk0, if_neg hk0, if_neg (by simpa using hnot (by omega)), add_zero]
      rw [hcount]
      congr 2
      unfold divisor
      congr 1
      apply propext
      cases rest with
      | nil =>
        simp only [true_and, List.getLast?_nil, Option.not_mem_none, false_and, exists_false, or_false, reduceCtorEq,
          List.getLast?_singleton, Option.mem_some_iff, exists_eq_left', false_or]
        constructor
        · intro h
          have : k = 0 := by omega
          subst this
          exact hin
        · intro h
          by_contra hk0
          exact hnot (by omega) h
      | cons a as =>
        simp only [reduceCtorEq, false_and, false_or, List.getLast?_cons_cons]
    · rw [if_neg hlt]
      have hge : ∀ x ∈ d :: rest, lim bin ≤ x := by
        intro x hx
        have hd' := not_lt.1 hlt
        rcases List.mem_cons.1 hx with rfl | hx
        · exact hd'
        · exact hd'.trans ((List.pairwise_cons.1 hs).1 x hx)
      have hnotin : ∀ x ∈ d :: rest, ¬ InBin c bin x := by
        rintro x hx ⟨-, h3 | h3⟩
        · omega
        · have := hge x hx
          rw [hlimbin] at this
          linarith
      have hz : count c bin (d :: rest) = 0 := by
        unfold count
        rw [List.countP_eq_zero]
        intro x hx
        simpa using hnotin x hx
      have hlast : ∃ y, (d :: rest).getLast? = some y ∧ y ∈ d :: rest :=
        ⟨_, List.getLast?_eq_some_getLast (by simp), List.getLast_mem (by simp)⟩
      obtain ⟨y, hy, hymem⟩ := hlast
      have hhead : (cnt : ℝ) / (n * c.area) =
          (((if 0 = 0 then cnt else 0) + count c (bin + 0) (d :: rest) : Nat) : ℝ) / (n * divisor lim c bin (d :: rest) (bin + 0)) := by
        rw [if_pos rfl, add_zero, hz, add_zero]
        unfold divisor
        rw [if_neg]
        rintro (h3 | ⟨x, hx, h3⟩)
        · simp at h3
        · rw [hy] at hx
          cases hx
          exact hnotin y hymem h3
      by_cases hend : c.bins + 2 ≤ bin + 1
      · rw [if_pos hend]
        have hb : bin = c.bins + 1 := by omega
        refine ⟨by simp only [List.length_cons, List.length_nil]; omega, fun k hk => ?_⟩
        cases k with
        | zero => rw [List.getD_cons_zero]; exact hhead
        | succ k =>
          have hk0 : k = 0 := by omega
          subst hk0
          rw [List.getD_cons_succ, List.getD_cons_zero, if_neg (by omega), zero_add]
          have hallin : ∀ x ∈ d :: rest, InBin c (bin + 1) x := by
            intro x hx
            refine ⟨Or.inr ?_, Or.inl hend⟩
            have := hge x hx
            rw [hlimbin] at this
            exact this
          have hc : count c (bin + (0 + 1)) (d :: rest) = rest.length + 1 := by
            unfold count
            rw [zero_add, List.countP_eq_length.2]
            · rfl
            · intro x hx
              simpa using hallin x hx
          rw [hc]
          congr 2
          unfold divisor
          rw [if_pos]
          right
          rw [hy]
          exact ⟨y, rfl, hallin y hymem⟩
      · rw [if_neg hend]
        obtain ⟨e1, e2⟩ := ih _ (by rw [← hm]; simp only [List.length_cons]; omega) (bin + 1) 0 (d :: rest) rfl (by omega) (by omega) hs
          (fun x hx => Or.inr (by have := hge x hx; rw [hlimbin] at this; exact this))
        refine ⟨by rw [List.length_cons, e1]; omega, fun k hk => ?_⟩
        cases k with
        | zero => rw [List.getD_cons_zero]; exact hhead
        | succ k =>
          rw [List.getD_cons_succ, e2 k (by omega), if_neg (by omega : ¬ k + 1 = 0)]
          have hz2 : (if k = 0 then 0 else 0 : Nat) = 0 := by split <;> rfl
          rw [hz2, show bin + (k + 1) = bin + 1 + k by omega]
          have hdiv : divisor lim c (bin + 1) (d :: rest) (bin + 1 + k) = divisor lim c bin (d :: rest) (bin + 1 + k) := by
            unfold divisor
            simp only [reduceCtorEq, false_and, false_or]
          rw [hdiv]

theorem limit_inner (c : Conf) (f b : ℝ) (k : Nat) (h1 : 1 ≤ k) (h2 : k ≤ c.bins + 1) : limit c f b k = inner c (k - 1) := by
  unfold limit
  rw [if_neg (by omega), if_pos h2]

theorem normalized_ok (h : Histogram) (dists : List ℝ) (hne : dists ≠ []) :
    ∃ front back, (dists.map fun d => (d - h.conf.mean) / h.conf.sigma).head? = some front ∧
      (dists.map fun d => (d - h.conf.mean) / h.conf.sigma).getLast? = some back ∧
      normalized h dists = .ok { h with
        histogram := fill (limit h.conf front back) h.conf dists.length 1 0 (dists.map fun d => (d - h.conf.mean) / h.conf.sigma)
        limits := (List.range (h.conf.bins + 3)).map (limit h.conf front back) } := by
  have hxne : (dists.map fun d => (d - h.conf.mean) / h.conf.sigma) ≠ [] := by simpa using hne
  refine ⟨_, _, List.head?_eq_some_head hxne, List.getLast?_eq_some_getLast hxne, ?_⟩
  unfold normalized
  dsimp only
  rw [List.head?_eq_some_head hxne, List.getLast?_eq_some_getLast hxne]
  simp only [List.length_map]

theorem sorted_map (dists : List ℝ) (m : ℝ) {s : ℝ} (hs : 0 < s) (h : dists.Pairwise (· ≤ ·)) :
    (dists.map fun d => (d - m) / s).Pairwise (· ≤ ·) := by
  rw [List.pairwise_map]
  refine h.imp ?_
  intro a b hab
  exact div_le_div_of_nonneg_right (by linarith) hs.le

open Classical in
/-- C127: of distances in ascending order, at least one, every bin gets the number of its values, divided by the number of all
values and by the area of the whole histogram, but by the width of the bin in the case of the bin of the last value.
Missing: the width of the bin in all other cases, see C127_not_density -/
theorem C127_counts_partial (h : Histogram) (dists : List ℝ) (hne : dists ≠ []) (hs : dists.Pairwise (· ≤ ·))
    (hsig : 0 < h.conf.sigma) (ha : 0 ≤ h.conf.area) :
    ∃ h', normalized h dists = .ok h' ∧ h'.conf = h.conf ∧ h'.histogram.length = h.conf.bins + 2 ∧
      h'.limits.length = h.conf.bins + 3 ∧ (∀ k ≤ h.conf.bins, h'.limits.getD (k + 1) 0 = inner h.conf k) ∧
      ∀ b, 1 ≤ b → b ≤ h.conf.bins + 2 → h'.histogram.getD (b - 1) 0 =
        count h.conf b (dists.map fun d => (d - h.conf.mean) / h.conf.sigma) / (dists.length *
          if ∃ x ∈ dists.getLast?, InBin h.conf b ((x - h.conf.mean) / h.conf.sigma) then |h'.limits.getD (b - 1) 0 - h'.limits.getD b 0|
          else h.conf.area) := by
  obtain ⟨front, back, hf, hb, hok⟩ := normalized_ok h dists hne
  have hlim : ∀ k < h.conf.bins + 3, ((List.range (h.conf.bins + 3)).map (limit h.conf front back)).getD k 0 = limit h.conf front back k := by
    intro k hk
    rw [List.getD_eq_getElem?_getD, List.getElem?_map, List.getElem?_range hk]
    rfl
  obtain ⟨e1, e2⟩ := fill_eq (limit h.conf front back) h.conf dists.length (limit_inner h.conf front back) ha _ 1 0
    (dists.map fun d => (d - h.conf.mean) / h.conf.sigma) rfl (le_refl 1) (by omega) (sorted_map _ _ hsig hs) (fun x _ => Or.inl (le_refl 1))
  refine ⟨_, hok, rfl, by rw [e1]; omega, by simp, ?_, ?_⟩
  · intro k hk
    rw [hlim _ (by omega), limit_inner _ _ _ _ (by omega) (by omega)]
    rfl
  · intro b hb1 hb2
    have := e2 (b - 1) (by omega)
    dsimp only
    rw [this, show 1 + (b - 1) = b by omega, hlim _ (by omega), hlim _ (by omega)]
    have hz : (if b - 1 = 0 then 0 else 0 : Nat) = 0 := by split <;> rfl
    rw [hz, zero_add]
    congr 2
    unfold divisor width
    congr 1
    apply propext
    rw [List.getLast?_map]
    constructor
    · rintro (⟨h3, -⟩ | ⟨x, hx, h3⟩)
      · simp at h3; exact absurd h3 hne
      · obtain ⟨y, hy, rfl⟩ := Option.map_eq_some_iff.1 hx
        exact ⟨y, hy, h3⟩
    · rintro ⟨x, hx, h3⟩
      exact Or.inr ⟨_, Option.mem_map_of_mem _ hx, h3⟩

/-- two bins, each of width one; no outliers -/
def twoBins : Histogram := ⟨⟨2, 2, true, 0, 1⟩, [], [], 0⟩

open Classical in
/-- C127, wrong: two bins of the same width with one value each get the entries 1/4 and 1/2 -/
theorem C127_not_density : ∃ (h : Histogram) (dists : List ℝ) (h' : Histogram), dists.Pairwise (· ≤ ·) ∧ 0 < h.conf.sigma ∧
    0 < h.conf.area ∧ normalized h dists = .ok h' ∧ h'.histogram = [0, 1 / 4, 1 / 2, 0] ∧ h'.limits = [-2, -1, 0, 1, 2] ∧
      ¬ Density h.conf (dists.map fun d => (d - h.conf.mean) / h.conf.sigma) h'.histogram h'.limits := by
  have i0 : inner twoBins.conf 0 = -1 := by unfold inner binSize twoBins; norm_num
  have i1 : inner twoBins.conf 1 = 0 := by unfold inner binSize twoBins; norm_num
  have i2 : inner twoBins.conf 2 = 1 := by unfold inner binSize twoBins; norm_num
  have hb : binSize twoBins.conf = 1 := by unfold binSize twoBins; norm_num
  have hbins : twoBins.conf.bins = 2 := rfl
  have l0 : limit twoBins.conf (-1 / 2) (1 / 2) 0 = -2 := by
    unfold limit; rw [if_pos rfl, i0, if_neg (by norm_num), hb]; norm_num
  have l1 : limit twoBins.conf (-1 / 2) (1 / 2) 1 = -1 := by rw [limit_inner _ _ _ _ (by norm_num) (by norm_num), i0]
  have l2 : limit twoBins.conf (-1 / 2) (1 / 2) 2 = 0 := by
    rw [limit_inner _ _ _ _ (by norm_num) (by rw [hbins]; norm_num), i1]
  have l3 : limit twoBins.conf (-1 / 2) (1 / 2) 3 = 1 := by
    rw [limit_inner _ _ _ _ (by norm_num) (by rw [hbins]), i2]
  have l4 : limit twoBins.conf (-1 / 2) (1 / 2) 4 = 2 := by
    unfold limit
    rw [if_neg (by norm_num), hbins, if_neg (by norm_num), i2, if_neg (by norm_num), hb]
    norm_num
  have hmap : ([-1 / 2, 1 / 2] : List ℝ).map (fun d => (d - twoBins.conf.mean) / twoBins.conf.sigma) = [-1 / 2, 1 / 2] := by
    simp [twoBins]
  have hfill : fill (limit twoBins.conf (-1 / 2) (1 / 2)) twoBins.conf 2 1 0 [-1 / 2, 1 / 2] = [0, 1 / 4, 1 / 2, 0] := by
    rw [fill, l1, if_neg (by norm_num), hbins, if_neg (by norm_num)]
    rw [fill, l2, if_pos (by norm_num)]
    rw [fill, l2, if_neg (by norm_num), hbins, if_neg (by norm_num)]
    rw [fill, l3, if_pos (by norm_num)]
    rw [fill, hbins]
    have ha : twoBins.conf.area = 2 := rfl
    unfold width
    rw [l3, show 2 + 1 - 1 = 2 from rfl, l2, ha]
    norm_num [List.replicate]
  obtain ⟨f, b, h1, h2, h3⟩ := normalized_ok twoBins [-1 / 2, 1 / 2] (by simp)
  rw [hmap] at h1 h2 h3
  cases h1
  obtain rfl : b = 1 / 2 := (Option.some.inj h2).symm
  have hlen : ([-1 / 2, 1 / 2] : List ℝ).length = 2 := rfl
  rw [hlen, hfill] at h3
  have hlims : (List.range (twoBins.conf.bins + 3)).map (limit twoBins.conf (-1 / 2) (1 / 2)) = [-2, -1, 0, 1, 2] := by
    rw [hbins, show List.range (2 + 3) = [0, 1, 2, 3, 4] from rfl]
    simp only [List.map_cons, List.map_nil, l0, l1, l2, l3, l4]
  rw [hlims] at h3
  refine ⟨twoBins, [-1 / 2, 1 / 2], _, by norm_num, by norm_num [twoBins], by norm_num [twoBins], h3, rfl, rfl, ?_⟩
  rw [hmap]
  rintro ⟨-, hd⟩
  have := hd 2 (by norm_num) (by rw [hbins]; norm_num)
  have hc : count twoBins.conf 2 [-1 / 2, 1 / 2] = 1 := by
    unfold count
    have a1 : InBin twoBins.conf 2 (-1 / 2) := ⟨Or.inr (by rw [i0]; norm_num), Or.inr (by rw [i1]; norm_num)⟩
    have a2 : ¬ InBin twoBins.conf 2 (1 / 2) := by
      rintro ⟨-, h | h⟩
      · rw [hbins] at h; omega
      · rw [i1] at h; norm_num at h
    rw [List.countP_cons, List.countP_cons, List.countP_nil, if_neg (by rw [decide_eq_true_eq]; exact a2),
      if_pos (by rw [decide_eq_true_eq]; exact a1)]
  rw [hc] at this
  norm_num at this

/-- C127: the histogram of no distances is undefined behaviour -/
theorem C127_empty (h : Histogram) : normalized h [] = .undefined := rfl

/-- C127: with normalization, the value of the histogram is calculated from seven bins on and throws with less -/
theorem C127_svm (factors : List ℝ) (rest : ℝ) (h : Histogram) (dists : List ℝ) (hne : dists ≠ []) (hs : dists.Pairwise (· ≤ ·))
    (hsig : 0 < h.conf.sigma) (ha : 0 ≤ h.conf.area) (hn : h.conf.normalization = true) :
    (7 ≤ h.conf.bins → ∃ h', calculate factors rest h dists = .ok h') ∧ (h.conf.bins < 7 → calculate factors rest h dists = .throws) := by
  obtain ⟨h', hok, -, hlen, -⟩ := C127_counts_partial h dists hne hs hsig ha
  unfold calculate
  rw [hn, if_pos rfl, hok]
  dsimp only
  unfold svm
  constructor
  · intro h7
    rw [if_pos (by omega)]
    exact ⟨_, rfl⟩
  · intro h7
    rw [if_neg (by omega)]

/-- C127, wrong: without normalization the distances are ignored: the first call throws, and later ones keep the histogram -/
theorem C127_not_normalized (factors : List ℝ) (rest : ℝ) (h : Histogram) (hn : h.conf.normalization = false) (d1 d2 : List ℝ) :
    calculate factors rest h d1 = calculate factors rest h d2 ∧ (h.histogram = [] → calculate factors rest h d1 = .throws) := by
  constructor
  · unfold calculate
    rw [hn]
    rfl
  · intro he
    unfold calculate
    rw [hn]
    simp [svm, he]

/-- eight bins and an outlier at each end -/
example : ∃ h', calculate [1, 1] 0 ⟨⟨8, 1, true, 1, 2⟩, [], [], 0⟩ [-9, 1, 1, 30] = .ok h' :=
  (C127_svm _ _ _ _ (by simp) (by norm_num) (by norm_num) (by norm_num) rfl).1 (by norm_num)

end

end Envire.Icp.Hist

#print axioms Envire.Icp.Hist.C127_counts_partial
#print axioms Envire.Icp.Hist.C127_not_density
#print axioms Envire.Icp.Hist.C127_empty
#print axioms Envire.Icp.Hist.C127_svm
#print axioms Envire.Icp.Hist.C127_not_normalized
