import Verif.Grid.MLSProps
import Verif.Grid.PatchProps
import Mathlib.Tactic.Ring
import Mathlib.Tactic.NormNum
/-! Property C58: how often a measurement is counted in a cell of the SUM model. -/
namespace Envire.MLS

open Envire.Patch (Patch overlap)

noncomputable section

/-- the five sums that a patch keeps -/
inductive Sum where
  | weight
  | z
  | zz
  | count
  | normsq

def Sum.of (q : Sum) (p : Patch) : ℝ :=
  match q with
  | .weight => p.planeN
  | .z => p.planeZ
  | .zz => p.planeZZ
  | .count => p.n
  | .normsq => p.normsq

/-- patches that are near enough to the measurement to take it: one end of it lies inside of the patch extended by the gap -/
def Takes (gap : ℝ) (o p : Patch) : Prop :=
  (p.min - gap < o.max ∧ o.max < p.max + gap) ∨ (p.min - gap < o.min ∧ o.min < p.max + gap)

theorem sumMerge_true {th gap : ℝ} {p o : Patch} (h : Takes gap o p) : (p.merge .sum th gap o).1 = true ∧ (p.merge .sum th gap o).2.2 = o ∧
    ∀ q : Sum, q.of (p.merge .sum th gap o).2.1 = q.of p + q.of o := by
  unfold Patch.Patch.merge Patch.Patch.mergeSum
  dsimp only
  have h : overlap (p.min - gap) (p.max + gap) o.min o.max := h
  rw [if_pos h]
  refine ⟨rfl, rfl, fun q => ?_⟩
  cases q <;> rfl

theorem sumMerge_false {th gap : ℝ} {p o : Patch} (h : ¬ Takes gap o p) : p.merge .sum th gap o = (false, p, o) := by
  unfold Patch.Patch.merge Patch.Patch.mergeSum
  dsimp only
  have h : ¬ overlap (p.min - gap) (p.max + gap) o.min o.max := h
  rw [if_neg h]
  rfl

theorem sumMerge_sum {th gap : ℝ} {p o : Patch} (q : Sum) : q.of (p.merge .sum th gap o).2.1 = q.of p + (if (p.merge .sum th gap o).1 then q.of o else 0) ∧ (p.merge .sum th gap o).2.2 = o := by
  by_cases h : Takes gap o p
  · obtain ⟨h1, h2, h3⟩ := sumMerge_true (th := th) h
    rw [h1, h3]
    exact ⟨by simp, h2⟩
  · rw [sumMerge_false h]
    simp

open Classical in
theorem mergeAll_sum (th gap : ℝ) (o : Patch) (q : Sum) (l : List Patch) :
    (mergeAll (Patch.Patch.merge .sum th gap) l o).2 = o ∧
    ((mergeAll (Patch.Patch.merge .sum th gap) l o).1.map fun x => q.of x.2).sum = (l.map q.of).sum + (l.countP fun p => decide (Takes gap o p)) * q.of o ∧
    ((mergeAll (Patch.Patch.merge .sum th gap) l o).1.any (·.1) = true ↔ 0 < l.countP fun p => decide (Takes gap o p)) := by
  induction l with
  | nil => simp [mergeAll]
  | cons p l ih =>
    have hm := (sumMerge_sum (th := th) (gap := gap) (p := p) (o := o) q)
    simp only [mergeAll]
    rw [hm.2]
    obtain ⟨h1, h2, h3⟩ := ih
    refine ⟨h1, ?_, ?_⟩
    · rw [List.map_cons, List.sum_cons, h2, List.map_cons, List.sum_cons, hm.1]
      by_cases h : Takes gap o p
      · rw [(sumMerge_true h).1, List.countP_cons_of_pos (by simpa using h)]
        push_cast
        simp only [if_true]
        ring
      · rw [sumMerge_false h, List.countP_cons_of_neg (by simpa using h)]
        simp only [Bool.false_eq_true, if_false]
        ring
    · rw [List.any_cons, Bool.or_eq_true, h3]
      by_cases h : Takes gap o p
      · rw [(sumMerge_true h).1, List.countP_cons_of_pos (by simpa using h)]
        simp
      · rw [sumMerge_false h, List.countP_cons_of_neg (by simpa using h)]
        simp

theorem absorb_sum (th gap : ℝ) (q : Sum) (l : List (Bool × Patch)) : ∀ p,
    q.of (absorb (Patch.Patch.merge .sum th gap) p l).1 + ((absorb (Patch.Patch.merge .sum th gap) p l).2.1.map fun x => q.of x.2).sum = q.of p + (l.map fun x => q.of x.2).sum := by
  induction l with
  | nil => intro p; simp [absorb]
  | cons a l ih =>
    intro p
    obtain ⟨b, r⟩ := a
    cases b with
    | false =>
      simp only [absorb, List.map_cons, List.sum_cons]
      have := ih p
      linarith
    | true =>
      have hm := sumMerge_sum (th := th) (gap := gap) (p := p) (o := r) q
      have := ih (p.merge .sum th gap r).2.1
      simp only [absorb]
      by_cases h : (p.merge .sum th gap r).1 = true
      · rw [if_pos h]
        rw [hm.1, if_pos h] at this
        simp only [List.map_cons, List.sum_cons]
        linarith
      · rw [if_neg h]
        rw [hm.1, if_neg h] at this
        simp only [List.map_cons, List.sum_cons, hm.2]
        linarith

theorem mergeRest_sum (th gap : ℝ) (q : Sum) : ∀ n (l : List (Bool × Patch)), l.length ≤ n →
    ((mergeRest (Patch.Patch.merge .sum th gap) l).1.map q.of).sum = (l.map fun x => q.of x.2).sum := by
  intro n
  induction n with
  | zero =>
    intro l hl
    obtain rfl : l = [] := List.eq_nil_of_length_eq_zero (by omega)
    simp [mergeRest]
  | succ n ih =>
    intro l hl
    cases l with
    | nil => simp [mergeRest]
    | cons a l =>
      obtain ⟨b, p⟩ := a
      simp only [List.length_cons] at hl
      cases b with
      | false =>
        rw [mergeRest]
        simp only [List.map_cons, List.sum_cons]
        rw [ih l (by omega)]
      | true =>
        rw [mergeRest]
        have h1 := absorb_length (Patch.Patch.merge .sum th gap) l p
        have h2 := absorb_sum th gap q l p
        simp only [List.map_cons, List.sum_cons]
        rw [ih _ (by omega)]
        exact h2

open Classical in
/-- **C58, what is true**: with the SUM model an update adds the measurement (weight, height sums, number of measurements) once for every
patch that is near enough, at least once; nothing else is lost or gained, in whatever way the patches are joined after that.
So it is counted exactly once if at most one patch is near enough. Missing for the full claim: several such patches
(`C58_counted_twice`). -/
theorem C58_update_sums_partial (th gap : ℝ) (g : MLS Patch) {x y : Nat} (hx : x < g.cells.w) (hy : y < g.cells.h) (o : Patch) :
    ∃ g', g.updateCell (Patch.Patch.merge .sum th gap) x y o = some g' ∧
      (∀ q : Sum, ((g'.cells.cells x y).map q.of).sum =
        ((g.cells.cells x y).map q.of).sum + (max 1 ((g.cells.cells x y).countP fun p => decide (Takes gap o p)) : Nat) * q.of o) ∧
      ((g.cells.cells x y).countP (fun p => decide (Takes gap o p)) ≤ 1 → ∀ q : Sum, ((g'.cells.cells x y).map q.of).sum = ((g.cells.cells x y).map q.of).sum + q.of o) := by
  obtain ⟨g', e, _⟩ := updateCell_some (Patch.Patch.merge .sum th gap) g hx hy o
  have key : ∀ q : Sum, ((g'.cells.cells x y).map q.of).sum =
        ((g.cells.cells x y).map q.of).sum + (max 1 ((g.cells.cells x y).countP fun p => decide (Takes gap o p)) : Nat) * q.of o := by
    intro q
    obtain ⟨h1, h2, h3⟩ := mergeAll_sum th gap o q (g.cells.cells x y)
    unfold MLS.updateCell at e
    rw [if_pos ⟨hx, hy⟩] at e
    dsimp only at e
    generalize mergeAll (Patch.Patch.merge .sum th gap) (g.cells.cells x y) o = r at h1 h2 h3 e
    generalize (g.cells.cells x y).countP (fun p => decide (Takes gap o p)) = k at h2 h3
    by_cases ha : r.1.any (·.1) = true
    · rw [if_pos ha] at e
      cases e
      have hk := h3.1 ha
      simp only [ListGrid.Seqs.set, and_self, if_true]
      rw [mergeRest_sum th gap q _ _ (Nat.le_refl _), h2, Nat.max_eq_right (by omega)]
    · rw [if_neg ha] at e
      have hk : k = 0 := by
        by_contra hc
        exact ha (h3.2 (by omega))
      simp only [MLS.insertHead, ListGrid.Seqs.step] at e
      rw [if_pos (show x < (g.cells.set x y (r.1.map (·.2))).w ∧ y < (g.cells.set x y (r.1.map (·.2))).h from ⟨hx, hy⟩)] at e
      simp only [Option.map_some, Option.some.injEq] at e
      subst e
      simp only [MLS.addCell, ListGrid.Seqs.set, and_self, if_true, List.map_cons, List.sum_cons, List.map_map]
      rw [h1, hk]
      have : (r.1.map (q.of ∘ fun x => x.2)).sum = ((g.cells.cells x y).map q.of).sum := by
        rw [hk] at h2
        simpa [Function.comp_def] using h2
      rw [this]
      norm_num
      ring
  refine ⟨g', e, key, ?_⟩
  intro hle q
  rw [key q, Nat.max_eq_left hle]
  simp

/-- a cell with a patch at 0 and one at 3/2 -/
def exTwo : MLS Patch :=
  { cells := { w := 1, h := 1, cells := fun _ _ => [Patch.Patch.make 0 1, Patch.Patch.make (3 / 2) 1] }, count := 2, index := none, extents := some ⟨0, 0, 0, 0⟩ }

theorem not_takes {a b gap : ℝ} (h : gap ≤ |b - a|) : ¬ Takes gap (Patch.Patch.make b 1) (Patch.Patch.make a 1) := by
  unfold Takes Patch.Patch.make
  dsimp only
  intro hc
  have h1 : a - gap < b ∧ a + gap > b := by rcases hc with h | h <;> exact h
  have : |b - a| < gap := abs_lt.2 ⟨by linarith, by linarith⟩
  linarith

theorem takes {a b gap : ℝ} (h : |b - a| < gap) : Takes gap (Patch.Patch.make b 1) (Patch.Patch.make a 1) := by
  unfold Takes Patch.Patch.make
  dsimp only
  have := abs_lt.1 h
  exact Or.inl ⟨by linarith, by linarith⟩

/-- **C58, the code violates the property**: a map that was made by three updates, one measurement each with deviation 1 (weight 1), at the
heights 0, 3/2 and 3/4, holds four measurements. -/
theorem C58_counted_twice : ∃ g1 g2 g3 : MLS Patch,
    MLS.updateCell (Patch.Patch.merge .sum (1 / 20) 1) (MLS.init 1 1) 0 0 (Patch.Patch.make 0 1) = some g1 ∧
    g1.updateCell (Patch.Patch.merge .sum (1 / 20) 1) 0 0 (Patch.Patch.make (3 / 2) 1) = some g2 ∧
    g2.updateCell (Patch.Patch.merge .sum (1 / 20) 1) 0 0 (Patch.Patch.make (3 / 4) 1) = some g3 ∧
    ((g3.cells.cells 0 0).map Sum.count.of).sum = 4 ∧ ((g3.cells.cells 0 0).map Sum.weight.of).sum = 4 := by
  have e1 : MLS.updateCell (Patch.Patch.merge .sum (1 / 20) 1) (MLS.init 1 1) 0 0 (Patch.Patch.make 0 1) =
      some (MLS.addCell { (MLS.init 1 1 : MLS Patch) with cells := (MLS.init 1 1 : MLS Patch).cells.set 0 0 [Patch.Patch.make 0 1] } 0 0) := by
    simp [MLS.updateCell, MLS.init, mergeAll, MLS.insertHead, ListGrid.Seqs.step, ListGrid.Seqs.set, MLS.addCell]
  generalize hg1 : MLS.addCell { (MLS.init 1 1 : MLS Patch) with cells := (MLS.init 1 1 : MLS Patch).cells.set 0 0 [Patch.Patch.make 0 1] } 0 0 = g1 at e1
  have hc1 : g1.cells.cells 0 0 = [Patch.Patch.make 0 1] := by subst hg1; rfl
  have hw1 : g1.cells.w = 1 ∧ g1.cells.h = 1 := by subst hg1; exact ⟨rfl, rfl⟩
  -- the second measurement is too far away
  have hn : ¬ Takes 1 (Patch.Patch.make (3 / 2) 1) (Patch.Patch.make 0 1) := not_takes (by norm_num)
  obtain ⟨g2, e2, hw2, hh2, _⟩ := updateCell_some (Patch.Patch.merge .sum (1 / 20) 1) g1 (x := 0) (y := 0) (by omega) (by omega) (Patch.Patch.make (3 / 2) 1)
  have hc2 : g2.cells.cells 0 0 = [Patch.Patch.make (3 / 2) 1, Patch.Patch.make 0 1] := by
    have e2' := e2
    unfold MLS.updateCell at e2'
    rw [if_pos (by omega), hc1] at e2'
    simp only [mergeAll, sumMerge_false hn, MLS.insertHead, ListGrid.Seqs.step] at e2'
    rw [if_neg (by simp), if_pos (by simp [ListGrid.Seqs.set, hw1])] at e2'
    simp only [Option.map_some, Option.some.injEq] at e2'
    subst e2'
    simp [MLS.addCell, ListGrid.Seqs.set]
  obtain ⟨g3, e3, hq, _⟩ := C58_update_sums_partial (1 / 20) 1 g2 (x := 0) (y := 0) (by omega) (by omega) (Patch.Patch.make (3 / 4) 1)
  refine ⟨g1, g2, g3, e1, e2, e3, ?_, ?_⟩
  · rw [hq, hc2, List.countP_cons_of_pos (by simpa using takes (by norm_num)), List.countP_cons_of_pos (by simpa using takes (by norm_num))]
    norm_num [Sum.of, Patch.Patch.make]
  · rw [hq, hc2, List.countP_cons_of_pos (by simpa using takes (by norm_num)), List.countP_cons_of_pos (by simpa using takes (by norm_num))]
    norm_num [Sum.of, Patch.Patch.make]

open Classical in
/-- at most one near patch: the cell of the witness above and a measurement at height 2 -/
example : (exTwo.cells.cells 0 0).countP (fun p => decide (Takes 1 (Patch.Patch.make 2 1) p)) ≤ 1 := by
  show List.countP _ [Patch.Patch.make 0 1, Patch.Patch.make (3 / 2) 1] ≤ 1
  rw [List.countP_cons_of_neg (by simpa using not_takes (by norm_num))]
  simp [List.countP_cons]
  split <;> simp

end
end Envire.MLS

#print axioms Envire.MLS.C58_update_sums_partial
#print axioms Envire.MLS.C58_counted_twice
