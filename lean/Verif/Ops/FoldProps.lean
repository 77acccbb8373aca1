import Verif.Ops.FoldModel
import Verif.Ops.GrowProps
import Mathlib.Algebra.BigOperators.Group.Finset.Basic
import Mathlib.Algebra.BigOperators.Group.List.Basic
import Mathlib.Data.Finset.Prod
import Mathlib.Data.List.Nodup
import Mathlib.Data.List.ProdSigma
import Mathlib.Algebra.Order.Ring.Rat

/-!
C45: the neighbourhood fold. See FoldModel.lean.
-/

namespace Envire.Fold

open Envire.Grow (Cell cells mem_cells)

/-! ### specification -/

/-- the existing cells of the window of a cell: from `half` cells before it to `half - 1` cells after it -/
def window (w h n : Nat) (c : Cell) : Finset Cell :=
  (Finset.range w ×ˢ Finset.range h).filter fun d => (c.1 ≤ d.1 + n ∧ d.1 < c.1 + n) ∧ c.2 ≤ d.2 + n ∧ d.2 < c.2 + n

/-- the mean of the cells, 0 if there are none -/
def mean (data : Cell → ℚ) (s : Finset Cell) : ℚ := (∑ d ∈ s, data d) / s.card

/-! ### lemmas -/

theorem mem_span {n : Nat} {i : ℤ} : i ∈ span n ↔ -(n : ℤ) ≤ i ∧ i < n := by
  unfold span
  rw [List.mem_map]
  constructor
  · rintro ⟨k, hk, rfl⟩
    rw [List.mem_range] at hk
    omega
  · rintro ⟨h1, h2⟩
    exact ⟨(i + n).toNat, List.mem_range.2 (by omega), by omega⟩

theorem nodup_span (n : Nat) : (span n).Nodup := by
  unfold span
  refine List.Nodup.map ?_ List.nodup_range
  intro a b h
  dsimp only at h
  omega

theorem mem_offs {n : Nat} {o : ℤ × ℤ} : o ∈ offs n ↔ (-(n : ℤ) ≤ o.1 ∧ o.1 < n) ∧ -(n : ℤ) ≤ o.2 ∧ o.2 < n := by
  unfold offs
  rw [List.mem_flatMap]
  constructor
  · rintro ⟨y, hy, h⟩
    obtain ⟨x, hx, rfl⟩ := List.mem_map.1 h
    exact ⟨mem_span.1 hx, mem_span.1 hy⟩
  · rintro ⟨h1, h2⟩
    exact ⟨o.2, mem_span.2 h2, List.mem_map.2 ⟨o.1, mem_span.2 h1, rfl⟩⟩

theorem nodup_offs (n : Nat) : (offs n).Nodup := by
  unfold offs
  rw [List.nodup_flatMap]
  constructor
  · intro y _
    exact (nodup_span n).map fun a b h => (Prod.ext_iff.1 h).1
  · refine (nodup_span n).imp ?_
    intro a b hab
    intro x hx hx'
    obtain ⟨_, _, e1⟩ := List.mem_map.1 hx
    obtain ⟨_, _, e2⟩ := List.mem_map.1 hx'
    have := e1.trans e2.symm
    rw [Prod.ext_iff] at this
    exact hab this.2

/-- the cell that an offset leads to, if it is accepted by the check and exists -/
def cellAt (w h : Nat) (c : Cell) (o : ℤ × ℤ) : Option Cell :=
  if (0 ≤ (c.1 : ℤ) + o.1 ∧ (c.1 : ℤ) + o.1 < w) ∧ 0 ≤ (c.2 : ℤ) + o.2 ∧ (c.2 : ℤ) + o.2 < h then
    some (((c.1 : ℤ) + o.1).toNat, ((c.2 : ℤ) + o.2).toNat) else none

theorem cellAt_some {w h : Nat} {c d : Cell} {o : ℤ × ℤ} :
    cellAt w h c o = some d ↔ (d.1 < w ∧ d.2 < h) ∧ (d.1 : ℤ) = c.1 + o.1 ∧ (d.2 : ℤ) = c.2 + o.2 := by
  unfold cellAt
  split
  next hc =>
    rw [Option.some.injEq, Prod.ext_iff]
    dsimp only
    constructor
    · rintro ⟨e1, e2⟩
      refine ⟨⟨?_, ?_⟩, ?_, ?_⟩ <;> omega
    · rintro ⟨_, e1, e2⟩
      omega
  next hc =>
    constructor
    · intro e
      cases e
    · rintro ⟨⟨h1, h2⟩, e1, e2⟩
      omega

/-- the loop of `fold` if it does not reach the column or row after the last one -/
theorem foldlM_cells (w h : Nat) (data : Cell → ℚ) (c : Cell) : ∀ (L : List (ℤ × ℤ)) (s : Nat × ℚ),
    (∀ o ∈ L, (c.1 : ℤ) + o.1 < w ∧ (c.2 : ℤ) + o.2 < h) →
    L.foldlM (step w h data c) s = some (s.1 + (L.filterMap (cellAt w h c)).length, s.2 + ((L.filterMap (cellAt w h c)).map data).sum)
  | [], s, _ => by simp
  | o :: L, s, hL => by
    have ho := hL o List.mem_cons_self
    have hL' := fun p hp => hL p (List.mem_cons_of_mem o hp)
    rw [List.foldlM_cons]
    unfold step
    dsimp only
    by_cases hn : ((c.1 : ℤ) + o.1 < 0 ∨ (w : ℤ) < (c.1 : ℤ) + o.1) ∨ (c.2 : ℤ) + o.2 < 0 ∨ (h : ℤ) < (c.2 : ℤ) + o.2
    · rw [if_pos hn]
      have : cellAt w h c o = none := by
        unfold cellAt
        rw [if_neg (by omega)]
      rw [List.filterMap_cons_none this]
      exact foldlM_cells w h data c L s hL'
    · rw [if_neg hn]
      have : cellAt w h c o = some (((c.1 : ℤ) + o.1).toNat, ((c.2 : ℤ) + o.2).toNat) := by
        unfold cellAt
        rw [if_pos (by omega)]
      rw [List.filterMap_cons_some this]
      unfold read
      rw [if_pos (by constructor <;> dsimp only <;> omega)]
      refine (foldlM_cells w h data c L _ hL').trans ?_
      rw [List.length_cons, List.map_cons, List.sum_cons]
      congr 2
      · dsimp only
        omega
      · dsimp only
        ring

theorem window_list (w h n : Nat) (c : Cell) : ((offs n).filterMap (cellAt w h c)).Nodup ∧
    ((offs n).filterMap (cellAt w h c)).toFinset = window w h n c := by
  constructor
  · refine List.Nodup.filterMap ?_ (nodup_offs n)
    intro o o' d hd hd'
    have h1 := (cellAt_some.1 hd).2
    have h2 := (cellAt_some.1 hd').2
    rw [Prod.ext_iff]
    omega
  · ext d
    rw [List.mem_toFinset, List.mem_filterMap]
    unfold window
    rw [Finset.mem_filter, Finset.mem_product, Finset.mem_range, Finset.mem_range]
    constructor
    · rintro ⟨o, ho, hd⟩
      have h1 := mem_offs.1 ho
      have h2 := cellAt_some.1 hd
      omega
    · rintro ⟨h1, h2⟩
      refine ⟨((d.1 : ℤ) - c.1, (d.2 : ℤ) - c.2), mem_offs.2 ?_, cellAt_some.2 ?_⟩
      · dsimp only
        omega
      · dsimp only
        omega

/-- **C45 (partial)**: if the window does not end after the last column or row, fold writes the mean of exactly the existing
cells of the window. What is missing: the cells near the right and upper border, see `C45_out_of_bounds`. -/
theorem C45_fold_partial (w h neighbourhood : Nat) (data : Cell → ℚ) (c : Cell) (hx : c.1 + (neighbourhood + 1) / 2 ≤ w)
    (hy : c.2 + (neighbourhood + 1) / 2 ≤ h) : fold w h neighbourhood data c = some (mean data (window w h ((neighbourhood + 1) / 2) c)) := by
  have hhalf : (neighbourhood + 1) / 2 = half neighbourhood := rfl
  rw [hhalf] at hx hy ⊢
  unfold fold
  rw [foldlM_cells w h data c _ _ (by
    intro o ho
    have := mem_offs.1 ho
    omega)]
  obtain ⟨h1, h2⟩ := window_list w h (half neighbourhood) c
  rw [Option.map_some]
  congr 1
  unfold mean
  rw [← h2, List.toFinset_card_of_nodup h1, List.sum_toFinset _ h1]
  dsimp only
  rw [zero_add, zero_add]
  split
  · rfl
  next h0 =>
    have h0 := not_not.1 h0
    rw [List.eq_nil_of_length_eq_zero h0]
    simp

/-- **C45 is violated**: for every non-empty grid and every neighbourhood of at least 3, updateAll reads outside of the grid. -/
theorem C45_out_of_bounds (w h neighbourhood : Nat) (hw : 0 < w) (hh : 0 < h) (hn : 3 ≤ neighbourhood) (data out : Cell → ℚ) :
    updateAll w h neighbourhood data out = none := by
  have hfail : ∀ (L : List (ℤ × ℤ)) (s : Nat × ℚ), ((1, 0) : ℤ × ℤ) ∈ L → L.foldlM (step w h data (w - 1, 0)) s = none := by
    intro L
    induction L with
    | nil => intro s hm; cases hm
    | cons o L ih =>
      intro s hm
      rw [List.foldlM_cons]
      rcases List.mem_cons.1 hm with e | hm
      · subst e
        have : step w h data (w - 1, 0) s (1, 0) = none := by
          unfold step
          dsimp only
          rw [if_neg (by omega)]
          unfold read
          rw [if_neg (by dsimp only; omega)]
          rfl
        rw [this]
        rfl
      · cases hs : step w h data (w - 1, 0) s o with
        | none => rfl
        | some s' => exact ih s' hm
  have hf : fold w h neighbourhood data (w - 1, 0) = none := by
    unfold fold
    rw [hfail _ _ (mem_offs.2 (by
      unfold half
      dsimp only
      omega))]
    rfl
  unfold updateAll
  have key : ∀ (L : List Cell) (out : Cell → ℚ), (w - 1, 0) ∈ L →
      L.foldlM (fun out c => (fold w h neighbourhood data c).map fun v => Function.update out c v) out = none := by
    intro L
    induction L with
    | nil => intro out hm; cases hm
    | cons c L ih =>
      intro out hm
      rw [List.foldlM_cons]
      rcases List.mem_cons.1 hm with e | hm
      · subst e
        rw [hf]
        rfl
      · cases fold w h neighbourhood data c with
        | none => rfl
        | some v => exact ih _ hm
  exact key _ _ (mem_cells.2 ⟨by omega, hh⟩)

/-- the neighbourhoods for which updateAll stays inside: 0 writes 0 to every cell, 1 and 2 write the mean of the cell and its
existing left and lower neighbours -/
theorem C45_small_neighbourhood (w h neighbourhood : Nat) (hn : neighbourhood ≤ 2) (data out : Cell → ℚ) :
    ∃ out', updateAll w h neighbourhood data out = some out' ∧
      ∀ c, out' c = if c.1 < w ∧ c.2 < h then mean data (window w h ((neighbourhood + 1) / 2) c) else out c := by
  have hhalf : (neighbourhood + 1) / 2 = half neighbourhood := rfl
  rw [hhalf]
  have key : ∀ (L : List Cell) (out : Cell → ℚ), (∀ c ∈ L, c.1 < w ∧ c.2 < h) → ∃ out',
      L.foldlM (fun out c => (fold w h neighbourhood data c).map fun v => Function.update out c v) out = some out' ∧
      ∀ c, out' c = if c ∈ L then mean data (window w h (half neighbourhood) c) else out c := by
    intro L
    induction L with
    | nil => intro out _; exact ⟨out, rfl, fun c => by simp⟩
    | cons c L ih =>
      intro out hL
      have hc := hL c List.mem_cons_self
      have hh : half neighbourhood ≤ 1 := by unfold half; omega
      obtain ⟨out', h1, h2⟩ := ih (Function.update out c (mean data (window w h (half neighbourhood) c))) fun d hd => hL d (List.mem_cons_of_mem _ hd)
      refine ⟨out', ?_, ?_⟩
      · rw [List.foldlM_cons, C45_fold_partial w h neighbourhood data c (by omega) (by omega)]
        exact h1
      · intro d
        rw [h2 d]
        by_cases hd : d ∈ L
        · rw [if_pos hd, if_pos (List.mem_cons_of_mem _ hd)]
        · rw [if_neg hd]
          by_cases e : d = c
          · subst e
            rw [Function.update_self, if_pos List.mem_cons_self]
          · rw [Function.update_of_ne e, if_neg]
            intro hm
            rcases List.mem_cons.1 hm with h | h
            · exact e h
            · exact hd h
  obtain ⟨out', h1, h2⟩ := key (cells w h) out fun c hc => mem_cells.1 hc
  refine ⟨out', h1, fun c => ?_⟩
  rw [h2 c]
  by_cases hc : c.1 < w ∧ c.2 < h
  · rw [if_pos (mem_cells.2 hc), if_pos hc]
  · rw [if_neg fun hm => hc (mem_cells.1 hm), if_neg hc]

/-- neighbourhood 4 at the cell (2, 0) of a row of four cells: the mean of the cells 0 to 3 -/
example : fold 4 2 4 (fun c => c.1) (2, 0) = some (3 / 2) := by decide +kernel

#print axioms C45_fold_partial
#print axioms C45_out_of_bounds
#print axioms C45_small_neighbourhood

end Envire.Fold
