import Verif.Grid.MLSModel
import Mathlib.Algebra.BigOperators.Group.List.Basic
import Mathlib.Tactic.Linarith
import Mathlib.Data.List.Nodup
import Mathlib.Data.List.Perm.Lattice
/-! Properties C35, C56: bookkeeping of the multi level surface grid. -/
namespace Envire.MLS

open Envire.ListGrid (Seqs)

variable {P : Type}

/-- the number of patches stored -/
def patches (s : Seqs P) : Nat := ((List.range s.w).map fun x => ((List.range s.h).map fun y => (s.cells x y).length).sum).sum

theorem sum_range_update (f g : Nat → Nat) (k : Nat) : ∀ n, k < n → (∀ i, i ≠ k → f i = g i) →
    ((List.range n).map f).sum + g k = ((List.range n).map g).sum + f k := by
  intro n
  induction n with
  | zero => intro h; omega
  | succ n ih =>
    intro h he
    rw [List.range_succ, List.map_append, List.map_append, List.sum_append, List.sum_append]
    simp only [List.map_cons, List.map_nil, List.sum_cons, List.sum_nil, Nat.add_zero]
    by_cases hk : k < n
    · have := ih hk he
      have := he n (by omega)
      omega
    · have hkn : k = n := by omega
      subst hkn
      have : (List.range k).map f = (List.range k).map g := by
        apply List.map_congr_left
        intro i hi
        exact he i (by have := List.mem_range.1 hi; omega)
      rw [this]
      omega

theorem patches_set (s : Seqs P) {x y : Nat} (hx : x < s.w) (hy : y < s.h) (l : List P) :
    patches (s.set x y l) + (s.cells x y).length = patches s + l.length := by
  have h1 := sum_range_update (fun b => ((s.set x y l).cells x b).length) (fun b => (s.cells x b).length) y s.h hy
    (by intro i hi; simp [Seqs.set, hi])
  have h2 := sum_range_update (fun a => ((List.range s.h).map fun b => ((s.set x y l).cells a b).length).sum)
    (fun a => ((List.range s.h).map fun b => (s.cells a b).length).sum) x s.w hx
    (by intro i hi; simp [Seqs.set, hi])
  have e1 : (s.set x y l).cells x y = l := by simp [Seqs.set]
  simp only [e1] at h1
  change ((List.range s.w).map fun a => ((List.range s.h).map fun b => ((s.set x y l).cells a b).length).sum).sum + _ = ((List.range s.w).map fun a => ((List.range s.h).map fun b => (s.cells a b).length).sum).sum + _
  omega

/-- **The claim of C35** -/
structure Exact (g : MLS P) : Prop where
  /-- the cell count is the number of patches stored -/
  count : g.count = patches g.cells
  /-- the index, if there is one, lists every non-empty cell -/
  index : ∀ i, g.index = some i → ∀ x y, x < g.cells.w → y < g.cells.h → g.cells.cells x y ≠ [] → (x, y) ∈ i
  /-- the extents contain every non-empty cell -/
  extents : ∀ x y, x < g.cells.w → y < g.cells.h → g.cells.cells x y ≠ [] → ∃ b, g.extents = some b ∧ b.has x y

theorem patches_empty (w h : Nat) : patches ({ w := w, h := h, cells := fun _ _ => [] } : Seqs P) = 0 := by
  unfold patches
  simp

theorem Exact.init (w h : Nat) : Exact (MLS.init w h : MLS P) :=
  { count := by simp [MLS.init, patches_empty], index := fun i hi => by simp [MLS.init] at hi, extents := fun x y _ _ hne => absurd rfl hne }

theorem extendBox_new (b : Option Box) (x y : Nat) : ∃ b', extendBox b x y = some b' ∧ b'.has x y := by
  cases b with
  | none => exact ⟨_, rfl, by simp [Box.has]⟩
  | some b => exact ⟨_, rfl, by simp [Box.has]⟩

theorem extendBox_old {b : Option Box} {c : Box} (h : b = some c) {x y x' y' : Nat} (hc : c.has x' y') : ∃ b', extendBox b x y = some b' ∧ b'.has x' y' := by
  subst h
  refine ⟨_, rfl, ?_⟩
  obtain ⟨h1, h2, h3, h4⟩ := hc
  simp only [Box.has]
  omega

/-- a cell gets a list of n more patches; g was right about everything else -/
theorem Exact.insert {g : MLS P} (h : Exact g) {x y : Nat} (hx : x < g.cells.w) (hy : y < g.cells.h) (l : List P) (hl : l.length = (g.cells.cells x y).length + 1) :
    Exact (MLS.addCell { g with cells := g.cells.set x y l } x y) := by
  refine ⟨?_, ?_, ?_⟩
  · have := patches_set g.cells hx hy l
    have hc := h.count
    simp only [MLS.addCell]
    omega
  · intro i hi x' y' hx' hy' hne
    simp only [MLS.addCell, Option.map_eq_some_iff] at hi
    obtain ⟨j, hj, rfl⟩ := hi
    by_cases he : x' = x ∧ y' = y
    · obtain ⟨rfl, rfl⟩ := he
      exact List.mem_cons_self
    · refine List.mem_cons_of_mem _ (h.index j hj x' y' hx' hy' ?_)
      simpa [MLS.addCell, Seqs.set, he] using hne
  · intro x' y' hx' hy' hne
    by_cases he : x' = x ∧ y' = y
    · obtain ⟨rfl, rfl⟩ := he
      exact extendBox_new _ _ _
    · obtain ⟨b, hb, hb'⟩ := h.extents x' y' hx' hy' (by simpa [MLS.addCell, Seqs.set, he] using hne)
      exact extendBox_old hb hb'

/-- a cell that has patches is changed -/
theorem Exact.change {g : MLS P} (h : Exact g) {x y : Nat} (hx : x < g.cells.w) (hy : y < g.cells.h) (hne : g.cells.cells x y ≠ []) (l : List P) (d : Nat)
    (hl : l.length + d = (g.cells.cells x y).length) : Exact { g with cells := g.cells.set x y l, count := g.count - d } := by
  refine ⟨?_, ?_, ?_⟩
  · have := patches_set g.cells hx hy l
    have hc := h.count
    simp only
    omega
  · intro i hi x' y' hx' hy' hne'
    by_cases he : x' = x ∧ y' = y
    · obtain ⟨rfl, rfl⟩ := he
      exact h.index i hi x' y' hx hy hne
    · exact h.index i hi x' y' hx' hy' (by simpa [Seqs.set, he] using hne')
  · intro x' y' hx' hy' hne'
    by_cases he : x' = x ∧ y' = y
    · obtain ⟨rfl, rfl⟩ := he
      exact h.extents x' y' hx hy hne
    · exact h.extents x' y' hx' hy' (by simpa [Seqs.set, he] using hne')

theorem mergeAll_length (m : P → P → Bool × P × P) (l : List P) : ∀ o, (mergeAll m l o).1.length = l.length := by
  induction l with
  | nil => intro o; rfl
  | cons p l ih => intro o; simp [mergeAll, ih]

theorem mergeRest_length (m : P → P → Bool × P × P) : ∀ n (l : List (Bool × P)), l.length ≤ n → (mergeRest m l).1.length + (mergeRest m l).2 = l.length := by
  intro n
  induction n with
  | zero =>
    intro l hl
    obtain rfl : l = [] := List.eq_nil_of_length_eq_zero (by omega)
    simp [mergeRest]
  | succ n ih =>
    intro l hl
    cases l with
    | nil => simp [mergeRest]
    | cons a l =>
      obtain ⟨b, p⟩ := a
      simp only [List.length_cons] at hl ⊢
      cases b with
      | false =>
        rw [mergeRest]
        have := ih l (by omega)
        simp only [List.length_cons]
        omega
      | true =>
        rw [mergeRest]
        have h1 := absorb_length m l p
        have := ih (absorb m p l).2.1 (by omega)
        simp only [List.length_cons]
        omega

theorem mergeRest_ne_nil (m : P → P → Bool × P × P) {l : List (Bool × P)} (h : l ≠ []) : (mergeRest m l).1 ≠ [] := by
  cases l with
  | nil => exact absurd rfl h
  | cons a l =>
    obtain ⟨b, p⟩ := a
    cases b <;> rw [mergeRest] <;> simp

theorem updateCell_some (m : P → P → Bool × P × P) (g : MLS P) {x y : Nat} (hx : x < g.cells.w) (hy : y < g.cells.h) (o : P) :
    ∃ g', g.updateCell m x y o = some g' ∧ g'.cells.w = g.cells.w ∧ g'.cells.h = g.cells.h ∧ g'.cells.cells x y ≠ [] ∧
      (g'.cells.cells x y).length ≤ (g.cells.cells x y).length + 1 ∧ (∀ x' y', ¬ (x' = x ∧ y' = y) → g'.cells.cells x' y' = g.cells.cells x' y') ∧
      (Exact g → Exact g') := by
  unfold MLS.updateCell
  rw [if_pos ⟨hx, hy⟩]
  dsimp only
  have hlen := mergeAll_length m (g.cells.cells x y) o
  generalize mergeAll m (g.cells.cells x y) o = r at hlen ⊢
  by_cases ha : r.1.any (·.1) = true
  · rw [if_pos ha]
    have hne : r.1 ≠ [] := by intro h; rw [h] at ha; simp at ha
    have hl := mergeRest_length m _ r.1 (Nat.le_refl _)
    have hne2 : g.cells.cells x y ≠ [] := by
      intro h
      rw [h] at hlen
      exact hne (List.eq_nil_of_length_eq_zero hlen)
    refine ⟨_, rfl, rfl, rfl, ?_, ?_, ?_, ?_⟩
    · simpa [Seqs.set] using mergeRest_ne_nil m hne
    · simp only [Seqs.set, and_self, if_true]
      omega
    · intro x' y' he
      simp [Seqs.set, he]
    · intro hE
      exact hE.change hx hy hne2 _ _ (by omega)
  · rw [if_neg ha]
    have e : MLS.insertHead { g with cells := g.cells.set x y (r.1.map (·.2)) } x y r.2 =
        some (MLS.addCell { g with cells := g.cells.set x y (r.2 :: r.1.map (·.2)) } x y) := by
      simp only [MLS.insertHead, Seqs.step]
      rw [if_pos (show x < (g.cells.set x y (r.1.map (·.2))).w ∧ y < (g.cells.set x y (r.1.map (·.2))).h from ⟨hx, hy⟩)]
      simp only [Option.map_some]
      congr 2
      simp only [Seqs.set, and_self, if_true]
      congr 1
      congr 1
      funext x' y'
      split <;> rfl
    rw [e]
    refine ⟨_, rfl, rfl, rfl, ?_, ?_, ?_, ?_⟩
    · simp [MLS.addCell, Seqs.set]
    · simp [MLS.addCell, Seqs.set, hlen]
    · intro x' y' he
      simp [MLS.addCell, Seqs.set, he]
    · intro hE
      exact hE.insert hx hy _ (by simp [hlen])

theorem Exact.insertHead {g g' : MLS P} (h : Exact g) {x y : Nat} {v : P} (e : g.insertHead x y v = some g') : Exact g' := by
  simp only [MLS.insertHead, Seqs.step] at e
  split at e
  · rename_i hin
    simp only [Option.map_some, Option.some.injEq] at e
    subst e
    exact h.insert hin.1 hin.2 _ (by simp)
  · simp at e

theorem Exact.insertTail {g g' : MLS P} (h : Exact g) {x y : Nat} {v : P} (e : g.insertTail x y v = some g') : Exact g' := by
  simp only [MLS.insertTail, Seqs.step] at e
  split at e
  · rename_i hin
    simp only [Option.map_some, Option.some.injEq] at e
    subst e
    exact h.insert hin.1 hin.2 _ (by simp)
  · simp at e

theorem Exact.erase {g g' : MLS P} (h : Exact g) {x y i : Nat} (e : g.erase x y i = some g') : Exact g' := by
  simp only [MLS.erase, Seqs.step] at e
  split at e
  · rename_i hin
    simp only [Option.map_some, Option.some.injEq] at e
    subst e
    have hne : g.cells.cells x y ≠ [] := by intro h; rw [h] at hin; simp at hin
    have hl : ((g.cells.cells x y).eraseIdx i).length + 1 = (g.cells.cells x y).length := by
      rw [List.length_eraseIdx_of_lt hin.2.2]
      omega
    exact h.change hin.1 hin.2.1 hne _ 1 hl
  · simp at e

theorem Exact.updateCell {g g' : MLS P} (h : Exact g) {m : P → P → Bool × P × P} {x y : Nat} {o : P} (e : g.updateCell m x y o = some g') : Exact g' := by
  by_cases hin : x < g.cells.w ∧ y < g.cells.h
  · obtain ⟨g1, e1, _, _, _, _, _, h1⟩ := updateCell_some m g hin.1 hin.2 o
    rw [e] at e1
    cases e1
    exact h1 h
  · unfold MLS.updateCell at e
    rw [if_neg hin] at e
    cases e

theorem mem_generateIndex {g : MLS P} {x y : Nat} : (x, y) ∈ g.generateIndex ↔ x < g.cells.w ∧ y < g.cells.h ∧ g.cells.cells x y ≠ [] := by
  unfold MLS.generateIndex
  simp only [List.mem_flatMap, List.mem_range, List.mem_map, Prod.mk.injEq]
  constructor
  · rintro ⟨a, ha, b, hb, p, hp, rfl, rfl⟩
    exact ⟨ha, hb, List.ne_nil_of_mem hp⟩
  · rintro ⟨ha, hb, hne⟩
    obtain ⟨p, hp⟩ := List.exists_mem_of_ne_nil _ hne
    exact ⟨x, ha, y, hb, p, hp, rfl, rfl⟩

theorem patches_pos {s : Seqs P} {x y : Nat} (hx : x < s.w) (hy : y < s.h) (hne : s.cells x y ≠ []) : 0 < patches s := by
  have := patches_set s hx hy []
  have hl : 0 < (s.cells x y).length := List.length_pos_iff.2 hne
  simp at this
  omega

theorem Exact.initIndex {g : MLS P} (h : Exact g) : Exact g.initIndex := by
  refine ⟨h.count, ?_, h.extents⟩
  intro i hi x y hx hy hne
  simp only [MLS.initIndex, Option.some.injEq] at hi
  have hp := patches_pos hx hy hne
  have hc := h.count
  simp only [MLS.initIndex] at hp
  rw [if_pos (by omega)] at hi
  subst hi
  exact mem_generateIndex.2 ⟨hx, hy, hne⟩

theorem Exact.clear {g : MLS P} : Exact g.clear := by
  refine ⟨?_, ?_, ?_⟩
  · simp only [MLS.clear]
    rw [show patches { g.cells with cells := fun _ _ => [] } = 0 from patches_empty _ _]
    rfl
  · intro i hi x y hx hy hne
    exact absurd rfl hne
  · intro x y hx hy hne
    exact absurd rfl hne

theorem foldlM_inv {A B : Type} {I : A → Prop} (f : A → B → Option A) (hf : ∀ a b a', I a → f a b = some a' → I a') (l : List B) : ∀ {a a'}, I a → l.foldlM f a = some a' → I a' := by
  induction l with
  | nil => intro a a' h e; cases e; exact h
  | cons b l ih =>
    intro a a' h e
    rw [List.foldlM_cons] at e
    obtain ⟨a1, e1, e2⟩ := Option.bind_eq_some_iff.1 e
    exact ih (hf a b a1 h e1) e2

theorem Exact.merge {g g' o : MLS P} (h : Exact g) {m : P → P → Bool × P × P} {conv f order} (e : g.merge m o conv f order = some g') : Exact g' := by
  unfold MLS.merge at e
  refine foldlM_inv _ ?_ _ h e
  intro a b a' ha hb
  split at hb
  · cases hb
    exact ha
  · exact foldlM_inv _ (fun a b a' ha hb => ha.updateCell hb) _ ha hb

theorem Exact.assign {g o : MLS P} (hi : g.index = none) (ho : Exact o) : Exact (g.assign o) := by
  refine ⟨ho.count, ?_, ho.extents⟩
  intro i hi'
  simp only [MLS.assign] at hi'
  rw [hi] at hi'
  cases hi'

/-- the order in which a std::set is iterated: some order without repetition -/
def IsOrderOf (order i : List (Nat × Nat)) : Prop := order.Nodup ∧ ∀ e, e ∈ order ↔ e ∈ i

/-- histories of calls; the merge function may differ from call to call (the configuration may change) -/
inductive Exec : MLS P → Prop where
  | init (w h : Nat) : Exec (MLS.init w h)
  | insertHead {g g' x y v} : Exec g → g.insertHead x y v = some g' → Exec g'
  | insertTail {g g' x y v} : Exec g → g.insertTail x y v = some g' → Exec g'
  | erase {g g' x y i} : Exec g → g.erase x y i = some g' → Exec g'
  | updateCell {g g' x y v} (m) : Exec g → g.updateCell m x y v = some g' → Exec g'
  | clear {g} : Exec g → Exec g.clear
  | initIndex {g} : Exec g → Exec g.initIndex
  | merge {g g' o conv f order} (m) : Exec g → Exec o → IsOrderOf order (o.index.getD o.generateIndex) → g.merge m o conv f order = some g' → Exec g'
  | assign {g o} : Exec g → Exec o → g.index = none → Exec (g.assign o)

/-- **C35, what is true**: the bookkeeping is exact after every history of insert, erase, update, clear, initIndex, merge of another map and
assignment to a map without index. Missing for the full claim: assignment to a map that has an index and move
(`C35_stale_after_assign`, `C35_wrong_after_move`), loading into a used map (`C35_wrong_after_loading`). -/
theorem C35_bookkeeping_partial {g : MLS P} (h : Exec g) : Exact g := by
  induction h with
  | init w h => exact Exact.init w h
  | insertHead _ e ih => exact ih.insertHead e
  | insertTail _ e ih => exact ih.insertTail e
  | erase _ e ih => exact ih.erase e
  | updateCell m _ e ih => exact ih.updateCell e
  | clear _ _ => exact Exact.clear
  | initIndex _ ih => exact ih.initIndex
  | merge m _ _ _ e ih _ => exact ih.merge e
  | assign _ _ hi _ ih => exact Exact.assign hi ih

/-- **C35, clear** After clear the map is like a new one of the same size: no patches, count 0, empty extents; an index stays enabled and lists nothing. -/
theorem C35_clear (g : MLS P) : g.clear.cells.w = g.cells.w ∧ g.clear.cells.h = g.cells.h ∧ (∀ x y, g.clear.cells.cells x y = []) ∧ g.clear.count = 0 ∧
    g.clear.extents = none ∧ (g.index = none → g.clear.index = none) ∧ (g.index ≠ none → g.clear.index = some []) := by
  refine ⟨rfl, rfl, fun _ _ => rfl, rfl, rfl, fun h => ?_, fun h => ?_⟩
  · simp only [MLS.clear]
    rw [h]
    rfl
  · simp only [MLS.clear]
    obtain ⟨i, hi⟩ := Option.ne_none_iff_exists'.1 h
    rw [hi]
    rfl

/-- a merge function on heights: equal tens are the same patch, the mean is taken -/
def exMerge (p o : Nat) : Bool × Nat × Nat := if p / 10 = o / 10 then (true, (p + o) / 2, o) else (false, p, o)

/-- a history with updates that merge -/
def exGrid : Option (MLS Nat) := do
  let g ← (MLS.init 3 2).insertTail 2 1 11
  let g ← g.initIndex.insertTail 2 1 19
  let g ← g.insertHead 0 1 5
  let g ← g.updateCell exMerge 2 1 13
  let g ← g.updateCell exMerge 2 1 40
  g.erase 0 1 0

/-- the hypothesis is met by that history: the two patches and the measurement have become one -/
example : ∃ g, exGrid = some g ∧ Exec g ∧ g.cells.cells 2 1 = [40, 14] ∧ g.count = 2 ∧ g.index.isSome = true := by
  have h : (exGrid.map fun g => (g.cells.cells 2 1, g.count, g.index.isSome)) = some ([40, 14], 2, true) := by decide +kernel
  obtain ⟨g, hg, he⟩ := Option.map_eq_some_iff.1 h
  refine ⟨g, hg, ?_, by simpa using (Prod.mk.inj he).1, by simpa using (Prod.mk.inj (Prod.mk.inj he).2).1, by simpa using (Prod.mk.inj (Prod.mk.inj he).2).2⟩
  simp only [exGrid, Option.bind_eq_bind, Option.bind_eq_some_iff] at hg
  obtain ⟨g1, e1, g2, e2, g3, e3, g4, e4, g5, e5, e6⟩ := hg
  exact .erase (.updateCell _ (.updateCell _ (.insertHead (.insertTail (.initIndex (.insertTail (.init _ _) e1)) e2) e3) e4) e5) e6

/-- **C35, the code violates the property**: assignment to a map with an index leaves the index as it was. -/
theorem C35_stale_after_assign : ∃ g o : MLS Nat, Exec g ∧ Exec o ∧
    (g.assign o).cells.cells 1 0 = [7] ∧ (g.assign o).index = some [] := by
  obtain ⟨o, ho, hc⟩ : ∃ o : MLS Nat, (MLS.init 2 1).insertTail 1 0 7 = some o ∧ o.cells.cells 1 0 = [7] :=
    Option.map_eq_some_iff.1 (show ((MLS.init 2 1 : MLS Nat).insertTail 1 0 7).map (fun o => o.cells.cells 1 0) = some [7] by decide +kernel)
  exact ⟨(MLS.init 2 1).initIndex, o, .initIndex (.init _ _), .insertTail (.init _ _) ho, hc, rfl⟩

/-- **C35, the code violates the property**: move keeps count and extents, though patches leave the grid and others move out of the
extents. -/
theorem C35_wrong_after_move : ∃ g : MLS Nat, Exec g ∧
    -- moved by one cell: the patch is in cell 1, the extents are cell 0
    (g.move 1 0).cells.cells 1 0 = [7] ∧ (g.move 1 0).extents = some ⟨0, 0, 0, 0⟩ ∧
    -- moved out of the grid: no patches, but a count of one
    patches (g.move 2 0).cells = 0 ∧ (g.move 2 0).count = 1 := by
  have h : ((MLS.init 2 1 : MLS Nat).insertTail 0 0 7).map (fun g => ((g.move 1 0).cells.cells 1 0, (g.move 1 0).extents, patches (g.move 2 0).cells, (g.move 2 0).count)) =
    some ([7], some ⟨0, 0, 0, 0⟩, 0, 1) := by decide +kernel
  obtain ⟨g, hg, hc⟩ := Option.map_eq_some_iff.1 h
  simp only [Prod.mk.injEq] at hc
  exact ⟨g, .insertTail (.init _ _) hg, hc.1, hc.2.1, hc.2.2.1, hc.2.2.2⟩

/-- **C35, the code violates the property**: loading into a used map does not reset the count. -/
theorem C35_wrong_after_loading : ∃ g : MLS (Rec Nat Unit), Exec g ∧ ∃ g',
    unserialize (fun a b c k => ⟨a, b, c, [], 0, 0, 0, 0, 0, (), k⟩) ⟨1, fun _ => ['x'], fun _ => ⟨⟨0, 0, 0, [], 0, 0, 0, 0, 0, (), .horizontal⟩, 0, 0⟩⟩ (fun _ => ⟨0, fun _ => [], fun _ => ⟨⟨0, 0, 0, [], 0, 0, 0, 0, 0, (), .horizontal⟩, 0, 0⟩⟩)
      1 1 g "mls\n1.3\n1\nbin\n".toList = .ok g' ∧ patches g'.cells = 0 ∧ g'.count = 1 := by
  have h : ((MLS.init 1 1 : MLS (Rec Nat Unit)).insertTail 0 0 ⟨0, 0, 0, [], 0, 0, 0, 0, 0, (), .horizontal⟩).isSome = true := by decide +kernel
  obtain ⟨g, hg⟩ := Option.isSome_iff_exists.1 h
  refine ⟨g, .insertTail (.init _ _) hg, ?_⟩
  cases hg
  exact ⟨_, rfl, by decide +kernel, rfl⟩

/-! ### C56 -/

/-- **C56** updateCell changes only its cell, never leaves it empty and adds at most one patch; if no patch takes the measurement then it is
the new first patch. -/
theorem C56_update_cell (m : P → P → Bool × P × P) (g : MLS P) {x y : Nat} (hx : x < g.cells.w) (hy : y < g.cells.h) (o : P) :
    ∃ g', g.updateCell m x y o = some g' ∧ g'.cells.w = g.cells.w ∧ g'.cells.h = g.cells.h ∧ g'.cells.cells x y ≠ [] ∧
      (g'.cells.cells x y).length ≤ (g.cells.cells x y).length + 1 ∧ (∀ x' y', ¬ (x' = x ∧ y' = y) → g'.cells.cells x' y' = g.cells.cells x' y') ∧
      ((∀ p q, m p q = (false, p, q)) → g'.cells.cells x y = o :: g.cells.cells x y) := by
  obtain ⟨g', h1, h2, h3, h4, h5, h6, _⟩ := updateCell_some m g hx hy o
  refine ⟨g', h1, h2, h3, h4, h5, h6, ?_⟩
  intro hm
  have : ∀ l o, mergeAll m l o = (l.map fun p => (false, p), o) := by
    intro l
    induction l with
    | nil => intro o; rfl
    | cons p l ih => intro o; simp [mergeAll, hm, ih]
  unfold MLS.updateCell at h1
  rw [if_pos ⟨hx, hy⟩, this] at h1
  simp only [List.any_map, MLS.insertHead, Seqs.step] at h1
  rw [if_neg (by simp), if_pos (show x < (g.cells.set x y _).w ∧ y < (g.cells.set x y _).h from ⟨hx, hy⟩)] at h1
  simp only [Option.map_some, Option.some.injEq] at h1
  subst h1
  simp [MLS.addCell, Seqs.set]

example : exMerge 3 14 = (false, 3, 14) ∧ (0 : Nat) < (MLS.init 3 2 : MLS Nat).cells.w ∧ (1 : Nat) < (MLS.init 3 2 : MLS Nat).cells.h := by decide

/-! ### C57 -/

/-- the index only has cells of the grid -/
def IndexIn (g : MLS P) : Prop := ∀ i, g.index = some i → ∀ e ∈ i, e.1 < g.cells.w ∧ e.2 < g.cells.h

theorem IndexIn.addCell {g : MLS P} (h : IndexIn g) {x y : Nat} (hx : x < g.cells.w) (hy : y < g.cells.h) (l : List P) :
    IndexIn (MLS.addCell { g with cells := g.cells.set x y l } x y) := by
  intro i hi e he
  simp only [MLS.addCell, Option.map_eq_some_iff] at hi
  obtain ⟨j, hj, rfl⟩ := hi
  rcases List.mem_cons.1 he with rfl | he
  · exact ⟨hx, hy⟩
  · exact h j hj e he

theorem IndexIn.updateCell {g g' : MLS P} (h : IndexIn g) {m : P → P → Bool × P × P} {x y : Nat} {o : P} (e : g.updateCell m x y o = some g') : IndexIn g' := by
  unfold MLS.updateCell at e
  split at e
  · rename_i hin
    dsimp only at e
    split at e
    · cases e
      exact h
    · simp only [MLS.insertHead, Seqs.step] at e
      split at e
      · simp only [Option.map_some, Option.some.injEq] at e
        subst e
        exact IndexIn.addCell (g := { g with cells := g.cells.set x y _ }) h hin.1 hin.2 _
      · simp at e
  · cases e

theorem Exec.indexIn {g : MLS P} (h : Exec g) : IndexIn g := by
  induction h with
  | init w h => intro i hi; simp [MLS.init] at hi
  | insertHead _ e ih =>
    simp only [MLS.insertHead, Seqs.step] at e
    split at e
    · rename_i hin
      simp only [Option.map_some, Option.some.injEq] at e
      subst e
      exact ih.addCell hin.1 hin.2 _
    · simp at e
  | insertTail _ e ih =>
    simp only [MLS.insertTail, Seqs.step] at e
    split at e
    · rename_i hin
      simp only [Option.map_some, Option.some.injEq] at e
      subst e
      exact ih.addCell hin.1 hin.2 _
    · simp at e
  | erase _ e ih =>
    simp only [MLS.erase, Seqs.step] at e
    split at e
    · simp only [Option.map_some, Option.some.injEq] at e
      subst e
      exact ih
    · simp at e
  | updateCell m _ e ih => exact ih.updateCell e
  | clear _ _ =>
    intro i hi e he
    simp only [MLS.clear, Option.map_eq_some_iff] at hi
    obtain ⟨_, _, rfl⟩ := hi
    simp at he
  | initIndex _ _ =>
    rintro i hi ⟨x, y⟩ he
    simp only [MLS.initIndex, Option.some.injEq] at hi
    subst hi
    split at he
    · obtain ⟨h1, h2, _⟩ := mem_generateIndex.1 he
      exact ⟨h1, h2⟩
    · simp at he
  | merge m _ _ _ e ih _ =>
    unfold MLS.merge at e
    refine foldlM_inv _ ?_ _ ih e
    intro a b a' ha hb
    split at hb
    · cases hb
      exact ha
    · exact foldlM_inv _ (fun a b a' ha hb => ha.updateCell hb) _ ha hb
  | assign _ _ hi _ _ =>
    intro i hi'
    simp only [MLS.assign] at hi'
    rw [hi] at hi'
    cases hi'

/-- all patches of a map that fall into the other one: target cell and changed patch -/
def work (o : MLS P) (conv : Nat × Nat → Option (Nat × Nat)) (f : Nat × Nat → P → P) (cells : List (Nat × Nat)) : List ((Nat × Nat) × P) :=
  cells.flatMap fun e => match conv e with
    | none => []
    | some c => (o.cells.cells e.1 e.2).map fun p => (c, f e p)

def allCells (o : MLS P) : List (Nat × Nat) := (List.range o.cells.w).flatMap fun x => (List.range o.cells.h).map fun y => (x, y)

theorem mem_allCells {o : MLS P} {e : Nat × Nat} : e ∈ allCells o ↔ e.1 < o.cells.w ∧ e.2 < o.cells.h := by
  unfold allCells
  simp only [List.mem_flatMap, List.mem_range, List.mem_map]
  constructor
  · rintro ⟨a, ha, b, hb, rfl⟩
    exact ⟨ha, hb⟩
  · rintro ⟨ha, hb⟩
    exact ⟨_, ha, _, hb, rfl⟩

theorem nodup_allCells (o : MLS P) : (allCells o).Nodup := by
  unfold allCells
  rw [List.nodup_flatMap]
  refine ⟨fun x _ => List.Nodup.map (fun a b h => (Prod.mk.inj h).2) List.nodup_range, ?_⟩
  refine List.Nodup.pairwise_of_forall_ne List.nodup_range ?_
  intro a _ b _ hab
  rw [Function.onFun, List.disjoint_left]
  intro e h1 h2
  obtain ⟨_, _, rfl⟩ := List.mem_map.1 h1
  obtain ⟨_, _, h⟩ := List.mem_map.1 h2
  exact hab (Prod.mk.inj h).1.symm

theorem flatMap_filter_ne {A B : Type} (f : A → List B) (q : A → Bool) (l : List A) (h : ∀ a ∈ l, q a = false → f a = []) : (l.filter q).flatMap f = l.flatMap f := by
  induction l with
  | nil => rfl
  | cons a l ih =>
    have ih := ih (fun b hb => h b (List.mem_cons_of_mem _ hb))
    cases hq : q a with
    | true => rw [List.filter_cons_of_pos hq, List.flatMap_cons, List.flatMap_cons, ih]
    | false => rw [List.filter_cons_of_neg (by simp [hq]), List.flatMap_cons, ih, h a (by simp) hq, List.nil_append]

theorem foldlM_flatMap {A B C : Type} (f : A → C → Option A) (h : B → List C) (l : List B) : ∀ a, (l.flatMap h).foldlM f a = l.foldlM (fun a b => (h b).foldlM f a) a := by
  induction l with
  | nil => intro a; rfl
  | cons b l ih =>
    intro a
    rw [List.flatMap_cons, List.foldlM_append, List.foldlM_cons]
    congr 1
    funext a'
    exact ih a'

/-- **C57** MLSGrid::merge is a sequence of updateCell calls, one for every patch of the other map whose cell lies in this grid, and no
others; with or without an index of the other map. -/
theorem C57_merge_all (m : P → P → Bool × P × P) (g : MLS P) {o : MLS P} (ho : Exec o) (conv f) {order} (hord : IsOrderOf order (o.index.getD o.generateIndex)) :
    ∃ ws : List ((Nat × Nat) × P), ws.Perm (work o conv f (allCells o)) ∧ g.merge m o conv f order = ws.foldlM (fun g w => g.updateCell m w.1.1 w.1.2 w.2) g ∧
      ((∀ e c, conv e = some c → c.1 < g.cells.w ∧ c.2 < g.cells.h) → (g.merge m o conv f order).isSome = true) := by
  have heq : g.merge m o conv f order = (work o conv f order).foldlM (fun g w => g.updateCell m w.1.1 w.1.2 w.2) g := by
    unfold MLS.merge work
    rw [foldlM_flatMap]
    congr 1
    funext a e
    cases conv e with
    | none => rfl
    | some c => simp only [List.foldlM_map]
  refine ⟨work o conv f order, ?_, heq, ?_⟩
  · have hin : ∀ e ∈ order, e ∈ allCells o := by
      intro e he
      rw [mem_allCells]
      have he' := (hord.2 e).1 he
      cases hi : o.index with
      | none =>
        rw [hi] at he'
        obtain ⟨x, y⟩ := e
        obtain ⟨h1, h2, _⟩ := mem_generateIndex.1 he'
        exact ⟨h1, h2⟩
      | some i =>
        rw [hi] at he'
        exact ho.indexIn i hi e he'
    have hall : ∀ e ∈ allCells o, e ∉ order → o.cells.cells e.1 e.2 = [] := by
      intro e he hne
      rw [mem_allCells] at he
      by_contra hc
      apply hne
      rw [hord.2 e]
      cases hi : o.index with
      | none => exact mem_generateIndex.2 ⟨he.1, he.2, hc⟩
      | some i => exact (C35_bookkeeping_partial ho).index i hi e.1 e.2 he.1 he.2 hc
    have hperm : order.Perm ((allCells o).filter fun e => decide (e ∈ order)) := by
      rw [List.perm_ext_iff_of_nodup hord.1 ((nodup_allCells o).filter _)]
      intro e
      simp only [List.mem_filter, decide_eq_true_eq]
      exact ⟨fun h => ⟨hin e h, h⟩, fun h => h.2⟩
    refine (hperm.flatMap_right _).trans ?_
    unfold work
    rw [flatMap_filter_ne]
    intro e he hq
    simp only [decide_eq_false_iff_not] at hq
    rw [hall e he hq]
    cases conv e <;> rfl
  · intro hc
    rw [heq]
    have hmem : ∀ w ∈ work o conv f order, w.1.1 < g.cells.w ∧ w.1.2 < g.cells.h := by
      intro w hw
      unfold work at hw
      obtain ⟨e, _, he⟩ := List.mem_flatMap.1 hw
      cases hce : conv e with
      | none => rw [hce] at he; simp at he
      | some c =>
        rw [hce] at he
        simp only [List.mem_map] at he
        obtain ⟨p, _, rfl⟩ := he
        exact hc e c hce
    generalize work o conv f order = ws at hmem
    clear heq hord
    induction ws generalizing g with
    | nil => rfl
    | cons w ws ih =>
      obtain ⟨h1, h2⟩ := hmem w (by simp)
      obtain ⟨g', e, e1, e2, _⟩ := updateCell_some m g h1 h2 w.2
      rw [List.foldlM_cons, e]
      refine ih g' (fun e c h => by rw [e1, e2]; exact hc e c h) (fun w' hw' => by rw [e1, e2]; exact hmem w' (List.mem_cons_of_mem _ hw'))

/-- one patch in the other map, which has no index -/
example : ∃ o : MLS Nat, Exec o ∧ IsOrderOf [(2, 1)] (o.index.getD o.generateIndex) := by
  have h : ((MLS.init 3 2 : MLS Nat).insertTail 2 1 7).map (fun o => o.index.getD o.generateIndex) = some [(2, 1)] := by decide +kernel
  obtain ⟨o, ho, hi⟩ := Option.map_eq_some_iff.1 h
  exact ⟨o, .insertTail (.init _ _) ho, by rw [hi]; exact ⟨by decide, fun e => Iff.rfl⟩⟩

end Envire.MLS

#print axioms Envire.MLS.C35_bookkeeping_partial
#print axioms Envire.MLS.C35_stale_after_assign
#print axioms Envire.MLS.C35_wrong_after_move
#print axioms Envire.MLS.C35_wrong_after_loading
#print axioms Envire.MLS.C56_update_cell
#print axioms Envire.MLS.C57_merge_all
#print axioms Envire.MLS.C35_clear
