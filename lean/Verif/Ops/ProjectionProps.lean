import Verif.Ops.ProjectionModel
import Verif.Ops.ElevationProps
import Verif.Grid.MLSProps
import Verif.Tools.BresenhamProps

/-!
C118: the projection of point clouds into a multi-level surface grid.
-/

namespace Envire.Projection

open Envire.MLS Envire.Patch Envire.Rect Envire.Elevation

noncomputable section

/-! ### specification -/

/-- the area of interest -/
def InBox (area : Option (P3 × P3)) (p : P3) : Prop :=
  ∀ a b, area = some (a, b) → (a.1 ≤ p.1 ∧ a.2.1 ≤ p.2.1 ∧ a.2.2 ≤ p.2.2) ∧ (p.1 ≤ b.1 ∧ p.2.1 ≤ b.2.1 ∧ p.2.2 ≤ b.2.2)

/-- the variance of a point is the one of the cloud if there is one for each point, the default otherwise -/
def IsSample (i : Input) (default : ℝ) (l : List (P3 × ℝ)) : Prop :=
  l.map (·.1) = i.points ∧
  ((∃ v, i.variance = some v ∧ v.length = i.points.length) → i.variance = some (l.map (·.2))) ∧
  ((¬ ∃ v, i.variance = some v ∧ v.length = i.points.length) → ∀ s ∈ l, s.2 = default)

/-- the grid has the size of its geometry -/
structure Fit (geo : Geo) (g : Grid) : Prop where
  sx : 0 < geo.sx
  sy : 0 < geo.sy
  w : g.cells.w = geo.w
  h : g.cells.h = geo.h

/-- the measurements in a cell, in the frame of the grid: points in the area of interest and in the cell -/
def Hit (geo : Geo) (area : Option (P3 × P3)) (c : Nat × Nat) (s : P3 × ℝ) : Prop := InCell geo c s.1 ∧ InBox area s.1

/-- one call of updateCell after the other, all for the cell c -/
def Updates (m : Merge) (c : Nat × Nat) (g : Grid) (l : List Patch) (h : Grid) : Prop := l.foldlM (fun g p => g.updateCell m c.1 c.2 p) g = some h

/-! ### cells -/

/-- the content of a cell after updateCell -/
def updated (m : Merge) (l : List Patch) (o : Patch) : List Patch :=
  if (mergeAll m l o).1.any (·.1) then (mergeRest m (mergeAll m l o).1).1 else (mergeAll m l o).2 :: (mergeAll m l o).1.map (·.2)

theorem updateCell_cells (m : Merge) (g : Grid) {x y : Nat} (hx : x < g.cells.w) (hy : y < g.cells.h) (o : Patch) :
    ∃ g', g.updateCell m x y o = some g' ∧ g'.cells.w = g.cells.w ∧ g'.cells.h = g.cells.h ∧
      ∀ c : Nat × Nat, g'.cells.cells c.1 c.2 = if c = (x, y) then updated m (g.cells.cells x y) o else g.cells.cells c.1 c.2 := by
  obtain ⟨g', h1, h2, h3, -, -, h6, -⟩ := updateCell_some m g hx hy o
  refine ⟨g', h1, h2, h3, ?_⟩
  rintro ⟨x', y'⟩
  by_cases hc : x' = x ∧ y' = y
  · obtain ⟨rfl, rfl⟩ := hc
    rw [if_pos rfl]
    unfold MLS.updateCell at h1
    rw [if_pos ⟨hx, hy⟩] at h1
    dsimp only at h1
    unfold updated
    by_cases ha : (mergeAll m (g.cells.cells x' y') o).1.any (·.1) = true
    · rw [if_pos ha] at h1 ⊢
      cases h1
      simp [ListGrid.Seqs.set]
    · rw [if_neg ha] at h1 ⊢
      simp only [MLS.insertHead, ListGrid.Seqs.step] at h1
      rw [if_pos (show x' < (g.cells.set x' y' _).w ∧ y' < (g.cells.set x' y' _).h from ⟨hx, hy⟩)] at h1
      cases h1
      simp [MLS.addCell, ListGrid.Seqs.set]
  · rw [if_neg (by simpa [Prod.ext_iff] using hc)]
    exact h6 x' y' hc

/-- a list of updates of cells of the grid -/
theorem fold_cells (m : Merge) : ∀ (l : List ((Nat × Nat) × Patch)) (g : Grid), (∀ e ∈ l, e.1.1 < g.cells.w ∧ e.1.2 < g.cells.h) →
    ∃ g', l.foldlM (fun (g : Grid) e => g.updateCell m e.1.1 e.1.2 e.2) g = some g' ∧ g'.cells.w = g.cells.w ∧ g'.cells.h = g.cells.h ∧
      ∀ c : Nat × Nat, g'.cells.cells c.1 c.2 = ((l.filter fun e => e.1 = c).map (·.2)).foldl (updated m) (g.cells.cells c.1 c.2)
  | [], g, _ => ⟨g, rfl, rfl, rfl, fun _ => rfl⟩
  | e :: l, g, h => by
    obtain ⟨hx, hy⟩ := h e List.mem_cons_self
    obtain ⟨g1, a1, a2, a3, a4⟩ := updateCell_cells m g hx hy e.2
    obtain ⟨g2, b1, b2, b3, b4⟩ := fold_cells m l g1 (fun f hf => by rw [a2, a3]; exact h f (List.mem_cons_of_mem _ hf))
    refine ⟨g2, ?_, b2.trans a2, b3.trans a3, ?_⟩
    · rw [List.foldlM_cons, a1]
      exact b1
    · intro c
      rw [b4, a4]
      by_cases hc : e.1 = c
      · subst hc
        simp
      · rw [if_neg (fun h => hc (by rw [h]))]
        simp [hc]

/-- the same for one cell -/
theorem fold_one (m : Merge) (c : Nat × Nat) (l : List Patch) (g : Grid) (hc : c.1 < g.cells.w ∧ c.2 < g.cells.h) :
    ∃ h, Updates m c g l h ∧ h.cells.cells c.1 c.2 = l.foldl (updated m) (g.cells.cells c.1 c.2) := by
  obtain ⟨h, h1, -, -, h4⟩ := fold_cells m (l.map fun p => (c, p)) g (by
    intro e he
    obtain ⟨p, _, rfl⟩ := List.mem_map.1 he
    exact hc)
  refine ⟨h, ?_, ?_⟩
  · unfold Updates
    rw [List.foldlM_map] at h1
    exact h1
  · rw [h4 c]
    congr 1
    rw [List.filter_eq_self.2 (by simp), List.map_map]
    simp [Function.comp_def]

/-! ### projectPointcloud -/

/-- the updates of projectPointcloud -/
def entries (geo : Geo) (k : Config) (i : Input) : List ((Nat × Nat) × Patch) :=
  ((i.samples k.default).map fun s => (i.T s.1, s.2)).filterMap fun s => if inArea k.area s.1 then (toGrid geo s.1.1 s.1.2.1).map fun c => (c, Patch.make s.1.2.2 (Real.sqrt s.2)) else none

theorem inArea_iff {area : Option (P3 × P3)} {p : P3} : inArea area p = true ↔ InBox area p := by
  unfold inArea InBox
  cases area with
  | none => simp
  | some b =>
    obtain ⟨a, b⟩ := b
    simp only [decide_eq_true_eq, Option.some.injEq, Prod.mk.injEq]
    constructor
    · rintro ⟨h1, h2, h3, h4, h5, h6⟩ a' b' ⟨rfl, rfl⟩
      exact ⟨⟨h1, h3, h5⟩, h2, h4, h6⟩
    · intro h
      obtain ⟨⟨h1, h3, h5⟩, h2, h4, h6⟩ := h a b ⟨rfl, rfl⟩
      exact ⟨h1, h2, h3, h4, h5, h6⟩

theorem entries_fold (m : Merge) (geo : Geo) (k : Config) (i : Input) (g : Grid) :
    projectCloud m geo k i g = (entries geo k i).foldlM (fun (g : Grid) e => g.updateCell m e.1.1 e.1.2 e.2) g := by
  unfold projectCloud entries
  generalize (i.samples k.default).map (fun s => (i.T s.1, s.2)) = l
  induction l generalizing g with
  | nil => rfl
  | cons s l ih =>
    rw [List.foldlM_cons, List.filterMap_cons]
    unfold addSample
    by_cases ha : inArea k.area s.1 = true
    · simp only [ha, if_true]
      cases toGrid geo s.1.1 s.1.2.1 with
      | none => exact ih g
      | some c =>
        simp only [Option.map_some, List.foldlM_cons]
        cases g.updateCell m c.1 c.2 (Patch.make s.1.2.2 (Real.sqrt s.2)) with
        | none => rfl
        | some g' => exact ih g'
    · simp only [Bool.not_eq_true] at ha
      simp only [ha, Bool.false_eq_true, if_false]
      exact ih g

theorem entries_in {geo : Geo} (hx : 0 < geo.sx) (hy : 0 < geo.sy) (k : Config) (i : Input) : ∀ e ∈ entries geo k i, e.1.1 < geo.w ∧ e.1.2 < geo.h := by
  intro e he
  unfold entries at he
  rw [List.mem_filterMap] at he
  obtain ⟨s, _, h2⟩ := he
  split at h2
  · obtain ⟨c, h3, rfl⟩ := Option.map_eq_some_iff.1 h2
    have := (toGrid_iff hx hy s.1 c).1 h3
    exact ⟨this.1.1, this.2.1⟩
  · cases h2

open Classical in
theorem entries_filter {geo : Geo} (hx : 0 < geo.sx) (hy : 0 < geo.sy) (k : Config) (i : Input) (c : Nat × Nat) :
    ((entries geo k i).filter fun e => e.1 = c).map (·.2) = (((i.samples k.default).map fun s => (i.T s.1, s.2)).filter fun s => decide (Hit geo k.area c s)).map fun s => Patch.make s.1.2.2 (Real.sqrt s.2) := by
  unfold entries
  generalize (i.samples k.default).map (fun s => (i.T s.1, s.2)) = l
  induction l with
  | nil => rfl
  | cons s l ih =>
    rw [List.filterMap_cons, List.filter_cons]
    by_cases ha : inArea k.area s.1 = true
    · simp only [ha, if_true]
      cases ht : toGrid geo s.1.1 s.1.2.1 with
      | none =>
        have : ¬ Hit geo k.area c s := fun h => by
          rw [(toGrid_iff hx hy s.1 c).2 h.1] at ht
          cases ht
        simp only [Option.map_none, this, decide_false, Bool.false_eq_true, if_false]
        exact ih
      | some d =>
        simp only [Option.map_some, List.filter_cons]
        by_cases hd : d = c
        · subst hd
          have : Hit geo k.area d s := ⟨(toGrid_iff hx hy s.1 d).1 ht, inArea_iff.1 ha⟩
          simp only [this, decide_true, if_true, List.map_cons, ih]
        · have : ¬ Hit geo k.area c s := fun h => by
            rw [(toGrid_iff hx hy s.1 c).2 h.1] at ht
            cases ht
            exact hd rfl
          simp only [hd, this, decide_false, Bool.false_eq_true, if_false]
          exact ih
    · have : ¬ Hit geo k.area c s := fun h => ha (inArea_iff.2 h.2)
      simp only [Bool.not_eq_true] at ha
      simp only [ha, this, decide_false, Bool.false_eq_true, if_false]
      exact ih

theorem samples_spec (i : Input) (default : ℝ) : IsSample i default (i.samples default) := by
  unfold IsSample Input.samples
  by_cases h : i.points.length = (i.variance.getD []).length
  · rw [if_pos h]
    refine ⟨List.map_fst_zip h.le, ?_, ?_⟩
    · rintro ⟨v, hv, -⟩
      rw [hv] at h ⊢
      simp only [Option.getD_some] at h ⊢
      rw [List.map_snd_zip h.ge]
    · intro hn
      cases hv : i.variance with
      | some v =>
        rw [hv] at h
        exact absurd ⟨v, hv, h.symm⟩ hn
      | none => simp
  · rw [if_neg h]
    refine ⟨by simp [Function.comp_def], ?_, ?_⟩
    · rintro ⟨v, hv, hl⟩
      rw [hv] at h
      exact absurd hl.symm h
    · intro _ s hs
      obtain ⟨p, _, rfl⟩ := List.mem_map.1 hs
      rfl

open Classical in
/-- C118 without the uncertainty of the transform: the projection never fails; each cell gets exactly the measurements in it, in their order, by updateCell; everything else stays. -/
theorem C118_cells (m : Merge) {geo : Geo} {g : Grid} (hf : Fit geo g) (k : Config) (i : Input) :
    ∃ l g', IsSample i k.default l ∧ projectCloud m geo k i g = some g' ∧ g'.cells.w = g.cells.w ∧ g'.cells.h = g.cells.h ∧
      ∀ c : Nat × Nat, c.1 < geo.w → c.2 < geo.h →
        ∃ h, Updates m c g (((l.map fun s => (i.T s.1, s.2)).filter fun s => decide (Hit geo k.area c s)).map fun s => Patch.make s.1.2.2 (Real.sqrt s.2)) h ∧ g'.cells.cells c.1 c.2 = h.cells.cells c.1 c.2 := by
  have hin : ∀ e ∈ entries geo k i, e.1.1 < g.cells.w ∧ e.1.2 < g.cells.h := by rw [hf.w, hf.h]; exact entries_in hf.sx hf.sy k i
  obtain ⟨g', h1, h2, h3, h4⟩ := fold_cells m (entries geo k i) g hin
  refine ⟨i.samples k.default, g', samples_spec i k.default, (entries_fold m geo k i g).trans h1, h2, h3, fun c hx hy => ?_⟩
  rw [h4 c, entries_filter hf.sx hf.sy]
  obtain ⟨h, a, b⟩ := fold_one m c (((((i.samples k.default).map fun s => (i.T s.1, s.2)).filter fun s => decide (Hit geo k.area c s))).map fun s => Patch.make s.1.2.2 (Real.sqrt s.2)) g (by rw [hf.w, hf.h]; exact ⟨hx, hy⟩)
  exact ⟨h, a, b.symm⟩

/-! ### the order of the cells -/

def After (last : Option (Nat × Nat)) (c : Nat × Nat) : Prop := ∀ l, last = some l → before l c = true

theorem before_iff {a b : Nat × Nat} : before a b = true ↔ a.1 < b.1 ∨ (a.1 = b.1 ∧ a.2 < b.2) := by
  simp [before]

theorem before_trans {a b c : Nat × Nat} (h1 : before a b = true) (h2 : before b c = true) : before a c = true := by
  rw [before_iff] at *
  omega

theorem before_total (a b : Nat × Nat) : before a b = true ∨ a = b ∨ before b a = true := by
  obtain ⟨a1, a2⟩ := a
  obtain ⟨b1, b2⟩ := b
  simp only [before_iff, Prod.mk.injEq]
  omega

theorem before_irrefl (a : Nat × Nat) : before a a = false := by
  simp [before]

theorem least_none {l : List (Nat × Nat)} (h : least l = none) : l = [] := by
  cases l with
  | nil => rfl
  | cons a l =>
    unfold least at h
    cases hl : least l with
    | none => rw [hl] at h; cases h
    | some b => rw [hl] at h; cases h

theorem least_some : ∀ {l : List (Nat × Nat)} {a : Nat × Nat}, least l = some a → a ∈ l ∧ ∀ b ∈ l, b = a ∨ before a b = true
  | [], a, h => by cases h
  | x :: l, a, h => by
    unfold least at h
    cases hl : least l with
    | none =>
      rw [hl] at h
      cases h
      have := least_none hl
      subst this
      exact ⟨List.mem_cons_self, fun b hb => .inl (by simpa using hb)⟩
    | some y =>
      rw [hl] at h
      obtain ⟨h1, h2⟩ := least_some hl
      simp only [Option.some.injEq] at h
      by_cases hb : before y x = true
      · rw [if_pos hb] at h
        subst h
        refine ⟨List.mem_cons_of_mem _ h1, fun b hm => ?_⟩
        rcases List.mem_cons.1 hm with rfl | hm
        · exact .inr hb
        · exact h2 b hm
      · rw [if_neg hb] at h
        subst h
        refine ⟨List.mem_cons_self, fun b hm => ?_⟩
        rcases List.mem_cons.1 hm with rfl | hm
        · exact .inl rfl
        · rcases before_total x y with h | h | h
          · rcases h2 b hm with rfl | h3
            · exact .inr h
            · exact .inr (before_trans h h3)
          · subst h
            exact h2 b hm
          · exact absurd h hb

theorem next_none {idx : List (Nat × Nat)} {last : Option (Nat × Nat)} (h : nextCell idx last = none) : ∀ c ∈ idx, ¬ After last c := by
  intro c hc ha
  cases last with
  | none =>
    have := least_none h
    subst this
    cases hc
  | some l =>
    have := least_none h
    rw [List.filter_eq_nil_iff] at this
    exact this c hc (ha l rfl)

theorem next_some {idx : List (Nat × Nat)} {last : Option (Nat × Nat)} {c : Nat × Nat} (h : nextCell idx last = some c) :
    c ∈ idx ∧ After last c ∧ ∀ d ∈ idx, After last d → d = c ∨ before c d = true := by
  cases last with
  | none =>
    obtain ⟨h1, h2⟩ := least_some h
    exact ⟨h1, fun l hl => (by cases hl), fun d hd _ => h2 d hd⟩
  | some l =>
    obtain ⟨h1, h2⟩ := least_some h
    rw [List.mem_filter] at h1
    refine ⟨h1.1, fun l' hl => by cases hl; exact h1.2, fun d hd ha => h2 d (List.mem_filter.2 ⟨hd, ha l rfl⟩)⟩

open Classical in
/-- the number of cells of the grid that are still to come -/
def rest (geo : Geo) (last : Option (Nat × Nat)) : Nat := ((Finset.range geo.w ×ˢ Finset.range geo.h).filter fun c => After last c).card

theorem rest_lt {geo : Geo} {last : Option (Nat × Nat)} {c : Nat × Nat} (h1 : c.1 < geo.w) (h2 : c.2 < geo.h) (ha : After last c) : rest geo (some c) < rest geo last := by
  classical
  unfold rest
  apply Finset.card_lt_card
  rw [Finset.ssubset_iff_of_subset]
  · refine ⟨c, ?_, ?_⟩
    · simp [h1, h2, ha]
    · simp only [Finset.mem_filter, not_and]
      intro _ h
      have := h c rfl
      rw [before_irrefl] at this
      cases this
  · intro d hd
    simp only [Finset.mem_filter] at hd ⊢
    exact ⟨hd.1, fun l hl => before_trans (ha l hl) (hd.2 c rfl)⟩

theorem rest_none (geo : Geo) : rest geo none ≤ geo.w * geo.h := by
  classical
  unfold rest
  refine (Finset.card_filter_le _ _).trans ?_
  simp

/-! ### the loop without negative information, target and temporary grid are the same -/

theorem visitCell_same (m : Merge) (geo : Geo) {k : Config} (hk : k.negative = false) (i : Input) (o : Nat × Nat) (z : ℝ) (t : Grid) (c : Nat × Nat) :
    visitCell m geo k i o z { t := t, grid := none } c = some { t := { t with cells := t.cells.set c.1 c.2 ((t.cells.cells c.1 c.2).map (smear geo k i c)) }, grid := none } := by
  unfold visitCell
  dsimp only
  have h : ∀ (l : List Patch) (t : Grid), l.foldlM (visitPatch m geo k o z c) ({ t := t, grid := none } : State) = some { t := t, grid := none } := by
    intro l t
    induction l with
    | nil => rfl
    | cons p l ih =>
      rw [List.foldlM_cons]
      have : visitPatch m geo k o z c { t := t, grid := none } p = some { t := t, grid := none } := by simp [visitPatch, hk]
      rw [this]
      exact ih
  exact h _ _

open Classical in
theorem visit_same (m : Merge) (geo : Geo) {k : Config} (hk : k.negative = false) (i : Input) (o : Nat × Nat) (z : ℝ) (idx : List (Nat × Nat)) (hidx : ∀ c ∈ idx, c.1 < geo.w ∧ c.2 < geo.h) :
    ∀ (n : Nat) (last : Option (Nat × Nat)) (t : Grid), t.index = some idx → rest geo last < n →
      ∃ t', visit m geo k i o z n last { t := t, grid := none } = some { t := t', grid := none } ∧ t'.cells.w = t.cells.w ∧ t'.cells.h = t.cells.h ∧
        ∀ c : Nat × Nat, t'.cells.cells c.1 c.2 = if c ∈ idx ∧ After last c then (t.cells.cells c.1 c.2).map (smear geo k i c) else t.cells.cells c.1 c.2
  | 0, last, t, _, h => absurd h (by omega)
  | n + 1, last, t, ht, h => by
    unfold visit
    dsimp only
    rw [ht, Option.getD_some]
    cases hn : nextCell idx last with
    | none =>
      refine ⟨t, rfl, rfl, rfl, fun c => ?_⟩
      rw [if_neg (fun hc => next_none hn c hc.1 hc.2)]
    | some c =>
      obtain ⟨h1, h2, h3⟩ := next_some hn
      dsimp only
      rw [visitCell_same m geo hk, Option.bind_some]
      obtain ⟨t', a1, a2, a3, a4⟩ := visit_same m geo hk i o z idx hidx n (some c) { t with cells := t.cells.set c.1 c.2 ((t.cells.cells c.1 c.2).map (smear geo k i c)) } ht
        (by have := rest_lt (hidx c h1).1 (hidx c h1).2 h2; omega)
      refine ⟨t', a1, a2, a3, fun d => ?_⟩
      rw [a4 d]
      by_cases hd : d = c
      · subst hd
        rw [if_neg (fun hc => by have := hc.2 d rfl; rw [before_irrefl] at this; cases this), if_pos ⟨h1, h2⟩]
        simp [ListGrid.Seqs.set]
      · have e : (t.cells.set c.1 c.2 ((t.cells.cells c.1 c.2).map (smear geo k i c))).cells d.1 d.2 = t.cells.cells d.1 d.2 := by
          simp only [ListGrid.Seqs.set]
          rw [if_neg (fun hc => hd (Prod.ext hc.1 hc.2))]
        have e2 : (d ∈ idx ∧ After (some c) d) ↔ (d ∈ idx ∧ After last d) := by
          constructor
          · rintro ⟨x, y⟩
            exact ⟨x, fun l hl => before_trans (h2 l hl) (y c rfl)⟩
          · rintro ⟨x, y⟩
            exact ⟨x, fun l hl => by cases hl; exact (h3 d x y).resolve_left hd⟩
        dsimp only
        rw [e]
        simp only [e2]

/-! ### the lines -/

/-- numbers of cells for which the lines are computed without overflow -/
def Small (geo : Geo) : Prop := geo.w ≤ 2 ^ 28 ∧ geo.h ≤ 2 ^ 28

def InGrid (geo : Geo) (c : Nat × Nat) : Prop := c.1 < geo.w ∧ c.2 < geo.h

theorem line_exists {geo : Geo} (hs : Small geo) {c o : Nat × Nat} (hc : InGrid geo c) (ho : InGrid geo o) :
    ∃ l, Bresenham.IsLine ((c.1 : Int), (c.2 : Int)) ((o.1 : Int), (o.2 : Int)) l ∧ Bresenham.lineBresenham (geo.w + geo.h + 2) ((c.1 : Int), (c.2 : Int)) ((o.1 : Int), (o.2 : Int)) = some l := by
  obtain ⟨s1, s2⟩ := hs
  obtain ⟨c1, c2⟩ := hc
  obtain ⟨o1, o2⟩ := ho
  have fits : ∀ d : Nat × Nat, d.1 < geo.w → d.2 < geo.h → Bresenham.Fits ((d.1 : Int), (d.2 : Int)) := by
    intro d h1 h2
    unfold Bresenham.Fits
    simp only [abs_le]
    omega
  obtain ⟨l, h1, h2⟩ := Bresenham.C32_bresenham_line _ _ (fits c c1 c2) (fits o o1 o2)
  refine ⟨l, h1, h2 _ ?_⟩
  simp only
  have a : |(o.1 : Int) - c.1| ≤ geo.w := by rw [abs_le]; omega
  have b : |(o.2 : Int) - c.2| ≤ geo.h := by rw [abs_le]; omega
  push_cast
  rcases max_cases |(o.1 : Int) - c.1| |(o.2 : Int) - c.2| with ⟨e, _⟩ | ⟨e, _⟩ <;> rw [e] <;> omega

/-- the updates for the negative information of a patch -/
def negList (geo : Geo) (k : Config) (o : Nat × Nat) (z : ℝ) (c : Nat × Nat) (p : Patch) : List ((Nat × Nat) × Patch) := if k.negative then (negatives geo o z c p).getD [] else []

theorem negatives_some {geo : Geo} (hs : Small geo) {c o : Nat × Nat} (hc : InGrid geo c) (ho : InGrid geo o) (z : ℝ) (p : Patch) :
    ∃ l, negatives geo o z c p = some l ∧ ∀ e ∈ l, InGrid geo e.1 := by
  obtain ⟨l, h1, h2⟩ := line_exists hs hc ho
  unfold negatives
  rw [h2]
  refine ⟨_, rfl, ?_⟩
  intro e he
  simp only [List.mem_map, List.mem_filter] at he
  obtain ⟨q, ⟨hq, _⟩, rfl⟩ := he
  have := h1.box q hq
  obtain ⟨c1, c2⟩ := hc
  obtain ⟨o1, o2⟩ := ho
  simp only at this
  refine ⟨?_, ?_⟩ <;> simp only <;> omega

/-! ### the loop with another target -/

theorem update_other (m : Merge) (t g : Grid) (l : List ((Nat × Nat) × Patch)) :
    l.foldlM (State.update m) { t := t, grid := some g } = (l.foldlM (fun (g : Grid) e => g.updateCell m e.1.1 e.1.2 e.2) g).map fun g => { t := t, grid := some g } := by
  induction l generalizing g with
  | nil => rfl
  | cons e l ih =>
    rw [List.foldlM_cons, List.foldlM_cons]
    simp only [State.update]
    cases g.updateCell m e.1.1 e.1.2 e.2 with
    | none => rfl
    | some g' => exact ih g'

/-- the negative information is defined: it is not used, or the origin is in the grid -/
def Usable (geo : Geo) (k : Config) (o : Nat × Nat) : Prop := k.negative = true → Small geo ∧ InGrid geo o

theorem visitPatch_other (m : Merge) {geo : Geo} {k : Config} {o : Nat × Nat} (hu : Usable geo k o) (z : ℝ) {c : Nat × Nat} (hc : InGrid geo c) (t g : Grid) (p : Patch) :
    visitPatch m geo k o z c { t := t, grid := some g } p = (((c, p) :: negList geo k o z c p).foldlM (fun (g : Grid) e => g.updateCell m e.1.1 e.1.2 e.2) g).map fun g => { t := t, grid := some g } := by
  unfold visitPatch negList
  rw [List.foldlM_cons]
  simp only [Option.isSome_some, if_true, State.update]
  cases g.updateCell m c.1 c.2 p with
  | none => rfl
  | some g' =>
    simp only [Option.map_some, Option.bind_some, Option.bind_eq_bind]
    cases hk : k.negative with
    | false => simp
    | true =>
      obtain ⟨hs, ho⟩ := hu hk
      obtain ⟨l, h1, -⟩ := negatives_some hs hc ho z p
      simp only [if_true, h1, Option.bind_some, Option.getD_some]
      exact update_other m t g' l

/-- the updates for a cell of the temporary grid -/
def block (geo : Geo) (k : Config) (i : Input) (o : Nat × Nat) (z : ℝ) (t : Grid) (c : Nat × Nat) : List ((Nat × Nat) × Patch) :=
  ((t.cells.cells c.1 c.2).map (smear geo k i c)).flatMap fun p => (c, p) :: negList geo k o z c p

theorem visitCell_other (m : Merge) {geo : Geo} {k : Config} (i : Input) {o : Nat × Nat} (hu : Usable geo k o) (z : ℝ) {c : Nat × Nat} (hc : InGrid geo c) (t g : Grid) :
    visitCell m geo k i o z { t := t, grid := some g } c = ((block geo k i o z t c).foldlM (fun (g : Grid) e => g.updateCell m e.1.1 e.1.2 e.2) g).map fun g =>
      { t := { t with cells := t.cells.set c.1 c.2 ((t.cells.cells c.1 c.2).map (smear geo k i c)) }, grid := some g } := by
  unfold visitCell block
  dsimp only
  generalize ({ t with cells := t.cells.set c.1 c.2 ((t.cells.cells c.1 c.2).map (smear geo k i c)) } : Grid) = t'
  generalize (t.cells.cells c.1 c.2).map (smear geo k i c) = l
  induction l generalizing g with
  | nil => rfl
  | cons p l ih =>
    rw [List.foldlM_cons, visitPatch_other m hu z hc, List.flatMap_cons, List.foldlM_append]
    cases ((c, p) :: negList geo k o z c p).foldlM (fun (g : Grid) e => g.updateCell m e.1.1 e.1.2 e.2) g with
    | none => rfl
    | some g' => exact ih g'

theorem block_in {geo : Geo} {k : Config} (i : Input) {o : Nat × Nat} (hu : Usable geo k o) (z : ℝ) (t : Grid) {c : Nat × Nat} (hc : InGrid geo c) : ∀ e ∈ block geo k i o z t c, InGrid geo e.1 := by
  intro e he
  unfold block at he
  simp only [List.mem_flatMap, List.mem_cons] at he
  obtain ⟨p, _, rfl | he⟩ := he
  · exact hc
  · unfold negList at he
    cases hk : k.negative with
    | false => simp [hk] at he
    | true =>
      obtain ⟨hs, ho⟩ := hu hk
      obtain ⟨l, h1, h2⟩ := negatives_some hs hc ho z p
      simp only [hk, if_true, h1, Option.getD_some] at he
      exact h2 e he

theorem visit_other (m : Merge) {geo : Geo} {k : Config} (i : Input) {o : Nat × Nat} (hu : Usable geo k o) (z : ℝ) (idx : List (Nat × Nat)) (hidx : ∀ c ∈ idx, InGrid geo c) :
    ∀ (n : Nat) (last : Option (Nat × Nat)) (t g : Grid), t.index = some idx → g.cells.w = geo.w → g.cells.h = geo.h → rest geo last < n →
      ∃ (order : List (Nat × Nat)) (t' g' : Grid), visit m geo k i o z n last { t := t, grid := some g } = some { t := t', grid := some g' } ∧ order.Pairwise (fun a b => before a b = true) ∧ (∀ c, c ∈ order ↔ c ∈ idx ∧ After last c) ∧
        (order.flatMap (block geo k i o z t)).foldlM (fun (g : Grid) e => g.updateCell m e.1.1 e.1.2 e.2) g = some g'
  | 0, last, t, g, _, _, _, h => absurd h (by omega)
  | n + 1, last, t, g, ht, hw, hh, h => by
    unfold visit
    dsimp only
    rw [ht, Option.getD_some]
    cases hn : nextCell idx last with
    | none =>
      exact ⟨[], t, g, rfl, List.Pairwise.nil, fun c => ⟨fun hc => (by cases hc), fun hc => absurd hc.2 (next_none hn c hc.1)⟩, rfl⟩
    | some c =>
      obtain ⟨h1, h2, h3⟩ := next_some hn
      dsimp only
      rw [visitCell_other m i hu z (hidx c h1)]
      obtain ⟨g1, b1, b2, b3, -⟩ := fold_cells m (block geo k i o z t c) g (by rw [hw, hh]; exact block_in i hu z t (hidx c h1))
      rw [b1, Option.map_some, Option.bind_some]
      obtain ⟨order, t', g', a1, a2, a3, a4⟩ := visit_other m i hu z idx hidx n (some c) { t with cells := t.cells.set c.1 c.2 ((t.cells.cells c.1 c.2).map (smear geo k i c)) } g1 ht
        (b2.trans hw) (b3.trans hh) (by have := rest_lt (hidx c h1).1 (hidx c h1).2 h2; omega)
      refine ⟨c :: order, t', g', a1, List.pairwise_cons.2 ⟨fun d hd => ((a3 d).1 hd).2 c rfl, a2⟩, fun d => ?_, ?_⟩
      · rw [List.mem_cons, a3]
        constructor
        · rintro (rfl | ⟨x, y⟩)
          · exact ⟨h1, h2⟩
          · exact ⟨x, fun l hl => before_trans (h2 l hl) (y c rfl)⟩
        · rintro ⟨x, y⟩
          rcases h3 d x y with rfl | h4
          · exact .inl rfl
          · exact .inr ⟨x, fun l hl => by cases hl; exact h4⟩
      · have e : order.flatMap (block geo k i o z { t with cells := t.cells.set c.1 c.2 ((t.cells.cells c.1 c.2).map (smear geo k i c)) }) = order.flatMap (block geo k i o z t) := by
          apply List.flatMap_congr
          intro d hd
          have hne : ¬ (d.1 = c.1 ∧ d.2 = c.2) := by
            intro hc
            have hdc : d = c := Prod.ext hc.1 hc.2
            have := ((a3 d).1 hd).2 c rfl
            rw [hdc, before_irrefl] at this
            cases this
          unfold block
          simp only [ListGrid.Seqs.set]
          rw [if_neg hne]
        rw [e] at a4
        rw [List.flatMap_cons, List.foldlM_append, b1]
        exact a4

/-! ### the loop always ends -/

theorem update_total (m : Merge) {geo : Geo} : ∀ (l : List ((Nat × Nat) × Patch)) (s : State), (∀ e ∈ l, InGrid geo e.1) → s.t.cells.w = geo.w → s.t.cells.h = geo.h → IndexIn s.t → (∀ g, s.grid = some g → g.cells.w = geo.w ∧ g.cells.h = geo.h) →
    ∃ s', l.foldlM (State.update m) s = some s' ∧ s'.t.cells.w = geo.w ∧ s'.t.cells.h = geo.h ∧ IndexIn s'.t ∧ (∀ g, s'.grid = some g → g.cells.w = geo.w ∧ g.cells.h = geo.h)
  | [], s, _, h1, h2, h3, h4 => ⟨s, rfl, h1, h2, h3, h4⟩
  | e :: l, s, hl, h1, h2, h3, h4 => by
    obtain ⟨ex, ey⟩ := hl e List.mem_cons_self
    have key : ∃ s1, s.update m e = some s1 ∧ s1.t.cells.w = geo.w ∧ s1.t.cells.h = geo.h ∧ IndexIn s1.t ∧ (∀ g, s1.grid = some g → g.cells.w = geo.w ∧ g.cells.h = geo.h) := by
      unfold State.update
      cases hg : s.grid with
      | none =>
        obtain ⟨t', a1, a2, a3, -⟩ := updateCell_cells m s.t (h1.symm ▸ ex) (h2.symm ▸ ey) e.2
        exact ⟨{ s with t := t' }, by simp [a1, hg], a2.trans h1, a3.trans h2, h3.updateCell a1, fun g hg' => h4 g hg'⟩
      | some g =>
        obtain ⟨w1, w2⟩ := h4 g hg
        obtain ⟨g', a1, a2, a3, -⟩ := updateCell_cells m g (w1.symm ▸ ex) (w2.symm ▸ ey) e.2
        exact ⟨{ s with grid := some g' }, by simp [a1], h1, h2, h3, fun g'' hg' => by cases hg'; exact ⟨a2.trans w1, a3.trans w2⟩⟩
    obtain ⟨s1, k1, k2, k3, k4, k5⟩ := key
    rw [List.foldlM_cons, k1]
    exact update_total m l s1 (fun f hf => hl f (List.mem_cons_of_mem _ hf)) k2 k3 k4 k5

/-- the sizes of the grids, and cells of the index -/
structure Good (geo : Geo) (s : State) : Prop where
  w : s.t.cells.w = geo.w
  h : s.t.cells.h = geo.h
  index : IndexIn s.t
  grid : ∀ g, s.grid = some g → g.cells.w = geo.w ∧ g.cells.h = geo.h

theorem visitPatch_total (m : Merge) {geo : Geo} {k : Config} {o : Nat × Nat} (hu : Usable geo k o) (z : ℝ) {c : Nat × Nat} (hc : InGrid geo c) {s : State} (hs : Good geo s) (p : Patch) :
    ∃ s', visitPatch m geo k o z c s p = some s' ∧ Good geo s' := by
  have h1 : ∃ s1, (if s.grid.isSome then s.update m (c, p) else some s) = some s1 ∧ Good geo s1 := by
    split
    · obtain ⟨s1, a, b1, b2, b3, b4⟩ := update_total m [(c, p)] s (by intro e he; simp only [List.mem_singleton] at he; rw [he]; exact hc) hs.w hs.h hs.index hs.grid
      exact ⟨s1, by simpa using a, b1, b2, b3, b4⟩
    · exact ⟨s, rfl, hs⟩
  obtain ⟨s1, a, b⟩ := h1
  unfold visitPatch
  rw [a, Option.bind_some]
  cases hk : k.negative with
  | false => exact ⟨s1, by simp, b⟩
  | true =>
    obtain ⟨hsm, ho⟩ := hu hk
    obtain ⟨l, e1, e2⟩ := negatives_some hsm hc ho z p
    obtain ⟨s2, a, b1, b2, b3, b4⟩ := update_total m l s1 e2 b.w b.h b.index b.grid
    exact ⟨s2, by simpa [e1] using a, b1, b2, b3, b4⟩

theorem visitCell_total (m : Merge) {geo : Geo} {k : Config} (i : Input) {o : Nat × Nat} (hu : Usable geo k o) (z : ℝ) {c : Nat × Nat} (hc : InGrid geo c) {s : State} (hs : Good geo s) :
    ∃ s', visitCell m geo k i o z s c = some s' ∧ Good geo s' := by
  unfold visitCell
  dsimp only
  have h : ∀ (l : List Patch) (s : State), Good geo s → ∃ s', l.foldlM (visitPatch m geo k o z c) s = some s' ∧ Good geo s' := by
    intro l
    induction l with
    | nil => exact fun s hs => ⟨s, rfl, hs⟩
    | cons p l ih =>
      intro s hs
      obtain ⟨s1, a, b⟩ := visitPatch_total m hu z hc hs p
      rw [List.foldlM_cons, a]
      exact ih s1 b
  exact h _ _ ⟨hs.w, hs.h, hs.index, hs.grid⟩

theorem visit_total (m : Merge) {geo : Geo} {k : Config} (i : Input) {o : Nat × Nat} (hu : Usable geo k o) (z : ℝ) :
    ∀ (n : Nat) (last : Option (Nat × Nat)) (s : State), Good geo s → rest geo last < n → ∃ s', visit m geo k i o z n last s = some s'
  | 0, _, _, _, h => absurd h (by omega)
  | n + 1, last, s, hs, h => by
    unfold visit
    cases hn : nextCell (s.t.index.getD []) last with
    | none => exact ⟨s, rfl⟩
    | some c =>
      obtain ⟨h1, h2, -⟩ := next_some hn
      have hc : InGrid geo c := by
        cases hi : s.t.index with
        | none => rw [hi] at h1; simp at h1
        | some idx =>
          rw [hi] at h1
          have := hs.index idx hi c h1
          rw [hs.w, hs.h] at this
          exact this
      obtain ⟨s1, a, b⟩ := visitCell_total m i hu z hc hs
      dsimp only
      rw [a, Option.bind_some]
      exact visit_total m i hu z n (some c) s1 b (by have := rest_lt hc.1 hc.2 h2; omega)

/-! ### the temporary grid -/

theorem index_some (m : Merge) {g g' : Grid} {x y : Nat} {p : Patch} (h : g.index.isSome = true) (e : g.updateCell m x y p = some g') : g'.index.isSome = true := by
  unfold MLS.updateCell at e
  split at e
  · dsimp only at e
    split at e
    · cases e
      exact h
    · simp only [MLS.insertHead, Option.map_eq_some_iff] at e
      obtain ⟨c, _, rfl⟩ := e
      simpa [MLS.addCell] using h
  · cases e

theorem index_init {g : Grid} : IndexIn g.initIndex := by
  intro idx hi e he
  simp only [MLS.initIndex, Option.some.injEq] at hi
  subst hi
  split at he
  · have := (mem_generateIndex (g := g) (x := e.1) (y := e.2)).1 he
    exact ⟨this.1, this.2.1⟩
  · cases he

/-- the projection into a grid with a new index -/
theorem indexed (m : Merge) {geo : Geo} {g : Grid} (hf : Fit geo g) (he : Exact g) (k : Config) (i : Input) :
    ∃ t idx plain, projectCloud m geo k i g.initIndex = some t ∧ projectCloud m geo k i g = some plain ∧ t.index = some idx ∧ Fit geo t ∧ IndexIn t ∧ (∀ c ∈ idx, InGrid geo c) ∧
      (∀ c : Nat × Nat, InGrid geo c → c ∉ idx → t.cells.cells c.1 c.2 = []) ∧ ∀ c : Nat × Nat, t.cells.cells c.1 c.2 = plain.cells.cells c.1 c.2 := by
  have hin : ∀ e ∈ entries geo k i, e.1.1 < g.cells.w ∧ e.1.2 < g.cells.h := by rw [hf.w, hf.h]; exact entries_in hf.sx hf.sy k i
  obtain ⟨t, a1, a2, a3, a4⟩ := fold_cells m (entries geo k i) g.initIndex hin
  obtain ⟨p, b1, -, -, b4⟩ := fold_cells m (entries geo k i) g hin
  have inv : IndexIn t ∧ Exact t ∧ t.index.isSome = true :=
    foldlM_inv (I := fun g : Grid => IndexIn g ∧ Exact g ∧ g.index.isSome = true) _ (fun a b a' h e => ⟨h.1.updateCell e, h.2.1.updateCell e, index_some m h.2.2 e⟩) _ ⟨index_init, he.initIndex, rfl⟩ a1
  obtain ⟨i1, i2, i3⟩ := inv
  obtain ⟨idx, hi⟩ := Option.isSome_iff_exists.1 i3
  have w : t.cells.w = geo.w := a2.trans hf.w
  have h : t.cells.h = geo.h := a3.trans hf.h
  refine ⟨t, idx, p, (entries_fold m geo k i _).trans a1, (entries_fold m geo k i _).trans b1, hi, ⟨hf.sx, hf.sy, w, h⟩, i1, fun c hc => ?_, fun c hc hn => ?_, fun c => ?_⟩
  · have := i1 idx hi c hc
    rw [w, h] at this
    exact this
  · by_contra hne
    exact hn (i2.index idx hi c.1 c.2 (w.symm ▸ hc.1) (h.symm ▸ hc.2) hne)
  · rw [a4, b4]
    rfl

theorem fit_init {geo : Geo} (hx : 0 < geo.sx) (hy : 0 < geo.sy) : Fit geo (MLS.init geo.w geo.h : Grid) := ⟨hx, hy, rfl, rfl⟩

/-! ### C118 -/

/-- C118: the projection never accesses anything outside of the grid and always ends; there is an exception exactly if negative information is used and the origin of the cloud is outside of the grid -/
theorem C118_defined (m : Merge) {geo : Geo} {g : Grid} (hf : Fit geo g) (he : Exact g) (k : Config) (hs : k.negative = true → Small geo) (i : Input) :
    ((k.negative = true ∧ ∀ c, ¬ InCell geo c (i.T i.origin)) → projectWithUncertainty m geo k i g = .throws) ∧
    (¬ (k.negative = true ∧ ∀ c, ¬ InCell geo c (i.T i.origin)) → ∃ r, projectWithUncertainty m geo k i g = .ok r) := by
  have ht : ∃ t, projectCloud m geo k i (if decide (g.count = 0) = true then g else MLS.init geo.w geo.h).initIndex = some t ∧ Fit geo t ∧ IndexIn t := by
    by_cases hc : g.count = 0
    · rw [if_pos (by simpa using hc)]
      obtain ⟨t, _, _, h1, -, -, h2, h3, -⟩ := indexed m hf he k i
      exact ⟨t, h1, h2, h3⟩
    · rw [if_neg (by simpa using hc)]
      obtain ⟨t, _, _, h1, -, -, h2, h3, -⟩ := indexed m (fit_init hf.sx hf.sy) (Exact.init _ _) k i
      exact ⟨t, h1, h2, h3⟩
  obtain ⟨t, t1, t2, t3⟩ := ht
  have run : ∀ o, Usable geo k o → ∃ s, visit m geo k i o (i.T i.origin).2.2 (geo.w * geo.h + 1) none { t := t, grid := if decide (g.count = 0) = true then none else some g } = some s := by
    intro o hu
    refine visit_total m i hu _ _ none _ ⟨t2.w, t2.h, t3, ?_⟩ (by have := rest_none geo; omega)
    intro g' hg
    split at hg
    · cases hg
    · cases hg
      exact ⟨hf.w, hf.h⟩
  unfold projectWithUncertainty
  dsimp only
  rw [t1]
  dsimp only
  cases ho : toGrid geo (i.T i.origin).1 (i.T i.origin).2.1 with
  | none =>
    have hn : ∀ c, ¬ InCell geo c (i.T i.origin) := fun c hc => by rw [(toGrid_iff hf.sx hf.sy _ c).2 hc] at ho; cases ho
    cases hk : k.negative with
    | true => exact ⟨fun _ => by simp, fun h => absurd ⟨rfl, hn⟩ h⟩
    | false =>
      obtain ⟨s, e⟩ := run (0, 0) (fun h => by rw [hk] at h; cases h)
      refine ⟨fun h => by simp at h, fun _ => ⟨s.grid.getD s.t, ?_⟩⟩
      simp only [Bool.false_eq_true, if_false]
      rw [e]
  | some c =>
    have hc := (toGrid_iff hf.sx hf.sy _ c).1 ho
    obtain ⟨s, e⟩ := run c (fun h => ⟨hs h, hc.1.1, hc.2.1⟩)
    refine ⟨fun h => absurd hc (h.2 c), fun _ => ⟨s.grid.getD s.t, ?_⟩⟩
    dsimp only
    rw [e]

/-- the patch with the uncertainty of the transform -/
def Widened (geo : Geo) (i : Input) (c : Nat × Nat) (p : Patch) : Patch := { p with stdev := Real.sqrt (p.stdev ^ 2 + i.cov (geo.ox + (c.1 + 1 / 2) * geo.sx, geo.oy + (c.2 + 1 / 2) * geo.sy, p.mean)) }

theorem smear_widened (geo : Geo) {k : Config} (hk : k.withUncertainty = true) (i : Input) (c : Nat × Nat) : smear geo k i c = Widened geo i c := by
  funext p
  unfold smear Widened centre
  rw [if_pos hk, sq, add_comm geo.ox, add_comm geo.oy]

/-- without negative information the position of the origin does not matter -/
theorem plain_result (m : Merge) {geo : Geo} {k : Config} (hk : k.negative = false) (i : Input) (g t : Grid) (P : Grid → Prop) (e : projectCloud m geo k i (if decide (g.count = 0) = true then g else MLS.init geo.w geo.h).initIndex = some t)
    (h : ∀ o z, ∃ s, visit m geo k i o z (geo.w * geo.h + 1) none { t := t, grid := if decide (g.count = 0) = true then none else some g } = some s ∧ P (s.grid.getD s.t)) : ∃ r, projectWithUncertainty m geo k i g = .ok r ∧ P r := by
  unfold projectWithUncertainty
  dsimp only
  rw [e]
  dsimp only
  cases toGrid geo (i.T i.origin).1 (i.T i.origin).2.1 with
  | none =>
    obtain ⟨s, h1, h2⟩ := h (0, 0) (i.T i.origin).2.2
    simp only [hk, Bool.false_eq_true, if_false]
    rw [h1]
    exact ⟨_, rfl, h2⟩
  | some c =>
    obtain ⟨s, h1, h2⟩ := h c (i.T i.origin).2.2
    dsimp only
    rw [h1]
    exact ⟨_, rfl, h2⟩

/-- C118 with the uncertainty of the transform, into an empty grid: as without it (C118_cells), and then the variance of each patch is larger by that of the transform -/
theorem C118_fresh (m : Merge) {geo : Geo} {g : Grid} (hf : Fit geo g) (he : Exact g) (h0 : g.count = 0) {k : Config} (hk : k.negative = false) (hw : k.withUncertainty = true) (i : Input) :
    ∃ r plain, projectInput m geo k (some i) g = .ok r ∧ projectCloud m geo k i g = some plain ∧ ∀ c : Nat × Nat, InGrid geo c → r.cells.cells c.1 c.2 = (plain.cells.cells c.1 c.2).map (Widened geo i c) := by
  classical
  obtain ⟨t, idx, plain, h1, h2, h3, h4, -, h6, h7, h8⟩ := indexed m hf he k i
  have hs : decide (g.count = 0) = true := by simpa using h0
  obtain ⟨r, r1, r2⟩ := plain_result m hk i g t (fun r => ∀ c : Nat × Nat, InGrid geo c → r.cells.cells c.1 c.2 = (plain.cells.cells c.1 c.2).map (Widened geo i c)) (by rw [if_pos hs]; exact h1) (by
    intro o z
    obtain ⟨t', a1, -, -, a4⟩ := visit_same m geo hk i o z idx h6 (geo.w * geo.h + 1) none t h3 (by have := rest_none geo; omega)
    rw [if_pos hs]
    refine ⟨_, a1, fun c hc => ?_⟩
    dsimp only [Option.getD_none]
    rw [a4 c, h8 c, ← smear_widened geo hw]
    by_cases hm : c ∈ idx
    · rw [if_pos ⟨hm, fun l hl => by cases hl⟩]
    · rw [if_neg (fun h => hm h.1), ← h8 c, h7 c hc hm]
      rfl)
  refine ⟨r, plain, ?_, h2, r2⟩
  simp only [projectInput, hw, Bool.true_or, if_true]
  exact r1

theorem filter_block {A : Type} (f : Nat × Nat → List A) (c : Nat × Nat) : ∀ {order : List (Nat × Nat)}, order.Nodup →
    ((order.flatMap fun d => (f d).map fun p => (d, p)).filter fun e => e.1 = c).map (·.2) = if c ∈ order then f c else []
  | [], _ => rfl
  | d :: order, h => by
    rw [List.nodup_cons] at h
    rw [List.flatMap_cons, List.filter_append, List.map_append, filter_block f c h.2]
    by_cases hd : d = c
    · subst hd
      rw [if_neg h.1, if_pos List.mem_cons_self, List.append_nil, List.filter_eq_self.2 (by simp), List.map_map]
      simp [Function.comp_def]
    · have : ((f d).map fun p => (d, p)).filter (fun e => decide (e.1 = c)) = [] := by simp [hd]
      rw [this]
      simp [Ne.symm hd]

theorem order_nodup {order : List (Nat × Nat)} (h : order.Pairwise fun a b => before a b = true) : order.Nodup :=
  h.imp fun {a b} hab e => by rw [e, before_irrefl] at hab; cases hab

/-- C118 with the uncertainty of the transform, into a grid that is not empty: each cell gets the patches of the cloud alone, with the additional variance, by updateCell -/
theorem C118_merged (m : Merge) {geo : Geo} {g : Grid} (hf : Fit geo g) (h0 : g.count ≠ 0) {k : Config} (hk : k.negative = false) (hw : k.withUncertainty = true) (i : Input) :
    ∃ r alone, projectInput m geo k (some i) g = .ok r ∧ projectCloud m geo k i (MLS.init geo.w geo.h) = some alone ∧
      ∀ c : Nat × Nat, InGrid geo c → ∃ h, Updates m c g ((alone.cells.cells c.1 c.2).map (Widened geo i c)) h ∧ r.cells.cells c.1 c.2 = h.cells.cells c.1 c.2 := by
  classical
  obtain ⟨t, idx, plain, h1, h2, h3, h4, -, h6, h7, h8⟩ := indexed m (fit_init hf.sx hf.sy) (Exact.init _ _) k i
  have hs : ¬ decide (g.count = 0) = true := by simpa using h0
  obtain ⟨r, r1, r2⟩ := plain_result m hk i g t (fun r => ∀ c : Nat × Nat, InGrid geo c → r.cells.cells c.1 c.2 = ((plain.cells.cells c.1 c.2).map (Widened geo i c)).foldl (updated m) (g.cells.cells c.1 c.2)) (by rw [if_neg hs]; exact h1) (by
    intro o z
    have hu : Usable geo k o := fun h => by rw [hk] at h; cases h
    obtain ⟨order, t', g', a1, a2, a3, a4⟩ := visit_other m i hu z idx h6 (geo.w * geo.h + 1) none t g h3 hf.w hf.h (by have := rest_none geo; omega)
    rw [if_neg hs]
    refine ⟨_, a1, fun c hc => ?_⟩
    dsimp only [Option.getD_some]
    have hb : block geo k i o z t = fun d => ((t.cells.cells d.1 d.2).map (Widened geo i d)).map fun p => (d, p) := by
      funext d
      unfold block negList
      rw [smear_widened geo hw]
      simp only [hk, Bool.false_eq_true, if_false]
      exact List.flatMap_pure_eq_map _ _
    have hin : ∀ e ∈ order.flatMap (block geo k i o z t), e.1.1 < g.cells.w ∧ e.1.2 < g.cells.h := by
      intro e he
      rw [List.mem_flatMap] at he
      obtain ⟨d, hd, he⟩ := he
      rw [hf.w, hf.h]
      exact block_in i hu z t (h6 d ((a3 d).1 hd).1) e he
    obtain ⟨g'', b1, -, -, b4⟩ := fold_cells m _ g hin
    rw [a4] at b1
    cases b1
    rw [b4 c, hb, filter_block _ c (order_nodup a2)]
    by_cases hm : c ∈ order
    · rw [if_pos hm, h8 c]
    · rw [if_neg hm, ← h8 c, h7 c hc (fun h => hm ((a3 c).2 ⟨h, fun l hl => by cases hl⟩))]
      rfl)
  refine ⟨r, plain, ?_, h2, fun c hc => ?_⟩
  · simp only [projectInput, hw, Bool.true_or, if_true]
    exact r1
  · obtain ⟨h, e1, e2⟩ := fold_one m c ((plain.cells.cells c.1 c.2).map (Widened geo i c)) g (by rw [hf.w, hf.h]; exact hc)
    exact ⟨h, e1, (r2 c hc).trans e2.symm⟩

/-! ### negative information -/

theorem factor_self (o c : Nat × Nat) : factor o c ((c.1 : Int), (c.2 : Int)) = 1 := by
  unfold factor
  dsimp only
  split
  · next h =>
    have : ((c.1 : Int) - o.1 : Int) ≠ 0 := h.2
    exact div_self (by exact_mod_cast this)
  · split
    · next h => exact div_self (by exact_mod_cast h)
    · rfl

theorem ratio_nonneg {a b q : Int} (h1 : min a b ≤ q) (h2 : q ≤ max a b) : (0 : ℝ) ≤ ((q - b : Int) : ℝ) / ((a - b : Int) : ℝ) := by
  rcases le_total a b with h | h
  · rw [min_eq_left h] at h1
    rw [max_eq_right h] at h2
    exact div_nonneg_of_nonpos (by exact_mod_cast (by omega : q - b ≤ 0)) (by exact_mod_cast (by omega : a - b ≤ 0))
  · rw [min_eq_right h] at h1
    rw [max_eq_left h] at h2
    exact div_nonneg (by exact_mod_cast (by omega : 0 ≤ q - b)) (by exact_mod_cast (by omega : 0 ≤ a - b))

theorem factor_nonneg {o c : Nat × Nat} {q : Int × Int} (h : min (c.1 : Int) o.1 ≤ q.1 ∧ q.1 ≤ max (c.1 : Int) o.1 ∧ min (c.2 : Int) o.2 ≤ q.2 ∧ q.2 ≤ max (c.2 : Int) o.2) : 0 ≤ factor o c q := by
  unfold factor
  dsimp only
  split
  · exact ratio_nonneg h.1 h.2.1
  · split
    · exact ratio_nonneg h.2.2.1 h.2.2.2
    · exact zero_le_one

/-- the patch as it goes into the target -/
def Sent (geo : Geo) (k : Config) (i : Input) (c : Nat × Nat) (p : Patch) : Patch := if k.withUncertainty then Widened geo i c p else p

theorem smear_sent (geo : Geo) (k : Config) (i : Input) (c : Nat × Nat) : smear geo k i c = Sent geo k i c := by
  funext p
  unfold Sent
  split
  · next h => rw [smear_widened geo h]
  · next h => unfold smear; rw [if_neg h]

theorem walk {p q : Int × Int} {l : List (Int × Int)} (h : Bresenham.IsLine p q l) (i : Nat) (a : Int × Int) (ha : l[i]? = some a) : ∀ (j : Nat) (b : Int × Int), l[i + j]? = some b → |b.1 - a.1| ≤ j ∧ |b.2 - a.2| ≤ j
  | 0, b, hb => by
    rw [Nat.add_zero, ha] at hb
    cases hb
    simp
  | j + 1, b, hb => by
    have hlt : i + j < l.length := by
      have := (List.getElem?_eq_some_iff.1 hb).1
      omega
    have hd : l[i + j]? = some l[i + j] := List.getElem?_eq_getElem hlt
    have h1 := walk h i a ha j _ hd
    have h2 := h.connected (i + j) _ b hd hb
    constructor
    · have := abs_sub_le b.1 l[i + j].1 a.1
      push_cast
      omega
    · have := abs_sub_le b.2 l[i + j].2 a.2
      push_cast
      omega

/-- along the longer side the cells of a line are all different -/
theorem line_ne {p q : Int × Int} {l : List (Int × Int)} (h : Bresenham.IsLine p q l) {c : Int × Int} (hc : c ∈ l) (hne : c ≠ p) : (|q.2 - p.2| ≤ |q.1 - p.1| → c.1 ≠ p.1) ∧ (|q.1 - p.1| ≤ |q.2 - p.2| → c.2 ≠ p.2) := by
  obtain ⟨i, hi, hci⟩ := List.mem_iff_getElem.1 hc
  have hci' : l[i]? = some c := by rw [List.getElem?_eq_getElem hi, hci]
  have h0 : i ≠ 0 := by
    rintro rfl
    have := h.first
    rw [List.head?_eq_getElem?, hci'] at this
    cases this
    exact hne rfl
  have hl := h.last
  rw [List.getLast?_eq_getElem?] at hl
  obtain ⟨j, hj⟩ : ∃ j, l.length - 1 = i + j := ⟨l.length - 1 - i, by omega⟩
  rw [hj] at hl
  have hw := walk h i c hci' j q hl
  have hlen := h.length
  constructor
  · intro hm he
    rw [max_eq_left hm] at hlen
    have := hw.1
    rw [he] at this
    omega
  · intro hm he
    rw [max_eq_right hm] at hlen
    have := hw.2
    rw [he] at this
    omega

/-- the part of the way from the origin o to the cell c, along the longer side -/
def Part (o c : Nat × Nat) (q : Int × Int) (f : ℝ) : Prop :=
  (|(c.2 : Int) - o.2| ≤ |(c.1 : Int) - o.1| → f * (c.1 - o.1) = q.1 - o.1) ∧ (|(c.1 : Int) - o.1| < |(c.2 : Int) - o.2| → f * (c.2 - o.2) = q.2 - o.2)

theorem factor_part {o c : Nat × Nat} (hne : c ≠ o) (q : Int × Int) : Part o c q (factor o c q) := by
  unfold factor Part
  dsimp only
  constructor
  · intro h
    have h0 : (c.1 : Int) - o.1 ≠ 0 := by
      intro h0
      rw [h0, abs_zero] at h
      have := abs_nonpos_iff.1 h
      exact hne (Prod.ext (by omega) (by omega))
    rw [if_pos ⟨h, h0⟩]
    have h0' : ((c.1 : ℝ) - o.1) ≠ 0 := by exact_mod_cast h0
    push_cast
    field_simp
  · intro h
    rw [if_neg (fun h' => absurd h'.1 (not_le.2 h))]
    have h0 : (c.2 : Int) - o.2 ≠ 0 := by
      intro h0
      rw [h0, abs_zero] at h
      exact absurd h (not_lt.2 (abs_nonneg _))
    rw [if_pos h0]
    have h0' : ((c.2 : ℝ) - o.2) ≠ 0 := by exact_mod_cast h0
    push_cast
    field_simp

theorem ratio_lt {a b q : Int} (h1 : min a b ≤ q) (h2 : q ≤ max a b) (h3 : q ≠ a) : ((q - b : Int) : ℝ) / ((a - b : Int) : ℝ) < 1 := by
  rcases lt_trichotomy a b with h | h | h
  · rw [min_eq_left h.le] at h1
    rw [div_lt_one_of_neg (by exact_mod_cast (by omega : a - b < 0))]
    exact_mod_cast (by omega : a - b < q - b)
  · subst h
    simp at h1 h2
    omega
  · rw [max_eq_left h.le] at h2
    rw [div_lt_one (by exact_mod_cast (by omega : 0 < a - b))]
    exact_mod_cast (by omega : q - b < a - b)

theorem factor_lt {o c : Nat × Nat} {l : List (Int × Int)} (h : Bresenham.IsLine ((c.1 : Int), (c.2 : Int)) ((o.1 : Int), (o.2 : Int)) l) {q : Int × Int} (hq : q ∈ l) (hne : q ≠ ((c.1 : Int), (c.2 : Int))) : factor o c q < 1 := by
  have hb := h.box q hq
  have hn := line_ne h hq hne
  dsimp only at hb hn
  rw [abs_sub_comm (o.1 : Int), abs_sub_comm (o.2 : Int)] at hn
  unfold factor
  dsimp only
  split
  · next h1 => exact ratio_lt hb.1 hb.2.1 (hn.1 h1.1)
  · next h1 =>
    split
    · next h2 =>
      refine ratio_lt hb.2.2.1 hb.2.2.2 (hn.2 ?_)
      by_contra hlt
      push Not at hlt
      exact h1 ⟨hlt.le, fun h0 => by rw [h0, abs_zero] at hlt; exact absurd hlt (not_lt.2 (abs_nonneg _))⟩
    · next h2 =>
      exfalso
      have h2 : (c.2 : Int) - o.2 = 0 := not_not.1 h2
      have h3 : (c.1 : Int) - o.1 = 0 := by
        by_contra h3
        exact h1 ⟨by rw [h2, abs_zero]; exact abs_nonneg _, h3⟩
      apply hne
      have e1 : (c.1 : Int) = o.1 := by omega
      have e2 : (c.2 : Int) = o.2 := by omega
      rw [e1, e2, min_self, max_self, min_self, max_self] at hb
      exact Prod.ext (by dsimp only; omega) (by dsimp only; omega)

/-- The negative patch for the patch p of the cell c, in another cell of the line to the origin o at height z. Its mean is between the height of the origin and the one of the patch, corrected for the angle at which the cell is seen. -/
def Ray (geo : Geo) (o : Nat × Nat) (z : ℝ) (c : Nat × Nat) (p : Patch) (e : (Nat × Nat) × Patch) : Prop :=
  e.2.kind = .negative ∧ e.1 ≠ c ∧ (∃ l, Bresenham.IsLine ((c.1 : Int), (c.2 : Int)) ((o.1 : Int), (o.2 : Int)) l ∧ ((e.1.1 : Int), (e.1.2 : Int)) ∈ l) ∧
  ∃ f h, 0 ≤ f ∧ f < 1 ∧ Part o c ((e.1.1 : Int), (e.1.2 : Int)) f ∧ h * Real.sqrt (((o.1 - c.1 : ℝ) * geo.sx) ^ 2 + ((o.2 - c.2 : ℝ) * geo.sy) ^ 2) = geo.sx * (z - p.mean) ∧
    e.2.mean = (1 - f) * z + f * (p.mean + h) ∧ e.2.stdev = f * p.stdev ∧ e.2.height = f * |p.height + h|

theorem rise_spec {geo : Geo} (hx : 0 < geo.sx) (hy : 0 < geo.sy) {o c : Nat × Nat} (hne : c ≠ o) (z : ℝ) (p : Patch) :
    rise geo o z c p * Real.sqrt (((o.1 - c.1 : ℝ) * geo.sx) ^ 2 + ((o.2 - c.2 : ℝ) * geo.sy) ^ 2) = geo.sx * (z - p.mean) := by
  have e : (((o.1 - c.1 : ℝ) * geo.sx) ^ 2 + ((o.2 - c.2 : ℝ) * geo.sy) ^ 2) = ((centre geo o 0).1 - (centre geo c 0).1) ^ 2 + ((centre geo o 0).2.1 - (centre geo c 0).2.1) ^ 2 := by
    unfold centre
    ring
  have hpos : 0 < ((o.1 - c.1 : ℝ) * geo.sx) ^ 2 + ((o.2 - c.2 : ℝ) * geo.sy) ^ 2 := by
    by_cases h : (o.1 : ℝ) - c.1 = 0
    · have h2 : (o.2 : ℝ) - c.2 ≠ 0 := by
        intro h2
        have a : o.1 = c.1 := by exact_mod_cast sub_eq_zero.1 h
        have b : o.2 = c.2 := by exact_mod_cast sub_eq_zero.1 h2
        exact hne (Prod.ext a.symm b.symm)
      have := mul_ne_zero h2 hy.ne'
      positivity
    · have := mul_ne_zero h hx.ne'
      positivity
  have hs := Real.sqrt_pos.2 hpos
  unfold rise
  dsimp only
  rw [← e]
  generalize Real.sqrt (((o.1 - c.1 : ℝ) * geo.sx) ^ 2 + ((o.2 - c.2 : ℝ) * geo.sy) ^ 2) = d at hs
  split
  · field_simp
  · next h =>
    have h := not_not.1 h
    rcases mul_eq_zero.1 h with h | h
    · exact absurd h hs.ne'
    · rw [h]
      ring

/-- each entry for a patch -/
theorem entry_ray {geo : Geo} (hx : 0 < geo.sx) (hy : 0 < geo.sy) {o c : Nat × Nat} {l : List (Int × Int)} (h1 : Bresenham.IsLine ((c.1 : Int), (c.2 : Int)) ((o.1 : Int), (o.2 : Int)) l) (z : ℝ) (p : Patch) {q : Int × Int} (hq : q ∈ l) (hf : factor o c q < 1) :
    Ray geo o z c p ((q.1.toNat, q.2.toNat), negativePatch geo o z c p (factor o c q)) := by
  have hb := h1.box q hq
  dsimp only at hb
  have hq' : (((q.1.toNat : Nat) : Int), ((q.2.toNat : Nat) : Int)) = q := by
    refine Prod.ext ?_ ?_ <;> dsimp only <;> omega
  have hqc : q ≠ ((c.1 : Int), (c.2 : Int)) := by
    intro h
    rw [h, factor_self] at hf
    exact lt_irrefl _ hf
  have hne : c ≠ o := by
    rintro rfl
    apply hqc
    rw [min_self, max_self, min_self, max_self] at hb
    exact Prod.ext (by dsimp only; omega) (by dsimp only; omega)
  have hf0 := factor_nonneg hb
  refine ⟨rfl, fun h => ?_, ⟨l, h1, by dsimp only; rw [hq']; exact hq⟩, factor o c q, rise geo o z c p, hf0, hf, by dsimp only; rw [hq']; exact factor_part hne q, rise_spec hx hy hne z p, ?_, ?_, ?_⟩
  · apply hqc
    rw [← hq', ← h]
  · simp only [negativePatch, Patch.make]
    ring
  · simp only [negativePatch, Patch.make]
    ring
  · simp only [negativePatch, Patch.make]
    rw [abs_mul, abs_of_nonneg hf0]
    ring

theorem mem_block {geo : Geo} (hx : 0 < geo.sx) (hy : 0 < geo.sy) (hs : Small geo) {k : Config} (hk : k.negative = true) (i : Input) {o c : Nat × Nat} (hc : InGrid geo c) (ho : InGrid geo o) (z : ℝ) (t : Grid) (e : (Nat × Nat) × Patch) (he : e ∈ block geo k i o z t c) :
    ∃ p ∈ t.cells.cells c.1 c.2, e = (c, Sent geo k i c p) ∨ Ray geo o z c (Sent geo k i c p) e := by
  unfold block at he
  rw [smear_sent] at he
  simp only [List.mem_flatMap, List.mem_map, List.mem_cons] at he
  obtain ⟨_, ⟨p, hp, rfl⟩, he⟩ := he
  refine ⟨p, hp, he.imp id fun he => ?_⟩
  obtain ⟨l, h1, h2⟩ := line_exists hs hc ho
  unfold negList negatives at he
  rw [if_pos hk, h2] at he
  simp only [Option.map_some, Option.getD_some, List.mem_map, List.mem_filter, decide_eq_true_eq] at he
  obtain ⟨q, ⟨hq, hf⟩, rfl⟩ := he
  exact entry_ray hx hy h1 z _ hq hf

theorem block_mem {geo : Geo} (hx : 0 < geo.sx) (hy : 0 < geo.sy) (hs : Small geo) {k : Config} (hk : k.negative = true) (i : Input) {o c : Nat × Nat} (hc : InGrid geo c) (ho : InGrid geo o) (z : ℝ) (t : Grid) {p : Patch} (hp : p ∈ t.cells.cells c.1 c.2) :
    (c, Sent geo k i c p) ∈ block geo k i o z t c ∧ ∃ line, Bresenham.IsLine ((c.1 : Int), (c.2 : Int)) ((o.1 : Int), (o.2 : Int)) line ∧
      ∀ d : Nat × Nat, ((d.1 : Int), (d.2 : Int)) ∈ line → d ≠ c → ∃ n, (d, n) ∈ block geo k i o z t c ∧ Ray geo o z c (Sent geo k i c p) (d, n) := by
  unfold block
  rw [smear_sent]
  refine ⟨List.mem_flatMap.2 ⟨_, List.mem_map.2 ⟨p, hp, rfl⟩, List.mem_cons_self⟩, ?_⟩
  obtain ⟨l, h1, h2⟩ := line_exists hs hc ho
  refine ⟨l, h1, fun d hd hne => ?_⟩
  have hf := factor_lt h1 hd (fun h => hne (Prod.ext (by have := congrArg Prod.fst h; dsimp only at this; omega) (by have := congrArg Prod.snd h; dsimp only at this; omega)))
  refine ⟨negativePatch geo o z c (Sent geo k i c p) (factor o c ((d.1 : Int), (d.2 : Int))), ?_, ?_⟩
  · refine List.mem_flatMap.2 ⟨_, List.mem_map.2 ⟨p, hp, rfl⟩, List.mem_cons_of_mem _ ?_⟩
    unfold negList negatives
    rw [if_pos hk, h2]
    simp only [Option.map_some, Option.getD_some]
    exact List.mem_map.2 ⟨_, List.mem_filter.2 ⟨hd, by simpa using hf⟩, by simp⟩
  · have := entry_ray hx hy h1 z (Sent geo k i c p) hd hf
    simpa using this

/-- C118 with negative information, into a grid that is not empty: the target gets, by updateCell and in some order, each patch of the cloud alone (`Sent`), and for each of them a negative patch (`Ray`) in the cells of a line from its cell to the one of the origin; nothing else.
Cells that are not on such a line keep their patches. -/
theorem C118_negative_partial (m : Merge) {geo : Geo} (hs : Small geo) {g : Grid} (hf : Fit geo g) (h0 : g.count ≠ 0) {k : Config} (hk : k.negative = true) (i : Input) {o : Nat × Nat} (ho : InCell geo o (i.T i.origin)) :
    ∃ (r alone : Grid) (l : List ((Nat × Nat) × Patch)), projectInput m geo k (some i) g = .ok r ∧ projectCloud m geo k i (MLS.init geo.w geo.h) = some alone ∧
      l.foldlM (fun (g : Grid) e => g.updateCell m e.1.1 e.1.2 e.2) g = some r ∧
      (∀ c, InGrid geo c → ∀ p ∈ alone.cells.cells c.1 c.2, (c, Sent geo k i c p) ∈ l ∧ ∃ line, Bresenham.IsLine ((c.1 : Int), (c.2 : Int)) ((o.1 : Int), (o.2 : Int)) line ∧
        ∀ d : Nat × Nat, ((d.1 : Int), (d.2 : Int)) ∈ line → d ≠ c → ∃ n, (d, n) ∈ l ∧ Ray geo o (i.T i.origin).2.2 c (Sent geo k i c p) (d, n)) ∧
      (∀ e ∈ l, InGrid geo e.1 ∧ ∃ c, InGrid geo c ∧ ∃ p ∈ alone.cells.cells c.1 c.2, e = (c, Sent geo k i c p) ∨ Ray geo o (i.T i.origin).2.2 c (Sent geo k i c p) e) ∧
      ∀ d : Nat × Nat, (∀ c, InGrid geo c → alone.cells.cells c.1 c.2 ≠ [] → ∀ line, Bresenham.IsLine ((c.1 : Int), (c.2 : Int)) ((o.1 : Int), (o.2 : Int)) line → ((d.1 : Int), (d.2 : Int)) ∉ line) → r.cells.cells d.1 d.2 = g.cells.cells d.1 d.2 := by
  classical
  obtain ⟨t, idx, plain, h1, h2, h3, h4, -, h6, h7, h8⟩ := indexed m (fit_init hf.sx hf.sy) (Exact.init _ _) k i
  have hc0 : ¬ decide (g.count = 0) = true := by simpa using h0
  have hog : InGrid geo o := ⟨ho.1.1, ho.2.1⟩
  have hu : Usable geo k o := fun _ => ⟨hs, hog⟩
  obtain ⟨order, t', g', a1, a2, a3, a4⟩ := visit_other m i hu (i.T i.origin).2.2 idx h6 (geo.w * geo.h + 1) none t g h3 hf.w hf.h (by have := rest_none geo; omega)
  have hin : ∀ e ∈ order.flatMap (block geo k i o (i.T i.origin).2.2 t), InGrid geo e.1 ∧ ∃ c, InGrid geo c ∧ ∃ p ∈ plain.cells.cells c.1 c.2, e = (c, Sent geo k i c p) ∨ Ray geo o (i.T i.origin).2.2 c (Sent geo k i c p) e := by
    intro e he
    rw [List.mem_flatMap] at he
    obtain ⟨d, hd, he⟩ := he
    have hdg := h6 d ((a3 d).1 hd).1
    refine ⟨block_in i hu _ t hdg e he, d, hdg, ?_⟩
    rw [← h8 d]
    exact mem_block hf.sx hf.sy hs hk i hdg hog _ t e he
  refine ⟨g', plain, _, ?_, h2, a4, fun c hc p hp => ?_, hin, fun d hd => ?_⟩
  · simp only [projectInput, hk, Bool.or_true, if_true]
    unfold projectWithUncertainty
    dsimp only
    rw [if_neg hc0, h1]
    dsimp only
    rw [(toGrid_iff hf.sx hf.sy _ o).2 ho]
    dsimp only
    rw [if_neg hc0, a1]
    rfl
  · rw [← h8 c] at hp
    have hm : c ∈ idx := by
      by_contra hn
      rw [h7 c hc hn] at hp
      cases hp
    have ho' : c ∈ order := (a3 c).2 ⟨hm, fun l hl => by cases hl⟩
    obtain ⟨m1, line, m2, m3⟩ := block_mem hf.sx hf.sy hs hk i hc hog (i.T i.origin).2.2 t hp
    refine ⟨List.mem_flatMap.2 ⟨c, ho', m1⟩, line, m2, fun d hd hne => ?_⟩
    obtain ⟨n, n1, n2⟩ := m3 d hd hne
    exact ⟨n, List.mem_flatMap.2 ⟨c, ho', n1⟩, n2⟩
  · obtain ⟨g'', b1, -, -, b4⟩ := fold_cells m _ g (fun e he => by rw [hf.w, hf.h]; exact (hin e he).1)
    rw [a4] at b1
    cases b1
    have : (order.flatMap (block geo k i o (i.T i.origin).2.2 t)).filter (fun e => decide (e.1 = d)) = [] := by
      rw [List.filter_eq_nil_iff]
      intro e he hed
      have hed : e.1 = d := by simpa using hed
      obtain ⟨-, c, hc, p, hp, hor⟩ := hin e he
      have hne : plain.cells.cells c.1 c.2 ≠ [] := fun h => by rw [h] at hp; cases hp
      rcases hor with rfl | ⟨-, -, ⟨line, l1, l2⟩, -⟩
      · obtain ⟨line, l1, -⟩ := line_exists hs hc hog
        dsimp only at hed
        subst hed
        exact hd c hc hne line l1 (List.mem_of_mem_head? l1.first)
      · rw [hed] at l2
        exact hd c hc hne line l1 l2
    rw [b4 d, this]
    rfl

/-! ### errors of updateAll -/

/-- C118: without an output of the right type there is nothing to do, and the result is false -/
theorem C118_no_output (m : Merge) (geo : Geo) (k : Config) (inputs : List (Option Input)) (outputs : List (Option Grid)) (h : ∀ g rest, outputs ≠ some g :: rest) : updateAll m geo k inputs outputs = .ok (false, none) := by
  match outputs, h with
  | [], _ => rfl
  | none :: _, _ => rfl
  | some g :: l, h => exact absurd rfl (h g l)

/-- C118: the inputs are projected one after the other, each into the result of the one before -/
theorem C118_inputs (m : Merge) (geo : Geo) (k : Config) (inputs : List (Option Input)) (g r : Grid) (rest : List (Option Grid)) : updateAll m geo k inputs (some g :: rest) = .ok (true, some r) ↔
    ∃ states : List Grid, states.length = inputs.length + 1 ∧ states.head? = some g ∧ states.getLast? = some r ∧ ∀ n i a b, inputs[n]? = some i → states[n]? = some a → states[n + 1]? = some b → projectInput m geo k i a = .ok b := by
  have key : ∀ (inputs : List (Option Input)) (g : Grid), projectAll m geo k inputs g = .ok r ↔
      ∃ states : List Grid, states.length = inputs.length + 1 ∧ states.head? = some g ∧ states.getLast? = some r ∧ ∀ n i a b, inputs[n]? = some i → states[n]? = some a → states[n + 1]? = some b → projectInput m geo k i a = .ok b := by
    intro inputs
    induction inputs with
    | nil =>
      intro g
      constructor
      · intro h
        cases h
        exact ⟨[r], rfl, rfl, rfl, fun n i a b h => by simp at h⟩
      · rintro ⟨states, h1, h2, h3, -⟩
        match states, h1 with
        | [a], _ =>
          cases h2
          cases h3
          rfl
    | cons i l ih =>
      intro g
      constructor
      · intro h
        unfold projectAll at h
        cases hp : projectInput m geo k i g with
        | ok g1 =>
          rw [hp] at h
          obtain ⟨states, h1, h2, h3, h4⟩ := (ih g1).1 h
          match states, h1, h2 with
          | a :: st, h1, h2 =>
            cases h2
            refine ⟨g :: g1 :: st, by simpa using h1, rfl, by simpa using h3, fun n => ?_⟩
            cases n with
            | zero =>
              intro i' a b e1 e2 e3
              cases e1
              cases e2
              cases e3
              exact hp
            | succ n => intro i' a b e1 e2 e3; exact h4 n i' a b e1 e2 e3
        | throws => rw [hp] at h; cases h
        | undefined => rw [hp] at h; cases h
      · rintro ⟨states, h1, h2, h3, h4⟩
        match states, h1, h2 with
        | a :: b :: st, h1, h2 =>
          cases h2
          unfold projectAll
          rw [h4 0 i g b rfl rfl rfl]
          exact (ih b).2 ⟨b :: st, by simpa using h1, rfl, by simpa using h3, fun n i' a c e1 e2 e3 => h4 (n + 1) i' a c e1 e2 e3⟩
        | [a], h1, _ => simp at h1
  rw [← key]
  unfold updateAll
  dsimp only
  cases projectAll m geo k inputs g <;> simp

/-- Violation: an input that is not a point cloud is dereferenced as a NULL pointer -/
theorem C118_not_a_cloud (m : Merge) (geo : Geo) (k : Config) (inputs : List (Option Input)) (g : Grid) (rest : List (Option Grid)) : updateAll m geo k (none :: inputs) (some g :: rest) = .undefined := rfl

/-! ### witnesses -/

/-- patches that are never merged -/
def never : Merge := fun p q => (false, p, q)

theorem merge_never (l : List Patch) (q : Patch) : mergeAll never l q = (l.map fun p => (false, p), q) := by
  induction l with
  | nil => rfl
  | cons p l ih => simp [mergeAll, never, ih]

theorem update_never (g : Grid) (x y : Nat) (q : Patch) (h : x < g.cells.w ∧ y < g.cells.h) :
    g.updateCell never x y q = some (MLS.addCell { g with cells := g.cells.set x y (q :: g.cells.cells x y) } x y) := by
  unfold MLS.updateCell
  rw [if_pos h, merge_never]
  have : ((g.cells.cells x y).map fun p => (false, p)).any (·.1) = false := by simp
  dsimp only
  rw [this]
  simp only [Bool.false_eq_true, if_false, List.map_map, Function.comp_def, List.map_id']
  unfold MLS.insertHead
  simp only [ListGrid.Seqs.step]
  rw [if_pos (by exact h)]
  simp only [Option.map_some, Option.some.injEq]
  congr 1
  congr 1
  unfold ListGrid.Seqs.set
  congr 1
  funext a b
  simp only
  split <;> simp_all

/-- a cloud of one point in the cell (0, 0), with the origin in the cell (2, 0) -/
def ray : Input := { points := [(1 / 2, 1 / 2, 0)], variance := none, origin := (5 / 2, 1 / 2, 0), T := id, cov := fun _ => 0 }

def rayConfig : Config := { withUncertainty := false, negative := true, default := 1, area := none }

/-- a grid with one patch, in the cell (0, 0) -/
def onePatch (p : Patch) : Grid := { cells := { w := 3, h := 1, cells := fun x y => if x = 0 ∧ y = 0 then [p] else [] }, count := 1, index := none, extents := none }

theorem ray_line0 : Bresenham.lineBresenham ((unitGrid 3 1).w + (unitGrid 3 1).h + 2) ((0 : Nat), (0 : Nat)) ((2 : Nat), (0 : Nat)) = some [(0, 0), (1, 0), (2, 0)] := by decide
theorem ray_line1 : Bresenham.lineBresenham ((unitGrid 3 1).w + (unitGrid 3 1).h + 2) ((1 : Nat), (0 : Nat)) ((2 : Nat), (0 : Nat)) = some [(1, 0), (2, 0)] := by decide
theorem ray_line2 : Bresenham.lineBresenham ((unitGrid 3 1).w + (unitGrid 3 1).h + 2) ((2 : Nat), (0 : Nat)) ((2 : Nat), (0 : Nat)) = some [(2, 0)] := by decide

theorem ray_neg0 (p : Patch) : negatives (unitGrid 3 1) (2, 0) 0 (0, 0) p = some [((1, 0), negativePatch (unitGrid 3 1) (2, 0) 0 (0, 0) p (1 / 2)), ((2, 0), negativePatch (unitGrid 3 1) (2, 0) 0 (0, 0) p 0)] := by
  unfold negatives
  rw [ray_line0]
  have f0 : factor (2, 0) (0, 0) (0, 0) = 1 := by unfold factor; norm_num
  have f1 : factor (2, 0) (0, 0) (1, 0) = 1 / 2 := by unfold factor; norm_num
  have f2 : factor (2, 0) (0, 0) (2, 0) = 0 := by unfold factor; norm_num
  simp [List.filter, f0, f1, f2]
  norm_num
  exact ⟨by rw [f1], rfl, by rw [f2]⟩

theorem ray_neg1 (p : Patch) : negatives (unitGrid 3 1) (2, 0) 0 (1, 0) p = some [((2, 0), negativePatch (unitGrid 3 1) (2, 0) 0 (1, 0) p 0)] := by
  unfold negatives
  rw [ray_line1]
  have f1 : factor (2, 0) (1, 0) (1, 0) = 1 := by unfold factor; norm_num
  have f2 : factor (2, 0) (1, 0) (2, 0) = 0 := by unfold factor; norm_num
  simp [List.filter, f1, f2]

theorem ray_neg2 (p : Patch) : negatives (unitGrid 3 1) (2, 0) 0 (2, 0) p = some [] := by
  unfold negatives
  rw [ray_line2]
  have f2 : factor (2, 0) (2, 0) (2, 0) = 1 := by unfold factor; norm_num
  simp [List.filter, f2]

theorem ray_origin : InCell (unitGrid 3 1) (2, 0) (ray.T ray.origin) := by
  unfold InCell unitGrid ray
  norm_num

theorem ray_entry (g : Grid) : projectCloud never (unitGrid 3 1) rayConfig ray g = g.updateCell never 0 0 (Patch.make 0 (Real.sqrt 1)) := by
  have h : toGrid (unitGrid 3 1) (1 / 2) (1 / 2) = some (0, 0) := (toGrid_iff (g := unitGrid 3 1) (by norm_num [unitGrid]) (by norm_num [unitGrid]) (1 / 2, 1 / 2, 0) (0, 0)).2 (by unfold InCell unitGrid; norm_num)
  simp only [projectCloud, Input.samples, ray, rayConfig, Option.getD_none, List.length_cons, List.length_nil, List.map_cons, List.map_nil, id]
  rw [if_neg (by decide)]
  simp only [List.map_cons, List.map_nil, List.foldlM_cons, List.foldlM_nil, addSample, inArea, if_true, h]
  cases g.updateCell never 0 0 (Patch.make 0 (Real.sqrt 1)) <;> rfl

/-- what is in the three cells -/
structure Shape (t : Grid) (a b c : List Patch) (idx : List (Nat × Nat)) : Prop where
  w : t.cells.w = 3
  h : t.cells.h = 1
  a : t.cells.cells 0 0 = a
  b : t.cells.cells 1 0 = b
  c : t.cells.cells 2 0 = c
  index : t.index = some idx

theorem Shape.add1 {t : Grid} {a b c : List Patch} {idx : List (Nat × Nat)} (h : Shape t a b c idx) (q : Patch) : ∃ t', t.updateCell never 1 0 q = some t' ∧ Shape t' a (q :: b) c ((1, 0) :: idx) := by
  refine ⟨_, update_never t 1 0 q (by rw [h.w, h.h]; decide), ?_⟩
  refine ⟨h.w, h.h, ?_, ?_, ?_, ?_⟩ <;> simp [MLS.addCell, ListGrid.Seqs.set, h.a, h.b, h.c, h.index]

theorem Shape.add2 {t : Grid} {a b c : List Patch} {idx : List (Nat × Nat)} (h : Shape t a b c idx) (q : Patch) : ∃ t', t.updateCell never 2 0 q = some t' ∧ Shape t' a b (q :: c) ((2, 0) :: idx) := by
  refine ⟨_, update_never t 2 0 q (by rw [h.w, h.h]; decide), ?_⟩
  refine ⟨h.w, h.h, ?_, ?_, ?_, ?_⟩ <;> simp [MLS.addCell, ListGrid.Seqs.set, h.a, h.b, h.c, h.index]

theorem ray_smear (c : Nat × Nat) : smear (unitGrid 3 1) rayConfig ray c = id := by funext p; simp [smear, rayConfig]

theorem set_self (s : ListGrid.Seqs Patch) (x y : Nat) : s.set x y (s.cells x y) = s := by
  unfold ListGrid.Seqs.set
  congr 1
  funext a b
  split
  · next h => rw [h.1, h.2]
  · rfl

theorem ray_cell (s : State) (c : Nat × Nat) : visitCell never (unitGrid 3 1) rayConfig ray (2, 0) 0 s c = (s.t.cells.cells c.1 c.2).foldlM (visitPatch never (unitGrid 3 1) rayConfig (2, 0) 0 c) s := by
  unfold visitCell
  rw [ray_smear, List.map_id]
  dsimp only
  rw [set_self]

/-- Violation: if the target is empty then the negative patches are put into the grid whose cells are visited, so that they are taken for measurements of the cloud: for a single point two cells from the origin, the cell of the origin gets two negative patches.
If there is already a patch in the grid it gets one. -/
theorem C118_feedback (p : Patch) :
    (∃ r, projectInput never (unitGrid 3 1) rayConfig (some ray) (MLS.init 3 1) = .ok r ∧ (r.cells.cells 2 0).length = 2) ∧
    ∃ r, projectInput never (unitGrid 3 1) rayConfig (some ray) (onePatch p) = .ok r ∧ (r.cells.cells 2 0).length = 1 := by
  have ho := (toGrid_iff (g := unitGrid 3 1) (by norm_num [unitGrid]) (by norm_num [unitGrid]) (ray.T ray.origin) (2, 0)).2 ray_origin
  have hz : (ray.T ray.origin).2.2 = 0 := rfl
  have hn : rayConfig.negative = true := rfl
  have e : ∀ g, projectInput never (unitGrid 3 1) rayConfig (some ray) g = projectWithUncertainty never (unitGrid 3 1) rayConfig ray g := fun _ => rfl
  have ht : ∃ t, projectCloud never (unitGrid 3 1) rayConfig ray (MLS.init 3 1 : Grid).initIndex = some t ∧ Shape t [Patch.make 0 (Real.sqrt 1)] [] [] [(0, 0)] := by
    rw [ray_entry, update_never _ _ _ _ (by decide)]
    exact ⟨_, rfl, rfl, rfl, rfl, rfl, rfl, rfl⟩
  obtain ⟨t, t1, t2⟩ := ht
  generalize Patch.make 0 (Real.sqrt 1) = q0 at t2
  constructor
  · obtain ⟨t', a1, a2⟩ := t2.add1 (negativePatch (unitGrid 3 1) (2, 0) 0 (0, 0) q0 (1 / 2))
    obtain ⟨t'', b1, b2⟩ := a2.add2 (negativePatch (unitGrid 3 1) (2, 0) 0 (0, 0) q0 0)
    obtain ⟨r, c1, c2⟩ := b2.add2 (negativePatch (unitGrid 3 1) (2, 0) 0 (1, 0) (negativePatch (unitGrid 3 1) (2, 0) 0 (0, 0) q0 (1 / 2)) 0)
    have v0 : visitCell never (unitGrid 3 1) rayConfig ray (2, 0) 0 { t := t, grid := none } (0, 0) = some { t := t'', grid := none } := by
      rw [ray_cell]
      dsimp only
      rw [t2.a]
      simp only [List.foldlM_cons, List.foldlM_nil, visitPatch, hn, if_true, Option.isSome_none, Bool.false_eq_true, if_false, Option.bind_some, ray_neg0, State.update]
      simp only [Option.bind_eq_bind, Option.bind_some, a1, b1, Option.map_some, State.update]
      rfl
    have v1 : visitCell never (unitGrid 3 1) rayConfig ray (2, 0) 0 { t := t'', grid := none } (1, 0) = some { t := r, grid := none } := by
      rw [ray_cell]
      dsimp only
      rw [b2.b]
      simp only [List.foldlM_cons, List.foldlM_nil, visitPatch, hn, if_true, Option.isSome_none, Bool.false_eq_true, if_false, Option.bind_some, ray_neg1, State.update]
      simp only [Option.bind_eq_bind, Option.bind_some, c1, Option.map_some, State.update]
      rfl
    have v2 : visitCell never (unitGrid 3 1) rayConfig ray (2, 0) 0 { t := r, grid := none } (2, 0) = some { t := r, grid := none } := by
      rw [ray_cell]
      dsimp only
      rw [c2.c]
      simp only [List.foldlM_cons, List.foldlM_nil, visitPatch, hn, if_true, Option.isSome_none, Bool.false_eq_true, if_false, Option.bind_some, ray_neg2]
      rfl
    have v : visit never (unitGrid 3 1) rayConfig ray (2, 0) 0 4 none { t := t, grid := none } = some { t := r, grid := none } := by
      unfold visit
      dsimp only
      rw [t2.index, show nextCell ((some [(0, 0)] : Option (List (Nat × Nat))).getD []) none = some (0, 0) by decide]
      dsimp only
      rw [v0, Option.bind_some]
      unfold visit
      dsimp only
      rw [b2.index, show nextCell ((some [(2, 0), (1, 0), (0, 0)] : Option (List (Nat × Nat))).getD []) (some (0, 0)) = some (1, 0) by decide]
      dsimp only
      rw [v1, Option.bind_some]
      unfold visit
      dsimp only
      rw [c2.index, show nextCell ((some [(2, 0), (2, 0), (1, 0), (0, 0)] : Option (List (Nat × Nat))).getD []) (some (1, 0)) = some (2, 0) by decide]
      dsimp only
      rw [v2, Option.bind_some]
      unfold visit
      dsimp only
      rw [c2.index, show nextCell ((some [(2, 0), (2, 0), (1, 0), (0, 0)] : Option (List (Nat × Nat))).getD []) (some (2, 0)) = none by decide]
    refine ⟨r, ?_, by rw [c2.c]; rfl⟩
    rw [e]
    unfold projectWithUncertainty
    dsimp only
    rw [if_pos (by rfl), t1]
    dsimp only
    rw [ho, hz]
    dsimp only
    rw [if_pos (by rfl), show (unitGrid 3 1).w * (unitGrid 3 1).h + 1 = 4 from rfl, v]
    rfl
  · obtain ⟨g1, a1, a2⟩ : ∃ g1, (onePatch p).updateCell never 0 0 q0 = some g1 ∧ (g1.cells.w = 3 ∧ g1.cells.h = 1 ∧ g1.cells.cells 2 0 = []) := ⟨_, update_never _ _ _ _ (show 0 < 3 ∧ 0 < 1 by decide), rfl, rfl, rfl⟩
    obtain ⟨g2, b1, b2⟩ : ∃ g2, g1.updateCell never 1 0 (negativePatch (unitGrid 3 1) (2, 0) 0 (0, 0) q0 (1 / 2)) = some g2 ∧ (g2.cells.w = 3 ∧ g2.cells.h = 1 ∧ g2.cells.cells 2 0 = []) :=
      ⟨_, update_never _ _ _ _ (by rw [a2.1, a2.2.1]; decide), a2.1, a2.2.1, by simp [MLS.addCell, ListGrid.Seqs.set, a2.2.2]⟩
    obtain ⟨g3, c1, c2⟩ : ∃ g3, g2.updateCell never 2 0 (negativePatch (unitGrid 3 1) (2, 0) 0 (0, 0) q0 0) = some g3 ∧ g3.cells.cells 2 0 = [negativePatch (unitGrid 3 1) (2, 0) 0 (0, 0) q0 0] :=
      ⟨_, update_never _ _ _ _ (by rw [b2.1, b2.2.1]; decide), by simp [MLS.addCell, ListGrid.Seqs.set, b2.2.2]⟩
    have v0 : visitCell never (unitGrid 3 1) rayConfig ray (2, 0) 0 { t := t, grid := some (onePatch p) } (0, 0) = some { t := t, grid := some g3 } := by
      rw [ray_cell]
      dsimp only
      rw [t2.a]
      simp only [List.foldlM_cons, List.foldlM_nil, visitPatch, hn, if_true, Option.isSome_some, ray_neg0, State.update]
      simp only [Option.bind_eq_bind, Option.bind_some, a1, Option.map_some, List.foldlM_cons, List.foldlM_nil, State.update, b1, c1]
      rfl
    have v : visit never (unitGrid 3 1) rayConfig ray (2, 0) 0 4 none { t := t, grid := some (onePatch p) } = some { t := t, grid := some g3 } := by
      unfold visit
      dsimp only
      rw [t2.index, show nextCell ((some [(0, 0)] : Option (List (Nat × Nat))).getD []) none = some (0, 0) by decide]
      dsimp only
      rw [v0, Option.bind_some]
      unfold visit
      dsimp only
      rw [t2.index, show nextCell ((some [(0, 0)] : Option (List (Nat × Nat))).getD []) (some (0, 0)) = none by decide]
    have h1 : ¬ decide ((onePatch p).count = 0) = true := show ¬ decide ((1 : Int) = 0) = true by decide
    refine ⟨g3, ?_, by rw [c2]; rfl⟩
    rw [e]
    unfold projectWithUncertainty
    dsimp only
    rw [if_neg h1, show (MLS.init (unitGrid 3 1).w (unitGrid 3 1).h : Grid) = MLS.init 3 1 from rfl, t1]
    dsimp only
    rw [ho, hz]
    dsimp only
    rw [if_neg h1, show (unitGrid 3 1).w * (unitGrid 3 1).h + 1 = 4 from rfl, v]
    rfl

/-- Violation: the negative patch in the cell of the origin has the deviation 0, and so (in the code) infinite weight: any patch, origin and cell -/
theorem C118_origin_deviation (geo : Geo) (hs : Small geo) {c o : Nat × Nat} (hc : InGrid geo c) (ho : InGrid geo o) (hne : c ≠ o) (z : ℝ) (p : Patch) : ∃ l q, negatives geo o z c p = some l ∧ (o, q) ∈ l ∧ q.kind = .negative ∧ q.stdev = 0 := by
  obtain ⟨l, h1, h2⟩ := line_exists hs hc ho
  have hf : factor o c ((o.1 : Int), (o.2 : Int)) = 0 := by
    have : ¬ ((c.1 : Int) - o.1 = 0 ∧ (c.2 : Int) - o.2 = 0) := fun h => hne (Prod.ext (by omega) (by omega))
    unfold factor
    dsimp only
    split
    · simp
    · next h =>
      rw [if_pos]
      · simp
      · intro h2
        apply h
        rw [h2]
        exact ⟨by simp, fun h1 => this ⟨h1, h2⟩⟩
  have hm := List.mem_of_mem_getLast? (Option.mem_def.2 h1.last)
  unfold negatives
  rw [h2]
  refine ⟨_, negativePatch geo o z c p 0, rfl, ?_, rfl, by simp [negativePatch, Patch.make]⟩
  refine List.mem_map.2 ⟨_, List.mem_filter.2 ⟨hm, by rw [hf]; simp⟩, ?_⟩
  rw [hf]
  simp

/-- the hypotheses of the theorems above can be met -/
example : Fit (unitGrid 3 1) (MLS.init 3 1) ∧ Exact (MLS.init 3 1 : Grid) ∧ (MLS.init 3 1 : Grid).count = 0 ∧ (onePatch (Patch.make 0 1)).count ≠ 0 ∧ Fit (unitGrid 3 1) (onePatch (Patch.make 0 1)) ∧ Small (unitGrid 3 1) ∧
    InCell (unitGrid 3 1) (2, 0) (ray.T ray.origin) ∧ ¬ (∀ c, ¬ InCell (unitGrid 3 1) c (ray.T ray.origin)) := by
  refine ⟨fit_init (by norm_num [unitGrid]) (by norm_num [unitGrid]), Exact.init _ _, rfl, by decide, ⟨by norm_num [unitGrid], by norm_num [unitGrid], rfl, rfl⟩, by unfold Small unitGrid; norm_num, ray_origin, fun h => h _ ray_origin⟩

end

end Envire.Projection

#print axioms Envire.Projection.C118_cells
#print axioms Envire.Projection.C118_defined
#print axioms Envire.Projection.C118_fresh
#print axioms Envire.Projection.C118_merged
#print axioms Envire.Projection.C118_negative_partial
#print axioms Envire.Projection.C118_no_output
#print axioms Envire.Projection.C118_inputs
#print axioms Envire.Projection.C118_not_a_cloud
#print axioms Envire.Projection.C118_feedback
#print axioms Envire.Projection.C118_origin_deviation
