import Verif.Ops.GrassfireModel
import Mathlib.Data.List.Nodup
import Mathlib.Data.Finset.Card
import Mathlib.Data.Finset.Prod
import Mathlib.Tactic.Linarith
/-! Properties C43, C65: search of the grassfire operator. -/
namespace Envire.Grassfire

variable {P : Type}

/-! ### C43 -/

/-- specification: two different cells of the grid that touch each other -/
def Adj (w h : Nat) (c d : Cell) : Prop :=
  d.1 < w ∧ d.2 < h ∧ c ≠ d ∧ d.1 ≤ c.1 + 1 ∧ c.1 ≤ d.1 + 1 ∧ d.2 ≤ c.2 + 1 ∧ c.2 ≤ d.2 + 1

theorem mem_neighbours {w h : Nat} {c d : Cell} : d ∈ neighbours w h c ↔ Adj w h c d := by
  obtain ⟨cx, cy⟩ := c
  obtain ⟨dx, dy⟩ := d
  have key : ∀ xi yi : Int, shift w h (cx, cy) xi yi = some (dx, dy) ↔ ((dx : Int) = cx + xi ∧ (dy : Int) = cy + yi ∧ dx < w ∧ dy < h) := by
    intro xi yi
    unfold shift
    dsimp only
    split
    · simp only [Option.some.injEq, Prod.mk.injEq]
      omega
    · simp only [reduceCtorEq, false_iff]
      omega
  unfold neighbours
  rw [List.mem_filterMap]
  unfold Adj
  simp only [ne_eq, Prod.mk.injEq, not_and]
  constructor
  · rintro ⟨⟨xi, yi⟩, ho, hs⟩
    rw [key] at hs
    simp only [offsets, List.mem_cons, Prod.mk.injEq, List.not_mem_nil, or_false] at ho
    omega
  · rintro ⟨h1, h2, h3, h4, h5, h6, h7⟩
    refine ⟨((dx : Int) - cx, (dy : Int) - cy), ?_, (key _ _).2 (by omega)⟩
    simp only [offsets, List.mem_cons, Prod.mk.injEq, List.not_mem_nil, or_false]
    omega

theorem neighbours_length (w h : Nat) (c : Cell) : (neighbours w h c).length ≤ 8 := by
  unfold neighbours
  exact le_trans (List.length_filterMap_le _ _) (by decide)

section
variable (w h : Nat) (fits : Cell → P → Option (P × Bool)) (c0 : Cell) (p0 : P)

/-- the cell is drivable on patch p: it is the start, or it was evaluated and the result is no obstacle -/
def Driv (evals : List (Cell × P)) (c : Cell) (p : P) : Prop := (c = c0 ∧ p = p0) ∨ ∃ q, (c, q) ∈ evals ∧ fits c q = some (p, false)

/-- specification: connected with the start by steps to touching cells, over drivable cells -/
inductive Reach (evals : List (Cell × P)) : Cell → Prop where
  | start : Reach evals c0
  | step {c d : Cell} {p : P} : Reach evals c → Driv fits c0 p0 evals c p → Adj w h c d → Reach evals d

variable {w h fits c0 p0}

theorem Driv.mono {e e' : List (Cell × P)} (he : ∀ x ∈ e, x ∈ e') {c p} (hd : Driv fits c0 p0 e c p) : Driv fits c0 p0 e' c p := by
  rcases hd with hd | ⟨q, hq, hf⟩
  · exact Or.inl hd
  · exact Or.inr ⟨q, he _ hq, hf⟩

theorem Reach.mono {e e' : List (Cell × P)} (he : ∀ x ∈ e, x ∈ e') {c} (hr : Reach w h fits c0 p0 e c) : Reach w h fits c0 p0 e' c := by
  induction hr with
  | start => exact .start
  | step _ hd ha ih => exact .step ih (hd.mono he) ha

variable (w h fits c0 p0)

structure Inv (s : St P) : Prop where
  vis : ∀ c, s.visited c = true ↔ c = c0 ∨ c ∈ s.evals.map (·.1)
  nodup : (c0 :: s.evals.map (·.1)).Nodup
  grid : ∀ c ∈ s.evals.map (·.1), c.1 < w ∧ c.2 < h
  origin : ∀ x ∈ s.queue ++ s.evals, ∃ c, Driv fits c0 p0 s.evals c x.2 ∧ Adj w h c x.1 ∧ Reach w h fits c0 p0 s.evals c
  todo : ∀ c p, Driv fits c0 p0 s.evals c p → ∀ d, Adj w h c d → s.visited d = true ∨ ∃ q, (d, q) ∈ s.queue
  best0 : s.best c0 = some p0
  best : ∀ x ∈ s.evals, s.best x.1 = (fits x.1 x.2).map (·.1)
  bestN : ∀ c, s.visited c = false → s.best c = none

variable {w h fits c0 p0}

theorem Inv.start : Inv w h fits c0 p0 (start w h c0 p0) := by
  refine ⟨?_, by simp [Grassfire.start, St.addNeighbours], by simp [Grassfire.start, St.addNeighbours], ?_, ?_, ?_, ?_, ?_⟩
  · intro c
    simp [Grassfire.start, St.addNeighbours]
  · intro x hx
    simp only [Grassfire.start, St.addNeighbours, List.nil_append, List.append_nil, List.mem_map] at hx
    obtain ⟨d, hd, rfl⟩ := hx
    exact ⟨c0, Or.inl ⟨rfl, rfl⟩, mem_neighbours.1 hd, .start⟩
  · rintro c p (⟨rfl, rfl⟩ | ⟨q, hq, _⟩) d ha
    · right
      refine ⟨p, ?_⟩
      simp only [Grassfire.start, St.addNeighbours, List.nil_append, List.mem_map]
      exact ⟨d, mem_neighbours.2 ha, rfl⟩
    · simp [Grassfire.start, St.addNeighbours] at hq
  · simp [Grassfire.start, St.addNeighbours]
  · intro x hx
    simp [Grassfire.start, St.addNeighbours] at hx
  · intro c hc
    simp only [Grassfire.start, St.addNeighbours] at hc ⊢
    split at hc
    · cases hc
    · rename_i hne
      rw [if_neg hne]

/-- the three outcomes of an evaluation in one form -/
theorem check_eq (s : St P) (c : Cell) (p : P) (hv : s.visited c = false) : s.check w h fits c p =
    { visited := fun d => if d = c then true else s.visited d
      best := fun d => if d = c then (fits c p).map (·.1) else s.best d
      queue := s.queue ++ match fits c p with
        | some (b, false) => (neighbours w h c).map fun d => (d, b)
        | _ => []
      evals := (c, p) :: s.evals } := by
  unfold St.check
  rw [if_neg (by simp [hv])]
  cases hf : fits c p with
  | none => simp
  | some r =>
    obtain ⟨b, o⟩ := r
    cases o with
    | true =>
      simp only [Option.map_some, List.append_nil]
      congr 1
      funext d
      by_cases hd : d = c <;> simp [hd]
    | false =>
      simp only [St.addNeighbours, Option.map_some]
      congr 1
      funext d
      by_cases hd : d = c <;> simp [hd]

theorem Inv.step {s : St P} (i : Inv w h fits c0 p0 s) : Inv w h fits c0 p0 (s.step w h fits) := by
  unfold St.step
  cases hq : s.queue with
  | nil => exact i
  | cons x q =>
    obtain ⟨c, p⟩ := x
    dsimp only
    cases hv : s.visited c with
    | true =>
      have e : ({ s with queue := q } : St P).check w h fits c p = { s with queue := q } := by
        unfold St.check
        exact if_pos hv
      rw [e]
      refine ⟨i.vis, i.nodup, i.grid, ?_, ?_, i.best0, i.best, i.bestN⟩
      · intro x hx
        apply i.origin x
        rw [hq]
        rcases List.mem_append.1 hx with hx | hx
        · exact List.mem_append_left _ (List.mem_cons_of_mem _ hx)
        · exact List.mem_append_right _ hx
      · intro c' p' hd d ha
        rcases i.todo c' p' hd d ha with h | ⟨r, hr⟩
        · exact Or.inl h
        · rw [hq] at hr
          rcases List.mem_cons.1 hr with hr | hr
          · cases hr
            exact Or.inl hv
          · exact Or.inr ⟨r, hr⟩
    | false =>
      rw [check_eq { s with queue := q } c p hv]
      dsimp only
      have hsub : ∀ x ∈ s.evals, x ∈ (c, p) :: s.evals := fun x hx => List.mem_cons_of_mem _ hx
      have hcv : ¬ (c = c0 ∨ c ∈ s.evals.map (·.1)) := fun h => by
        rw [(i.vis c).2 h] at hv
        cases hv
      obtain ⟨o, ho1, ho2, ho3⟩ := i.origin (c, p) (by rw [hq]; simp)
      have hreach : Reach w h fits c0 p0 ((c, p) :: s.evals) c := .step (ho3.mono hsub) (ho1.mono hsub) ho2
      refine ⟨?_, ?_, ?_, ?_, ?_, ?_, ?_, ?_⟩
      · intro d
        dsimp only
        rw [List.map_cons, List.mem_cons]
        by_cases hd : d = c
        · simp [hd]
        · rw [if_neg hd, i.vis d]
          simp [hd]
      · have hn := i.nodup
        simp only [List.map_cons, List.nodup_cons, List.mem_cons, not_or] at hn ⊢
        exact ⟨⟨fun e => hcv (Or.inl e.symm), hn.1⟩, fun hm => hcv (Or.inr hm), hn.2⟩
      · intro d hd
        rw [List.map_cons, List.mem_cons] at hd
        rcases hd with rfl | hd
        · exact ⟨ho2.1, ho2.2.1⟩
        · exact i.grid d hd
      · intro x hx
        have hold : ∀ x ∈ s.queue ++ s.evals, ∃ c', Driv fits c0 p0 ((c, p) :: s.evals) c' x.2 ∧ Adj w h c' x.1 ∧ Reach w h fits c0 p0 ((c, p) :: s.evals) c' := by
          intro x hx
          obtain ⟨c', h1, h2, h3⟩ := i.origin x hx
          exact ⟨c', h1.mono hsub, h2, h3.mono hsub⟩
        rw [hq] at hold
        rcases List.mem_append.1 hx with hx | hx
        · rcases List.mem_append.1 hx with hx | hx
          · exact hold x (List.mem_append_left _ (List.mem_cons_of_mem _ hx))
          · split at hx
            · rename_i b hf
              obtain ⟨d, hd, rfl⟩ := List.mem_map.1 hx
              exact ⟨c, Or.inr ⟨p, by simp, hf⟩, mem_neighbours.1 hd, hreach⟩
            · simp at hx
        · rcases List.mem_cons.1 hx with rfl | hx
          · exact ⟨o, ho1.mono hsub, ho2, ho3.mono hsub⟩
          · exact hold x (List.mem_append_right _ hx)
      · intro c' p' hd d ha
        by_cases hdc : d = c
        · exact Or.inl (if_pos hdc)
        have hold : Driv fits c0 p0 s.evals c' p' → ((if d = c then true else s.visited d) = true ∨ ∃ r, (d, r) ∈ q ++ match fits c p with
            | some (b, false) => (neighbours w h c).map fun d => (d, b)
            | _ => []) := by
          intro hd
          rcases i.todo c' p' hd d ha with h | ⟨r, hr⟩
          · left
            rw [if_neg hdc]
            exact h
          · rw [hq] at hr
            rcases List.mem_cons.1 hr with hr | hr
            · cases hr
              exact absurd rfl hdc
            · exact Or.inr ⟨r, List.mem_append_left _ hr⟩
        rcases hd with hd | ⟨r, hr, hf⟩
        · exact hold (Or.inl hd)
        · rcases List.mem_cons.1 hr with hr | hr
          · cases hr
            right
            refine ⟨p', List.mem_append_right _ ?_⟩
            rw [hf]
            exact List.mem_map.2 ⟨d, mem_neighbours.2 ha, rfl⟩
          · exact hold (Or.inr ⟨r, hr, hf⟩)
      · dsimp only
        rw [if_neg (fun e => hcv (Or.inl e.symm)), i.best0]
      · intro x hx
        dsimp only
        rcases List.mem_cons.1 hx with rfl | hx
        · exact if_pos rfl
        · rw [if_neg, i.best x hx]
          intro e
          exact hcv (Or.inr (List.mem_map.2 ⟨x, hx, e⟩))
      · intro d hd
        dsimp only at hd ⊢
        split at hd
        · cases hd
        · rename_i hne
          rw [if_neg hne, i.bestN d hd]

theorem Inv.card {s : St P} (i : Inv w h fits c0 p0 s) (hc : c0.1 < w ∧ c0.2 < h) : s.evals.length + 1 ≤ w * h := by
  have : (c0 :: s.evals.map (·.1)).toFinset ⊆ (Finset.range w) ×ˢ (Finset.range h) := by
    intro c hm
    rw [List.mem_toFinset, List.mem_cons] at hm
    rw [Finset.mem_product, Finset.mem_range, Finset.mem_range]
    rcases hm with rfl | hm
    · exact hc
    · exact i.grid c hm
  have := Finset.card_le_card this
  rw [List.toFinset_card_of_nodup i.nodup] at this
  simpa using this

/-- work that is left -/
def work (w h : Nat) (s : St P) : Nat := s.queue.length + 8 * (w * h - (s.evals.length + 1))

theorem work_step {s : St P} (i : Inv w h fits c0 p0 s) (hc : c0.1 < w ∧ c0.2 < h) (hq : s.queue ≠ []) : work w h (s.step w h fits) + 1 ≤ work w h s := by
  have hcard := (i.step).card hc
  unfold St.step at hcard ⊢
  obtain ⟨⟨c, p⟩, q, e⟩ := List.exists_cons_of_ne_nil hq
  rw [e] at hcard ⊢
  dsimp only at hcard ⊢
  cases hv : s.visited c with
  | true =>
    have e' : ({ s with queue := q } : St P).check w h fits c p = { s with queue := q } := by
      unfold St.check
      exact if_pos hv
    rw [e']
    simp [work, e]
    omega
  | false =>
    rw [check_eq { s with queue := q } c p hv] at hcard ⊢
    simp only [work, List.length_append, List.length_cons, e] at hcard ⊢
    have : (match fits c p with
        | some (b, false) => (neighbours w h c).map fun d => (d, b)
        | _ => []).length ≤ 8 := by
      split
      · rw [List.length_map]
        exact neighbours_length w h c
      · simp
    omega

theorem run_inv (n : Nat) {s : St P} (i : Inv w h fits c0 p0 s) : Inv w h fits c0 p0 ((St.step w h fits)^[n] s) := by
  induction n generalizing s with
  | zero => exact i
  | succ n ih => exact ih i.step

theorem run_done (hc : c0.1 < w ∧ c0.2 < h) (n : Nat) {s : St P} (i : Inv w h fits c0 p0 s) (hn : work w h s ≤ n) : ((St.step w h fits)^[n] s).queue = [] := by
  induction n generalizing s with
  | zero =>
    unfold work at hn
    have : s.queue.length = 0 := by omega
    exact List.length_eq_zero_iff.1 this
  | succ n ih =>
    by_cases hq : s.queue = []
    · have e : s.step w h fits = s := by
        unfold St.step
        rw [hq]
      change ((St.step w h fits)^[n] (s.step w h fits)).queue = []
      rw [e]
      rw [Function.iterate_fixed e n]
      exact hq
    · have := work_step i hc hq
      exact ih i.step (by omega)

/-- **C43** The search ends after at most 8·w·h rounds. Then every cell was evaluated at most once and the start cell never; the visited cells
are exactly the ones that are connected with the start by steps to touching cells over drivable cells, where a cell is
drivable according to its only evaluation, which was made for the patch of a drivable reached neighbour; every visited cell has the patch of its evaluation and all
others have none. -/
theorem C43_grassfire (hc : c0.1 < w ∧ c0.2 < h) (n : Nat) (hn : 8 * (w * h) ≤ n) :
    let f := (St.step w h fits)^[n] (start w h c0 p0)
    f.queue = [] ∧ (c0 :: f.evals.map (·.1)).Nodup ∧ (∀ c, f.visited c = true ↔ c = c0 ∨ c ∈ f.evals.map (·.1)) ∧
    (∀ c, f.visited c = true ↔ Reach w h fits c0 p0 f.evals c) ∧
    (∀ c q, (c, q) ∈ f.evals → ∃ d, Driv fits c0 p0 f.evals d q ∧ Adj w h d c ∧ Reach w h fits c0 p0 f.evals d) ∧
    f.best c0 = some p0 ∧ (∀ c q, (c, q) ∈ f.evals → f.best c = (fits c q).map (·.1)) ∧ (∀ c, f.visited c = false → f.best c = none) := by
  intro f
  have i : Inv w h fits c0 p0 f := run_inv n Inv.start
  have hw : work w h (start w h c0 p0 : St P) ≤ n := by
    have h1 := (Inv.start (w := w) (h := h) (fits := fits) (c0 := c0) (p0 := p0)).card hc
    have h2 : (start w h c0 p0 : St P).queue.length ≤ 8 := by
      simp only [start, St.addNeighbours, List.nil_append, List.length_map]
      exact neighbours_length w h c0
    have h3 : (start w h c0 p0 : St P).evals.length = 0 := rfl
    unfold work
    omega
  have hdone : f.queue = [] := run_done hc n Inv.start hw
  refine ⟨hdone, i.nodup, i.vis, ?_, ?_, i.best0, fun c q hm => i.best _ hm, i.bestN⟩
  · intro c
    constructor
    · intro hv
      rcases (i.vis c).1 hv with rfl | hm
      · exact .start
      · obtain ⟨⟨c', q⟩, hx, rfl⟩ := List.mem_map.1 hm
        obtain ⟨d, h1, h2, h3⟩ := i.origin (c', q) (List.mem_append_right _ hx)
        exact .step h3 h1 h2
    · intro hr
      induction hr with
      | start => exact (i.vis c0).2 (Or.inl rfl)
      | step _ hd ha _ =>
        rcases i.todo _ _ hd _ ha with h | ⟨r, hr⟩
        · exact h
        · rw [hdone] at hr
          simp at hr
  · intro c q hm
    exact i.origin (c, q) (List.mem_append_right _ hm)

/-- **C43, outcome that depends on the cell only**: the visited cells are the connected ones. -/
theorem C43_connected (hc : c0.1 < w ∧ c0.2 < h) (n : Nat) (hn : 8 * (w * h) ≤ n) (D : Cell → Prop) (h0 : D c0)
    (hD : ∀ c q, D c ↔ ∃ p, fits c q = some (p, false)) :
    ∀ c, ((St.step w h fits)^[n] (start w h c0 p0)).visited c = true ↔ Relation.ReflTransGen (fun a b => D a ∧ Adj w h a b) c0 c := by
  obtain ⟨h1, h2, hv, h3, -⟩ := C43_grassfire (fits := fits) (p0 := p0) hc n hn
  intro c
  rw [h3]
  constructor
  · intro hr
    induction hr with
    | start => exact .refl
    | step _ hd ha ih =>
      refine .tail ih ⟨?_, ha⟩
      rcases hd with ⟨rfl, _⟩ | ⟨q, _, hf⟩
      · exact h0
      · exact (hD _ q).2 ⟨_, hf⟩
  · intro hr
    induction hr with
    | refl => exact .start
    | @tail a b _ hab ih =>
      rcases (hv a).1 ((h3 a).2 ih) with rfl | hm
      · exact .step ih (Or.inl ⟨rfl, rfl⟩) hab.2
      · obtain ⟨⟨a', q⟩, hx, rfl⟩ := List.mem_map.1 hm
        obtain ⟨p, hf⟩ := (hD a' q).1 hab.1
        exact .step ih (Or.inr ⟨q, hx, hf⟩) hab.2

end

/-- a 3 x 1 grid with an obstacle in the middle: the last cell is not reached -/
example : (fun f : St Unit => (f.visited (0, 0), f.visited (1, 0), f.visited (2, 0), f.queue.length))
    ((St.step 3 1 (fun c _ => some ((), c = (1, 0))))^[24] (start 3 1 (0, 0) ())) = (true, true, false, 0) := by decide +kernel

/-! ### C65 -/

/-- patches of the cell that are not outliers and lie above -/
def above (c : Config) (cell : List Patch) (p : Patch) : List Patch := cell.filter fun q => !c.outlier q && decide (p.top < q.top)

theorem ceiling_some {c : Config} {cell : List Patch} {p q : Patch} (h : ceiling c cell p = some q) :
    q ∈ cell ∧ c.outlier q = false ∧ p.top < q.bottom ∧ q.bottom - p.top < c.robotHeight := by
  unfold ceiling at h
  have h1 := List.mem_of_find?_eq_some h
  have h2 := List.find?_some h
  simp only [Bool.and_eq_true, Bool.not_eq_true', decide_eq_true_eq] at h2
  exact ⟨h1, h2.1, h2.2.1, h2.2.2⟩

theorem ceiling_none {c : Config} {cell : List Patch} {p : Patch} (h : ceiling c cell p = none) :
    ∀ q ∈ cell, c.outlier q = false → p.top < q.bottom → c.robotHeight ≤ q.bottom - p.top := by
  intro q hq ho ht
  unfold ceiling at h
  rw [List.find?_eq_none] at h
  have := h q hq
  simp only [ho, Bool.not_false, Bool.true_and, Bool.and_eq_true, decide_eq_true_eq, not_and, not_lt] at this
  exact this ht

theorem above_lt {c : Config} {cell : List Patch} (hs : ∀ q ∈ cell, 0 ≤ q.stdev) {p q : Patch} (h : ceiling c cell p = some q) :
    (above c cell q).length < (above c cell p).length := by
  obtain ⟨h1, h2, h3, -⟩ := ceiling_some h
  have hpq : p.top < q.top := by
    have := hs q h1
    unfold Patch.bottom at h3
    unfold Patch.top at h3 ⊢
    linarith
  have hsub : (above c cell q).Sublist (above c cell p) := by
    unfold above
    apply List.monotone_filter_right
    intro r hr
    simp only [Bool.and_eq_true, Bool.not_eq_true', decide_eq_true_eq] at hr ⊢
    exact ⟨hr.1, by linarith [hr.2]⟩
  rcases Nat.lt_or_eq_of_le hsub.length_le with hlt | heq
  · exact hlt
  · have := hsub.eq_of_length heq
    have hq : q ∈ above c cell p := by
      unfold above
      rw [List.mem_filter]
      simp [h1, h2, hpq]
    rw [← this] at hq
    unfold above at hq
    rw [List.mem_filter] at hq
    simp at hq

theorem climb_spec {c : Config} {height : ℚ} {cell : List Patch} (hs : ∀ q ∈ cell, 0 ≤ q.stdev) : ∀ fuel p, (above c cell p).length < fuel →
    p ∈ cell ∧ c.outlier p = false →
    ∃ q o, climb c height cell fuel p = some (q, o) ∧ (q ∈ cell ∧ c.outlier q = false) ∧ p.top ≤ q.top ∧
      (o = true → c.maxStep < q.top - height) ∧
      (o = false → q.top - height ≤ c.maxStep ∧ ∀ r ∈ cell, c.outlier r = false → q.top < r.bottom → c.robotHeight ≤ r.bottom - q.top) := by
  intro fuel
  induction fuel with
  | zero => intro p h; omega
  | succ n ih =>
    intro p hf hp
    unfold climb
    by_cases hst : p.top - height > c.maxStep
    · rw [if_pos hst]
      exact ⟨p, true, rfl, hp, le_refl _, fun _ => hst, fun h => (by cases h)⟩
    · rw [if_neg hst]
      cases hc : ceiling c cell p with
      | none => exact ⟨p, false, rfl, hp, le_refl _, fun h => (by cases h), fun _ => ⟨not_lt.1 hst, ceiling_none hc⟩⟩
      | some q =>
        obtain ⟨h1, h2, h3, -⟩ := ceiling_some hc
        have := above_lt hs hc
        obtain ⟨r, o, e, g1, g2, g3⟩ := ih q (by omega) ⟨h1, h2⟩
        refine ⟨r, o, e, g1, ?_, g3⟩
        have := hs q h1
        unfold Patch.bottom at h3
        unfold Patch.top at h3 g2 ⊢
        linarith

theorem scan_spec (c : Config) (height : ℚ) (cell : List Patch) : ∀ l best, (∀ p ∈ l, p ∈ cell) → (∀ b, best = some b → b ∈ cell ∧ c.outlier b = false) →
    match scan c height l best with
    | .inl p => p ∈ cell ∧ c.outlier p = false ∧ c.blocks height p = true
    | .inr r => (∀ b, r = some b → b ∈ cell ∧ c.outlier b = false) ∧
        (∀ p ∈ l, c.outlier p = false → p.bottom ≤ height + c.robotHeight + c.maxStep → c.blocks height p = false ∧ ∃ b, r = some b ∧ |b.top - height| ≤ |p.top - height|) ∧
        (∀ b0, best = some b0 → ∃ b, r = some b ∧ |b.top - height| ≤ |b0.top - height|) := by
  intro l
  induction l with
  | nil =>
    intro best _ hb
    exact ⟨hb, fun p hp => by simp at hp, fun b0 h => ⟨b0, h, le_refl _⟩⟩
  | cons p l ih =>
    intro best hl hb
    have hl' : ∀ q ∈ l, q ∈ cell := fun q hq => hl q (List.mem_cons_of_mem _ hq)
    unfold scan
    by_cases h1 : c.outlier p = true
    · rw [if_pos h1]
      have := ih best hl' hb
      cases hsc : scan c height l best with
      | inl q => rw [hsc] at this; exact this
      | inr r =>
        rw [hsc] at this
        refine ⟨this.1, ?_, this.2.2⟩
        intro q hq ho
        rcases List.mem_cons.1 hq with rfl | hq
        · rw [h1] at ho; cases ho
        · exact this.2.1 q hq ho
    · rw [if_neg h1]
      have ho : c.outlier p = false := by simpa using h1
      by_cases h2 : p.bottom > height + c.robotHeight + c.maxStep
      · rw [if_pos h2]
        have := ih best hl' hb
        cases hsc : scan c height l best with
        | inl q => rw [hsc] at this; exact this
        | inr r =>
          rw [hsc] at this
          refine ⟨this.1, ?_, this.2.2⟩
          intro q hq ho hbot
          rcases List.mem_cons.1 hq with rfl | hq
          · exact absurd hbot (not_le.2 h2)
          · exact this.2.1 q hq ho hbot
      · rw [if_neg h2]
        by_cases h3 : c.blocks height p = true
        · rw [if_pos h3]
          exact ⟨hl p (by simp), ho, h3⟩
        · rw [if_neg h3]
          have hnb : c.blocks height p = false := by simpa using h3
          have take : ∀ best', (∀ b, best' = some b → b ∈ cell ∧ c.outlier b = false) → (∃ b, best' = some b ∧ |b.top - height| ≤ |p.top - height|) →
              (∀ b0, best = some b0 → ∃ b, best' = some b ∧ |b.top - height| ≤ |b0.top - height|) →
              match scan c height l best' with
              | .inl p => p ∈ cell ∧ c.outlier p = false ∧ c.blocks height p = true
              | .inr r => (∀ b, r = some b → b ∈ cell ∧ c.outlier b = false) ∧
                (∀ q ∈ p :: l, c.outlier q = false → q.bottom ≤ height + c.robotHeight + c.maxStep → c.blocks height q = false ∧ ∃ b, r = some b ∧ |b.top - height| ≤ |q.top - height|) ∧
                (∀ b0, best = some b0 → ∃ b, r = some b ∧ |b.top - height| ≤ |b0.top - height|) := by
            intro best' hb' hp' hold
            have := ih best' hl' hb'
            cases hsc : scan c height l best' with
            | inl q => rw [hsc] at this; exact this
            | inr r =>
              rw [hsc] at this
              refine ⟨this.1, ?_, ?_⟩
              · intro q hq hoq hbot
                rcases List.mem_cons.1 hq with rfl | hq
                · obtain ⟨b, hb1, hb2⟩ := hp'
                  obtain ⟨b', hb3, hb4⟩ := this.2.2 b hb1
                  exact ⟨hnb, b', hb3, le_trans hb4 hb2⟩
                · exact this.2.1 q hq hoq hbot
              · intro b0 h0
                obtain ⟨b, hb1, hb2⟩ := hold b0 h0
                obtain ⟨b', hb3, hb4⟩ := this.2.2 b hb1
                exact ⟨b', hb3, le_trans hb4 hb2⟩
          cases best with
          | none =>
            exact take (some p) (fun b h => by cases h; exact ⟨hl p (by simp), ho⟩) ⟨p, rfl, le_refl _⟩ (fun b0 h => by cases h)
          | some b0 =>
            by_cases h4 : |p.top - height| < |b0.top - height|
            · simp only [h4, decide_true, if_true]
              exact take (some p) (fun b h => by cases h; exact ⟨hl p (by simp), ho⟩) ⟨p, rfl, le_refl _⟩ (fun b h => by cases h; exact ⟨p, rfl, le_of_lt h4⟩)
            · simp only [h4, decide_false, Bool.false_eq_true, if_false]
              exact take (some b0) hb ⟨b0, rfl, not_lt.1 h4⟩ (fun b h => ⟨b, h, le_refl _⟩)

/-- outliers: few measurements and a large deviation -/
def Outlier (c : Config) (p : Patch) : Prop := p.count < c.minMeasurements ∧ c.maxStdDev < p.stdev

/-- the height z is within the patch -/
def Crosses (z : ℚ) (p : Patch) : Prop := p.mean - p.stdev < z ∧ z < p.mean + p.stdev

/-- a patch in the way of a robot that stands at the given height: at the height of its top or of the largest step -/
def Blocking (c : Config) (height : ℚ) (p : Patch) : Prop := Crosses (height + c.robotHeight) p ∨ Crosses (height + c.maxStep) p

theorem outlier_iff (c : Config) (p : Patch) : c.outlier p = false ↔ ¬ Outlier c p := by
  unfold Config.outlier Outlier
  rw [← Bool.not_eq_true, Bool.and_eq_true, decide_eq_true_eq, decide_eq_true_eq]

theorem blocks_iff (c : Config) (height : ℚ) (p : Patch) : c.blocks height p = true ↔ Blocking c height p := by
  unfold Config.blocks Blocking Crosses
  rw [Bool.or_eq_true, Bool.and_eq_true, Bool.and_eq_true, decide_eq_true_eq, decide_eq_true_eq, decide_eq_true_eq, decide_eq_true_eq]
  exact Iff.rfl

/-- **C65** For patches with non-negative deviation the search for a patch ends (at most as many rounds as there are patches, plus one). If
the result is no obstacle, then it is a patch of the cell that is no outlier, its top is at most maxStepHeight above the given height,
no patch in reach blocks the robot, and every patch above it leaves at least robotHeight space. If the result is an obstacle then it blocks the robot or its top is
too high. There is no result only if all patches are outliers or out of reach. -/
theorem C65_robot_fits (c : Config) (height : ℚ) (cell : List Patch) (hs : ∀ q ∈ cell, 0 ≤ q.stdev) (fuel : Nat) (hf : cell.length < fuel) :
    ∃ r, nearest c height cell fuel = some r ∧
    (∀ p, r = some (p, false) → p ∈ cell ∧ ¬ Outlier c p ∧ p.mean + p.stdev ≤ height + c.maxStep ∧
      (∀ q ∈ cell, ¬ Outlier c q → q.mean - q.stdev ≤ height + c.robotHeight + c.maxStep → ¬ Blocking c height q) ∧
      (∀ q ∈ cell, ¬ Outlier c q → p.mean + p.stdev < q.mean - q.stdev → p.mean + p.stdev + c.robotHeight ≤ q.mean - q.stdev)) ∧
    (∀ p, r = some (p, true) → p ∈ cell ∧ ¬ Outlier c p ∧ (Blocking c height p ∨ height + c.maxStep < p.mean + p.stdev)) ∧
    (r = none → ∀ q ∈ cell, ¬ Outlier c q → height + c.robotHeight + c.maxStep < q.mean - q.stdev) := by
  have htop : ∀ p : Patch, p.mean + p.stdev = p.top := fun _ => rfl
  have hbot : ∀ p : Patch, p.mean - p.stdev = p.bottom := fun _ => rfl
  simp only [← outlier_iff, ← blocks_iff, Bool.not_eq_true, htop, hbot]
  have hscan := scan_spec c height cell cell none (fun _ h => h) (fun b h => by cases h)
  unfold nearest
  cases hsc : scan c height cell none with
  | inl p =>
    rw [hsc] at hscan
    refine ⟨_, rfl, fun q h => (by cases h), ?_, fun h => (by cases h)⟩
    intro q h
    cases h
    exact ⟨hscan.1, hscan.2.1, Or.inl hscan.2.2⟩
  | inr b =>
    rw [hsc] at hscan
    cases b with
    | none =>
      refine ⟨_, rfl, fun q h => (by cases h), fun q h => (by cases h), ?_⟩
      intro _ q hq ho
      by_contra hle
      obtain ⟨_, b, hb, _⟩ := hscan.2.1 q hq ho (not_lt.1 hle)
      cases hb
    | some b =>
      obtain ⟨q, o, e, h1, h2, h3, h4⟩ := climb_spec (c := c) (height := height) hs fuel b
        (lt_of_le_of_lt (List.length_filter_le _ _) hf) (hscan.1 b rfl)
      refine ⟨some (q, o), by dsimp only; rw [e]; rfl, ?_, ?_, fun h => (by cases h)⟩
      · intro p hp
        cases hp
        obtain ⟨g1, g2⟩ := h4 rfl
        refine ⟨h1.1, h1.2, by linarith, fun r hr ho hb => (hscan.2.1 r hr ho hb).1, ?_⟩
        intro r hr ho ht
        have := g2 r hr ho ht
        linarith
      · intro p hp
        cases hp
        exact ⟨h1.1, h1.2, Or.inr (by linarith [h3 rfl])⟩

/-- floor, a ceiling that is high enough -/
example : nearest ⟨1 / 5, 1, 0, 1⟩ 0 [⟨2, 1 / 10, 5⟩, ⟨0, 1 / 10, 5⟩] 3 = some (some (⟨0, 1 / 10, 5⟩, false)) := by decide +kernel
/-- ceiling too low: it becomes the floor, which is too high -/
example : nearest ⟨1 / 5, 1, 0, 1⟩ 0 [⟨3 / 5, 1 / 10, 5⟩, ⟨0, 1 / 10, 5⟩] 3 = some (some (⟨3 / 5, 1 / 10, 5⟩, true)) := by decide +kernel

/-- **C65, outside of the claim**: with a negative deviation the loop does not end. -/
theorem C65_negative_deviation (fuel : Nat) : nearest ⟨1, 3, 0, 1⟩ 0 [⟨0, -1, 1⟩] fuel = none := by
  have hsc : scan ⟨1, 3, 0, 1⟩ 0 [⟨0, -1, 1⟩] none = .inr (some ⟨0, -1, 1⟩) := by decide +kernel
  have key : ∀ fuel, climb ⟨1, 3, 0, 1⟩ 0 [⟨0, -1, 1⟩] fuel ⟨0, -1, 1⟩ = none := by
    intro fuel
    induction fuel with
    | zero => rfl
    | succ n ih =>
      unfold climb
      rw [if_neg (by decide +kernel), show ceiling ⟨1, 3, 0, 1⟩ [⟨0, -1, 1⟩] ⟨0, -1, 1⟩ = some ⟨0, -1, 1⟩ by decide +kernel]
      exact ih
  unfold nearest
  rw [hsc]
  change (climb _ _ _ fuel _).map some = none
  rw [key]
  rfl

#print axioms C43_grassfire
#print axioms C43_connected
#print axioms C65_robot_fits
#print axioms C65_negative_deviation

end Envire.Grassfire
