import Verif.Maps.QueryModel
import Verif.Ops.ElevationProps

/-!
C110: the distance of two patches. C111: the patch of a cell that fits to a height. C112: how well two multi-level surface grids match. C113: the difference of height of two grids. C114: points on the surface.
-/

namespace Envire.Query

open Envire.Patch Envire.Rect Envire.Elevation

/-! ### specification -/

/-- the heights that a patch takes up -/
def Heights (p : Patch) (z : ℝ) : Prop := if p.kind = .horizontal then z = p.mean else p.mean - p.height ≤ z ∧ z ≤ p.mean

/-- d is the distance of the two patches: the least difference of two of their heights -/
def IsGap (p q : Patch) (d : ℝ) : Prop := (∃ a b, Heights p a ∧ Heights q b ∧ d = |a - b|) ∧ ∀ a b, Heights p a → Heights q b → d ≤ |a - b|

/-- heights are not negative -/
def Proper (p : Patch) : Prop := p.kind ≠ .horizontal → 0 ≤ p.height

/-- p fits to q: their distance is less than sigma standard deviations of their difference -/
def Fits (q : Patch) (sigma : ℝ) (ignoreNegative : Bool) (p : Patch) : Prop :=
  (∃ d, IsGap p q d ∧ d < √(q.stdev ^ 2 + p.stdev ^ 2) * sigma) ∧ (ignoreNegative = true → p.kind ≠ .negative)

theorem gap_unique {p q : Patch} {d e : ℝ} (hd : IsGap p q d) (he : IsGap p q e) : d = e := by
  obtain ⟨⟨a, b, h1, h2, h3⟩, h4⟩ := hd
  obtain ⟨⟨a', b', h1', h2', h3'⟩, h4'⟩ := he
  apply le_antisymm
  · rw [h3']; exact h4 _ _ h1' h2'
  · rw [h3]; exact h4' _ _ h1 h2

theorem gap_symm {p q : Patch} {d : ℝ} (hd : IsGap p q d) : IsGap q p d := by
  obtain ⟨⟨a, b, h1, h2, h3⟩, h4⟩ := hd
  exact ⟨⟨b, a, h2, h1, by rw [h3, abs_sub_comm]⟩, fun a b ha hb => by rw [abs_sub_comm]; exact h4 _ _ hb ha⟩

theorem distance_symm (p q : Patch) : distance p q = distance q p := by
  unfold distance
  by_cases hp : horizontal p <;> by_cases hq : horizontal q <;> simp [hp, hq, abs_sub_comm]

/-- a patch that is not horizontal and a horizontal one -/
theorem gap_vertical {p q : Patch} (hp : ¬ horizontal p) (wp : Proper p) (hq : horizontal q) : IsGap p q (distance p q) := by
  have h0 := wp hp
  unfold horizontal at hp hq
  unfold distance IsGap Heights horizontal
  rw [if_neg (by simp [hq]), if_pos hp]
  simp only [if_neg hp, if_pos hq]
  by_cases h : q.mean > p.mean
  · rw [if_pos h]
    refine ⟨⟨p.mean, q.mean, ⟨by linarith, le_refl _⟩, rfl, ?_⟩, ?_⟩
    · rw [abs_sub_comm, abs_of_pos (by linarith)]
    · rintro a b ⟨h1, h2⟩ rfl
      rw [abs_sub_comm]
      exact le_trans (by linarith) (le_abs_self _)
  · rw [if_neg h]
    push Not at h
    by_cases h' : p.mean - p.height ≤ q.mean
    · rw [max_eq_left (by linarith)]
      exact ⟨⟨q.mean, q.mean, ⟨h', h⟩, rfl, by simp⟩, fun a b _ _ => abs_nonneg _⟩
    · push Not at h'
      rw [max_eq_right (by linarith)]
      refine ⟨⟨p.mean - p.height, q.mean, ⟨le_refl _, by linarith⟩, rfl, ?_⟩, ?_⟩
      · rw [abs_of_pos (by linarith)]
      · rintro a b ⟨h1, h2⟩ rfl
        exact le_trans (by linarith) (le_abs_self _)

/-- C110: the distance of two patches is the gap between the heights that they take up, whichever of them is asked. Missing: both patches are not horizontal (C110_vertical). -/
theorem C110_distance_partial {p q : Patch} (wp : Proper p) (wq : Proper q) (h : p.kind = .horizontal ∨ q.kind = .horizontal) : IsGap p q (distance p q) := by
  by_cases hp : horizontal p
  · by_cases hq : horizontal q
    · unfold horizontal at hp hq
      unfold distance IsGap Heights horizontal
      rw [if_neg (by simp [hq]), if_neg (by simp [hp]), if_neg (by simp [hq])]
      simp only [if_pos hp, if_pos hq]
      exact ⟨⟨_, _, rfl, rfl, rfl⟩, by rintro a b rfl rfl; exact le_refl _⟩
    · rw [distance_symm]
      exact gap_symm (gap_vertical hq wq hp)
  · exact gap_vertical hp wp (h.resolve_left hp)

/-- C110: the distance is symmetric, and not negative -/
theorem C110_symm (p q : Patch) : distance p q = distance q p ∧ 0 ≤ distance p q := by
  refine ⟨distance_symm p q, ?_⟩
  unfold distance
  split
  · exact le_refl _
  · split
    · split
      · linarith
      · exact le_max_left _ _
    · split
      · split
        · linarith
        · exact le_max_left _ _
      · exact abs_nonneg _

example : distance (Patch.make 5 1 2 .vertical) (Patch.make 1 1) = 2 := by
  have h := C110_distance_partial (p := Patch.make 5 1 2 .vertical) (q := Patch.make 1 1) (fun _ => by norm_num [Patch.make]) (fun h => absurd rfl h) (Or.inr rfl)
  refine gap_unique h ⟨⟨3, 1, ?_, ?_, by norm_num⟩, ?_⟩
  · unfold Heights; simp [Patch.make]; norm_num
  · unfold Heights; simp [Patch.make]
  · intro a b ha hb
    unfold Heights at ha hb
    simp [Patch.make] at ha hb
    subst hb
    exact le_trans (by linarith [ha.1]) (le_abs_self _)

/-- Violation: the distance of two patches that are not horizontal is zero, however large the gap between them is. -/
theorem C110_vertical (d : ℝ) (hd : 0 < d) : ∃ p q, Proper p ∧ Proper q ∧ IsGap p q d ∧ distance p q = 0 := by
  refine ⟨Patch.make (d + 1) 1 1 .vertical, Patch.make 0 1 1 .vertical, fun _ => by norm_num [Patch.make], fun _ => by norm_num [Patch.make], ⟨⟨d, 0, ?_, ?_, ?_⟩, ?_⟩, ?_⟩
  · unfold Heights; simp [Patch.make]
  · unfold Heights; simp [Patch.make]
  · rw [sub_zero, abs_of_pos hd]
  · intro a b ha hb
    unfold Heights at ha hb
    simp [Patch.make] at ha hb
    exact le_trans (by linarith [ha.1, hb.2]) (le_abs_self _)
  · unfold distance horizontal
    simp [Patch.make]

/-! ### C111 -/

theorem fits_iff {q p : Patch} {sigma : ℝ} {ig : Bool} (wq : Proper q) (wp : Proper p) (h : q.kind = .horizontal ∨ p.kind = .horizontal) :
    (distance p q < √(q.stdev ^ 2 + p.stdev ^ 2) * sigma ∧ (ig = false ∨ ¬ negative p)) ↔ Fits q sigma ig p := by
  have hg := C110_distance_partial wp wq h.symm
  unfold Fits negative
  constructor
  · rintro ⟨h1, h2⟩
    refine ⟨⟨_, hg, h1⟩, fun h3 => ?_⟩
    rcases h2 with h2 | h2
    · simp [h2] at h3
    · exact h2
  · rintro ⟨⟨d, h1, h2⟩, h3⟩
    rw [gap_unique hg h1]
    refine ⟨h2, ?_⟩
    cases ig
    · exact Or.inl rfl
    · exact Or.inr (h3 rfl)

theorem get_none {q : Patch} {sigma : ℝ} {ig : Bool} (wq : Proper q) {l : List Patch} (wl : ∀ p ∈ l, Proper p ∧ (q.kind = .horizontal ∨ p.kind = .horizontal)) :
    get q sigma ig l = none ↔ ∀ p ∈ l, ¬ Fits q sigma ig p := by
  induction l with
  | nil => simp [get]
  | cons p l ih =>
    have ih := ih fun x hx => wl x (List.mem_cons_of_mem _ hx)
    have w := wl p List.mem_cons_self
    unfold get
    by_cases h : Fits q sigma ig p
    · rw [if_pos ((fits_iff wq w.1 w.2).2 h)]
      simp [h]
    · rw [if_neg (fun h' => h ((fits_iff wq w.1 w.2).1 h'))]
      simp [h, ih]

theorem get_some {q : Patch} {sigma : ℝ} {ig : Bool} (wq : Proper q) {l : List Patch} (wl : ∀ p ∈ l, Proper p ∧ (q.kind = .horizontal ∨ p.kind = .horizontal)) (i : Nat) :
    get q sigma ig l = some i ↔ (∃ p, l[i]? = some p ∧ Fits q sigma ig p) ∧ ∀ j p, j < i → l[j]? = some p → ¬ Fits q sigma ig p := by
  induction l generalizing i with
  | nil => simp [get]
  | cons p l ih =>
    have ih := ih fun x hx => wl x (List.mem_cons_of_mem _ hx)
    have w := wl p List.mem_cons_self
    unfold get
    by_cases h : Fits q sigma ig p
    · rw [if_pos ((fits_iff wq w.1 w.2).2 h)]
      cases i with
      | zero => simp [h]
      | succ i =>
        simp only [Option.some.injEq, reduceCtorEq, false_iff]
        rintro ⟨-, h2⟩
        exact h2 0 p (Nat.succ_pos _) rfl h
    · rw [if_neg (fun h' => h ((fits_iff wq w.1 w.2).1 h'))]
      cases i with
      | zero => simp [h]
      | succ i =>
        rw [show ((get q sigma ig l).map (· + 1) = some (i + 1)) ↔ get q sigma ig l = some i by simp, ih]
        simp only [List.getElem?_cons_succ]
        refine and_congr_right fun _ => ⟨fun h2 j x hj hx => ?_, fun h2 j x hj hx => h2 (j + 1) x (by omega) (by simpa using hx)⟩
        cases j with
        | zero => simp at hx; subst hx; exact h
        | succ j => exact h2 j x (by omega) (by simpa using hx)

/-- C111: `get` returns the first patch of the cell that fits, and nothing if there is none. Missing: the patch that is asked for and a patch of the cell are both not horizontal (C111_vertical). -/
theorem C111_get_partial {q : Patch} (sigma : ℝ) (ig : Bool) (wq : Proper q) {l : List Patch} (wl : ∀ p ∈ l, Proper p ∧ (q.kind = .horizontal ∨ p.kind = .horizontal)) :
    (get q sigma ig l = none ↔ ∀ p ∈ l, ¬ Fits q sigma ig p) ∧
    ∀ i, get q sigma ig l = some i ↔ (∃ p, l[i]? = some p ∧ Fits q sigma ig p) ∧ ∀ j p, j < i → l[j]? = some p → ¬ Fits q sigma ig p :=
  ⟨get_none wq wl, get_some wq wl⟩

theorem proper_make (z s : ℝ) : Proper (Patch.make z s) := fun h => absurd rfl h

/-- C111: the patch at a height: it is not a negative one, it is the first that fits with the threshold 3, and its height and deviation are returned -/
theorem C111_height {l : List Patch} (wl : ∀ p ∈ l, Proper p) (zpos zstdev : ℝ) :
    (getHeight zpos zstdev l = none ↔ ∀ p ∈ l, ¬ Fits (Patch.make zpos zstdev) 3 true p) ∧
    ∀ i z s, getHeight zpos zstdev l = some (i, z, s) → ∃ p, l[i]? = some p ∧ z = p.mean ∧ s = p.stdev ∧ Fits (Patch.make zpos zstdev) 3 true p ∧ ∀ j p', j < i → l[j]? = some p' → ¬ Fits (Patch.make zpos zstdev) 3 true p' := by
  have w : ∀ p ∈ l, Proper p ∧ ((Patch.make zpos zstdev).kind = .horizontal ∨ p.kind = .horizontal) := fun p hp => ⟨wl p hp, Or.inl rfl⟩
  obtain ⟨h1, h2⟩ := C111_get_partial (q := Patch.make zpos zstdev) 3 true (proper_make _ _) w
  unfold getHeight
  constructor
  · rw [← h1]
    cases hg : get (Patch.make zpos zstdev) 3 true l with
    | none => simp
    | some i =>
      obtain ⟨⟨p, hp, -⟩, -⟩ := (h2 i).1 hg
      simp [hp]
  · intro i z s h
    cases hg : get (Patch.make zpos zstdev) 3 true l with
    | none => simp [hg] at h
    | some k =>
      obtain ⟨⟨p, hp, hf⟩, hl⟩ := (h2 k).1 hg
      simp [hg, hp] at h
      obtain ⟨rfl, rfl, rfl⟩ := h
      exact ⟨p, hp, rfl, rfl, hf, hl⟩

theorem gap_horizontal (a b s t : ℝ) : IsGap (Patch.make a s) (Patch.make b t) |a - b| := by
  have h := C110_distance_partial (proper_make a s) (proper_make b t) (Or.inl rfl)
  rwa [show distance (Patch.make a s) (Patch.make b t) = |a - b| by unfold distance horizontal; simp [Patch.make]] at h

theorem fits_make (z s a t sigma : ℝ) (ig : Bool) : Fits (Patch.make z s) sigma ig (Patch.make a t) ↔ |a - z| < √(s ^ 2 + t ^ 2) * sigma := by
  constructor
  · rintro ⟨⟨d, h1, h2⟩, -⟩
    rw [gap_unique (gap_horizontal _ _ _ _) h1]
    exact h2
  · intro h
    exact ⟨⟨_, gap_horizontal _ _ _ _, h⟩, fun _ => by simp [Patch.make]⟩

/-- two floors: the patch that is found is the one of the second floor -/
example : get (Patch.make 4 3) 3 true [Patch.make 30 4, Patch.make 5 4] = some 1 := by
  have h5 : √((3 : ℝ) ^ 2 + 4 ^ 2) = 5 := by rw [show (3 : ℝ) ^ 2 + 4 ^ 2 = 5 ^ 2 by norm_num]; exact Real.sqrt_sq (by norm_num)
  have h := (C111_get_partial (q := Patch.make 4 3) 3 true (proper_make _ _) (l := [Patch.make 30 4, Patch.make 5 4]) (by
    intro p hp; simp at hp; rcases hp with rfl | rfl <;> exact ⟨proper_make _ _, Or.inl rfl⟩)).2 1
  rw [h]
  refine ⟨⟨_, rfl, ?_⟩, ?_⟩
  · rw [fits_make, h5, show |(5 : ℝ) - 4| = 1 by norm_num]; norm_num
  · intro j p hj hp
    obtain rfl : j = 0 := by omega
    simp at hp
    subst hp
    rw [fits_make, h5, show |(30 : ℝ) - 4| = 26 by norm_num]; norm_num

/-- Violation: if a vertical patch is asked for, then any vertical patch with a deviation fits, however far away it is. -/
theorem C111_vertical (z s a t sigma : ℝ) (hs : 0 < s) (hsig : 0 < sigma) (l : List Patch) :
    get (Patch.make z s 1 .vertical) sigma true (Patch.make a t 1 .vertical :: l) = some 0 := by
  unfold get
  rw [if_pos]
  refine ⟨?_, Or.inr (by simp [negative, Patch.make])⟩
  rw [show distance (Patch.make a t 1 .vertical) (Patch.make z s 1 .vertical) = 0 by unfold distance horizontal; simp [Patch.make]]
  refine mul_pos (Real.sqrt_pos.2 ?_) hsig
  show 0 < s ^ 2 + t ^ 2
  positivity

example : ¬ Fits (Patch.make 0 1 1 .vertical) 3 true (Patch.make 100 1 1 .vertical) := by
  rintro ⟨⟨d, ⟨⟨a, b, ha, hb, rfl⟩, -⟩, h2⟩, -⟩
  unfold Heights at ha hb
  simp [Patch.make] at ha hb h2
  have h3 : √((1 : ℝ) + 1) ≤ 2 := Real.sqrt_le_iff.2 ⟨by norm_num, by norm_num⟩
  have := le_abs_self (a - b)
  linarith [ha.1, hb.2]

/-- Violation: a patch without deviation is not found at its own height if the height that is asked for is exact -/
theorem C111_exact (z sigma : ℝ) (ig : Bool) : get (Patch.make z 0) sigma ig [Patch.make z 0] = none := by
  rw [(C111_get_partial sigma ig (proper_make z 0) (l := [Patch.make z 0]) (by intro p hp; simp at hp; subst hp; exact ⟨proper_make _ _, Or.inl rfl⟩)).1]
  intro p hp
  simp at hp
  subst hp
  rw [fits_make]
  simp

/-! ### C112 -/

/-- the middle of a cell -/
noncomputable def Middle (g : Geo) (c : Nat × Nat) : P3 := (g.ox + (c.1 + 1 / 2) * g.sx, g.oy + (c.2 + 1 / 2) * g.sy, 0)

/-- the cell x of the other grid is compared with the cell y of this grid -/
def Compared (g go : Geo) (T : P3 → P3) (other : Nat × Nat → List Patch) (x y : Nat × Nat) : Prop := InCell g y (T (Middle go x)) ∧ other x ≠ []

/-- a patch of the other grid, raised by the offset -/
noncomputable def Raised (offset p : Patch) : Patch := { p with mean := p.mean + offset.mean, stdev := √(p.stdev ^ 2 + offset.stdev ^ 2), updateIdx := offset.updateIdx }

theorem fits_idx {q q' p : Patch} {sigma : ℝ} {ig : Bool} (h1 : q.mean = q'.mean) (h2 : q.stdev = q'.stdev) (h3 : q.height = q'.height) (h4 : q.kind = q'.kind) : Fits q sigma ig p ↔ Fits q' sigma ig p := by
  unfold Fits IsGap Heights
  rw [h1, h2, h3, h4]

/-- a patch of the other cell fits to a patch of this cell -/
def CellFits (offset : Patch) (sigma : ℝ) (this other : List Patch) : Prop := ∃ p ∈ other, ∃ p' ∈ this, Fits (Raised offset p) sigma true p'

theorem cell_matches {offset : Patch} {sigma : ℝ} {this other : List Patch} (wo : ∀ p ∈ other, Proper p) (wt : ∀ p ∈ this, Proper p) (hh : ∀ p ∈ other, ∀ p' ∈ this, p.kind = .horizontal ∨ p'.kind = .horizontal) :
    cellMatches offset sigma this other = true ↔ CellFits offset sigma this other := by
  induction other with
  | nil => simp [cellMatches, CellFits]
  | cons p l ih =>
    have ih := ih (fun x hx => wo x (List.mem_cons_of_mem _ hx)) fun x hx => hh x (List.mem_cons_of_mem _ hx)
    have hn := get_none (q := measured offset p) (sigma := sigma) (ig := true) (l := this) (wo p List.mem_cons_self) fun x hx => ⟨wt x hx, hh p List.mem_cons_self x hx⟩
    have hs : (get (measured offset p) sigma true this).isSome = true ↔ ∃ p' ∈ this, Fits (Raised offset p) sigma true p' := by
      rw [← Option.ne_none_iff_isSome, Ne, hn]
      push Not
      rfl
    unfold cellMatches
    by_cases h : (get (measured offset p) sigma true this).isSome = true
    · rw [if_pos h]
      simp only [true_iff]
      exact ⟨p, List.mem_cons_self, hs.1 h⟩
    · rw [if_neg h, ih]
      unfold CellFits
      constructor
      · rintro ⟨x, hx, h1⟩
        exact ⟨x, List.mem_cons_of_mem _ hx, h1⟩
      · rintro ⟨x, hx, h1⟩
        rcases List.mem_cons.1 hx with rfl | hx
        · exact absurd (hs.2 h1) h
        · exact ⟨x, hx, h1⟩

theorem conv_iff {g go : Geo} (hx : 0 < g.sx) (hy : 0 < g.sy) (T : P3 → P3) (x y : Nat × Nat) : conv g go T x = some y ↔ InCell g y (T (Middle go x)) := by
  have e : (((x.1 : ℝ) + 1 / 2) * go.sx + go.ox, ((x.2 : ℝ) + 1 / 2) * go.sy + go.oy, (0 : ℝ)) = Middle go x := by
    unfold Middle
    rw [add_comm, add_comm (((x.2 : ℝ) + 1 / 2) * go.sy)]
  unfold conv
  rw [e]
  exact toGrid_iff hx hy _ _

open Classical in
/-- the numbers of the cells of the index that are compared: each `sampling`-th of them, if its middle is in this grid and there is a patch in it -/
noncomputable def ComparedCells (g go : Geo) (T : P3 → P3) (other : Nat × Nat → List Patch) (l : List (Nat × Nat)) (sampling : Nat) : Finset Nat :=
  (Finset.range l.length).filter fun k => sampling ∣ k ∧ ∃ x y, l[k]? = some x ∧ Compared g go T other x y

open Classical in
/-- those of them with a patch that fits -/
noncomputable def MatchingCells (g go : Geo) (T : P3 → P3) (this other : Nat × Nat → List Patch) (l : List (Nat × Nat)) (offset : Patch) (sampling : Nat) (sigma : ℝ) : Finset Nat :=
  (ComparedCells g go T other l sampling).filter fun k => ∃ x y, l[k]? = some x ∧ Compared g go T other x y ∧ CellFits offset sigma (this y) (other x)

theorem loop_append (this other : Nat × Nat → List Patch) (cv : Nat × Nat → Option (Nat × Nat)) (offset : Patch) (s : Nat) (sigma : ℝ) (l l' : List (Nat × Nat)) (i : Nat) (c : Nat × Nat) :
    matchLoop this other cv offset s sigma i (l ++ l') c = matchLoop this other cv offset s sigma (i + l.length) l' (matchLoop this other cv offset s sigma i l c) := by
  induction l generalizing i c with
  | nil => rfl
  | cons x l ih =>
    rw [List.cons_append, matchLoop, matchLoop, ih, List.length_cons]
    congr 1
    omega

/-- the conditions on a number do not change if a cell is appended -/
theorem compared_append (g go : Geo) (T : P3 → P3) (other : Nat × Nat → List Patch) (l : List (Nat × Nat)) (x : Nat × Nat) (s : Nat) [Decidable (s ∣ l.length ∧ ∃ y, Compared g go T other x y)] :
    ComparedCells g go T other (l ++ [x]) s = if s ∣ l.length ∧ ∃ y, Compared g go T other x y then insert l.length (ComparedCells g go T other l s) else ComparedCells g go T other l s := by
  ext k
  have hk : k ∈ ComparedCells g go T other (l ++ [x]) s ↔ k ∈ ComparedCells g go T other l s ∨ (k = l.length ∧ s ∣ l.length ∧ ∃ y, Compared g go T other x y) := by
    unfold ComparedCells
    simp only [Finset.mem_filter, Finset.mem_range, List.length_append, List.length_singleton]
    rcases lt_trichotomy k l.length with h | h | h
    · rw [List.getElem?_append_left h]
      simp only [show k < l.length + 1 by omega, h, true_and]
      constructor
      · exact fun h => Or.inl h
      · rintro (h' | ⟨h', -⟩)
        · exact h'
        · omega
    · subst h
      simp
    · constructor
      · rintro ⟨h1, -⟩; omega
      · rintro (⟨h1, -⟩ | ⟨h1, -⟩) <;> omega
  rw [hk]
  split
  · rename_i h
    rw [Finset.mem_insert]
    tauto
  · tauto

theorem matching_append (g go : Geo) (T : P3 → P3) (this other : Nat × Nat → List Patch) (l : List (Nat × Nat)) (x : Nat × Nat) (offset : Patch) (s : Nat) (sigma : ℝ)
    [Decidable (s ∣ l.length ∧ ∃ y, Compared g go T other x y ∧ CellFits offset sigma (this y) (other x))] :
    MatchingCells g go T this other (l ++ [x]) offset s sigma =
      if s ∣ l.length ∧ ∃ y, Compared g go T other x y ∧ CellFits offset sigma (this y) (other x) then insert l.length (MatchingCells g go T this other l offset s sigma) else MatchingCells g go T this other l offset s sigma := by
  ext k
  have hk : k ∈ MatchingCells g go T this other (l ++ [x]) offset s sigma ↔
      k ∈ MatchingCells g go T this other l offset s sigma ∨ (k = l.length ∧ s ∣ l.length ∧ ∃ y, Compared g go T other x y ∧ CellFits offset sigma (this y) (other x)) := by
    unfold MatchingCells ComparedCells
    simp only [Finset.mem_filter, Finset.mem_range, List.length_append, List.length_singleton]
    rcases lt_trichotomy k l.length with h | h | h
    · rw [List.getElem?_append_left h]
      simp only [show k < l.length + 1 by omega, h, true_and]
      constructor
      · exact fun h => Or.inl h
      · rintro (h' | ⟨h', -⟩)
        · exact h'
        · omega
    · subst h
      simp only [List.getElem?_append_right (le_refl _), Nat.sub_self, List.getElem?_cons_zero, Option.some.injEq, lt_add_iff_pos_right, zero_lt_one, true_and, lt_self_iff_false, false_and, false_or]
      constructor
      · rintro ⟨⟨h1, -⟩, x', y, rfl, h2⟩
        exact ⟨h1, y, h2⟩
      · rintro ⟨h1, y, h2⟩
        exact ⟨⟨h1, x, y, rfl, h2.1⟩, x, y, rfl, h2⟩
    · constructor
      · rintro ⟨⟨h1, -⟩, -⟩; omega
      · rintro (⟨⟨h1, -⟩, -⟩ | ⟨h1, -⟩) <;> omega
  rw [hk]
  split
  · rename_i h
    rw [Finset.mem_insert]
    tauto
  · rename_i h
    constructor
    · rintro (h' | ⟨-, h'⟩)
      · exact h'
      · exact absurd h' h
    · exact Or.inl

theorem not_mem_compared (g go : Geo) (T : P3 → P3) (other : Nat × Nat → List Patch) (l : List (Nat × Nat)) (s : Nat) : l.length ∉ ComparedCells g go T other l s := by
  unfold ComparedCells
  simp

theorem loop_eq {g go : Geo} (hx : 0 < g.sx) (hy : 0 < g.sy) {T : P3 → P3} {this other : Nat × Nat → List Patch} {offset : Patch} {s : Nat} {sigma : ℝ}
    (wo : ∀ x, ∀ p ∈ other x, Proper p) (wt : ∀ x, ∀ p ∈ this x, Proper p) (hh : ∀ x y, ∀ p ∈ other x, ∀ p' ∈ this y, p.kind = .horizontal ∨ p'.kind = .horizontal) (l : List (Nat × Nat)) :
    matchLoop this other (conv g go T) offset s sigma 0 l (0, 0) = ((MatchingCells g go T this other l offset s sigma).card, (ComparedCells g go T other l s).card) := by
  classical
  induction l using List.reverseRecOn with
  | nil => simp [matchLoop, MatchingCells, ComparedCells]
  | append_singleton l x ih =>
    rw [loop_append, ih, compared_append, matching_append, matchLoop, matchLoop, Nat.zero_add]
    have e1 : l.length ∉ ComparedCells g go T other l s := not_mem_compared g go T other l s
    have e2 : l.length ∉ MatchingCells g go T this other l offset s sigma := fun h => e1 (Finset.mem_filter.1 h).1
    by_cases hs : l.length % s = 0
    · have hd : s ∣ l.length := Nat.dvd_of_mod_eq_zero hs
      rw [if_pos hs]
      cases hc : conv g go T x with
      | none =>
        have hn : ∀ y, ¬ Compared g go T other x y := fun y hy' => by
          rw [(conv_iff hx hy T x y).2 hy'.1] at hc
          exact absurd hc (by simp)
        rw [if_neg (fun h => hn _ h.2.choose_spec.1), if_neg (fun h => hn _ h.2.choose_spec)]
      | some y =>
        have hy' := (conv_iff hx hy T x y).1 hc
        have hu : ∀ y', Compared g go T other x y' → y' = y := fun y' h => by
          have := (conv_iff hx hy T x y').2 h.1
          rw [hc] at this
          exact (Option.some.inj this).symm
        by_cases he : other x = []
        · have hn : ∀ y, ¬ Compared g go T other x y := fun y hy' => hy'.2 he
          rw [if_neg (fun h => hn _ h.2.choose_spec.1), if_neg (fun h => hn _ h.2.choose_spec)]
          simp [he]
        · have hcm : Compared g go T other x y := ⟨hy', he⟩
          have hm := cell_matches (offset := offset) (sigma := sigma) (wo x) (wt y) (hh x y)
          rw [if_pos (⟨hd, y, hcm⟩ : s ∣ l.length ∧ ∃ y, Compared g go T other x y), Finset.card_insert_of_notMem e1]
          dsimp only
          rw [if_neg (by simp [he])]
          by_cases hf : CellFits offset sigma (this y) (other x)
          · rw [if_pos (⟨hd, y, hcm, hf⟩ : s ∣ l.length ∧ ∃ y, Compared g go T other x y ∧ CellFits offset sigma (this y) (other x)), Finset.card_insert_of_notMem e2, if_pos (hm.2 hf)]
          · rw [if_neg (fun h => hf (hm.1 h)), if_neg]
            rintro ⟨-, y', h1, h2⟩
            rw [hu y' h1] at h2
            exact hf h2
    · rw [if_neg hs, if_neg (fun h => hs (Nat.mod_eq_zero_of_dvd h.1)), if_neg (fun h => hs (Nat.mod_eq_zero_of_dvd h.1))]

/-- C112: `match` returns the ratio of the cells in which a patch of the other grid fits, of the cells of the index that are compared, and 1 if none is. Missing: two patches that are not horizontal (C110_vertical); the ratio is one of
cells, not of patches (C112_cells); the height of the transform is ignored (C112_shift). -/
theorem C112_match_partial {g go : Geo} (hx : 0 < g.sx) (hy : 0 < g.sy) (T : P3 → P3) {this other : Nat × Nat → List Patch} (offset : Patch) {s : Nat} (hs : 0 < s) (sigma : ℝ)
    (wo : ∀ x, ∀ p ∈ other x, Proper p) (wt : ∀ x, ∀ p ∈ this x, Proper p) (hh : ∀ x y, ∀ p ∈ other x, ∀ p' ∈ this y, p.kind = .horizontal ∨ p'.kind = .horizontal) (l : List (Nat × Nat)) :
    ∃ r, gridMatch g go this other (some l) T offset s sigma = .ok r ∧ 0 ≤ r ∧ r ≤ 1 ∧
      (ComparedCells g go T other l s = ∅ → r = 1) ∧ r * (ComparedCells g go T other l s).card = (MatchingCells g go T this other l offset s sigma).card := by
  classical
  have hle : (MatchingCells g go T this other l offset s sigma).card ≤ (ComparedCells g go T other l s).card := Finset.card_le_card (Finset.filter_subset _ _)
  unfold gridMatch
  dsimp only
  rw [if_neg (by omega), loop_eq hx hy wo wt hh]
  dsimp only
  by_cases h : (ComparedCells g go T other l s).card = 0
  · rw [if_pos h]
    refine ⟨1, rfl, by norm_num, le_refl _, fun _ => rfl, ?_⟩
    rw [h] at hle ⊢
    rw [Nat.le_zero.1 hle]
    simp
  · rw [if_neg h]
    have hp : (0 : ℝ) < (ComparedCells g go T other l s).card := by exact_mod_cast Nat.pos_of_ne_zero h
    refine ⟨_, rfl, by positivity, ?_, fun h' => absurd (Finset.card_eq_zero.2 h') h, ?_⟩
    · rw [div_le_one hp]; exact_mod_cast hle
    · field_simp

/-- C112: without an index an exception is thrown; no cell can be taken with sampling zero -/
theorem C112_errors (g go : Geo) (this other : Nat × Nat → List Patch) (T : P3 → P3) (offset : Patch) (s : Nat) (sigma : ℝ) (x : Nat × Nat) (l : List (Nat × Nat)) :
    gridMatch g go this other none T offset s sigma = .throws ∧ gridMatch g go this other (some (x :: l)) T offset 0 sigma = .undefined := by
  constructor
  · rfl
  · unfold gridMatch
    dsimp only
    rw [if_pos ⟨rfl, by simp⟩]

/-- Violation: the height by which the transform moves the other grid has no effect. -/
theorem C112_shift (g go : Geo) (this other : Nat × Nat → List Patch) (index : Option (List (Nat × Nat))) (T : P3 → P3) (offset : Patch) (s : Nat) (sigma dz : ℝ) :
    gridMatch g go this other index (fun p => ((T p).1, (T p).2.1, (T p).2.2 + dz)) offset s sigma = gridMatch g go this other index T offset s sigma := rfl

theorem get_isSome {q : Patch} {sigma : ℝ} {l : List Patch} {p : Patch} (hp : p ∈ l) (h : distance p q < √(q.stdev ^ 2 + p.stdev ^ 2) * sigma) (hn : p.kind ≠ .negative) : (get q sigma true l).isSome = true := by
  induction l with
  | nil => simp at hp
  | cons a l ih =>
    unfold get
    split
    · rfl
    · rename_i hne
      rcases List.mem_cons.1 hp with rfl | hp
      · exact absurd ⟨h, Or.inr hn⟩ hne
      · rw [Option.isSome_map]; exact ih hp

theorem cellMatches_true {offset : Patch} {sigma : ℝ} {this other : List Patch} {p : Patch} (hp : p ∈ other) (h : (get (measured offset p) sigma true this).isSome = true) : cellMatches offset sigma this other = true := by
  induction other with
  | nil => simp at hp
  | cons a l ih =>
    unfold cellMatches
    split
    · rfl
    · rename_i hne
      rcases List.mem_cons.1 hp with rfl | hp
      · exact absurd h hne
      · exact ih hp

theorem loop_same {this other : Nat × Nat → List Patch} {cv : Nat × Nat → Option (Nat × Nat)} {offset : Patch} {s : Nat} {sigma : ℝ}
    (h : ∀ x y, cv x = some y → other x ≠ [] → cellMatches offset sigma (this y) (other x) = true) (l : List (Nat × Nat)) (i : Nat) (c : Nat × Nat) (hc : c.1 = c.2) :
    (matchLoop this other cv offset s sigma i l c).1 = (matchLoop this other cv offset s sigma i l c).2 := by
  induction l generalizing i c with
  | nil => exact hc
  | cons x l ih =>
    rw [matchLoop]
    apply ih
    split
    · cases hx : cv x with
      | none => exact hc
      | some y =>
        dsimp only
        split
        · exact hc
        · rename_i he
          rw [if_pos (h x y hx (by simpa using he))]
          simp [hc]
    · exact hc

theorem middle_cell {g : Geo} (hx : 0 < g.sx) (hy : 0 < g.sy) {x y : Nat × Nat} (h : InCell g y (Middle g x)) : y = x := by
  obtain ⟨⟨-, h1, h2⟩, -, h3, h4⟩ := h
  unfold Middle at h1 h2 h3 h4
  dsimp only at h1 h2 h3 h4
  have a1 : (y.1 : ℝ) < x.1 + 1 := by
    by_contra hc
    push Not at hc
    nlinarith
  have a2 : (x.1 : ℝ) < y.1 + 1 := by
    by_contra hc
    push Not at hc
    nlinarith
  have a3 : (y.2 : ℝ) < x.2 + 1 := by
    by_contra hc
    push Not at hc
    nlinarith
  have a4 : (x.2 : ℝ) < y.2 + 1 := by
    by_contra hc
    push Not at hc
    nlinarith
  have b1 : y.1 < x.1 + 1 := by exact_mod_cast a1
  have b2 : x.1 < y.1 + 1 := by exact_mod_cast a2
  have b3 : y.2 < x.2 + 1 := by exact_mod_cast a3
  have b4 : x.2 < y.2 + 1 := by exact_mod_cast a4
  exact Prod.ext (by omega) (by omega)

/-- C112: a grid matches with itself, if in each cell with a patch there is one that is not negative and has a deviation -/
theorem C112_self {g : Geo} (hx : 0 < g.sx) (hy : 0 < g.sy) {this : Nat × Nat → List Patch} {s : Nat} (hs : 0 < s) {sigma : ℝ} (hsig : 0 < sigma)
    (hp : ∀ x, this x ≠ [] → ∃ p ∈ this x, p.kind ≠ .negative ∧ p.stdev ≠ 0) (l : List (Nat × Nat)) :
    gridMatch g g this this (some l) id (Patch.make 0 0) s sigma = .ok 1 := by
  have hm : ∀ x y, conv g g id x = some y → this x ≠ [] → cellMatches (Patch.make 0 0) sigma (this y) (this x) = true := by
    intro x y hc hne
    rw [middle_cell hx hy ((conv_iff hx hy id x y).1 hc)]
    obtain ⟨p, h1, h2, h3⟩ := hp x hne
    refine cellMatches_true h1 (get_isSome h1 ?_ h2)
    have hd : distance p (measured (Patch.make 0 0) p) = 0 := by
      unfold distance measured horizontal
      by_cases hk : p.kind = .horizontal <;> simp [hk, Patch.make]
    rw [hd]
    have : 0 < p.stdev ^ 2 := by positivity
    exact mul_pos (Real.sqrt_pos.2 (by positivity)) hsig
  have h := loop_same (offset := Patch.make 0 0) (s := s) hm l 0 (0, 0) rfl
  unfold gridMatch
  dsimp only
  rw [if_neg (by omega), h]
  congr 1
  split
  · rfl
  · rename_i hne
    rw [div_self (by exact_mod_cast hne)]

theorem middle_unit : InCell (unitGrid 1 1) (0, 0) (Middle (unitGrid 1 1) (0, 0)) := by
  unfold InCell Middle unitGrid
  norm_num

/-- one cell -/
theorem match_one {this other : Nat × Nat → List Patch} {offset : Patch} {sigma : ℝ} (ho : other (0, 0) ≠ []) (h : cellMatches offset sigma (this (0, 0)) (other (0, 0)) = true) :
    gridMatch (unitGrid 1 1) (unitGrid 1 1) this other (some [(0, 0)]) id offset 1 sigma = .ok 1 := by
  have hc : conv (unitGrid 1 1) (unitGrid 1 1) id (0, 0) = some (0, 0) := (conv_iff (by norm_num [unitGrid]) (by norm_num [unitGrid]) _ _ _).2 middle_unit
  unfold gridMatch
  dsimp only
  rw [if_neg (by omega), matchLoop, matchLoop, hc]
  simp [ho, h]

/-- Violation: the ratio is documented as one of patches. If one of the two patches of a cell fits, then the result is 1. -/
theorem C112_cells : gridMatch (unitGrid 1 1) (unitGrid 1 1) (fun _ => [Patch.make 0 1]) (fun _ => [Patch.make 0 1, Patch.make 100 1]) (some [(0, 0)]) id (Patch.make 0 0) 1 3 = .ok 1 ∧
    Fits (Raised (Patch.make 0 0) (Patch.make 0 1)) 3 true (Patch.make 0 1) ∧ ¬ Fits (Raised (Patch.make 0 0) (Patch.make 100 1)) 3 true (Patch.make 0 1) := by
  have e : ∀ z, Fits (Raised (Patch.make 0 0) (Patch.make z 1)) 3 true (Patch.make 0 1) ↔ |0 - z| < √(1 ^ 2 + 1 ^ 2) * 3 := by
    intro z
    rw [fits_idx (q' := Patch.make z 1), fits_make] <;> simp [Raised, Patch.make]
  have h2 : √((1 : ℝ) ^ 2 + 1 ^ 2) ≤ 2 := Real.sqrt_le_iff.2 ⟨by norm_num, by norm_num⟩
  have h3 : 0 < √((1 : ℝ) ^ 2 + 1 ^ 2) := Real.sqrt_pos.2 (by norm_num)
  have f0 : Fits (Raised (Patch.make 0 0) (Patch.make 0 1)) 3 true (Patch.make 0 1) := by
    rw [e, sub_zero, abs_zero]; positivity
  refine ⟨match_one (by simp) ?_, f0, ?_⟩
  · rw [cell_matches]
    · exact ⟨_, List.mem_cons_self, _, List.mem_cons_self, f0⟩
    · intro p hp; simp at hp; rcases hp with rfl | rfl <;> exact proper_make _ _
    · intro p hp; simp at hp; subst hp; exact proper_make _ _
    · intro p hp; simp at hp; rcases hp with rfl | rfl <;> exact fun _ _ => Or.inl rfl
  · rw [e, show |(0 : ℝ) - 100| = 100 by norm_num]
    linarith

example : gridMatch (unitGrid 1 1) (unitGrid 1 1) (fun _ => [Patch.make 0 1]) (fun _ => [Patch.make 0 1]) (some [(0, 0)]) (fun p => (p.1, p.2.1, p.2.2 + 100)) (Patch.make 0 0) 1 3 = .ok 1 := by
  have h := C112_shift (unitGrid 1 1) (unitGrid 1 1) (fun _ => [Patch.make 0 1]) (fun _ => [Patch.make 0 1]) (some [(0, 0)]) id (Patch.make 0 0) 1 3 100
  refine h.trans (C112_self (by norm_num [unitGrid]) (by norm_num [unitGrid]) (by decide) (by norm_num) ?_ _)
  intro x _
  exact ⟨_, List.mem_cons_self, by simp [Patch.make], by simp [Patch.make]⟩

/-- two cells, one of which fits: the ratio is 1/2 -/
example : gridMatch (unitGrid 2 1) (unitGrid 2 1) (fun c => [Patch.make (100 * c.1) 1]) (fun _ => [Patch.make 0 1]) (some [(0, 0), (1, 0)]) id (Patch.make 0 0) 1 3 = .ok (1 / 2) := by
  have p1 : (0 : ℝ) < (unitGrid 2 1).sx := by norm_num [unitGrid]
  have p2 : (0 : ℝ) < (unitGrid 2 1).sy := by norm_num [unitGrid]
  have c0 : conv (unitGrid 2 1) (unitGrid 2 1) id (0, 0) = some (0, 0) := by
    rw [conv_iff p1 p2]
    unfold InCell Middle unitGrid
    norm_num
  have c1 : conv (unitGrid 2 1) (unitGrid 2 1) id (1, 0) = some (1, 0) := by
    rw [conv_iff p1 p2]
    unfold InCell Middle unitGrid
    norm_num
  have h2 : √((1 : ℝ) ^ 2 + 1 ^ 2) ≤ 2 := Real.sqrt_le_iff.2 ⟨by norm_num, by norm_num⟩
  have h3 : 0 < √((1 : ℝ) ^ 2 + 1 ^ 2) := Real.sqrt_pos.2 (by norm_num)
  have e : ∀ z, cellMatches (Patch.make 0 0) 3 [Patch.make z 1] [Patch.make 0 1] = true ↔ |z - 0| < √(1 ^ 2 + 1 ^ 2) * 3 := by
    intro z
    rw [cell_matches (by simp [proper_make]) (by simp [proper_make]) (by simp [Patch.make])]
    simp only [CellFits, List.mem_singleton, exists_eq_left]
    rw [fits_idx (q' := Patch.make 0 1), fits_make] <;> simp [Raised, Patch.make]
  have m0 : cellMatches (Patch.make 0 0) 3 [Patch.make (100 * ((0 : Nat) : ℝ)) 1] [Patch.make 0 1] = true := by
    rw [e]; simpa using h3
  have m1 : ¬ cellMatches (Patch.make 0 0) 3 [Patch.make (100 * ((1 : Nat) : ℝ)) 1] [Patch.make 0 1] = true := by
    rw [e]; simp only [Nat.cast_one, mul_one, sub_zero]; rw [abs_of_pos (by norm_num)]; linarith
  unfold gridMatch
  dsimp only
  rw [if_neg (by omega), matchLoop, matchLoop, matchLoop, c0, c1]
  dsimp only
  rw [if_pos m0, if_neg m1]
  norm_num

/-! ### C113 -/

/-- q is the first of the patches of the list with the least distance d to p -/
def Nearest (p : Patch) (l : List Patch) (q : Patch) (d : ℝ) : Prop :=
  ∃ l1 l2, l = l1 ++ q :: l2 ∧ IsGap p q d ∧ (∀ q' ∈ l1, ∀ e, IsGap p q' e → d < e) ∧ ∀ q' ∈ l2, ∀ e, IsGap p q' e → d ≤ e

theorem nearestFrom_append (q : Patch) (l l' : List Patch) (i : Nat) (b : Option (Nat × ℝ)) : nearestFrom q i b (l ++ l') = nearestFrom q (i + l.length) (nearestFrom q i b l) l' := by
  induction l generalizing i b with
  | nil => rfl
  | cons x l ih =>
    rw [List.cons_append, nearestFrom, nearestFrom, ih, List.length_cons]
    congr 1
    omega

theorem nearest_none (p : Patch) : nearest p [] = none := rfl

theorem nearest_some (p : Patch) (l : List Patch) (hl : l ≠ []) :
    ∃ l1 q l2, l = l1 ++ q :: l2 ∧ nearest p l = some (l1.length, distance p q) ∧ (∀ q' ∈ l1, distance p q < distance p q') ∧ ∀ q' ∈ l2, distance p q ≤ distance p q' := by
  induction l using List.reverseRecOn with
  | nil => exact absurd rfl hl
  | append_singleton l x ih =>
    unfold nearest
    rw [nearestFrom_append, Nat.zero_add, nearestFrom, nearestFrom]
    by_cases he : l = []
    · subst he
      refine ⟨[], x, [], rfl, ?_, by simp, by simp⟩
      rw [nearestFrom, if_pos (by simp)]
    · obtain ⟨l1, q, l2, h1, h2, h3, h4⟩ := ih he
      unfold nearest at h2
      rw [h2]
      by_cases hd : distance p x < distance p q
      · refine ⟨l, x, [], rfl, ?_, ?_, by simp⟩
        · rw [if_pos (by simpa using hd)]
        · intro q' hq'
          rw [h1] at hq'
          rcases List.mem_append.1 hq' with hq' | hq'
          · exact hd.trans (h3 q' hq')
          · rcases List.mem_cons.1 hq' with rfl | hq'
            · exact hd
            · exact lt_of_lt_of_le hd (h4 q' hq')
      · refine ⟨l1, q, l2 ++ [x], by rw [h1]; simp, ?_, h3, ?_⟩
        · rw [if_neg (by simpa using hd)]
        · intro q' hq'
          rcases List.mem_append.1 hq' with hq' | hq'
          · exact h4 q' hq'
          · simp at hq'; subst hq'; exact not_lt.1 hd

theorem nearest_unique {p : Patch} {l : List Patch} {q q' : Patch} {d d' : ℝ} (hg : ∀ q ∈ l, ∃ e, IsGap p q e) (h : Nearest p l q d) (h' : Nearest p l q' d') : q = q' ∧ d = d' := by
  obtain ⟨l1, l2, e1, g1, a1, b1⟩ := h
  obtain ⟨m1, m2, e2, g2, a2, b2⟩ := h'
  have key : ∀ {l1 l2 m1 m2 : List Patch} {q q' : Patch} {d d' : ℝ}, l1 ++ q :: l2 = m1 ++ q' :: m2 → l1.length < m1.length → IsGap p q d → IsGap p q' d' →
      (∀ x ∈ l2, ∀ e, IsGap p x e → d ≤ e) → (∀ x ∈ m1, ∀ e, IsGap p x e → d' < e) → False := by
    intro l1 l2 m1 m2 q q' d d' he hlt gq gq' b a
    obtain ⟨t, ht⟩ : ∃ t, m1 = l1 ++ q :: t := by
      rcases List.append_eq_append_iff.1 he with ⟨t, h1, h2⟩ | ⟨t, h1, h2⟩
      · cases t with
        | nil => simp at h1; subst h1; omega
        | cons y t =>
          simp at h2
          exact ⟨t, by rw [h1, h2.1]⟩
      · subst h1; simp at hlt
    have hq := a q (by rw [ht]; simp) d gq
    have hq' : q' ∈ l2 := by
      rw [ht] at he
      simp at he
      rw [he]; simp
    have := b q' hq' d' gq'
    linarith
  rcases lt_trichotomy l1.length m1.length with h | h | h
  · exact (key (e1.symm.trans e2) h g1 g2 b1 a2).elim
  · have := List.append_inj (e1.symm.trans e2) h
    simp at this
    obtain ⟨-, rfl, -⟩ := this
    exact ⟨rfl, gap_unique g1 g2⟩
  · exact (key (e2.symm.trans e1) h g2 g1 b2 a1).elim

theorem nearest_holds {p : Patch} {l : List Patch} (hl : l ≠ []) (wp : Proper p) (wl : ∀ q ∈ l, Proper q ∧ (p.kind = .horizontal ∨ q.kind = .horizontal)) :
    ∃ i q d, nearest p l = some (i, d) ∧ l[i]? = some q ∧ Nearest p l q d := by
  have hg : ∀ q ∈ l, IsGap p q (distance p q) := fun q hq => C110_distance_partial wp (wl q hq).1 (wl q hq).2
  obtain ⟨l1, q, l2, h1, h2, h3, h4⟩ := nearest_some p l hl
  refine ⟨_, q, _, h2, by rw [h1]; simp, l1, l2, h1, hg q (by rw [h1]; simp), ?_, ?_⟩
  · intro q' hq' e he
    rw [← gap_unique (hg q' (by rw [h1]; simp [hq'])) he]
    exact h3 q' hq'
  · intro q' hq' e he
    rw [← gap_unique (hg q' (by rw [h1]; simp [hq'])) he]
    exact h4 q' hq'

theorem sums_eq (t : List (ℝ × ℝ)) (d : ℝ × ℝ) : sums t d = (d.1 + (t.map fun x => x.1 / x.2).sum, d.2 + (t.map fun x => 1 / x.2).sum) := by
  induction t generalizing d with
  | nil => simp [sums]
  | cons x t ih => rw [sums, ih]; simp only [List.map_cons, List.sum_cons]; rw [add_assoc, add_assoc]

/-- the patches of the other grid that are compared, each with the nearest patch of this grid and the distance from it -/
structure Pairing (w h : Nat) (this other : Nat × Nat → List Patch) where
  near : Nat × Nat → Patch → Patch
  gap : Nat × Nat → Patch → ℝ
  spec : ∀ x y, x < w → y < h → this (x, y) ≠ [] → ∀ p ∈ other (x, y), Nearest p (this (x, y)) (near (x, y) p) (gap (x, y) p)

theorem cellTerms_eq {this other : List Patch} {near : Patch → Patch} {gap : Patch → ℝ} (wo : ∀ p ∈ other, Proper p) (wt : ∀ p ∈ this, Proper p) (hh : ∀ p ∈ other, ∀ p' ∈ this, p.kind = .horizontal ∨ p'.kind = .horizontal)
    (hn : this ≠ [] → ∀ p ∈ other, Nearest p this (near p) (gap p)) :
    cellTerms this other = if this = [] then [] else other.map fun p => (gap p, (near p).stdev ^ 2 + p.stdev ^ 2) := by
  unfold cellTerms
  by_cases he : this = []
  · simp [he]
  · rw [if_neg (by simpa using he), if_neg he]
    rw [List.filterMap_congr (g := fun p => some (gap p, (near p).stdev ^ 2 + p.stdev ^ 2)), ← List.filterMap_eq_map, Function.comp_def]
    intro p hp
    obtain ⟨i, q, d, h1, h2, h3⟩ := nearest_holds he (wo p hp) fun q hq => ⟨wt q hq, hh p hp q hq⟩
    obtain ⟨rfl, rfl⟩ := nearest_unique (fun q hq => ⟨_, C110_distance_partial (wo p hp) (wt q hq) (hh p hp q hq)⟩) h3 (hn he p hp)
    simp [h1, h2]

/-- a sum over the pairs of a grid -/
noncomputable def Sum (w h : Nat) (this other : Nat × Nat → List Patch) (f : Nat × Nat → Patch → ℝ) : ℝ :=
  ∑ x ∈ Finset.range w, ∑ y ∈ Finset.range h, if this (x, y) = [] then 0 else ((other (x, y)).map (f (x, y))).sum

theorem sum_flatMap_range {A : Type} (n : Nat) (k : Nat → List A) (f : A → ℝ) : (((List.range n).flatMap k).map f).sum = ∑ i ∈ Finset.range n, ((k i).map f).sum := by
  induction n with
  | zero => simp
  | succ n ih => rw [List.range_succ, List.flatMap_append, List.map_append, List.sum_append, ih, Finset.sum_range_succ]; simp

theorem terms_sum {w h : Nat} {this other : Nat × Nat → List Patch} (P : Pairing w h this other) (wo : ∀ x, ∀ p ∈ other x, Proper p) (wt : ∀ x, ∀ p ∈ this x, Proper p)
    (hh : ∀ x, ∀ p ∈ other x, ∀ p' ∈ this x, p.kind = .horizontal ∨ p'.kind = .horizontal) (f : ℝ × ℝ → ℝ) :
    ((terms w h this other).map f).sum = Sum w h this other fun c p => f (P.gap c p, (P.near c p).stdev ^ 2 + p.stdev ^ 2) := by
  unfold terms Sum
  rw [sum_flatMap_range]
  refine Finset.sum_congr rfl fun x hx => ?_
  rw [sum_flatMap_range]
  refine Finset.sum_congr rfl fun y hy => ?_
  rw [cellTerms_eq (wo _) (wt _) (hh _) (fun he => P.spec x y (Finset.mem_range.1 hx) (Finset.mem_range.1 hy) he)]
  split <;> simp [Function.comp_def]

theorem mem_terms {w h : Nat} {this other : Nat × Nat → List Patch} (P : Pairing w h this other) (wo : ∀ x, ∀ p ∈ other x, Proper p) (wt : ∀ x, ∀ p ∈ this x, Proper p)
    (hh : ∀ x, ∀ p ∈ other x, ∀ p' ∈ this x, p.kind = .horizontal ∨ p'.kind = .horizontal) (t : ℝ × ℝ) :
    t ∈ terms w h this other ↔ ∃ x y p, x < w ∧ y < h ∧ this (x, y) ≠ [] ∧ p ∈ other (x, y) ∧ t = (P.gap (x, y) p, (P.near (x, y) p).stdev ^ 2 + p.stdev ^ 2) := by
  unfold terms
  simp only [List.mem_flatMap, List.mem_range]
  constructor
  · rintro ⟨x, hx, y, hy, ht⟩
    rw [cellTerms_eq (wo _) (wt _) (hh _) (fun he => P.spec x y hx hy he)] at ht
    split at ht
    · simp at ht
    · rename_i hne
      obtain ⟨p, hp, rfl⟩ := List.mem_map.1 ht
      exact ⟨x, y, p, hx, hy, hne, hp, rfl⟩
  · rintro ⟨x, y, p, hx, hy, hne, hp, rfl⟩
    refine ⟨x, hx, y, hy, ?_⟩
    rw [cellTerms_eq (wo _) (wt _) (hh _) (fun he => P.spec x y hx hy he), if_neg hne]
    exact List.mem_map.2 ⟨p, hp, rfl⟩

theorem pairing_exists {w h : Nat} {this other : Nat × Nat → List Patch} (wo : ∀ x, ∀ p ∈ other x, Proper p) (wt : ∀ x, ∀ p ∈ this x, Proper p)
    (hh : ∀ x, ∀ p ∈ other x, ∀ p' ∈ this x, p.kind = .horizontal ∨ p'.kind = .horizontal) : Nonempty (Pairing w h this other) := by
  classical
  have H : ∀ c p, ∃ q d, this c ≠ [] → p ∈ other c → Nearest p (this c) q d := by
    intro c p
    by_cases h1 : this c ≠ [] ∧ p ∈ other c
    · obtain ⟨i, q, d, -, -, h⟩ := nearest_holds h1.1 (wo c p h1.2) fun q hq => ⟨wt c q hq, hh c p h1.2 q hq⟩
      exact ⟨q, d, fun _ _ => h⟩
    · exact ⟨p, 0, fun h2 h3 => absurd ⟨h2, h3⟩ h1⟩
  choose near gap H using H
  exact ⟨near, gap, fun x y _ _ he p hp => H (x, y) p he hp⟩

/-- C113: `matchHeight` returns the mean of the distances of the patches of the other grid from the nearest patches of this grid, weighted with the inverse variances, and the variance of this mean. Missing: the direction of the
difference (C113_sign); two patches that are not horizontal (C110_vertical); grids with nothing in common (C113_nothing). -/
theorem C113_height_partial {w h : Nat} {this other : Nat × Nat → List Patch} (wo : ∀ x, ∀ p ∈ other x, Proper p) (wt : ∀ x, ∀ p ∈ this x, Proper p)
    (hh : ∀ x, ∀ p ∈ other x, ∀ p' ∈ this x, p.kind = .horizontal ∨ p'.kind = .horizontal) (hs : ∀ x, ∀ p ∈ other x, p.stdev ≠ 0) (hc : ∃ x y, x < w ∧ y < h ∧ this (x, y) ≠ [] ∧ other (x, y) ≠ []) :
    Nonempty (Pairing w h this other) ∧ ∀ P : Pairing w h this other, ∃ delta var, matchHeight w h this other = .ok (delta, var) ∧ 0 < var ∧
      delta * Sum w h this other (fun c p => 1 / ((P.near c p).stdev ^ 2 + p.stdev ^ 2)) = Sum w h this other (fun c p => P.gap c p / ((P.near c p).stdev ^ 2 + p.stdev ^ 2)) ∧
      var * Sum w h this other (fun c p => 1 / ((P.near c p).stdev ^ 2 + p.stdev ^ 2)) = 1 := by
  refine ⟨pairing_exists wo wt hh, fun P => ?_⟩
  have hpos : ∀ t ∈ terms w h this other, 0 < t.2 := by
    intro t ht
    obtain ⟨x, y, p, hx, hy, hne, hp, rfl⟩ := (mem_terms P wo wt hh t).1 ht
    have : 0 < p.stdev ^ 2 := by have := hs _ p hp; positivity
    dsimp only
    positivity
  have hne : terms w h this other ≠ [] := by
    obtain ⟨x, y, hx, hy, h1, h2⟩ := hc
    obtain ⟨p, hp⟩ := List.exists_mem_of_ne_nil _ h2
    exact List.ne_nil_of_mem ((mem_terms P wo wt hh _).2 ⟨x, y, p, hx, hy, h1, hp, rfl⟩)
  have hsum : 0 < ((terms w h this other).map fun x => 1 / x.2).sum := by
    apply List.sum_pos
    · intro v hv
      obtain ⟨t, ht, rfl⟩ := List.mem_map.1 hv
      exact one_div_pos.2 (hpos t ht)
    · simpa using hne
  have e1 := terms_sum P wo wt hh fun x => x.1 / x.2
  have e2 := terms_sum P wo wt hh fun x => 1 / x.2
  unfold matchHeight
  dsimp only
  rw [if_neg (by rintro (h' | ⟨t, ht, h'⟩); exacts [hne h', (hpos t ht).ne' h']), sums_eq]
  simp only [zero_add]
  rw [← e1, ← e2]
  refine ⟨_, _, rfl, by positivity, ?_, ?_⟩
  · field_simp
  · field_simp

/-- C113: the mean is between the least and the largest distance; if all distances are the same, then it is this distance -/
theorem C113_between {w h : Nat} {this other : Nat × Nat → List Patch} (wo : ∀ x, ∀ p ∈ other x, Proper p) (wt : ∀ x, ∀ p ∈ this x, Proper p)
    (hh : ∀ x, ∀ p ∈ other x, ∀ p' ∈ this x, p.kind = .horizontal ∨ p'.kind = .horizontal) (hs : ∀ x, ∀ p ∈ other x, p.stdev ≠ 0) (hc : ∃ x y, x < w ∧ y < h ∧ this (x, y) ≠ [] ∧ other (x, y) ≠ [])
    (m M : ℝ) (hm : ∀ x y, x < w → y < h → ∀ p ∈ other (x, y), ∀ q d, Nearest p (this (x, y)) q d → m ≤ d ∧ d ≤ M) :
    ∃ delta var, matchHeight w h this other = .ok (delta, var) ∧ m ≤ delta ∧ delta ≤ M := by
  obtain ⟨⟨P⟩, H⟩ := C113_height_partial wo wt hh hs hc
  obtain ⟨delta, var, h1, h2, h3, h4⟩ := H P
  set S := Sum w h this other (fun c p => 1 / ((P.near c p).stdev ^ 2 + p.stdev ^ 2)) with hS
  have hSp : 0 < S := by
    by_contra hn
    push Not at hn
    nlinarith
  have key : ∀ k : ℝ, k * S = Sum w h this other (fun c p => k * (1 / ((P.near c p).stdev ^ 2 + p.stdev ^ 2))) := by
    intro k
    rw [hS]
    unfold Sum
    rw [Finset.mul_sum]
    refine Finset.sum_congr rfl fun x _ => ?_
    rw [Finset.mul_sum]
    refine Finset.sum_congr rfl fun y _ => ?_
    split
    · simp
    · rw [← List.sum_map_mul_left]
  have mono : ∀ f f' : Nat × Nat → Patch → ℝ, (∀ x y, x < w → y < h → this (x, y) ≠ [] → ∀ p ∈ other (x, y), f (x, y) p ≤ f' (x, y) p) → Sum w h this other f ≤ Sum w h this other f' := by
    intro f f' hf
    unfold Sum
    refine Finset.sum_le_sum fun x hx => Finset.sum_le_sum fun y hy => ?_
    split
    · exact le_refl _
    · rename_i hne
      exact List.sum_le_sum fun p hp => hf x y (Finset.mem_range.1 hx) (Finset.mem_range.1 hy) hne p hp
  have hpos : ∀ x y, ∀ p ∈ other (x, y), 0 < 1 / ((P.near (x, y) p).stdev ^ 2 + p.stdev ^ 2) := by
    intro x y p hp
    have : 0 < p.stdev ^ 2 := by have := hs _ p hp; positivity
    positivity
  refine ⟨delta, var, h1, ?_, ?_⟩
  · refine le_of_mul_le_mul_right ?_ hSp
    rw [h3, key]
    refine mono _ _ fun x y hx hy hne p hp => ?_
    rw [div_eq_mul_one_div (P.gap _ _)]
    exact mul_le_mul_of_nonneg_right (hm x y hx hy p hp _ _ (P.spec x y hx hy hne p hp)).1 (hpos x y p hp).le
  · refine le_of_mul_le_mul_right ?_ hSp
    rw [h3, key]
    refine mono _ _ fun x y hx hy hne p hp => ?_
    rw [div_eq_mul_one_div (P.gap _ _)]
    exact mul_le_mul_of_nonneg_right (hm x y hx hy p hp _ _ (P.spec x y hx hy hne p hp)).2 (hpos x y p hp).le

theorem nearest_one {p q r : Patch} {d : ℝ} (h : Nearest p [q] r d) : IsGap p q d := by
  obtain ⟨l1, l2, h1, h2, -⟩ := h
  cases l1 with
  | nil => simp at h1; rw [h1.1]; exact h2
  | cons a l => simp at h1

/-- grids with one patch in each cell, of which one is the other raised by c -/
theorem raised_height {w h : Nat} (hw : 0 < w) (hh : 0 < h) (z : Nat × Nat → ℝ) (c : ℝ) : ∃ var, matchHeight w h (fun x => [Patch.make (z x) 1]) (fun x => [Patch.make (z x + c) 1]) = .ok (|c|, var) := by
  obtain ⟨delta, var, h1, h2, h3⟩ := C113_between (w := w) (h := h) (this := fun x => [Patch.make (z x) 1]) (other := fun x => [Patch.make (z x + c) 1]) (by simp [proper_make]) (by simp [proper_make]) (by simp [Patch.make])
    (by simp [Patch.make]) ⟨0, 0, hw, hh, by simp, by simp⟩ |c| |c| (by
      intro x y _ _ p hp q d hn
      simp at hp
      subst hp
      have := gap_unique (nearest_one hn) (gap_horizontal _ _ _ _)
      rw [add_sub_cancel_left] at this
      rw [this]
      simp)
  rw [le_antisymm h3 h2] at h1
  exact ⟨var, h1⟩

/-- Violation: the direction of the difference is lost. Whether the other grid is raised or lowered by c, the result is c. -/
theorem C113_sign {w h : Nat} (hw : 0 < w) (hh : 0 < h) (z : Nat × Nat → ℝ) (c : ℝ) (hc : 0 < c) :
    (∃ var, matchHeight w h (fun x => [Patch.make (z x) 1]) (fun x => [Patch.make (z x + c) 1]) = .ok (c, var)) ∧ ∃ var, matchHeight w h (fun x => [Patch.make (z x) 1]) (fun x => [Patch.make (z x + -c) 1]) = .ok (c, var) := by
  have h1 := raised_height hw hh z c
  have h2 := raised_height hw hh z (-c)
  rw [abs_neg] at h2
  rw [abs_of_pos hc] at h1 h2
  exact ⟨h1, h2⟩

/-- Violation: if no cell has patches in both grids, then the result is zero divided by zero -/
theorem C113_nothing (w h : Nat) (this other : Nat × Nat → List Patch) (hn : ∀ x y, x < w → y < h → this (x, y) = [] ∨ other (x, y) = []) : matchHeight w h this other = .undefined := by
  have he : terms w h this other = [] := by
    unfold terms
    rw [List.flatMap_eq_nil_iff]
    intro x hx
    rw [List.flatMap_eq_nil_iff]
    intro y hy
    unfold cellTerms
    rcases hn x y (List.mem_range.1 hx) (List.mem_range.1 hy) with h1 | h1 <;> simp [h1]
  unfold matchHeight
  dsimp only
  rw [if_pos (Or.inl he)]

/-! ### C114 -/

/-- z is the top of a patch of the list, and no other top is nearer to `last`; it is `last` if there is no patch. The top of a patch is two deviations above its mean. -/
def OnSurface (l : List Patch) (last z : ℝ) : Prop :=
  (l = [] ∧ z = last) ∨ (∃ p ∈ l, z = p.mean + 2 * p.stdev) ∧ ∀ p ∈ l, |z - last| ≤ |p.mean + 2 * p.stdev - last|

theorem closest_append (last : ℝ) (l l' : List Patch) (b : Option (ℝ × ℝ)) : closest last (l ++ l') b = closest last l' (closest last l b) := by
  induction l generalizing b with
  | nil => rfl
  | cons x l ih => rw [List.cons_append, closest, closest, ih]

theorem closest_some (last : ℝ) (l : List Patch) (hl : l ≠ []) : ∃ p ∈ l, closest last l none = some (|last - maxZ p|, maxZ p) ∧ ∀ q ∈ l, |last - maxZ p| ≤ |last - maxZ q| := by
  induction l using List.reverseRecOn with
  | nil => exact absurd rfl hl
  | append_singleton l x ih =>
    rw [closest_append, closest, closest]
    by_cases he : l = []
    · subst he
      exact ⟨x, by simp, by rw [closest, if_pos (by simp)], by simp⟩
    · obtain ⟨p, h1, h2, h3⟩ := ih he
      rw [h2]
      by_cases hd : |last - maxZ x| < |last - maxZ p|
      · refine ⟨x, by simp, by rw [if_pos (by simpa using hd)], ?_⟩
        intro q hq
        rcases List.mem_append.1 hq with hq | hq
        · exact hd.le.trans (h3 q hq)
        · simp at hq; rw [hq]
      · refine ⟨p, by simp [h1], by rw [if_neg (by simpa using hd)], ?_⟩
        intro q hq
        rcases List.mem_append.1 hq with hq | hq
        · exact h3 q hq
        · simp at hq; rw [hq]; exact not_lt.1 hd

theorem closest_surface (last : ℝ) (l : List Patch) : OnSurface l last (((closest last l none).map fun b => b.2).getD last) := by
  by_cases hl : l = []
  · subst hl
    exact Or.inl ⟨rfl, rfl⟩
  · obtain ⟨p, h1, h2, h3⟩ := closest_some last l hl
    rw [h2]
    refine Or.inr ⟨⟨p, h1, ?_⟩, fun q hq => ?_⟩
    · simp [maxZ, mul_comm]
    · have := h3 q hq
      unfold maxZ at this ⊢
      rw [abs_sub_comm last, abs_sub_comm last] at this
      simpa [mul_comm] using this

/-- C114: the points of `projectPointsOnSurface`: one for each cell, on the top of the patch that is nearest to the height of the point before, or at this height if the cell is empty. Missing: negative patches, on which there is no
surface (C114_negative). -/
theorem C114_points_partial {this : Nat × Nat → List Patch} (zOffset start : ℝ) (cells : List (Nat × Nat)) :
    (project this zOffset start cells).length = cells.length ∧ ∀ (k : Nat) c, cells[k]? = some c →
      ∃ last z, (project this zOffset start cells)[k]? = some (c.1, c.2, z + zOffset) ∧ OnSurface (this c) last z ∧ (k = 0 → last = start) ∧
        ∀ j o, k = j + 1 → (project this zOffset start cells)[j]? = some o → last = o.2.2 - zOffset := by
  induction cells generalizing start with
  | nil => simp [project]
  | cons c l ih =>
    obtain ⟨h1, h2⟩ := ih (((closest start (this c) none).map fun b => b.2).getD start)
    refine ⟨by rw [project, List.length_cons, List.length_cons, h1], ?_⟩
    intro k d hd
    cases k with
    | zero =>
      simp at hd
      subst hd
      refine ⟨start, _, by rw [project]; rfl, closest_surface start (this c), fun _ => rfl, ?_⟩
      intro j o hj; omega
    | succ k =>
      simp at hd
      obtain ⟨last, z, a1, a2, a3, a4⟩ := h2 k d hd
      refine ⟨last, z, by rw [project, List.getElem?_cons_succ]; exact a1, a2, by omega, ?_⟩
      intro j o hj ho
      obtain rfl : j = k := by omega
      cases j with
      | zero =>
        rw [project] at ho
        simp at ho
        rw [a3 rfl, ← ho]
        simp
      | succ j =>
        rw [project, List.getElem?_cons_succ] at ho
        exact a4 j o rfl ho

/-- Violation: a negative patch says that there is no surface. A point in a cell with only a negative patch is put on it. -/
theorem C114_negative (m s start : ℝ) : project (fun _ => [Patch.make m s 1 .negative]) 0 start [(0, 0)] = [(0, 0, m + 2 * s)] := by
  simp [project, closest, maxZ, Patch.make, mul_comm]

/-- the height of a point of a spline -/
theorem projectSpline_nil (g : Geo) (this : Nat × Nat → List Patch) (zOffset start : ℝ) : projectSpline g this zOffset start [] = [] := rfl

/-- C114: the points of a spline: those outside of the grid are left as they are, the others are put on the top of the patch nearest to the height of the last point that was in the grid, or at this height. -/
theorem C114_spline_partial {g : Geo} (hx : 0 < g.sx) (hy : 0 < g.sy) {this : Nat × Nat → List Patch} (zOffset start : ℝ) (pts : List P3) :
    (projectSpline g this zOffset start pts).length = pts.length ∧ ∀ (k : Nat) p, pts[k]? = some p →
      ((∀ c, ¬ InCell g c p) → (projectSpline g this zOffset start pts)[k]? = some p) ∧
      ∀ c, InCell g c p → ∃ last z, (projectSpline g this zOffset start pts)[k]? = some (p.1, p.2.1, z + zOffset) ∧ OnSurface (this c) last z ∧
        ((∀ j q, j < k → pts[j]? = some q → ∀ c, ¬ InCell g c q) → last = start) ∧
        ∀ j q c o, j < k → pts[j]? = some q → InCell g c q → (∀ i q', j < i → i < k → pts[i]? = some q' → ∀ c, ¬ InCell g c q') → (projectSpline g this zOffset start pts)[j]? = some o → last = o.2.2 - zOffset := by
  induction pts generalizing start with
  | nil => simp [projectSpline]
  | cons a l ih =>
    cases hc : toGrid g a.1 a.2.1 with
    | none =>
      have hout : ∀ c, ¬ InCell g c a := fun c h => by rw [(toGrid_iff hx hy a c).2 h] at hc; exact absurd hc (by simp)
      have e : projectSpline g this zOffset start (a :: l) = a :: projectSpline g this zOffset start l := by rw [projectSpline, hc]
      obtain ⟨h1, h2⟩ := ih start
      rw [e]
      refine ⟨by rw [List.length_cons, List.length_cons, h1], ?_⟩
      intro k p hp
      cases k with
      | zero =>
        simp at hp
        subst hp
        exact ⟨fun _ => rfl, fun c h => absurd h (hout c)⟩
      | succ k =>
        simp at hp
        obtain ⟨b1, b2⟩ := h2 k p hp
        refine ⟨fun h => by rw [List.getElem?_cons_succ]; exact b1 h, fun c h => ?_⟩
        obtain ⟨last, z, a1, a2, a3, a4⟩ := b2 c h
        refine ⟨last, z, by rw [List.getElem?_cons_succ]; exact a1, a2, fun H => a3 fun j q hj hq => H (j + 1) q (by omega) (by simpa using hq), ?_⟩
        intro j q c' o hj hq hin hbt ho
        cases j with
        | zero => simp at hq; subst hq; exact absurd hin (hout c')
        | succ j =>
          exact a4 j q c' o (by omega) (by simpa using hq) hin (fun i q' h1 h2 h3 => hbt (i + 1) q' (by omega) (by omega) (by simpa using h3)) (by simpa using ho)
    | some d =>
      have hin0 := (toGrid_iff hx hy a d).1 hc
      obtain ⟨zz, hz⟩ : ∃ zz, zz = ((closest start (this d) none).map fun b => b.2).getD start := ⟨_, rfl⟩
      have e : projectSpline g this zOffset start (a :: l) = (a.1, a.2.1, zz + zOffset) :: projectSpline g this zOffset zz l := by rw [projectSpline, hc, hz]
      obtain ⟨h1, h2⟩ := ih zz
      rw [e]
      refine ⟨by rw [List.length_cons, List.length_cons, h1], ?_⟩
      intro k p hp
      cases k with
      | zero =>
        simp at hp
        subst hp
        refine ⟨fun h => absurd hin0 (h d), fun c h => ?_⟩
        have hcd : c = d := by
          have := (toGrid_iff hx hy a c).2 h
          rw [hc] at this
          exact (Option.some.inj this).symm
        subst hcd
        refine ⟨start, zz, rfl, by rw [hz]; exact closest_surface start (this c), fun _ => rfl, ?_⟩
        intro j q c' o hj; omega
      | succ k =>
        simp at hp
        obtain ⟨b1, b2⟩ := h2 k p hp
        refine ⟨fun h => by rw [List.getElem?_cons_succ]; exact b1 h, fun c h => ?_⟩
        obtain ⟨last, z, a1, a2, a3, a4⟩ := b2 c h
        refine ⟨last, z, by rw [List.getElem?_cons_succ]; exact a1, a2, fun H => absurd hin0 (H 0 a (by omega) rfl d), ?_⟩
        intro j q c' o hj hq hin hbt ho
        cases j with
        | zero =>
          simp at ho
          rw [← ho, a3 fun i q' h1 h2 => hbt (i + 1) q' (by omega) (by omega) (by simpa using h2)]
          simp
        | succ j =>
          exact a4 j q c' o (by omega) (by simpa using hq) hin (fun i q' h1 h2 h3 => hbt (i + 1) q' (by omega) (by omega) (by simpa using h3)) (by simpa using ho)

/-- Violation: the spline is to be sampled four times finer than the cells; the step is a quarter of the number of cells instead of a quarter of their size. -/
theorem C114_step : splineStep ⟨1 / 10, 1 / 10, 0, 0, 1000, 1000⟩ = 250 ∧ ∀ g : Geo, splineStep g = g.sx / 4 ↔ (g.w : ℝ) = g.sx := by
  constructor
  · norm_num [splineStep]
  · intro g
    unfold splineStep
    constructor <;> intro h <;> linarith

/-- two floors: the path stays on the upper one -/
example : project (fun c => if c = (1, 0) then [] else [Patch.make 0 0, Patch.make 10 0]) 1 9 [(0, 0), (1, 0), (2, 0)] = [(0, 0, 11), (1, 0, 11), (2, 0, 11)] := by
  simp [project, closest, maxZ, Patch.make]
  norm_num

end Envire.Query

#print axioms Envire.Query.C110_distance_partial
#print axioms Envire.Query.C110_symm
#print axioms Envire.Query.C110_vertical
#print axioms Envire.Query.C111_get_partial
#print axioms Envire.Query.C111_height
#print axioms Envire.Query.C111_vertical
#print axioms Envire.Query.C111_exact
#print axioms Envire.Query.C112_match_partial
#print axioms Envire.Query.C112_errors
#print axioms Envire.Query.C112_shift
#print axioms Envire.Query.C112_self
#print axioms Envire.Query.C112_cells
#print axioms Envire.Query.C113_height_partial
#print axioms Envire.Query.C113_between
#print axioms Envire.Query.C113_sign
#print axioms Envire.Query.C113_nothing
#print axioms Envire.Query.C114_points_partial
#print axioms Envire.Query.C114_negative
#print axioms Envire.Query.C114_spline_partial
#print axioms Envire.Query.C114_step
