import Verif.Tools.VoxelModel
import Mathlib.Tactic.Linarith
import Mathlib.Tactic.Ring
import Mathlib.Tactic.Positivity
import Mathlib.Tactic.FieldSimp
import Mathlib.Order.Monotone.Basic

/-!
The order in which a ray crosses the borders of cells.
-/

namespace Envire.Voxel

open Envire.Rect

/-! ## One axis -/

/-- the time at which a ray from o with the velocity v leaves the i-th interval of length s; the first one begins in lo -/
noncomputable def T (lo s o v : ℝ) (i : Nat) : ℝ := ((if 0 < v then lo + s - o else o - lo) + i * s) / |v|

/-- direction of the steps -/
noncomputable def sgn (v : ℝ) : Int := if v > 0 then 1 else -1

theorem T_nonneg {lo s o v : ℝ} (hs : 0 < s) (h1 : lo ≤ o) (h2 : o < lo + s) (i : Nat) : 0 ≤ T lo s o v i := by
  unfold T
  have : (0 : ℝ) ≤ i * s := by positivity
  apply div_nonneg _ (abs_nonneg _)
  split <;> linarith

theorem T_succ {lo s o v : ℝ} (hs : 0 < s) (hv : v ≠ 0) (i : Nat) : T lo s o v i < T lo s o v (i + 1) := by
  unfold T
  have : 0 < |v| := abs_pos.2 hv
  apply div_lt_div_of_pos_right _ this
  push_cast
  linarith

theorem T_mono {lo s o v : ℝ} (hs : 0 < s) (hv : v ≠ 0) {i j : Nat} (h : i ≤ j) : T lo s o v i ≤ T lo s o v j :=
  (strictMono_nat_of_lt_succ fun i => T_succ hs hv i).monotone h

theorem le_T_pos {lo s o v t : ℝ} (hv : 0 < v) {i : Nat} : t ≤ T lo s o v i ↔ o + t * v ≤ lo + (i + 1) * s := by
  unfold T
  rw [if_pos hv, abs_of_pos hv, le_div_iff₀ hv]
  constructor <;> intro h <;> linarith

theorem lt_T_pos {lo s o v t : ℝ} (hv : 0 < v) {i : Nat} : t < T lo s o v i ↔ o + t * v < lo + (i + 1) * s := by
  unfold T
  rw [if_pos hv, abs_of_pos hv, lt_div_iff₀ hv]
  constructor <;> intro h <;> linarith

theorem le_T_neg {lo s o v t : ℝ} (hv : v < 0) {i : Nat} : t ≤ T lo s o v i ↔ lo - i * s ≤ o + t * v := by
  unfold T
  rw [if_neg (not_lt.2 hv.le), abs_of_neg hv, le_div_iff₀ (neg_pos.2 hv)]
  constructor <;> intro h <;> linarith

theorem lt_T_neg {lo s o v t : ℝ} (hv : v < 0) {i : Nat} : t < T lo s o v i ↔ lo - i * s < o + t * v := by
  unfold T
  rw [if_neg (not_lt.2 hv.le), abs_of_neg hv, lt_div_iff₀ (neg_pos.2 hv)]
  constructor <;> intro h <;> linarith

/-- entering time of the i-th interval -/
noncomputable def low (X : Nat → ℝ) : Nat → ℝ
  | 0 => 0
  | i + 1 => X i

theorem axis_closed {lo s o v t : ℝ} (hs : 0 < s) (h1 : lo ≤ o) (h2 : o < lo + s) (hv : v ≠ 0) (ht : 0 ≤ t) {i : Nat} (l : low (T lo s o v) i ≤ t) (u : t ≤ T lo s o v i) :
    lo + ((i : Int) * sgn v : Int) * s ≤ o + t * v ∧ o + t * v ≤ lo + (((i : Int) * sgn v : Int) + 1) * s := by
  rcases lt_or_gt_of_ne hv with hv | hv
  · rw [sgn, if_neg (not_lt.2 hv.le)]
    push_cast
    have := (le_T_neg hv).1 u
    refine ⟨by linarith, ?_⟩
    cases i with
    | zero =>
      have : t * v ≤ 0 := mul_nonpos_of_nonneg_of_nonpos ht hv.le
      push_cast; linarith
    | succ i =>
      have := mt (lt_T_neg (t := t) (lo := lo) (s := s) (o := o) hv).2 (not_lt.2 l)
      push_cast at this ⊢; linarith
  · rw [sgn, if_pos hv]
    push_cast
    have := (le_T_pos hv).1 u
    refine ⟨?_, by linarith⟩
    cases i with
    | zero =>
      have : 0 ≤ t * v := mul_nonneg ht hv.le
      push_cast; linarith
    | succ i =>
      have := mt (lt_T_pos (t := t) (lo := lo) (s := s) (o := o) hv).2 (not_lt.2 l)
      push_cast at this ⊢; linarith

theorem axis_open {lo s o v t : ℝ} (hs : 0 < s) (h1 : lo ≤ o) (h2 : o < lo + s) (hv : v ≠ 0) (ht : 0 ≤ t) {k : Int} (l : lo + k * s < o + t * v)
    (u : o + t * v < lo + (k + 1) * s) : ∃ i : Nat, k = (i : Int) * sgn v ∧ low (T lo s o v) i ≤ t ∧ t < T lo s o v i := by
  rcases lt_or_gt_of_ne hv with hv | hv
  · have hk : k ≤ 0 := by
      have : t * v ≤ 0 := mul_nonpos_of_nonneg_of_nonpos ht hv.le
      have h3 : (k : ℝ) < 1 := lt_of_mul_lt_mul_right (by linarith : (k : ℝ) * s < 1 * s) hs.le
      have : k < 1 := by exact_mod_cast h3
      omega
    have e : (((-k).toNat : Nat) : Int) = -k := Int.toNat_of_nonneg (by omega)
    have e' : (((-k).toNat : Nat) : ℝ) = -k := by exact_mod_cast congrArg (Int.cast (R := ℝ)) e
    refine ⟨(-k).toNat, ?_, ?_, ?_⟩
    · rw [e, sgn, if_neg (not_lt.2 hv.le)]; ring
    · cases hn : (-k).toNat with
      | zero => exact ht
      | succ i =>
        rw [hn] at e'
        refine not_lt.1 fun h => ?_
        have h := (lt_T_neg hv).1 h
        push_cast at e'
        rw [show (i : ℝ) = -k - 1 by linarith] at h
        linarith
    · rw [lt_T_neg hv, e']; linarith
  · have hk : 0 ≤ k := by
      have : 0 ≤ t * v := mul_nonneg ht hv.le
      have h3 : (-1 : ℝ) < k := lt_of_mul_lt_mul_right (by linarith : (-1 : ℝ) * s < k * s) hs.le
      have : -1 < k := by exact_mod_cast h3
      omega
    have e : ((k.toNat : Nat) : Int) = k := Int.toNat_of_nonneg hk
    have e' : ((k.toNat : Nat) : ℝ) = k := by exact_mod_cast congrArg (Int.cast (R := ℝ)) e
    refine ⟨k.toNat, ?_, ?_, ?_⟩
    · rw [e, sgn, if_pos hv]; ring
    · cases hn : k.toNat with
      | zero => exact ht
      | succ i =>
        rw [hn] at e'
        refine not_lt.1 fun h => ?_
        have h := (lt_T_pos hv).1 h
        push_cast at e'
        rw [show (i : ℝ) = k - 1 by linarith] at h
        linarith
    · rw [lt_T_pos hv, e']; linarith

/-! ## Merging the crossings of two axes -/

/-- numbers of steps in x and y after n steps -/
noncomputable def count (X Y : Nat → ℝ) : Nat → Nat × Nat
  | 0 => (0, 0)
  | n + 1 =>
    open Classical in
    if X (count X Y n).1 < Y (count X Y n).2 then ((count X Y n).1 + 1, (count X Y n).2) else ((count X Y n).1, (count X Y n).2 + 1)

/-- time of the n-th step -/
noncomputable def enter (X Y : Nat → ℝ) (n : Nat) : ℝ := max (low X (count X Y n).1) (low Y (count X Y n).2)

theorem count_sum (X Y : Nat → ℝ) (n : Nat) : (count X Y n).1 + (count X Y n).2 = n := by
  induction n with
  | zero => rfl
  | succ n ih =>
    unfold count
    split
    · dsimp only; omega
    · dsimp only; omega

theorem low_le {X : Nat → ℝ} (h0 : ∀ i, 0 ≤ X i) (hm : ∀ i, X i < X (i + 1)) (i : Nat) : low X i ≤ X i := by
  cases i with
  | zero => exact h0 0
  | succ i => exact (hm i).le

theorem low_mono {X : Nat → ℝ} (h0 : ∀ i, 0 ≤ X i) (hm : ∀ i, X i < X (i + 1)) : Monotone (low X) :=
  monotone_nat_of_le_succ fun i => by
    cases i with
    | zero => exact h0 0
    | succ i => exact (hm i).le

/-- the order of the crossings around the n-th cell -/
theorem count_order {X Y : Nat → ℝ} (hX0 : ∀ i, 0 ≤ X i) (hX : ∀ i, X i < X (i + 1)) (hY0 : ∀ i, 0 ≤ Y i) (hY : ∀ i, Y i < Y (i + 1)) (n : Nat) :
    low X (count X Y n).1 ≤ Y (count X Y n).2 ∧ low Y (count X Y n).2 ≤ X (count X Y n).1 := by
  induction n with
  | zero => exact ⟨hY0 0, hX0 0⟩
  | succ n ih =>
    obtain ⟨h1, h2⟩ := ih
    unfold count
    by_cases h : X (count X Y n).1 < Y (count X Y n).2
    · rw [if_pos h]
      exact ⟨h.le, h2.trans (hX _).le⟩
    · rw [if_neg h]
      exact ⟨h1.trans (hY _).le, not_lt.1 h⟩

theorem enter_succ {X Y : Nat → ℝ} (hX0 : ∀ i, 0 ≤ X i) (hX : ∀ i, X i < X (i + 1)) (hY0 : ∀ i, 0 ≤ Y i) (hY : ∀ i, Y i < Y (i + 1)) (n : Nat) :
    enter X Y (n + 1) = min (X (count X Y n).1) (Y (count X Y n).2) := by
  obtain ⟨h1, h2⟩ := count_order hX0 hX hY0 hY n
  unfold enter
  rw [count]
  by_cases h : X (count X Y n).1 < Y (count X Y n).2
  · rw [if_pos h, min_eq_left h.le]
    exact max_eq_left h2
  · rw [if_neg h, min_eq_right (not_lt.1 h)]
    exact max_eq_right h1

theorem enter_zero (X Y : Nat → ℝ) : enter X Y 0 = 0 := max_self _

theorem enter_mono {X Y : Nat → ℝ} (hX0 : ∀ i, 0 ≤ X i) (hX : ∀ i, X i < X (i + 1)) (hY0 : ∀ i, 0 ≤ Y i) (hY : ∀ i, Y i < Y (i + 1)) : Monotone (enter X Y) :=
  monotone_nat_of_le_succ fun n => by
    rw [enter_succ hX0 hX hY0 hY]
    obtain ⟨h1, h2⟩ := count_order hX0 hX hY0 hY n
    exact max_le (le_min (low_le hX0 hX _) h1) (le_min h2 (low_le hY0 hY _))

/-- the cell of every time between crossings is found -/
theorem count_found {X Y : Nat → ℝ} (hX0 : ∀ i, 0 ≤ X i) (hX : ∀ i, X i < X (i + 1)) (hY0 : ∀ i, 0 ≤ Y i) (hY : ∀ i, Y i < Y (i + 1)) {t : ℝ} {i j : Nat}
    (x1 : low X i ≤ t) (x2 : t < X i) (y1 : low Y j ≤ t) (y2 : t < Y j) : count X Y (i + j) = (i, j) := by
  obtain ⟨h1, h2⟩ := count_order hX0 hX hY0 hY (i + j)
  have hs := count_sum X Y (i + j)
  generalize count X Y (i + j) = p at *
  obtain ⟨a, b⟩ := p
  dsimp only at *
  rcases lt_trichotomy a i with h | h | h
  · exfalso
    have e1 : X a ≤ t := le_trans (low_mono hX0 hX (show a + 1 ≤ i by omega)) x1
    have e2 : Y j ≤ low Y b := low_mono hY0 hY (show j + 1 ≤ b by omega)
    linarith
  · subst h
    have : b = j := by omega
    rw [this]
  · exfalso
    have e1 : Y b ≤ t := le_trans (low_mono hY0 hY (show b + 1 ≤ j by omega)) y1
    have e2 : X i ≤ low X a := low_mono hX0 hX (show i + 1 ≤ a by omega)
    linarith

/-! ## The walk -/

theorem advance_iter_xy {s : Walk} {N : ℝ} {X Y : Nat → ℝ} (hN : 0 < N) (h1 : s.maxx = some (N * X 0)) (h2 : s.maxy = some (N * Y 0))
    (h3 : ∀ i, plus (some (N * X i)) s.deltax = some (N * X (i + 1))) (h4 : ∀ i, plus (some (N * Y i)) s.deltay = some (N * Y (i + 1))) (n : Nat) :
    Walk.advance^[n] s = { s with
      cx := s.cx + (count X Y n).1 * s.stepx
      cy := s.cy + (count X Y n).2 * s.stepy
      maxx := some (N * X (count X Y n).1)
      maxy := some (N * Y (count X Y n).2) } := by
  induction n with
  | zero => cases s; simp_all [count]
  | succ n ih =>
    rw [Function.iterate_succ_apply', ih]
    unfold Walk.advance
    have e : Less (some (N * X (count X Y n).1)) (some (N * Y (count X Y n).2)) ↔ X (count X Y n).1 < Y (count X Y n).2 := mul_lt_mul_iff_right₀ hN
    by_cases h : X (count X Y n).1 < Y (count X Y n).2
    · rw [if_pos (e.2 h)]
      rw [show count X Y (n + 1) = ((count X Y n).1 + 1, (count X Y n).2) by rw [count, if_pos h]]
      simp only [h3, Walk.mk.injEq, and_true, true_and]
      push_cast; ring
    · rw [if_neg (mt e.1 h)]
      rw [show count X Y (n + 1) = ((count X Y n).1, (count X Y n).2 + 1) by rw [count, if_neg h]]
      simp only [h4, Walk.mk.injEq, and_true, true_and]
      push_cast; ring

/-- with NaN all steps are in y -/
theorem advance_iter_nan {s : Walk} (h : s.maxx = none ∨ s.maxy = none) (n : Nat) :
    (Walk.advance^[n] s).cx = s.cx ∧ (Walk.advance^[n] s).cy = s.cy + n * s.stepy ∧ (Walk.advance^[n] s).stepy = s.stepy ∧
      ((Walk.advance^[n] s).maxx = none ∨ (Walk.advance^[n] s).maxy = none) := by
  induction n with
  | zero => simp [h]
  | succ n ih =>
    rw [Function.iterate_succ_apply']
    generalize Walk.advance^[n] s = w at *
    obtain ⟨h1, h2, h3, h4⟩ := ih
    have : ¬ Less w.maxx w.maxy := by
      rcases h4 with h4 | h4 <;> rw [h4]
      · exact id
      · cases w.maxx <;> exact id
    unfold Walk.advance
    rw [if_neg this]
    refine ⟨h1, ?_, h3, ?_⟩
    · dsimp only; rw [h2, h3]; push_cast; ring
    · rcases h4 with h4 | h4
      · exact .inl h4
      · right; dsimp only; rw [h4]; rfl

/-- the numbers of steps in x and in y -/
theorem advance_iter_any (s : Walk) (n : Nat) : ∃ i j : Nat, i + j = n ∧ (Walk.advance^[n] s).cx = s.cx + i * s.stepx ∧ (Walk.advance^[n] s).cy = s.cy + j * s.stepy ∧
    (Walk.advance^[n] s).stepx = s.stepx ∧ (Walk.advance^[n] s).stepy = s.stepy := by
  induction n with
  | zero => exact ⟨0, 0, rfl, by simp, by simp, rfl, rfl⟩
  | succ n ih =>
    rw [Function.iterate_succ_apply']
    generalize Walk.advance^[n] s = w at *
    obtain ⟨i, j, h0, h1, h2, h3, h4⟩ := ih
    unfold Walk.advance
    by_cases h : Less w.maxx w.maxy
    · rw [if_pos h]
      refine ⟨i + 1, j, by omega, ?_, h2, h3, h4⟩
      dsimp only; rw [h1, h3]; push_cast; ring
    · rw [if_neg h]
      refine ⟨i, j + 1, by omega, h1, ?_, h3, h4⟩
      dsimp only; rw [h2, h4]; push_cast; ring

theorem between {a k : Int} {i j : Nat} {w : Nat} (hk : k = 1 ∨ k = -1) (h1 : 0 ≤ a) (h2 : a < w) (h3 : 0 ≤ a + i * k + j * k) (h4 : a + i * k + j * k < w) :
    0 ≤ a + i * k ∧ a + i * k < w := by
  rcases hk with rfl | rfl <;> omega

/-- the walk does not come back to the grid -/
theorem within_before {g : Geo} {s : Walk} (hx : s.stepx = 1 ∨ s.stepx = -1) (hy : s.stepy = 1 ∨ s.stepy = -1) (hs : s.within g = true) {m n : Nat} (h : m ≤ n)
    (hn : (Walk.advance^[n] s).within g = true) : (Walk.advance^[m] s).within g = true := by
  obtain ⟨i, j, _, h1, h2, h3, h4⟩ := advance_iter_any s m
  obtain ⟨i', j', _, k1, k2, _, _⟩ := advance_iter_any (Walk.advance^[m] s) (n - m)
  rw [← Function.iterate_add_apply, show n - m + m = n by omega, h3, h1] at k1
  rw [← Function.iterate_add_apply, show n - m + m = n by omega, h4, h2] at k2
  simp only [Walk.within, decide_eq_true_eq] at hs hn ⊢
  rw [k1, k2] at hn
  rw [h1, h2]
  have a := between hx hs.1 hs.2.1 hn.1 hn.2.1
  have b := between hy hs.2.2.1 hs.2.2.2 hn.2.2.1 hn.2.2.2
  exact ⟨a.1, a.2, b.1, b.2⟩

/-- after as many steps as there are cells in a row and a column the walk is outside -/
theorem within_few {g : Geo} {s : Walk} (hx : s.stepx = 1 ∨ s.stepx = -1) (hy : s.stepy = 1 ∨ s.stepy = -1) (hs : s.within g = true) {n : Nat}
    (hn : (Walk.advance^[n] s).within g = true) : n + 2 ≤ g.w + g.h := by
  obtain ⟨i, j, hij, h1, h2, _, _⟩ := advance_iter_any s n
  simp only [Walk.within, decide_eq_true_eq] at hs hn
  rw [h1, h2] at hn
  rcases hx with hx | hx <;> rcases hy with hy | hy <;> rw [hx, hy] at hn <;> omega

/-- the loop lists the cells up to the first one that is outside -/
theorem steps_some {g : Geo} : ∀ (fuel k : Nat) (s : Walk), k < fuel → (∀ m < k, (Walk.advance^[m + 1] s).within g = true) → (Walk.advance^[k + 1] s).within g = false →
    steps g fuel s = some ((List.range k).map fun m => ((Walk.advance^[m + 1] s).cx, (Walk.advance^[m + 1] s).cy)) := by
  intro fuel
  induction fuel with
  | zero => intro k s h; omega
  | succ n ih =>
    intro k s hk h1 h2
    unfold steps
    cases k with
    | zero =>
      rw [if_neg (by have : s.advance.within g = false := h2
                     simp [this])]
      rfl
    | succ k =>
      rw [if_pos (show s.advance.within g = true from h1 0 (by omega))]
      rw [ih k s.advance (by omega) (fun m hm => h1 (m + 1) (by omega)) h2]
      simp only [Option.map_some, List.range_succ_eq_map, List.map_cons, List.map_map]
      rfl

theorem steps_ends {g : Geo} {s : Walk} (hx : s.stepx = 1 ∨ s.stepx = -1) (hy : s.stepy = 1 ∨ s.stepy = -1) (hs : s.within g = true) :
    ∃ k < g.w + g.h, (∀ m ≤ k, (Walk.advance^[m] s).within g = true) ∧ ∀ m, k < m → (Walk.advance^[m] s).within g = false := by
  classical
  have hex : ∃ n, (Walk.advance^[n + 1] s).within g = false := by
    refine ⟨g.w + g.h, ?_⟩
    by_contra h
    have := within_few hx hy hs (Bool.not_eq_false _ ▸ h)
    omega
  have hk := Nat.find_spec hex
  have hmin : ∀ m ≤ Nat.find hex, (Walk.advance^[m] s).within g = true := by
    intro m hm
    cases m with
    | zero => exact hs
    | succ m => simpa using Nat.find_min hex (show m < Nat.find hex by omega)
  refine ⟨Nat.find hex, ?_, hmin, ?_⟩
  · have := within_few hx hy hs (hmin _ le_rfl)
    omega
  · intro m hm
    by_contra h
    have := within_before hx hy hs (show Nat.find hex + 1 ≤ m by omega) (by simpa using h)
    rw [hk] at this
    cases this

end Envire.Voxel
