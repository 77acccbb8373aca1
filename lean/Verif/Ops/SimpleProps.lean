import Verif.Ops.SimpleModel
import Verif.Ops.GrowProps
import Verif.Maps.TravProps
import Mathlib.Logic.Relation
import Mathlib.Tactic.Linarith
import Mathlib.Tactic.FieldSimp
import Mathlib.Tactic.NormNum
import Mathlib.Tactic.Ring

/-!
C68 to C71: SimpleTraversability. See SimpleModel.lean.
-/

namespace Envire.Simple

open Envire.Grow (Cell Geo cells offsets mem_cells mem_offsets)
open Envire.Trav (Table Class setClass getClass setClass_length setClass_get setClass_get_ne)

/-! ### rounding -/

theorem rint_spec (q : ℚ) : (rint q : ℚ) - 1 / 2 ≤ q ∧ q ≤ rint q + 1 / 2 := by
  have h1 := Int.floor_le q
  have h2 := Int.lt_floor_add_one q
  unfold rint
  split
  · constructor <;> linarith
  · split
    · push_cast
      constructor <;> linarith
    · split
      · constructor <;> linarith
      · push_cast
        constructor <;> linarith

theorem rint_mono {p q : ℚ} (h : p ≤ q) : rint p ≤ rint q := by
  by_contra hn
  rw [not_le] at hn
  have hp := rint_spec p
  have hq := rint_spec q
  have h1 : (rint q : ℚ) + 1 ≤ rint p := by exact_mod_cast hn
  -- both are ties of the same number
  have e : p = q := by linarith
  subst e
  exact lt_irrefl _ hn

theorem rint_nonneg {q : ℚ} (h : 0 ≤ q) : 0 ≤ rint q := by
  have e : rint 0 = 0 := by decide +kernel
  have := rint_mono h
  rw [e] at this
  exact this

theorem rint_nat (n : Nat) : rint n = n := by
  unfold rint
  rw [Int.floor_natCast]
  push_cast
  rw [sub_self, if_pos (by norm_num)]

/-! ### C68 -/

/-- the step around the cell is known and higher than the ground clearance, which is set -/
def High (c : Config) (step : Option (Option ℚ)) : Prop := ∃ v, step = some (some v) ∧ c.groundClearance ≠ 0 ∧ v > c.groundClearance

theorem classify_high {c : Config} {slope step : Option (Option ℚ)} {old : Nat} (h : High c step) : classify c slope step old = (OBSTACLE, 255) := by
  obtain ⟨v, rfl, h1, h2⟩ := h
  unfold classify
  dsimp only
  rw [if_pos (by simpa using ⟨h1, h2⟩)]

theorem classify_low {c : Config} {slope step : Option (Option ℚ)} {old : Nat} (h : ¬High c step) : classify c slope step old =
    match slope with
    | none => (old, 0)
    | some none => (UNKNOWN, 0)
    | some (some v) =>
      if c.maxSlope ≠ 0 then
        if |v| > c.maxSlope then (OBSTACLE, 255)
        else (((CUSTOM : ℤ) + (c.classCount - rint (|v| / c.maxSlope * c.classCount))).emod 256 |>.toNat, 255)
      else (old, 0) := by
  unfold classify
  cases step with
  | none => rfl
  | some q =>
    cases q with
    | none => rfl
    | some v =>
      dsimp only
      rw [decide_eq_false (fun hh => h ⟨v, rfl, hh⟩)]
      rfl

/-- the number of classes between the steepest slope and this one, rounded -/
theorem klass_range {c : Config} (hm : 0 < c.maxSlope) {v : ℚ} (hv : |v| ≤ c.maxSlope) :
    0 ≤ rint (|v| / c.maxSlope * c.classCount) ∧ rint (|v| / c.maxSlope * c.classCount) ≤ c.classCount := by
  have h0 : 0 ≤ |v| / c.maxSlope := div_nonneg (abs_nonneg v) hm.le
  have h1 : |v| / c.maxSlope ≤ 1 := (div_le_one hm).2 hv
  have hn : (0 : ℚ) ≤ c.classCount := Nat.cast_nonneg _
  refine ⟨rint_nonneg (mul_nonneg h0 hn), ?_⟩
  have h2 : |v| / c.maxSlope * c.classCount ≤ c.classCount := mul_le_of_le_one_left hn h1
  have := rint_mono h2
  rwa [rint_nat] at this

theorem classify_slope {c : Config} (hn : c.classCount ≤ 253) (hm : 0 < c.maxSlope) {step : Option (Option ℚ)} (hs : ¬High c step) {v : ℚ}
    (hv : |v| ≤ c.maxSlope) (old : Nat) : ∃ k : Nat, classify c (some (some v)) step old = (k, 255) ∧
    (k : ℤ) = 2 + (c.classCount - rint (|v| / c.maxSlope * c.classCount)) := by
  rw [classify_low hs]
  dsimp only
  rw [if_pos hm.ne', if_neg (not_lt.2 hv)]
  obtain ⟨h1, h2⟩ := klass_range hm hv
  refine ⟨_, rfl, ?_⟩
  unfold CUSTOM
  change (((((2 : Nat) : ℤ) + ((c.classCount : ℤ) - rint (|v| / c.maxSlope * c.classCount))) % 256).toNat : ℤ) = _
  omega

/-- **C68 (partial)**: with a positive maximum slope, a cell is an obstacle with full probability if its step is higher than the ground
clearance or its slope higher than the maximum; unknown with probability 0 if its slope is not known; otherwise its class is
at least 2 and lies within half a class of the share of the slope. What is missing: the upper bound of the documentation, see
`C68_flat_terrain`, and maps without a slope layer, see `C68_stale`. -/
theorem C68_classify_partial (c : Config) (hn : c.classCount ≤ 253) (hm : 0 < c.maxSlope) (step : Option (Option ℚ)) (old : Nat) :
    (∀ slope, High c step → classify c slope step old = (OBSTACLE, 255)) ∧
    (¬High c step → classify c (some none) step old = (UNKNOWN, 0)) ∧
    (∀ v, ¬High c step → |v| > c.maxSlope → classify c (some (some v)) step old = (OBSTACLE, 255)) ∧
    (∀ v, ¬High c step → |v| ≤ c.maxSlope → ∃ k : Nat, classify c (some (some v)) step old = (k, 255) ∧ 2 ≤ k ∧ k ≤ 2 + c.classCount ∧
      |(k - 2 : ℚ) - (1 - |v| / c.maxSlope) * c.classCount| ≤ 1 / 2) ∧
    (∀ v v', ¬High c step → |v| ≤ |v'| → |v'| ≤ c.maxSlope →
      (classify c (some (some v')) step old).1 ≤ (classify c (some (some v)) step old).1) := by
  refine ⟨fun slope h => classify_high h, fun h => by rw [classify_low h], ?_, ?_, ?_⟩
  · intro v h hv
    rw [classify_low h]
    dsimp only
    rw [if_pos hm.ne', if_pos hv]
  · intro v h hv
    obtain ⟨k, e, hk⟩ := classify_slope hn hm h hv old
    obtain ⟨h1, h2⟩ := klass_range hm hv
    refine ⟨k, e, by omega, by omega, ?_⟩
    have hk' : (k : ℚ) = 2 + (c.classCount - rint (|v| / c.maxSlope * c.classCount)) := by exact_mod_cast hk
    have hr := rint_spec (|v| / c.maxSlope * c.classCount)
    rw [abs_le, hk']
    constructor <;> linarith [hr.1, hr.2, sub_mul 1 (|v| / c.maxSlope) (c.classCount : ℚ)]
  · intro v v' h h1 h2
    obtain ⟨k, e, hk⟩ := classify_slope hn hm h (h1.trans h2) old
    obtain ⟨k', e', hk'⟩ := classify_slope hn hm h h2 old
    rw [e, e']
    have : rint (|v| / c.maxSlope * c.classCount) ≤ rint (|v'| / c.maxSlope * c.classCount) := by
      apply rint_mono
      apply mul_le_mul_of_nonneg_right _ (Nat.cast_nonneg _)
      exact div_le_div_of_nonneg_right h1 hm.le
    dsimp only
    omega

/-- flat terrain gets the class 2 + class_count; the documentation excludes it (SimpleTraversability.hpp l.63-64) -/
theorem C68_flat_terrain (c : Config) (hn : c.classCount ≤ 253) (hm : 0 < c.maxSlope) (old : Nat) :
    classify c (some (some 0)) none old = (2 + c.classCount, 255) := by
  have hs : ¬High c none := by
    rintro ⟨v, h, _⟩
    cases h
  obtain ⟨k, e, hk⟩ := classify_slope hn hm hs (v := 0) (by rw [abs_zero]; exact hm.le) old
  rw [e, Prod.mk.injEq]
  rw [abs_zero, zero_div, zero_mul, show rint 0 = 0 by decide +kernel] at hk
  exact ⟨by omega, rfl⟩

/-- without a slope layer (or maximum slope) a passable cell is not written at all: it keeps the class of an earlier update -/
theorem C68_stale (c : Config) (step : Option (Option ℚ)) (h : ¬High c step) (old : Nat) : classify c none step old = (old, 0) := by
  rw [classify_low h]

example : classify ⟨1 / 2, 10, 0, 1, 0⟩ (some (some (1 / 4))) (some (some 0)) 0 = (7, 255) ∧
    classify ⟨1 / 2, 10, 0, 1, 0⟩ (some (some (1 / 4))) (some (some 2)) 0 = (1, 255) := by decide +kernel

/-! ### C69 -/

theorem driveability_range {n i : Nat} (hn : 1 ≤ n) (hi : i ≤ n) : 1 / (n : ℚ) ≤ driveability n i ∧ driveability n i ≤ 1 := by
  have hn' : (1 : ℚ) ≤ n := by exact_mod_cast hn
  have hn0 : (0 : ℚ) < n := by linarith
  have hi' : (i : ℚ) ≤ n := by exact_mod_cast hi
  have h1 : 0 ≤ 1 - 1 / (n : ℚ) := by
    rw [sub_nonneg, div_le_one hn0]
    exact hn'
  unfold driveability
  constructor
  · have : 0 ≤ (1 - 1 / (n : ℚ)) / n * i := mul_nonneg (div_nonneg h1 hn0.le) (Nat.cast_nonneg _)
    linarith
  · have : (1 - 1 / (n : ℚ)) / n * i ≤ (1 - 1 / (n : ℚ)) / n * n := mul_le_mul_of_nonneg_left hi' (div_nonneg h1 hn0.le)
    rw [div_mul_cancel₀ _ hn0.ne'] at this
    linarith

theorem putClass_ok (t : Table) (k : Nat) {d : ℚ} (h0 : 0 ≤ d) (h1 : d ≤ 1) : putClass (.ok t) k d = .ok (setClass t (k % 256) ⟨d⟩) := by
  unfold putClass Class.make
  rw [if_neg]
  rintro (h | h)
  · linarith
  · rw [ge_iff_le] at h
    norm_num at h
    linarith

theorem registerAll_ok {n : Nat} (hn : 1 ≤ n) (hn2 : n ≤ 253) (t : Table) : ∃ t', registerAll n t = .ok t' ∧ t'.length = max t.length (n + 3) ∧
    t'[1]? = some ⟨0⟩ ∧ ∀ i ≤ n, t'[2 + i]? = some ⟨driveability n i⟩ := by
  unfold registerAll
  rw [putClass_ok t OBSTACLE (le_refl 0) (by norm_num)]
  have key : ∀ m ≤ n + 1, ∃ t', (List.range m).foldl (fun r i => putClass r (CUSTOM + i) (driveability n i))
      (.ok (setClass t (OBSTACLE % 256) ⟨0⟩)) = .ok t' ∧ t'.length = max t.length (m + 2) ∧ t'[1]? = some ⟨0⟩ ∧
      ∀ i < m, t'[2 + i]? = some ⟨driveability n i⟩ := by
    intro m
    induction m with
    | zero =>
      intro _
      refine ⟨_, rfl, ?_, ?_, fun i hi => absurd hi (Nat.not_lt_zero i)⟩
      · rw [setClass_length]
        rfl
      · exact setClass_get t 1 ⟨0⟩
    | succ m ih =>
      intro hm
      obtain ⟨t', h1, h2, h3, h4⟩ := ih (by omega)
      have hr := driveability_range hn (i := m) (by omega)
      have h0 : 0 ≤ driveability n m := le_trans (by positivity) hr.1
      rw [List.range_succ, List.foldl_append, h1, List.foldl_cons, List.foldl_nil, putClass_ok t' _ h0 hr.2]
      have e : (CUSTOM + m) % 256 = 2 + m := by
        unfold CUSTOM
        omega
      rw [e]
      refine ⟨_, rfl, ?_, ?_, ?_⟩
      · rw [setClass_length, h2]
        omega
      · rw [setClass_get_ne _ _ (by omega) (by omega)]
        exact h3
      · intro i hi
        by_cases hie : i = m
        · subst hie
          exact setClass_get ..
        · rw [setClass_get_ne _ _ (by omega) (by omega)]
          exact h4 i (by omega)
  obtain ⟨t', h1, h2, h3, h4⟩ := key (n + 1) (le_refl _)
  exact ⟨t', h1, h2, h3, fun i hi => h4 i (by omega)⟩

theorem meanClass_le (n : Nat) (data : List Nat) (hd : ∀ k ∈ data, k ≤ n) : meanClass data ≤ n := by
  unfold meanClass
  dsimp only
  split
  · exact Nat.zero_le _
  next h =>
    set L := data.filter fun k => decide (k ≠ UNKNOWN)
    refine (Nat.mod_le _ _).trans ?_
    have hs : L.sum ≤ L.length * n := by
      have : ∀ k ∈ L, k ≤ n := fun k hk => hd k (List.mem_of_mem_filter hk)
      generalize L = M at this
      induction M with
      | nil => exact Nat.zero_le _
      | cons a M ih =>
        rw [List.sum_cons, List.length_cons, Nat.add_mul, Nat.one_mul]
        have h1 := this a List.mem_cons_self
        have h2 := ih fun k hk => this k (List.mem_cons_of_mem _ hk)
        omega
    have hl : (0 : ℚ) < L.length := by exact_mod_cast Nat.pos_of_ne_zero h
    have hs' : (L.sum : ℚ) ≤ L.length * n := by exact_mod_cast hs
    have hq : (L.sum : ℚ) / L.length ≤ n := by
      rw [div_le_iff₀ hl]
      linarith
    have : ⌊(L.sum : ℚ) / L.length + 1 / 2⌋ < (n : ℤ) + 1 := by
      rw [Int.floor_lt]
      push_cast
      linarith
    omega

theorem finish_ok (n : Nat) (hn : 5 ≤ n) (hn2 : n ≤ 253) (t : Table) (data : List Nat) (hd : ∀ k ∈ data, k ≤ 2 + n) :
    ∃ t', finish n t data = .ok t' ∧ getClass t' 1 = .ok ⟨0⟩ ∧
      (∀ i ≤ n, getClass t' (2 + i) = .ok ⟨driveability n i⟩ ∧ 1 / (n : ℚ) ≤ driveability n i ∧ driveability n i ≤ 1) ∧
      (∃ i ≤ n, getClass t' 0 = .ok ⟨driveability n i⟩) := by
  obtain ⟨t1, h1, h2, h3, h4⟩ := registerAll_ok (by omega) hn2 t
  have h7 : getClass t1 7 = .ok ⟨driveability n 5⟩ := by
    unfold getClass
    rw [h4 5 hn]
  have hget : ∀ (i : Nat) (c : Class), i ≤ n → c = ⟨driveability n i⟩ →
      let t' := setClass t1 UNKNOWN c
      (List.range (CUSTOM + n + 1)).all (fun i => decide (i % 256 < t'.length)) = true ∧ getClass t' 1 = .ok ⟨0⟩ ∧
      (∀ i ≤ n, getClass t' (2 + i) = .ok ⟨driveability n i⟩ ∧ 1 / (n : ℚ) ≤ driveability n i ∧ driveability n i ≤ 1) ∧
      (∃ i ≤ n, getClass t' 0 = .ok ⟨driveability n i⟩) := by
    intro i c hi hc t'
    have hl : t'.length = max t.length (n + 3) := by
      rw [setClass_length, h2]
      unfold UNKNOWN
      omega
    refine ⟨?_, ?_, ?_, i, hi, ?_⟩
    · rw [List.all_eq_true]
      intro j hj
      rw [List.mem_range] at hj
      unfold CUSTOM at hj
      rw [decide_eq_true_eq, hl]
      omega
    · unfold getClass
      rw [setClass_get_ne _ _ (by unfold UNKNOWN; omega) (by omega), h3]
    · intro j hj
      refine ⟨?_, driveability_range (by omega) hj⟩
      unfold getClass
      rw [setClass_get_ne _ _ (by unfold UNKNOWN; omega) (by omega), h4 j hj]
    · unfold getClass
      have := setClass_get t1 UNKNOWN c
      unfold UNKNOWN at this
      change (match (setClass t1 0 c)[0]? with | some c => Trav.Res.ok c | none => .throws) = _
      rw [this, hc]
  unfold finish
  rw [h1]
  dsimp only
  rw [h7]
  dsimp only
  by_cases hk : meanClass data ≤ 1
  · rw [if_pos hk]
    have hr := driveability_range (n := n) (i := 5) (by omega) hn
    have h0 : 0 ≤ driveability n 5 := le_trans (by positivity) hr.1
    have e : Class.getDrivability ⟨driveability n 5⟩ = driveability n 5 := by
      unfold Class.getDrivability
      rw [if_neg (not_lt.2 h0)]
    rw [e, putClass_ok t1 UNKNOWN h0 hr.2]
    obtain ⟨g1, g2, g3, g4⟩ := hget 5 ⟨driveability n 5⟩ hn rfl
    refine ⟨setClass t1 UNKNOWN ⟨driveability n 5⟩, ?_, g2, g3, g4⟩
    dsimp only
    exact if_pos g1
  · rw [if_neg hk]
    have hm := meanClass_le (2 + n) data hd
    have hg : getClass t1 (meanClass data) = .ok ⟨driveability n (meanClass data - 2)⟩ := by
      unfold getClass
      have := h4 (meanClass data - 2) (by omega)
      rw [show 2 + (meanClass data - 2) = meanClass data by omega] at this
      rw [this]
    rw [hg]
    obtain ⟨g1, g2, g3, g4⟩ := hget (meanClass data - 2) ⟨driveability n (meanClass data - 2)⟩ (by omega) rfl
    refine ⟨setClass t1 UNKNOWN ⟨driveability n (meanClass data - 2)⟩, ?_, g2, g3, g4⟩
    dsimp only
    exact if_pos g1

/-- **C69 (partial)**: with at least five (and at most 253) classes, updateAll ends normally; the obstacle class has drivability 0, the other
classes have their drivabilities (1/n, evenly spaced up to 1), and so has the class of unknown areas. What is missing: fewer classes,
see `C69_few_classes`. -/
theorem C69_finish_partial (n : Nat) (hn : 5 ≤ n) (hn2 : n ≤ 253) (t : Table) (data : List Nat) (hd : ∀ k ∈ data, k ≤ 2 + n) :
    ∃ t' : Table, finish n t data = .ok t' ∧ t'[1]? = some ⟨0⟩ ∧
      (∀ i ≤ n, ∃ d : ℚ, t'[2 + i]? = some ⟨d⟩ ∧ d = 1 / n + i * ((n - 1) / n ^ 2) ∧ 1 / (n : ℚ) ≤ d ∧ d ≤ 1) ∧
      (∃ d : ℚ, t'[0]? = some ⟨d⟩ ∧ 1 / (n : ℚ) ≤ d ∧ d ≤ 1) := by
  have hget : ∀ (t : Table) (i : Nat) (c : Class), getClass t i = .ok c → t[i]? = some c := by
    intro t i c h
    unfold getClass at h
    cases e : t[i]? with
    | none => rw [e] at h; cases h
    | some x => rw [e] at h; cases h; rfl
  obtain ⟨t', h1, h2, h3, i, hi, h4⟩ := finish_ok n hn hn2 t data hd
  have hn0 : (n : ℚ) ≠ 0 := by
    have : n ≠ 0 := by omega
    exact_mod_cast this
  refine ⟨t', h1, hget _ _ _ h2, ?_, driveability n i, hget _ _ _ h4, (h3 i hi).2⟩
  intro j hj
  refine ⟨driveability n j, hget _ _ _ (h3 j hj).1, ?_, (h3 j hj).2⟩
  unfold driveability
  field_simp

/-- **C69 is violated**: with one to four classes updateAll of a grid without further classes throws, because it asks for class 7 -/
theorem C69_few_classes (n : Nat) (hn : 1 ≤ n) (hn2 : n ≤ 4) (t : Table) (ht : t.length ≤ 7) (data : List Nat) : finish n t data = .throws := by
  obtain ⟨t1, h1, h2, -⟩ := registerAll_ok hn (by omega) t
  have h7 : getClass t1 7 = .throws := by
    unfold getClass
    rw [List.getElem?_eq_none (by omega)]
  unfold finish
  rw [h1]
  dsimp only
  rw [h7]

/-- five classes, an empty class table, cells unknown, obstacle, class 3 and 7: mean class 4 (rounded), drivability 13/25 -/
example : finish 5 [] [0, 1, 3, 7] = .ok [⟨13 / 25⟩, ⟨0⟩, ⟨1 / 5⟩, ⟨9 / 25⟩, ⟨13 / 25⟩, ⟨17 / 25⟩, ⟨21 / 25⟩, ⟨1⟩] := by decide +kernel

/-! ### C71 -/

/-- **C71 (partial)**: all parameters but the obstacle clearance survive saving and loading -/
theorem C71_config_partial (c : Config) : load (save c) = { c with obstacleClearance := 0 } := rfl

/-- **C71 is violated**: the obstacle clearance is lost -/
theorem C71_clearance_lost (c : Config) (h : c.obstacleClearance ≠ 0) : load (save c) ≠ c := by
  intro e
  exact h (congrArg Config.obstacleClearance e).symm

example : load (save ⟨1, 5, 1 / 2, 1 / 4, 0⟩) = ⟨1, 5, 1 / 2, 1 / 4, 0⟩ := by decide +kernel

#print axioms C68_classify_partial
#print axioms C68_flat_terrain
#print axioms C68_stale
#print axioms C69_finish_partial
#print axioms C69_few_classes
#print axioms C71_config_partial
#print axioms C71_clearance_lost

end Envire.Simple
