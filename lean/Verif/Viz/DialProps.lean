import Verif.Viz.DialModel
import Mathlib.Tactic.Linarith
import Mathlib.Tactic.NormNum
import Mathlib.Tactic.FieldSimp
import Mathlib.Tactic.Positivity

/-! C197: settings of the visualizers. -/
namespace Envire.Dial

/-! ### specification -/

/-- assumptions on the rounding of IEEE 754: order is kept, 0 and 1 are exact, the relative error is at most 2^-24 and 2^-53 in the range that is used -/
structure Rounding.Sound (R : Rounding) : Prop where
  fl_mono : Monotone R.fl
  db_mono : Monotone R.db
  fl_zero : R.fl 0 = 0
  fl_one : R.fl 1 = 1
  db_zero : R.db 0 = 0
  db_one : R.db 1 = 1
  fl_near : ∀ x, 1 / 2 ^ 100 ≤ x → x ≤ 2 ^ 100 → |R.fl x - x| ≤ x / 2 ^ 24
  db_near : ∀ x, 1 / 2 ^ 100 ≤ x → x ≤ 2 ^ 100 → |R.db x - x| ≤ x / 2 ^ 53

/-- components of 16 bits -/
def Colour.Valid (c : Colour) : Prop := c.red ≤ 65535 ∧ c.green ≤ 65535 ∧ c.blue ≤ 65535 ∧ c.alpha ≤ 65535

/-- the last value that a history gives, or the one from before -/
def lastOf {W A : Type} (f : W → Option A) (ws : List W) (d : A) : A := ((ws.filterMap f).getLast?).getD d

def Write.flag? (k : Flag) : Write → Option Bool
  | .flag k' b => if k' = k then some b else none
  | _ => none

def Write.interval? : Write → Option ℝ
  | .interval x => some x
  | _ => none

def Write.colour? (k : Hue) : Write → Option Colour
  | .colour k' c => if k' = k then some c else none
  | _ => none

/-- the names of the properties, MLSVisualization.hpp l.13-22 -/
def Write.property : Write → String
  | .flag .showUncertainty _ => "show_uncertainty"
  | .flag .showNegative _ => "show_negative"
  | .flag .estimateNormals _ => "estimate_normals"
  | .flag .cycleHeightColor _ => "cycle_height_color"
  | .flag .showExtents _ => "show_extents"
  | .interval _ => "cycle_color_interval"
  | .colour .horizontal _ => "horizontal_cell_color"
  | .colour .vertical _ => "vertical_cell_color"
  | .colour .negative _ => "negative_cell_color"
  | .colour .uncertainty _ => "uncertainty_color"

def CWrite.flag? (k : CFlag) : CWrite → Option Bool
  | .flag k' b => if k' = k then some b else none
  | _ => none

def CWrite.scaling? : CWrite → Option ℝ
  | .scaling x => some x
  | _ => none

def CWrite.colour? (k : CHue) : CWrite → Option Colour
  | .colour k' c => if k' = k then some c else none
  | _ => none

/-- PointcloudVisualization.hpp l.13-18 -/
def CWrite.property : CWrite → String
  | .flag .showNormals _ => "show_normals"
  | .flag .showFeatures _ => "show_features"
  | .flag .colorCycling _ => "color_cycling"
  | .scaling _ => "normal_scaling"
  | .colour .normal _ => "normal_color"
  | .colour .vertex _ => "vertex_color"

/-! ### one component -/

theorem component {R : Rounding} (hR : R.Sound) {c : ℕ} (hc : c ≤ 65535) :
    (0 ≤ R.fl (partF R c) ∧ R.fl (partF R c) ≤ 1) ∧ qRound R (R.db (R.fl (partF R c) * 65535)) = c := by
  have hcr : (c : ℝ) ≤ 65535 := by exact_mod_cast hc
  have hc0 : (0 : ℝ) ≤ c := Nat.cast_nonneg c
  have h1 : (c : ℝ) / 65535 ≤ 1 := by rw [div_le_one (by norm_num)]; exact hcr
  have h0 : (0 : ℝ) ≤ (c : ℝ) / 65535 := by positivity
  have d1 : partF R c ≤ 1 := by rw [← hR.db_one]; exact hR.db_mono h1
  have d0 : 0 ≤ partF R c := by rw [← hR.db_zero]; exact hR.db_mono h0
  have f1 : R.fl (partF R c) ≤ 1 := by rw [← hR.fl_one]; exact hR.fl_mono d1
  have f0 : 0 ≤ R.fl (partF R c) := by rw [← hR.fl_zero]; exact hR.fl_mono d0
  refine ⟨⟨f0, f1⟩, ?_⟩
  rcases Nat.eq_zero_or_pos c with rfl | hpos
  · have e : R.fl (partF R 0) = 0 := by
      unfold partF
      rw [Nat.cast_zero, zero_div, hR.db_zero, hR.fl_zero]
    rw [e, zero_mul, hR.db_zero]
    unfold qRound
    rw [zero_add, Nat.floor_eq_zero]
    have := abs_le.1 (hR.db_near (1 / 2) (by norm_num) (by norm_num))
    have h2 := this.2
    norm_num at h2 ⊢
    linarith
  · have hc1 : (1 : ℝ) ≤ c := by exact_mod_cast hpos
    -- the quotient
    have q1 : (1 : ℝ) / 65535 ≤ c / 65535 := by
      rw [div_le_div_iff_of_pos_right (by norm_num)]
      exact hc1
    have a := abs_le.1 (hR.db_near (c / 65535) (le_trans (by norm_num) q1) (le_trans h1 (by norm_num)))
    have p1 : (1 : ℝ) / 2 ^ 100 ≤ partF R c := by
      have := a.1
      unfold partF
      norm_num at this q1 ⊢
      linarith
    have b := abs_le.1 (hR.fl_near (partF R c) p1 (le_trans d1 (by norm_num)))
    have p2 : (1 : ℝ) / 2 ^ 100 ≤ R.fl (partF R c) * 65535 := by
      have h1 := b.1
      have h2 := a.1
      unfold partF at h1 ⊢
      norm_num at h1 h2 q1 ⊢
      linarith
    have e := abs_le.1 (hR.db_near (R.fl (partF R c) * 65535) p2 (le_trans (mul_le_mul_of_nonneg_right f1 (by norm_num)) (by norm_num)))
    -- all in all less than a hundredth
    have hlo : (c : ℝ) - 1 / 100 ≤ R.db (R.fl (partF R c) * 65535) := by
      have h1 := e.1
      have h2 := b.1
      have h3 := a.1
      unfold partF at h1 h2 ⊢
      norm_num at h1 h2 h3 ⊢
      linarith
    have hhi : R.db (R.fl (partF R c) * 65535) ≤ c + 1 / 100 := by
      have h1 := e.2
      have h2 := b.2
      have h3 := a.2
      unfold partF at h1 h2 ⊢
      norm_num at h1 h2 h3 ⊢
      linarith
    have r := abs_le.1 (hR.db_near (R.db (R.fl (partF R c) * 65535) + 1 / 2) (by norm_num at hlo ⊢; linarith) (by norm_num at hhi ⊢; linarith))
    unfold qRound
    rw [Nat.floor_eq_iff (by have := r.1; norm_num at this hlo ⊢; linarith)]
    constructor
    · have := r.1
      norm_num at this hlo hhi ⊢
      linarith
    · have := r.2
      norm_num at this hlo hhi ⊢
      linarith

/-- **C197 (colours)** A colour that is stored in a visualizer is read as the same colour, in spite of the rounding to `float`. -/
theorem C197_colour {R : Rounding} (hR : R.Sound) {c : Colour} (hc : c.Valid) : setRgbF R (store R c) = some c := by
  obtain ⟨h1, h2, h3, h4⟩ := hc
  unfold setRgbF store
  dsimp only
  rw [if_pos ⟨(component hR h1).1, (component hR h2).1, (component hR h3).1, (component hR h4).1⟩, (component hR h1).2, (component hR h2).2, (component hR h3).2, (component hR h4).2]

theorem lastOf_cons {W A : Type} (f : W → Option A) (w : W) (ws : List W) (d : A) : lastOf f (w :: ws) d = lastOf f ws ((f w).getD d) := by
  unfold lastOf
  rw [List.filterMap_cons]
  cases h : f w with
  | none => rfl
  | some a =>
    dsimp only
    rw [List.getLast?_cons]
    rfl

/-- **C197 (settings of surfaces)** After any changes each setting has the value that was given last, or the one of before if none was given; an interval of 0 counts as 1. Each change is
signalled once under the name of its property. -/
theorem C197_surfaces {R : Rounding} (hR : R.Sound) (m : Mls) (ws : List Write) (hv : ∀ k c, Write.colour k c ∈ ws → c.Valid) :
    (∀ k, (m.writes R ws).1.flag k = lastOf (Write.flag? k) ws (m.flag k)) ∧
    ((m.writes R ws).1.cycleColorInterval = lastOf (fun w => w.interval?.map fun x => if x = 0 then 1 else x) ws m.cycleColorInterval) ∧
    (∀ k, (m.writes R ws).1.colour R k = lastOf (fun w => (w.colour? k).map some) ws (m.colour R k)) ∧
    (m.writes R ws).2 = ws.map Write.property := by
  induction ws generalizing m with
  | nil => exact ⟨fun _ => rfl, rfl, fun _ => rfl, rfl⟩
  | cons w ws ih =>
    obtain ⟨i1, i2, i3, i4⟩ := ih (m.write R w).1 (fun k c h => hv k c (List.mem_cons_of_mem _ h))
    refine ⟨fun k => ?_, ?_, fun k => ?_, ?_⟩
    · rw [lastOf_cons]
      refine (i1 k).trans (congrArg _ ?_)
      cases w with
      | flag k' b => cases k' <;> cases k <;> rfl
      | interval x =>
        show Mls.flag (if x = 0 then _ else _) k = _
        split <;> cases k <;> rfl
      | colour k' c => cases k' <;> cases k <;> rfl
    · rw [lastOf_cons]
      refine i2.trans (congrArg _ ?_)
      cases w with
      | flag k' b => cases k' <;> rfl
      | interval x =>
        show Mls.cycleColorInterval (if x = 0 then _ else _) = if x = 0 then 1 else x
        split <;> rfl
      | colour k' c => cases k' <;> rfl
    · rw [lastOf_cons]
      refine (i3 k).trans (congrArg _ ?_)
      cases w with
      | flag k' b => cases k' <;> cases k <;> rfl
      | interval x =>
        show Mls.colour R (if x = 0 then _ else _) k = _
        split <;> cases k <;> rfl
      | colour k' c =>
        have hc := C197_colour hR (hv k' c List.mem_cons_self)
        cases k' <;> cases k <;> first | rfl | exact hc
    · show (m.write R w).2 :: _ = _
      rw [List.map_cons, ← i4]
      congr 1
      cases w with
      | flag k' b => cases k' <;> rfl
      | interval x => rfl
      | colour k' c => cases k' <;> rfl

/-- **C197 (settings of clouds)** The same for the visualizer of point clouds. -/
theorem C197_clouds {R : Rounding} (hR : R.Sound) (m : Cloud) (ws : List CWrite) (hv : ∀ k c, CWrite.colour k c ∈ ws → c.Valid) :
    (∀ k, (m.writes R ws).1.flag k = lastOf (CWrite.flag? k) ws (m.flag k)) ∧ (m.writes R ws).1.normalScaling = lastOf CWrite.scaling? ws m.normalScaling ∧
    (∀ k, (m.writes R ws).1.colour R k = lastOf (fun w => (w.colour? k).map some) ws (m.colour R k)) ∧ (m.writes R ws).2 = ws.map CWrite.property := by
  induction ws generalizing m with
  | nil => exact ⟨fun _ => rfl, rfl, fun _ => rfl, rfl⟩
  | cons w ws ih =>
    obtain ⟨i1, i2, i3, i4⟩ := ih (m.write R w).1 (fun k c h => hv k c (List.mem_cons_of_mem _ h))
    refine ⟨fun k => ?_, ?_, fun k => ?_, ?_⟩
    · rw [lastOf_cons]
      refine (i1 k).trans (congrArg _ ?_)
      cases w with
      | flag k' b => cases k' <;> cases k <;> rfl
      | scaling x => rfl
      | colour k' c => cases k' <;> cases k <;> rfl
    · rw [lastOf_cons]
      refine i2.trans (congrArg _ ?_)
      cases w with
      | flag k' b => cases k' <;> rfl
      | scaling x => rfl
      | colour k' c => cases k' <;> rfl
    · rw [lastOf_cons]
      refine (i3 k).trans (congrArg _ ?_)
      cases w with
      | flag k' b => cases k' <;> cases k <;> rfl
      | scaling x => rfl
      | colour k' c =>
        have hc := C197_colour hR (hv k' c List.mem_cons_self)
        cases k' <;> cases k <;> first | rfl | exact hc
    · show (m.write R w).2 :: _ = _
      rw [List.map_cons, ← i4]
      congr 1
      cases w with
      | flag k' b => cases k' <;> rfl
      | scaling x => rfl
      | colour k' c => cases k' <;> rfl

/-- **C197, the code violates the property**: the lines for the uncertainty are drawn in the same colour whatever colour is set for them. -/
theorem C197_uncertainty_deviation {R : Rounding} (hR : R.Sound) (m : Mls) (hm : m.showUncertainty = true) :
    (∀ c, (m.write R (.colour .uncertainty c)).1.lines R = m.lines R) ∧ ∃ c : Colour, c.Valid ∧ (m.write R (.colour .uncertainty c)).1.colour R .uncertainty = some c ∧
      (m.write R (.colour .uncertainty c)).1.lines R ≠ some (store R c) := by
  refine ⟨fun c => rfl, ⟨0, 0, 0, 0⟩, ⟨by simp, by simp, by simp, by simp⟩, C197_colour hR ⟨by simp, by simp, by simp, by simp⟩, ?_⟩
  show m.lines R ≠ _
  unfold Mls.lines
  rw [if_pos hm]
  intro h
  have h := congrArg Vec4.w (Option.some.inj h)
  dsimp only [store, partF] at h
  rw [hR.fl_one, Nat.cast_zero, zero_div, hR.db_zero, hR.fl_zero] at h
  exact one_ne_zero h

/-! ### examples -/

/-- exact numbers meet the assumptions -/
theorem exact_sound : (⟨fun x => x, fun x => x⟩ : Rounding).Sound where
  fl_mono := monotone_id
  db_mono := monotone_id
  fl_zero := rfl
  fl_one := rfl
  db_zero := rfl
  db_one := rfl
  fl_near x h _ := by rw [sub_self, abs_zero]; have : (0 : ℝ) < 1 / 2 ^ 100 := by positivity
                      have := lt_of_lt_of_le this h
                      positivity
  db_near x h _ := by rw [sub_self, abs_zero]; have : (0 : ℝ) < 1 / 2 ^ 100 := by positivity
                      have := lt_of_lt_of_le this h
                      positivity

example : setRgbF ⟨fun x => x, fun x => x⟩ (store ⟨fun x => x, fun x => x⟩ ⟨65535, 12345, 1, 0⟩) = some ⟨65535, 12345, 1, 0⟩ := C197_colour exact_sound ⟨by decide, by decide, by decide, by decide⟩

example (m : Mls) : (m.writes ⟨fun x => x, fun x => x⟩ [.flag .showNegative true, .interval 0, .flag .showNegative false]).1.flag .showNegative = false ∧
    (m.writes ⟨fun x => x, fun x => x⟩ [.flag .showNegative true, .interval 0, .flag .showNegative false]).1.cycleColorInterval = 1 := by
  obtain ⟨h1, h2, -, -⟩ := C197_surfaces exact_sound m [.flag .showNegative true, .interval 0, .flag .showNegative false] (by intro k c h; simp at h)
  rw [h1, h2]
  simp [lastOf, Write.flag?, Write.interval?, List.filterMap_cons]

#print axioms C197_colour
#print axioms C197_surfaces
#print axioms C197_clouds
#print axioms C197_uncertainty_deviation
end Envire.Dial
