import Verif.Maps.CombinedModel
import Mathlib.Tactic.FinCases
import Mathlib.Tactic.NormNum

/-!
C180: extents of maps that are made of others.
-/
noncomputable section

namespace Envire.Combined

/-- specification: a point is in a box -/
def Inside {n : Nat} (b : Box n) (p : Fin n → ℝ) : Prop := ∀ k, (b k).1 ≤ (p k : EReal) ∧ (p k : EReal) ≤ (b k).2

/-- specification: a transform that does not rotate -/
def Shift (f : P → P) : Prop := ∀ p, f p = p + f 0

/-- specification: box `a` is part of box `b` -/
def Within {n : Nat} (a b : Box n) : Prop := ∀ k, (b k).1 ≤ (a k).1 ∧ (a k).2 ≤ (b k).2

theorem Within.trans {n : Nat} {a b c : Box n} (h : Within a b) (h' : Within b c) : Within a c := fun k => ⟨(h' k).1.trans (h k).1, (h k).2.trans (h' k).2⟩

theorem Within.refl {n : Nat} (a : Box n) : Within a a := fun _ => ⟨le_rfl, le_rfl⟩

theorem Within.inside {n : Nat} {a b : Box n} (h : Within a b) {p : Fin n → ℝ} (hp : Inside a p) : Inside b p := fun k => ⟨(h k).1.trans (hp k).1, (hp k).2.trans (h k).2⟩

theorem within_extend {n : Nat} (a b : Box n) : Within a (extend a b) ∧ Within b (extend a b) :=
  ⟨fun _ => ⟨min_le_left _ _, le_max_left _ _⟩, fun _ => ⟨min_le_right _ _, le_max_right _ _⟩⟩

theorem extend_within {n : Nat} {a b c : Box n} (h : Within a c) (h' : Within b c) : Within (extend a b) c :=
  fun k => ⟨le_min (h k).1 (h' k).1, max_le (h k).2 (h' k).2⟩

/-- the extents of a part in the frame of the segment, if it is not rotated -/
def placed (p : Part) : Box 3 :=
  match p.ext with
  | .three b => translate b p.shift
  | .two b => translate (lift b) p.shift
  | .other => emptyBox 3

theorem within_foldl (ps : List Part) : ∀ e : Box 3, Within e (ps.foldl addPart e) ∧ (∀ p ∈ ps, p.ext ≠ .other → Within (placed p) (ps.foldl addPart e)) ∧
    (∀ c, Within e c → (∀ p ∈ ps, p.ext ≠ .other → Within (placed p) c) → Within (ps.foldl addPart e) c) := by
  induction ps with
  | nil => intro e; exact ⟨Within.refl e, by simp, fun c h _ => h⟩
  | cons q ps ih =>
    intro e
    obtain ⟨h1, h2, h3⟩ := ih (addPart e q)
    have hq : Within e (addPart e q) ∧ (q.ext ≠ .other → Within (placed q) (addPart e q)) ∧ (∀ c, Within e c → (q.ext ≠ .other → Within (placed q) c) → Within (addPart e q) c) := by
      unfold addPart placed
      cases q.ext with
      | three b => exact ⟨(within_extend _ _).1, fun _ => (within_extend _ _).2, fun c h h' => extend_within h (h' (by simp))⟩
      | two b => exact ⟨(within_extend _ _).1, fun _ => (within_extend _ _).2, fun c h h' => extend_within h (h' (by simp))⟩
      | other => exact ⟨Within.refl e, fun h => absurd rfl h, fun c h _ => h⟩
    refine ⟨hq.1.trans h1, fun p hp hpo => ?_, fun c hc hps => ?_⟩
    · rcases List.mem_cons.1 hp with rfl | hp
      · exact (hq.2.1 hpo).trans h1
      · exact h2 p hp hpo
    · exact h3 c (hq.2.2 c hc fun h => hps q (List.mem_cons_self) h) fun p hp h => hps p (List.mem_cons_of_mem _ hp) h

theorem inside_translate {n : Nat} {b : Box n} {p : Fin n → ℝ} (t : Fin n → ℝ) (h : Inside b p) : Inside (translate b t) (p + t) := by
  intro k
  show (b k).1 + (t k : EReal) ≤ ((p k + t k : ℝ) : EReal) ∧ ((p k + t k : ℝ) : EReal) ≤ (b k).2 + (t k : EReal)
  rw [EReal.coe_add]
  exact ⟨add_le_add (h k).1 le_rfl, add_le_add (h k).2 le_rfl⟩

/-- **C180** (partial) The extents of a segment hold every point of every part of three dimensions whose frame is not rotated against that of the segment.
Missing: parts that are rotated (C180_rotated_deviation) and parts of two dimensions (C180_flat_deviation). -/
theorem C180_cover_partial (parts : List Part) {p : Part} (hp : p ∈ parts) (hs : Shift p.toSegment) {b : Box 3} (hb : p.ext = .three b) {q : P} (hq : Inside b q) :
    Inside (segmentExtents parts) (p.toSegment q) := by
  have h := (within_foldl parts (emptyBox 3)).2.1 p hp (by rw [hb]; simp)
  refine h.inside ?_
  unfold placed
  rw [hb, hs q]
  exact inside_translate _ hq

/-- **C180** The extents are the least: a box that holds, on each axis, the limits of all parts holds them. -/
theorem C180_least (parts : List Part) (c : Box 3) (hc : ∀ p ∈ parts, (∀ b, p.ext = .three b → Within (translate b (p.toSegment 0)) c) ∧
      (∀ b, p.ext = .two b → ∀ k : Fin 2, (c (k.castLE (by decide))).1 ≤ (b k).1 + (p.toSegment 0 (k.castLE (by decide)) : EReal) ∧ (b k).2 + (p.toSegment 0 (k.castLE (by decide)) : EReal) ≤ (c (k.castLE (by decide))).2)) :
    Within (segmentExtents parts) c := by
  refine (within_foldl parts (emptyBox 3)).2.2 c (fun k => ⟨le_top, bot_le⟩) fun p hp _ => ?_
  have h := hc p hp
  unfold placed
  cases he : p.ext with
  | three b => exact h.1 b he
  | other => exact fun k => ⟨le_top, bot_le⟩
  | two b =>
    intro k
    show (c k).1 ≤ (lift b k).1 + (p.shift k : EReal) ∧ (lift b k).2 + (p.shift k : EReal) ≤ (c k).2
    unfold lift
    by_cases hk : k.val < 2
    · rw [dif_pos hk]
      exact h.2 b he ⟨k.val, hk⟩
    · rw [dif_neg hk, EReal.top_add_coe, EReal.bot_add]
      exact ⟨le_top, bot_le⟩

/-- **C180** Next to a part of three dimensions that is not rotated, a flat part that is not rotated is covered at the heights of the other. -/
theorem C180_flat_partial (parts : List Part) {p r : Part} (hp : p ∈ parts) (hr : r ∈ parts) (hs : Shift p.toSegment) {b : Box 2} (hb : p.ext = .two b) (hsr : Shift r.toSegment) {b3 : Box 3} (hr3 : r.ext = .three b3)
    {q u : P} (hq : Inside b (fun k => q (k.castLE (by decide)))) (hu : Inside b3 u) (hz : p.toSegment q 2 = r.toSegment u 2) : Inside (segmentExtents parts) (p.toSegment q) := by
  have h := (within_foldl parts (emptyBox 3)).2.1 p hp (by rw [hb]; simp)
  have h3 := C180_cover_partial parts hr hsr hr3 hu
  intro k
  by_cases hk : k.val < 2
  · have hk' := h k
    unfold placed at hk'
    rw [hb] at hk'
    have e1 : ((translate (lift b) p.shift) k).1 = (b ⟨k.val, hk⟩).1 + (p.shift k : EReal) := by show (lift b k).1 + _ = _; unfold lift; rw [dif_pos hk]
    have e2 : ((translate (lift b) p.shift) k).2 = (b ⟨k.val, hk⟩).2 + (p.shift k : EReal) := by show (lift b k).2 + _ = _; unfold lift; rw [dif_pos hk]
    have hqk := hq ⟨k.val, hk⟩
    have e3 : ((p.toSegment q k : ℝ) : EReal) = (q k : EReal) + (p.shift k : EReal) := by
      rw [hs q, ← EReal.coe_add]; rfl
    rw [e3]
    refine ⟨hk'.1.trans ?_, le_trans ?_ hk'.2⟩
    · simp only [e1]
      exact add_le_add hqk.1 le_rfl
    · simp only [e2]
      exact add_le_add hqk.2 le_rfl
  · have : k = 2 := by
      have := k.isLt
      apply Fin.ext
      show k.val = 2
      omega
    subst this
    rw [hz]
    exact h3 2

/-- Violation: the extents of a segment whose parts all have two dimensions are empty. -/
theorem C180_flat_deviation (parts : List Part) (h : ∀ p ∈ parts, ∃ b, p.ext = .two b) (q : P) : ¬ Inside (segmentExtents parts) q := by
  have key : Within (segmentExtents parts) (fun k => if k = 2 then (⊤, ⊥) else (⊥, ⊤)) := by
    refine (within_foldl parts (emptyBox 3)).2.2 _ (fun k => ?_) fun p hp _ k => ?_
    · by_cases hk : k = 2
      · simp [hk, emptyBox]
      · simp [hk, emptyBox]
    · obtain ⟨b, hb⟩ := h p hp
      by_cases hk : k = 2
      · subst hk
        unfold placed
        rw [hb]
        show (⊤ : EReal) ≤ (lift b 2).1 + (p.shift 2 : EReal) ∧ (lift b 2).2 + (p.shift 2 : EReal) ≤ (⊥ : EReal)
        have : lift b 2 = (⊤, ⊥) := by unfold lift; simp
        rw [this]
        show (⊤ : EReal) ≤ ⊤ + (p.shift 2 : EReal) ∧ ⊥ + (p.shift 2 : EReal) ≤ (⊥ : EReal)
        rw [EReal.top_add_coe, EReal.bot_add]
        exact ⟨le_rfl, le_rfl⟩
      · simp [hk]
  intro hq
  have := (key.inside hq 2).1
  simp at this

/-- a segment with a part that is turned by a quarter around the vertical axis and a part that is not -/
def exTurned : Part := { ext := .three (fun k => if k = 0 then (0, 1) else (0, 0)), toSegment := fun p k => if k = 0 then - p 1 else if k = 1 then p 0 else p 2 }

/-- Violation: a part that is turned is placed as if it was not; a point at its end is outside. -/
theorem C180_rotated_deviation : ∃ q : P, (∃ b, exTurned.ext = .three b ∧ Inside b q) ∧ ¬ Inside (segmentExtents [exTurned]) (exTurned.toSegment q) := by
  refine ⟨fun k => if k = 0 then 1 else 0, ⟨_, rfl, fun k => ?_⟩, fun h => ?_⟩
  · by_cases hk : k = 0
    · subst hk
      simp
    · simp [hk]
  · have := (h 1).2
    simp [segmentExtents, addPart, exTurned, extend, translate, emptyBox, Part.shift] at this
    exact absurd this (not_le.2 (by norm_num))

/-- specification: the same for the grids of an MLSMap -/
theorem mapExtents_spec (cs : List Child) : ∀ (e r : Box 2), mapExtents e cs = some r → Within e r ∧
    (∀ c ∈ cs, ∃ b, c.grid = some b ∧ Within (translate b (fun k => c.toMap 0 (k.castLE (by decide)))) r) ∧
    (∀ d, Within e d → (∀ c ∈ cs, ∀ b, c.grid = some b → Within (translate b (fun k => c.toMap 0 (k.castLE (by decide)))) d) → Within r d) := by
  induction cs with
  | nil =>
    intro e r h
    cases h
    exact ⟨Within.refl _, by simp, fun d h _ => h⟩
  | cons c cs ih =>
    intro e r h
    unfold mapExtents at h
    cases hg : c.grid with
    | none => rw [hg] at h; cases h
    | some b =>
      simp only [hg] at h
      obtain ⟨h1, h2, h3⟩ := ih _ r h
      refine ⟨(within_extend _ _).1.trans h1, fun x hx => ?_, fun d hd hcs => h3 d (extend_within hd (hcs c List.mem_cons_self b hg)) fun x hx => hcs x (List.mem_cons_of_mem _ hx)⟩
      rcases List.mem_cons.1 hx with rfl | hx
      · exact ⟨b, hg, (within_extend _ _).2.trans h1⟩
      · exact h2 x hx

/-- **C180** (partial) If all children of an MLSMap are grids its extents hold every point of each grid that is not rotated, and are the least box with the limits of all. -/
theorem C180_mls_partial (cs : List Child) (hg : ∀ c ∈ cs, c.grid ≠ none) : ∃ r, mapExtents (emptyBox 2) cs = some r ∧
    (∀ c ∈ cs, Shift c.toMap → ∀ b, c.grid = some b → ∀ q : P, Inside b (fun k => q (k.castLE (by decide))) → Inside r (fun k => c.toMap q (k.castLE (by decide)))) ∧
    (∀ d, (∀ c ∈ cs, ∀ b, c.grid = some b → Within (translate b (fun k => c.toMap 0 (k.castLE (by decide)))) d) → Within r d) := by
  have hex : ∀ (cs : List Child), (∀ c ∈ cs, c.grid ≠ none) → ∀ e, ∃ r, mapExtents e cs = some r := by
    intro cs
    induction cs with
    | nil => intro _ e; exact ⟨e, rfl⟩
    | cons c cs ih =>
      intro h e
      unfold mapExtents
      cases hc : c.grid with
      | none => exact absurd hc (h c List.mem_cons_self)
      | some b => exact ih (fun c hc => h c (List.mem_cons_of_mem _ hc)) _
  obtain ⟨r, hr⟩ := hex cs hg (emptyBox 2)
  obtain ⟨_, h2, h3⟩ := mapExtents_spec cs _ r hr
  refine ⟨r, hr, fun c hc hs b hb q hq => ?_, fun d hd => h3 d (fun k => ⟨le_top, bot_le⟩) hd⟩
  obtain ⟨b', hb', hw⟩ := h2 c hc
  rw [hb] at hb'
  cases hb'
  refine hw.inside ?_
  have := inside_translate (fun k : Fin 2 => c.toMap 0 (k.castLE (by decide))) hq
  intro k
  have hk := this k
  rw [hs q]
  exact hk

/-- Violation: the null pointer of a child that is no grid is used. -/
theorem C180_child_deviation (cs : List Child) (e : Box 2) (h : ∃ c ∈ cs, c.grid = none) : mapExtents e cs = none := by
  induction cs generalizing e with
  | nil => simp at h
  | cons c cs ih =>
    unfold mapExtents
    cases hc : c.grid with
    | none => rfl
    | some b =>
      refine ih _ ?_
      obtain ⟨x, hx, hn⟩ := h
      rcases List.mem_cons.1 hx with rfl | hx
      · rw [hc] at hn; cases hn
      · exact ⟨x, hx, hn⟩

/-- two parts that are not rotated -/
def exParts : List Part :=
  [{ ext := .three (fun _ => (0, 1)), toSegment := fun p => p + fun _ => 2 }, { ext := .two (fun _ => (-3, 0)), toSegment := fun p => p }]

example : ∃ p ∈ exParts, Shift p.toSegment ∧ ∃ b, p.ext = .three b ∧ Inside b (fun _ => 1) := by
  refine ⟨_, List.mem_cons_self, fun p => by simp, _, rfl, fun k => by simp⟩

#print axioms C180_cover_partial
#print axioms C180_least
#print axioms C180_flat_partial
#print axioms C180_flat_deviation
#print axioms C180_rotated_deviation
#print axioms C180_mls_partial
#print axioms C180_child_deviation

end Envire.Combined
