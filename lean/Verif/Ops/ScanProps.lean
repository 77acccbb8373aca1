import Verif.Ops.ScanModel
import Verif.Ops.MeshProps
import Mathlib.Analysis.InnerProductSpace.Basic
import Mathlib.Analysis.Complex.Basic
import Mathlib.Geometry.Euclidean.Angle.Unoriented.Basic
import Mathlib.Tactic.Linarith
import Mathlib.Tactic.FieldSimp
import Mathlib.Tactic.Ring

/-!
C104: the vertices of the mesh of a laser scan.
-/

namespace Envire.Mesh

/-! ### specification -/

/-- the end of the ray in the plane of the scanner, before the scanner is tilted -/
noncomputable def ray (xForward : Bool) (psi range : ℝ) : ℝ × ℝ × ℝ := if xForward then (range * Real.cos psi, range * Real.sin psi, 0) else (-(range * Real.sin psi), range * Real.cos psi, 0)

/-- the tilt of the scanner: about the axis to the right if x is forward it is the negative y axis, if y is forward it is the x axis -/
noncomputable def tilt (xForward : Bool) (phi : ℝ) (v : ℝ × ℝ × ℝ) : ℝ × ℝ × ℝ :=
  if xForward then (Real.cos phi * v.1 - Real.sin phi * v.2.2, v.2.1, Real.sin phi * v.1 + Real.cos phi * v.2.2)
  else (v.1, Real.cos phi * v.2.1 - Real.sin phi * v.2.2, Real.sin phi * v.2.1 + Real.cos phi * v.2.2)

/-- in a plane: the scanner at the origin, a point at the given range and another one at the range next whose ray is rotated by theta: the angle at the first point between the scanner and the other point -/
noncomputable def angleAt (theta range next : ℝ) : ℝ := InnerProductGeometry.angle (-(range : ℂ)) (next * (Real.cos theta + Real.sin theta * Complex.I) - range)

/-- the angle differs from a right angle by less than the limit; for a point at the scanner or two equal points there is no angle -/
def Flat (limit theta range next : ℝ) : Prop := range ≠ 0 ∧ (range : ℂ) ≠ next * (Real.cos theta + Real.sin theta * Complex.I) ∧ |angleAt theta range next - Real.pi / 2| < limit

/-- the range of a reading in metres -/
noncomputable def rangeAt (l : Line) (n : Nat) : ℝ := (l.ranges.getD n 0 : ℝ) / 1000

/-- the reading n of a line becomes a vertex. `theta` is the angle between the rays of neighbouring readings. -/
def Used (cfg : Config) (theta : ℝ) (l : Line) (n : Nat) : Prop :=
  cfg.minRange < rangeAt l n ∧ rangeAt l n < cfg.maxRange ∧ 0 < cfg.maxEdgeAngle ∧ (n + 1 < l.ranges.length → Flat cfg.maxEdgeAngle theta (rangeAt l n) (rangeAt l (n + 1))) ∧
    (0 < n → Flat cfg.maxEdgeAngle theta (rangeAt l (n - 1)) (rangeAt l n))

/-- the position of a reading: the tilted end of the ray of the scanner at its offset -/
noncomputable def place (s : Scan) (l : Line) (n : Nat) : ℝ × ℝ × ℝ := tilt s.xForward (s.originPhi + l.deltaPhi) (ray s.xForward (s.originPsi + n * s.deltaPsi) (rangeAt l n) + s.offset)

/-! ### proofs -/

theorem passes_iff (limit delta range next : ℝ) (hr : 0 ≤ range) : passes limit (edgeAngle delta range next) ↔ Flat limit (2 * delta) range next := by
  have hnorm : ‖(next : ℂ) * (Real.cos (2 * delta) + Real.sin (2 * delta) * Complex.I) - range‖ = Real.sqrt (range ^ 2 + next ^ 2 - 2 * range * next * Real.cos (2 * delta)) := by
    rw [Complex.norm_eq_sqrt_sq_add_sq]
    congr 1
    simp only [Complex.sub_re, Complex.mul_re, Complex.add_re, Complex.ofReal_re, Complex.ofReal_im, Complex.I_re, Complex.I_im, Complex.mul_im, Complex.add_im, Complex.sub_im]
    have := Real.sin_sq_add_cos_sq (2 * delta)
    linear_combination next ^ 2 * this
  unfold edgeAngle Flat
  dsimp only
  rw [← hnorm]
  generalize hb : (next : ℂ) * (Real.cos (2 * delta) + Real.sin (2 * delta) * Complex.I) - range = b
  have hne : (range : ℂ) ≠ next * (Real.cos (2 * delta) + Real.sin (2 * delta) * Complex.I) ↔ ‖b‖ ≠ 0 := by
    rw [← hb, norm_ne_zero_iff, sub_ne_zero]
    exact ne_comm
  rw [hne]
  by_cases h : 2 * range * ‖b‖ = 0
  · rw [if_pos h]
    have : range = 0 ∨ ‖b‖ = 0 := by
      rcases mul_eq_zero.1 h with h | h
      · left; linarith
      · exact .inr h
    simp only [passes, false_iff]
    tauto
  · rw [if_neg h]
    have h1 : range ≠ 0 := fun h' => h (by rw [h']; ring)
    have h2 : ‖b‖ ≠ 0 := fun h' => h (by rw [h']; ring)
    have hang : Real.arccos ((range ^ 2 - next ^ 2 + ‖b‖ ^ 2) / (2 * range * ‖b‖)) = angleAt (2 * delta) range next := by
      unfold angleAt InnerProductGeometry.angle
      rw [hb]
      congr 1
      rw [norm_neg, Complex.norm_real, Real.norm_eq_abs, abs_of_nonneg hr]
      have hin : inner ℝ (-(range : ℂ)) b = range ^ 2 - range * next * Real.cos (2 * delta) := by
        rw [← hb, Complex.inner]
        generalize Real.cos (2 * delta) = c
        generalize Real.sin (2 * delta) = d
        simp
        ring
      have hsq : ‖b‖ ^ 2 = range ^ 2 + next ^ 2 - 2 * range * next * Real.cos (2 * delta) := by
        rw [← hb, hnorm, Real.sq_sqrt]
        have := Real.neg_one_le_cos (2 * delta)
        have := Real.cos_le_one (2 * delta)
        nlinarith [sq_nonneg (range - next * Real.cos (2 * delta)), Real.sin_sq_add_cos_sq (2 * delta), sq_nonneg (next * Real.sin (2 * delta))]
      rw [hin, hsq]
      field_simp
      ring
    simp only [passes, hang, h1, h2, ne_eq, not_false_eq_true, true_and]
    norm_num
    rw [show Real.pi * (1 / 2) = Real.pi / 2 by ring]

open Classical in
/-- the reading n of a line -/
noncomputable def itemAt (cfg : Config) (s : Scan) (l : Line) (n : Nat) : Item Vertex ℝ :=
  { point := if Used cfg (2 * s.deltaPsi) l n then some (makeVertex s (s.originPhi + l.deltaPhi) (s.originPsi + n * s.deltaPsi) (rangeAt l n)) else none
    colour := makeColour cfg l n
    flip := decide (|s.originPsi + n * s.deltaPsi| > Real.pi / 2) }

/-- the angle at the reading n, as the code computes it -/
noncomputable def angleNext (s : Scan) (l : Line) (n : Nat) : Option ℝ := if n + 1 < l.ranges.length then edgeAngle s.deltaPsi (rangeAt l n) (rangeAt l (n + 1)) else some (Real.pi * 0.5)

/-- the angle at the reading before the reading n -/
noncomputable def anglePrev (s : Scan) (l : Line) (n : Nat) : Option ℝ := if 0 < n then edgeAngle s.deltaPsi (rangeAt l (n - 1)) (rangeAt l n) else some (Real.pi * 0.5)

theorem rangeAt_nonneg (l : Line) (n : Nat) : 0 ≤ rangeAt l n := by
  unfold rangeAt
  positivity

theorem passes_flat (limit : ℝ) : passes limit (some (Real.pi * 0.5)) ↔ 0 < limit := by
  simp [passes]

theorem used_iff (cfg : Config) (s : Scan) (l : Line) (n : Nat) :
    (rangeAt l n > cfg.minRange ∧ rangeAt l n < cfg.maxRange ∧ passes cfg.maxEdgeAngle (angleNext s l n) ∧ passes cfg.maxEdgeAngle (anglePrev s l n)) ↔ Used cfg (2 * s.deltaPsi) l n := by
  unfold Used angleNext anglePrev
  have hpos : ∀ t a b, Flat cfg.maxEdgeAngle t a b → 0 < cfg.maxEdgeAngle := fun t a b h => lt_of_le_of_lt (abs_nonneg _) h.2.2
  split_ifs with h1 h2 h2
  · rw [passes_iff _ _ _ _ (rangeAt_nonneg _ _), passes_iff _ _ _ _ (rangeAt_nonneg _ _)]
    exact ⟨fun h => ⟨h.1, h.2.1, hpos _ _ _ h.2.2.1, fun _ => h.2.2.1, fun _ => h.2.2.2⟩, fun h => ⟨h.1, h.2.1, h.2.2.2.1 h1, h.2.2.2.2 h2⟩⟩
  · rw [passes_iff _ _ _ _ (rangeAt_nonneg _ _), passes_flat]
    exact ⟨fun h => ⟨h.1, h.2.1, h.2.2.2, fun _ => h.2.2.1, fun h' => absurd h' h2⟩, fun h => ⟨h.1, h.2.1, h.2.2.2.1 h1, h.2.2.1⟩⟩
  · rw [passes_iff _ _ _ _ (rangeAt_nonneg _ _), passes_flat]
    exact ⟨fun h => ⟨h.1, h.2.1, h.2.2.1, fun h' => absurd h' h1, fun _ => h.2.2.2⟩, fun h => ⟨h.1, h.2.1, h.2.2.1, h.2.2.2.2 h2⟩⟩
  · rw [passes_flat]
    exact ⟨fun h => ⟨h.1, h.2.1, h.2.2.1, fun h' => absurd h' h1, fun h' => absurd h' h2⟩, fun h => ⟨h.1, h.2.1, h.2.2.1, h.2.2.1⟩⟩

theorem lineItems_eq (cfg : Config) (s : Scan) (l : Line) : ∀ (rest : List Nat) (n : Nat), l.ranges.drop n = rest →
    lineItems cfg s l n (s.originPsi + n * s.deltaPsi) (anglePrev s l n) rest = (List.range' n rest.length).map (itemAt cfg s l) := by
  intro rest
  induction rest with
  | nil => intro n _; rfl
  | cons r rest ih =>
    intro n hn
    have hlen : n + rest.length + 1 = l.ranges.length := by
      have := congrArg List.length hn
      simp at this
      omega
    have hr : l.ranges[n]? = some r := by
      rw [← List.head?_drop, hn]
      rfl
    have hrest : l.ranges.drop (n + 1) = rest := by
      rw [← List.drop_drop, hn]
      rfl
    have hrange : (r : ℝ) / 1000 = rangeAt l n := by
      simp [rangeAt, hr]
    have hang : angleOf s.deltaPsi r rest = angleNext s l n := by
      unfold angleNext
      cases rest with
      | nil =>
        rw [if_neg (by simp at hlen; omega)]
        rfl
      | cons r' rest' =>
        rw [if_pos (by simp at hlen; omega)]
        have : l.ranges[n + 1]? = some r' := by
          rw [← List.head?_drop, hrest]
          rfl
        unfold angleOf
        rw [hrange]
        simp [rangeAt, this]
    have hnext : angleNext s l n = anglePrev s l (n + 1) ∨ rest = [] := by
      cases rest with
      | nil => exact .inr rfl
      | cons r' rest' =>
        left
        unfold angleNext anglePrev
        rw [if_pos (by simp at hlen; omega), if_pos (by omega), Nat.add_sub_cancel]
    have hitem : lineItems cfg s l n (s.originPsi + n * s.deltaPsi) (anglePrev s l n) (r :: rest) =
        itemAt cfg s l n :: lineItems cfg s l (n + 1) (s.originPsi + n * s.deltaPsi + s.deltaPsi) (angleNext s l n) rest := by
      rw [lineItems]
      rw [hang, hrange]
      unfold itemAt
      by_cases hu : Used cfg (2 * s.deltaPsi) l n
      · rw [if_pos hu, if_pos ((used_iff cfg s l n).2 hu)]
      · rw [if_neg hu, if_neg (fun h => hu ((used_iff cfg s l n).1 h))]
    rw [hitem, List.length_cons, List.range'_succ, List.map_cons]
    congr 1
    rcases hnext with h | h
    · rw [h, ← ih (n + 1) hrest]
      congr 1
      push_cast
      ring
    · rw [h]
      rfl

theorem items_eq (cfg : Config) (s : Scan) : items cfg s = s.lines.map fun l => (List.range l.ranges.length).map (itemAt cfg s l) := by
  unfold items
  apply List.map_congr_left
  intro l _
  have := lineItems_eq cfg s l l.ranges 0 rfl
  simp only [Nat.cast_zero, zero_mul, add_zero] at this
  rw [show anglePrev s l 0 = some (Real.pi * 0.5) from if_neg (by omega)] at this
  rw [this, List.range_eq_range']

theorem makeVertex_pos (s : Scan) (h : s.xForward = false ∨ s.offset = 0) (phi psi range : ℝ) : (makeVertex s phi psi range).pos = tilt s.xForward phi (ray s.xForward psi range + s.offset) := by
  obtain ⟨d, p, q, ⟨o1, o2, o3⟩, n, l, x⟩ := s
  simp only at h
  rcases h with h | h
  · subst h
    simp only [makeVertex, position, rotX, tilt, ray, Bool.false_eq_true, if_false, Prod.mk_add_mk, Prod.mk.injEq]
    refine ⟨by ring, by ring, by ring⟩
  · simp only [Prod.mk_eq_zero] at h
    obtain ⟨rfl, rfl, rfl⟩ := h
    simp only [makeVertex, position, rotX, tilt, ray]
    cases x
    · simp only [Bool.false_eq_true, if_false, Prod.mk_add_mk, Prod.mk.injEq]
      refine ⟨by ring, by ring, by ring⟩
    · simp only [if_true, Prod.mk_add_mk, Prod.mk.injEq]
      refine ⟨by ring, by ring, by ring⟩

/-- the conditions of `C103_mesh_partial` -/
structure Regular (cfg : Config) (s : Scan) : Prop where
  fit : ∀ l ∈ s.lines, l.ranges.length ≤ s.pointsPerLine
  order : s.lines.Pairwise fun l l' => l'.ranges.length ≤ l.ranges.length
  colours : cfg.useRemission = false ∨ (∀ l ∈ s.lines, l.ranges.length = l.remissions.length) ∨ ∀ l ∈ s.lines, l.ranges.length ≠ l.remissions.length

theorem Regular.lengths {cfg : Config} {s : Scan} (h : Regular cfg s) : Lengths s.pointsPerLine (items cfg s) := by
  rw [items_eq]
  constructor
  · intro l hl
    rw [List.mem_map] at hl
    obtain ⟨l', hl', rfl⟩ := hl
    simpa using h.fit l' hl'
  · rw [List.pairwise_map]
    exact h.order.imp fun h => by simpa using h

theorem Regular.coloured {cfg : Config} {s : Scan} (h : Regular cfg s) : Coloured (items cfg s) := by
  rw [items_eq]
  have key : ∀ it ∈ (s.lines.map fun l => (List.range l.ranges.length).map (itemAt cfg s l)).flatten, ∃ l ∈ s.lines, ∃ n, it.colour = makeColour cfg l n := by
    intro it hit
    simp only [List.mem_flatten, List.mem_map] at hit
    obtain ⟨_, ⟨l, hl, rfl⟩, hit⟩ := hit
    rw [List.mem_map] at hit
    obtain ⟨n, -, rfl⟩ := hit
    exact ⟨l, hl, n, rfl⟩
  by_cases hu : cfg.useRemission = true ∧ ∀ l ∈ s.lines, l.ranges.length = l.remissions.length
  · left
    intro it hit _
    obtain ⟨l, hl, n, e⟩ := key it hit
    rw [e, makeColour, if_pos ⟨hu.1, hu.2 l hl⟩]
    rfl
  · right
    intro it hit _
    obtain ⟨l, hl, n, e⟩ := key it hit
    rw [e, makeColour, if_neg]
    rintro ⟨h1, h2⟩
    rcases h.colours with h' | h' | h'
    · rw [h1] at h'; cases h'
    · exact hu ⟨h1, h'⟩
    · exact h' l hl h2

open Classical in
/-- C104 for scans as in C103, with y forward or without offset, and with the angle between the rays of neighbouring readings taken twice as large as it is: the vertices are the readings within the limits, at their
positions, and the edges of the faces are shorter than the limit -/
theorem C104_vertices_partial (cfg : Config) (s : Scan) (h : Regular cfg s) (hx : s.xForward = false ∨ s.offset = 0) :
    ∃ m, updateAll cfg s = .ok m ∧
      m.points = s.lines.flatMap (fun l => (List.range l.ranges.length).filterMap fun n => if Used cfg (2 * s.deltaPsi) l n then some ⟨place s l n, (min (rangeAt l n / 100) (1 / 50)) ^ 2⟩ else none) ∧
      (∀ cs, m.colors = some cs → cs = s.lines.flatMap (fun l => (List.range l.ranges.length).filterMap fun n =>
        if Used cfg (2 * s.deltaPsi) l n then some (min 1 (max 0 ((l.remissions.getD n 0 : ℝ) / cfg.remissionScaleFactor))) else none)) ∧
      ∀ f ∈ m.faces, ∃ x y z, m.points[f.1.toNat]? = some x ∧ m.points[f.2.1.toNat]? = some y ∧ m.points[f.2.2.toNat]? = some z ∧ dist x.pos y.pos < cfg.maxEdgeLength ∧ dist x.pos z.pos < cfg.maxEdgeLength ∧
        dist y.pos z.pos < cfg.maxEdgeLength := by
  obtain ⟨m, e, hp, -, -, hcol, -⟩ := C103_mesh_partial (close cfg) s.pointsPerLine (items cfg s) h.lengths h.coloured
  obtain ⟨m', e', hf, -⟩ := C103_surface_partial (close cfg) s.pointsPerLine (items cfg s) h.lengths h.coloured
  rw [e] at e'
  cases e'
  refine ⟨m, e, ?_, ?_, ?_⟩
  · rw [hp, items_eq, List.filterMap_flatten, List.map_map, List.flatMap_def]
    congr 1
    apply List.map_congr_left
    intro l _
    rw [Function.comp, List.filterMap_map]
    apply List.filterMap_congr
    intro n _
    simp only [Function.comp, itemAt]
    split_ifs
    · congr 1
      have : makeVertex s (s.originPhi + l.deltaPhi) (s.originPsi + n * s.deltaPsi) (rangeAt l n) = ⟨(makeVertex s (s.originPhi + l.deltaPhi) (s.originPsi + n * s.deltaPsi) (rangeAt l n)).pos, (min (0.01 * rangeAt l n) 0.02) ^ 2⟩ := rfl
      rw [this, makeVertex_pos s hx]
      unfold place
      congr 3
      · norm_num
        ring
      · norm_num
    · rfl
  · intro cs hcs
    have hlen := hcol cs hcs
    rw [hlen.1, items_eq, List.filterMap_flatten, List.map_map, List.flatMap_def]
    congr 1
    apply List.map_congr_left
    intro l hl
    rw [Function.comp, List.filterMap_map]
    apply List.filterMap_congr
    intro n hn
    simp only [Function.comp, itemAt]
    split_ifs with hu
    · simp only [Option.bind_some]
      by_cases hall : cfg.useRemission = true ∧ l.ranges.length = l.remissions.length
      · rw [makeColour, if_pos hall]
      · exfalso
        have hnone : ∀ it ∈ (items cfg s).flatten, it.colour = none := by
          intro it hit
          rw [items_eq] at hit
          simp only [List.mem_flatten, List.mem_map] at hit
          obtain ⟨_, ⟨l', hl', rfl⟩, hit⟩ := hit
          rw [List.mem_map] at hit
          obtain ⟨k, -, rfl⟩ := hit
          show makeColour cfg l' k = none
          rw [makeColour, if_neg]
          rintro ⟨h1, h2⟩
          rcases h.colours with h' | h' | h'
          · rw [h1] at h'; cases h'
          · exact hall ⟨h1, h' l hl⟩
          · exact h' l' hl' h2
        have h0 : cs.length = 0 := by
          rw [hlen.1, List.length_eq_zero_iff, List.filterMap_eq_nil_iff]
          intro it hit
          rw [hnone it hit]
          cases it.point <;> rfl
        have h1 : m.points ≠ [] := by
          rw [hp, ne_eq, List.filterMap_eq_nil_iff]
          intro hh
          have := hh (itemAt cfg s l n) (by
            rw [items_eq, List.mem_flatten]
            exact ⟨_, List.mem_map.2 ⟨l, hl, rfl⟩, List.mem_map.2 ⟨n, hn, rfl⟩⟩)
          simp [itemAt, hu] at this
        rw [hlen.2, List.length_eq_zero_iff] at h0
        exact h1 h0
    · rfl
  · intro f hfm
    obtain ⟨-, -, -, x, y, z, -, -, -, hx1, hy1, hz1, n1, n2, n3⟩ := hf f hfm
    have hsym : ∀ a b : Vertex, close cfg a b = true ∨ close cfg b a = true → dist a.pos b.pos < cfg.maxEdgeLength := by
      intro a b hab
      have hc : dist a.pos b.pos = dist b.pos a.pos := by
        unfold dist
        congr 1
        ring
      simp only [close, decide_eq_true_eq] at hab
      rcases hab with h | h
      · exact h
      · rw [hc]; exact h
    exact ⟨x, y, z, hx1, hy1, hz1, hsym _ _ n1, hsym _ _ n2, hsym _ _ n3⟩

/-- C104: the tilt is a rigid motion: the distance of the position of a reading from the tilted position of the scanner is the range, and the distances of readings of a line do not depend on the tilt -/
theorem C104_rigid (x : Bool) (phi : ℝ) (a b : ℝ × ℝ × ℝ) : dist (tilt x phi a) (tilt x phi b) = dist a b := by
  obtain ⟨a1, a2, a3⟩ := a
  obtain ⟨b1, b2, b3⟩ := b
  have := Real.sin_sq_add_cos_sq phi
  unfold dist tilt
  congr 1
  cases x
  · simp only [Bool.false_eq_true, if_false]
    linear_combination ((a2 - b2) ^ 2 + (a3 - b3) ^ 2) * this
  · simp only [if_true]
    linear_combination ((a1 - b1) ^ 2 + (a3 - b3) ^ 2) * this

theorem C104_range (s : Scan) (l : Line) (n : Nat) : dist (place s l n) (tilt s.xForward (s.originPhi + l.deltaPhi) s.offset) = rangeAt l n := by
  unfold place
  rw [C104_rigid]
  unfold dist ray
  have := Real.sin_sq_add_cos_sq (s.originPsi + n * s.deltaPsi)
  cases s.xForward
  · simp only [Bool.false_eq_true, if_false, Prod.fst_add, Prod.snd_add]
    rw [← Real.sqrt_sq (rangeAt_nonneg l n)]
    congr 1
    rw [Real.sqrt_sq (rangeAt_nonneg l n)]
    linear_combination (rangeAt l n) ^ 2 * this
  · simp only [if_true, Prod.fst_add, Prod.snd_add]
    rw [← Real.sqrt_sq (rangeAt_nonneg l n)]
    congr 1
    rw [Real.sqrt_sq (rangeAt_nonneg l n)]
    linear_combination (rangeAt l n) ^ 2 * this

/-- a line with one reading of one metre, tilted by a right angle, of a scanner 1 m in front of the axis -/
noncomputable def tilted (x : Bool) (offset : ℝ × ℝ × ℝ) : Scan :=
  { deltaPsi := 1 / 100, originPsi := 0, originPhi := 0, offset := offset, pointsPerLine := 1, lines := [⟨Real.pi / 2, [1000], []⟩], xForward := x }

noncomputable def defaults : Config := { maxEdgeAngle := Real.pi / 6, maxEdgeLength := 1 / 2, remissionScaleFactor := 10000, minRange := 1 / 10, maxRange := 10, useRemission := false }

theorem defaults_angle : 0 < defaults.maxEdgeAngle := by
  show 0 < Real.pi / 6
  have := Real.pi_pos
  positivity

theorem tilted_regular (x : Bool) (offset : ℝ × ℝ × ℝ) : Regular defaults (tilted x offset) :=
  ⟨by simp [tilted], by simp [tilted], .inl rfl⟩

theorem tilted_used (x : Bool) (offset : ℝ × ℝ × ℝ) (t : ℝ) : Used defaults t ⟨Real.pi / 2, [1000], []⟩ 0 := by
  refine ⟨?_, ?_, defaults_angle, by simp, by simp⟩
  · simp [defaults, rangeAt]
    norm_num
  · simp [defaults, rangeAt]

/-- an example for `C104_vertices_partial`: with y forward the scanner is above the axis, and so is the reading -/
example : Regular defaults (tilted false (0, 1, 0)) ∧ Used defaults (2 * (tilted false (0, 1, 0)).deltaPsi) ⟨Real.pi / 2, [1000], []⟩ 0 ∧ place (tilted false (0, 1, 0)) ⟨Real.pi / 2, [1000], []⟩ 0 = (0, 0, 2) := by
  refine ⟨tilted_regular _ _, tilted_used false (0, 1, 0) _, ?_⟩
  simp [place, tilt, ray, tilted, rangeAt]
  norm_num

/-- the code violates C104: with x forward the offset is rotated about the x axis, about which the scanner is not tilted -/
theorem C104_x_forward : ∃ m v, updateAll defaults (tilted true (1, 0, 0)) = .ok m ∧ m.points = [v] ∧ v.pos = (1, 0, 1) ∧ place (tilted true (1, 0, 0)) ⟨Real.pi / 2, [1000], []⟩ 0 = (0, 0, 2) := by
  obtain ⟨m, e, hp, -⟩ := C103_mesh_partial (close defaults) 1 (items defaults (tilted true (1, 0, 0))) (tilted_regular true (1, 0, 0)).lengths (tilted_regular true (1, 0, 0)).coloured
  refine ⟨m, makeVertex (tilted true (1, 0, 0)) (Real.pi / 2) 0 1, e, ?_, ?_, ?_⟩
  · rw [hp, items_eq]
    have hu := tilted_used true (1, 0, 0) (2 * (tilted true (1, 0, 0)).deltaPsi)
    have hi : itemAt defaults (tilted true (1, 0, 0)) ⟨Real.pi / 2, [1000], []⟩ 0 =
        ⟨some (makeVertex (tilted true (1, 0, 0)) (Real.pi / 2) 0 1), (itemAt defaults (tilted true (1, 0, 0)) ⟨Real.pi / 2, [1000], []⟩ 0).colour, (itemAt defaults (tilted true (1, 0, 0)) ⟨Real.pi / 2, [1000], []⟩ 0).flip⟩ := by
      unfold itemAt
      rw [if_pos hu]
      simp [tilted, rangeAt]
    show List.filterMap (·.point) ([(List.range 1).map (itemAt defaults (tilted true (1, 0, 0)) ⟨Real.pi / 2, [1000], []⟩)].flatten) = _
    simp only [List.range_one, List.map_cons, List.map_nil, List.flatten_cons, List.flatten_nil, List.append_nil]
    rw [hi]
    rfl
  · simp [makeVertex, position, rotX, tilted]
  · simp [place, tilt, ray, tilted, rangeAt]
    norm_num

/-- two readings of 3 m and 4 m whose rays have an angle of 45° -/
noncomputable def corner45 : Scan :=
  { deltaPsi := Real.pi / 4, originPsi := 0, originPhi := 0, offset := 0, pointsPerLine := 2, lines := [⟨0, [3000, 4000], []⟩], xForward := false }

/-- the code violates C104: the filter takes the angle between the rays twice as large as it is, and the readings are not used, although the angle at the first one differs from a right angle by less than the limit -/
theorem C104_filter : (∃ m, updateAll defaults corner45 = .ok m ∧ m.points = []) ∧ Used defaults corner45.deltaPsi ⟨0, [3000, 4000], []⟩ 0 ∧ Used defaults corner45.deltaPsi ⟨0, [3000, 4000], []⟩ 1 := by
  have hpi := Real.pi_pos
  have hreg : Regular defaults corner45 := ⟨by simp [corner45], by simp [corner45], .inl rfl⟩
  have h3 : rangeAt ⟨0, [3000, 4000], []⟩ 0 = 3 := by simp [rangeAt]; norm_num
  have h4 : rangeAt ⟨0, [3000, 4000], []⟩ 1 = 4 := by simp [rangeAt]; norm_num
  have hflat : Flat defaults.maxEdgeAngle (Real.pi / 4) 3 4 := by
    rw [show Real.pi / 4 = 2 * (Real.pi / 8) by ring, ← passes_iff _ _ _ _ (by norm_num)]
    unfold edgeAngle
    rw [show 2 * (Real.pi / 8) = Real.pi / 4 by ring, Real.cos_pi_div_four]
    have hs : (1.41 : ℝ) < Real.sqrt 2 := Real.lt_sqrt_of_sq_lt (by norm_num)
    have hs' : Real.sqrt 2 < (1.42 : ℝ) := (Real.sqrt_lt' (by norm_num)).2 (by norm_num)
    have hc1 : 1 ≤ Real.sqrt (3 ^ 2 + 4 ^ 2 - 2 * 3 * 4 * (Real.sqrt 2 / 2)) := by
      rw [Real.one_le_sqrt]
      linarith
    have hc2 := Real.sq_sqrt (show (0 : ℝ) ≤ 3 ^ 2 + 4 ^ 2 - 2 * 3 * 4 * (Real.sqrt 2 / 2) by linarith)
    generalize Real.sqrt (3 ^ 2 + 4 ^ 2 - 2 * 3 * 4 * (Real.sqrt 2 / 2)) = c at *
    dsimp only
    rw [if_neg (by positivity)]
    show |Real.arccos _ - _| < Real.pi / 6
    rw [hc2, Real.arccos, show ∀ a : ℝ, Real.pi / 2 - a - Real.pi * 0.5 = -a by intro a; ring, abs_neg]
    have hx0 : 0 ≤ (3 ^ 2 - 4 ^ 2 + (3 ^ 2 + 4 ^ 2 - 2 * 3 * 4 * (Real.sqrt 2 / 2))) / (2 * 3 * c) := by
      apply div_nonneg <;> nlinarith
    have hx1 : (3 ^ 2 - 4 ^ 2 + (3 ^ 2 + 4 ^ 2 - 2 * 3 * 4 * (Real.sqrt 2 / 2))) / (2 * 3 * c) < 1 / 2 := by
      rw [div_lt_iff₀ (by positivity)]
      nlinarith
    rw [abs_of_nonneg (Real.arcsin_nonneg.2 hx0)]
    rw [Real.arcsin_lt_iff_lt_sin' ⟨by linarith, by linarith⟩, Real.sin_pi_div_six]
    exact hx1
  have hnot : ¬ Flat defaults.maxEdgeAngle (2 * (Real.pi / 4)) 3 4 := by
    rw [← passes_iff _ _ _ _ (by norm_num)]
    unfold edgeAngle
    rw [show 2 * (Real.pi / 4) = Real.pi / 2 by ring, Real.cos_pi_div_two]
    have : Real.sqrt (3 ^ 2 + 4 ^ 2 - 2 * 3 * 4 * 0) = 5 := by
      rw [show (3 : ℝ) ^ 2 + 4 ^ 2 - 2 * 3 * 4 * 0 = 5 ^ 2 by norm_num, Real.sqrt_sq (by norm_num)]
    dsimp only
    rw [this, if_neg (by norm_num)]
    show ¬ |Real.arccos _ - _| < Real.pi / 6
    rw [Real.arccos, show ∀ a : ℝ, Real.pi / 2 - a - Real.pi * 0.5 = -a by intro a; ring, abs_neg]
    rw [abs_of_nonneg (Real.arcsin_nonneg.2 (by norm_num)), not_lt]
    rw [Real.le_arcsin_iff_sin_le' ⟨by linarith, by linarith⟩, Real.sin_pi_div_six]
    norm_num
  refine ⟨?_, ?_, ?_⟩
  · obtain ⟨m, e, hp, -⟩ := C104_vertices_partial defaults corner45 hreg (.inl rfl)
    refine ⟨m, e, ?_⟩
    rw [hp]
    have h0 : ¬ Used defaults (2 * corner45.deltaPsi) ⟨0, [3000, 4000], []⟩ 0 := by
      intro h
      have := h.2.2.2.1 (by simp)
      rw [h3, h4] at this
      exact hnot this
    have h1 : ¬ Used defaults (2 * corner45.deltaPsi) ⟨0, [3000, 4000], []⟩ 1 := by
      intro h
      have := h.2.2.2.2 (by simp)
      rw [show 1 - 1 = 0 from rfl, h3, h4] at this
      exact hnot this
    show List.flatMap _ [(⟨0, [3000, 4000], []⟩ : Line)] = []
    simp [List.range_succ, h0, h1]
  · refine ⟨?_, ?_, defaults_angle, ?_, by simp⟩
    · rw [h3]; simp [defaults]; norm_num
    · rw [h3]; simp [defaults]; norm_num
    · intro _
      rw [h3, h4]
      exact hflat
  · refine ⟨?_, ?_, defaults_angle, by simp, ?_⟩
    · rw [h4]; simp [defaults]; norm_num
    · rw [h4]; simp [defaults]; norm_num
    · intro _
      rw [show 1 - 1 = 0 from rfl, h3, h4]
      exact hflat

#print axioms C104_vertices_partial
#print axioms C104_rigid
#print axioms C104_range
#print axioms C104_x_forward
#print axioms C104_filter

end Envire.Mesh
