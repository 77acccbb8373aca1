import Verif.Viz.ScanViewModel
import Mathlib.Tactic.Linarith
import Mathlib.Tactic.Ring
import Mathlib.Tactic.FieldSimp

/-!
C173: laser scans in the visualization.
-/

namespace Envire.ScanView
open Mesh (Scan Line rotX makeVertex position Config items lineItems)

theorem linePoints_length (a b : ℝ) : ∀ (l : List Nat) (i : Nat), (linePoints a b i l).length = l.length := by
  intro l
  induction l with
  | nil => intro i; rfl
  | cons r l ih => intro i; simp [linePoints, ih]

theorem linePoints_get (a b : ℝ) : ∀ (l : List Nat) (i k r : Nat), l[k]? = some r → (linePoints a b i l)[k]? = some (linePoint a b (i + k) r) := by
  intro l
  induction l with
  | nil => intro i k r h; simp at h
  | cons x l ih =>
    intro i k r h
    cases k with
    | zero =>
      have : x = r := by simpa using h
      subst this
      rfl
    | succ k =>
      have := ih (i + 1) k r (by simpa using h)
      rw [show i + 1 + k = i + (k + 1) by omega] at this
      simpa [linePoints] using this

/-- specification: a reading of a scan: line, number in the line and range in millimetres -/
def Reading (s : Scan) (j i r : Nat) (l : Line) : Prop := s.lines[j]? = some l ∧ l.ranges[i]? = some r

/-- specification: where a reading of a scanner that looks along y is: the ray in the plane of the scanner, from the place of the scanner, turned about the x axis by the angle of the line -/
noncomputable def place (s : Scan) (l : Line) (i r : Nat) : ℝ × ℝ × ℝ :=
  let psi := s.originPsi + i * s.deltaPsi
  let phi := s.originPhi + l.deltaPhi
  let u := s.offset.1 - Real.sin psi * (r / 1000)
  let v := s.offset.2.1 + Real.cos psi * (r / 1000)
  (u, Real.cos phi * v - Real.sin phi * s.offset.2.2, Real.sin phi * v + Real.cos phi * s.offset.2.2)

theorem transformed_place (s : Scan) (l : Line) (i r : Nat) : transformed s l (linePoint s.deltaPsi s.originPsi i r) = place s l i r := by
  have h : s.deltaPsi * i + s.originPsi = s.originPsi + i * s.deltaPsi := by ring
  unfold transformed linePoint place rotX
  simp only [h, Prod.fst_add, Prod.snd_add, Prod.mk.injEq]
  refine ⟨by ring, by ring, by ring⟩

/-- **C173** (partial) For every reading of a scan exactly one point is drawn, in the order of the lines and of the readings, at the place where the reading of a scanner that looks along y is.
Missing: scanners that look along x (C173_forward_deviation), changes of a scan (C173_update_deviation). -/
theorem C173_points_partial (s : Scan) :
    (draw s).length = s.lines.length ∧ ∀ (j : Nat) l, s.lines[j]? = some l → ∃ d, (draw s)[j]? = some d ∧ d.points.length = l.ranges.length ∧
      ∀ (i : Nat) r, l.ranges[i]? = some r → d.points[i]? = some (place s l i r) := by
  refine ⟨by simp [draw], fun j l hj => ⟨{ points := (linePoints s.deltaPsi s.originPsi 0 l.ranges).map (transformed s l), colours := lineColours l }, by simp [draw, hj], by simp [linePoints_length], fun i r hr => ?_⟩⟩
  have := linePoints_get s.deltaPsi s.originPsi l.ranges 0 i r hr
  rw [List.getElem?_map, this, Nat.zero_add, Option.map_some, transformed_place]

theorem place_eq (s : Scan) (hx : s.xForward = false) (l : Line) (i r : Nat) :
    place s l i r = (makeVertex s (s.originPhi + l.deltaPhi) (s.originPsi + i * s.deltaPsi) (r / 1000)).pos := by
  unfold place makeVertex position rotX
  simp only [hx, Bool.false_eq_true, if_false, Prod.mk_add_mk, Prod.mk.injEq]
  refine ⟨by ring, by ring, by ring⟩

theorem lineItems_get (cfg : Config) (s : Scan) (l : Line) : ∀ (rs : List Nat) (n : Nat) (psi : ℝ) (prev : Option ℝ) (k : Nat) it v, (lineItems cfg s l n psi prev rs)[k]? = some it → it.point = some v →
    ∃ r, rs[k]? = some r ∧ v = makeVertex s (s.originPhi + l.deltaPhi) (psi + k * s.deltaPsi) (r / 1000) := by
  intro rs
  induction rs with
  | nil => intro n psi prev k it v h; simp [lineItems] at h
  | cons r rs ih =>
    intro n psi prev k it v h hv
    rw [lineItems] at h
    cases k with
    | zero =>
      have h' := Option.some.inj (by simpa only [List.getElem?_cons_zero] using h)
      subst h'
      dsimp only at hv
      by_cases hc : ((r : ℝ) / 1000 > cfg.minRange ∧ (r : ℝ) / 1000 < cfg.maxRange ∧ Mesh.passes cfg.maxEdgeAngle (Mesh.angleOf s.deltaPsi r rs) ∧ Mesh.passes cfg.maxEdgeAngle prev)
      · rw [if_pos hc] at hv
        refine ⟨r, rfl, ?_⟩
        have := (Option.some.inj hv).symm
        rw [this]
        congr 1
        push_cast
        ring
      · rw [if_neg hc] at hv
        cases hv
    | succ k =>
      obtain ⟨r', h1, h2⟩ := ih (n + 1) (psi + s.deltaPsi) _ k it v (by simpa only [List.getElem?_cons_succ] using h) hv
      refine ⟨r', by simpa using h1, ?_⟩
      rw [h2]
      congr 1
      push_cast
      ring

/-- C173: scans and the meshes made from them fit: each vertex that ScanMeshing makes from a reading of a scanner that looks along y is at the drawn point of this reading, for all settings of the operator. -/
theorem C173_mesh_partial (s : Scan) (hx : s.xForward = false) (cfg : Config) {j i : Nat} {its : List (Mesh.Item Mesh.Vertex ℝ)} {it : Mesh.Item Mesh.Vertex ℝ} {v : Mesh.Vertex}
    (hj : (items cfg s)[j]? = some its) (hi : its[i]? = some it) (hv : it.point = some v) : ∃ d, (draw s)[j]? = some d ∧ d.points[i]? = some v.pos := by
  unfold items at hj
  rw [List.getElem?_map] at hj
  cases hl : s.lines[j]? with
  | none => rw [hl] at hj; cases hj
  | some l =>
    rw [hl] at hj
    have hj' := Option.some.inj hj
    rw [← hj'] at hi
    obtain ⟨r, h1, h2⟩ := lineItems_get cfg s l l.ranges 0 s.originPsi _ i it v hi hv
    obtain ⟨d, g1, _, g3⟩ := (C173_points_partial s).2 j l hl
    refine ⟨d, g1, ?_⟩
    rw [g3 i r h1, place_eq s hx, h2]

/-- a scan of one line with two readings: one metre straight ahead (along y), two metres to the left -/
noncomputable def exScan : Scan :=
  { deltaPsi := Real.pi / 2, originPsi := 0, originPhi := 0, offset := (0, 0, 1), pointsPerLine := 2, lines := [{ deltaPhi := 0, ranges := [1000, 2000], remissions := [2500, 7000] }], xForward := false }

example : place exScan { deltaPhi := 0, ranges := [1000, 2000], remissions := [2500, 7000] } 0 1000 = (0, 1, 1) ∧
    place exScan { deltaPhi := 0, ranges := [1000, 2000], remissions := [2500, 7000] } 1 2000 = (-2, 0, 1) := by
  unfold place exScan
  simp only [Prod.mk.injEq]
  norm_num

/-- C173: with a remission for each reading the point of a reading is as bright as its remission, 5000 and more is white; otherwise no colours are set. -/
theorem C173_colours (s : Scan) (j : Nat) (l : Line) (hj : s.lines[j]? = some l) : ∃ d, (draw s)[j]? = some d ∧
    (l.remissions.length = l.ranges.length → ∃ cs, d.colours = some cs ∧ cs.length = d.points.length ∧ ∀ (i m : Nat), l.remissions[i]? = some m → ∃ c, cs[i]? = some c ∧ 0 ≤ c ∧ c ≤ 1 ∧ (5000 ≤ m → c = 1) ∧ (m < 5000 → 5000 * c = m)) ∧
    (l.remissions.length ≠ l.ranges.length → d.colours = none) := by
  refine ⟨{ points := (linePoints s.deltaPsi s.originPsi 0 l.ranges).map (transformed s l), colours := lineColours l }, by simp [draw, hj], fun h => ⟨l.remissions.map grey, by simp [lineColours, h], by simp [linePoints_length, h], fun i m hm => ⟨grey m, by simp [hm], ?_⟩⟩, fun h => by simp [lineColours, Ne.symm h]⟩
  have h0 : (0 : ℝ) ≤ (m : ℝ) / 5000 := by positivity
  unfold grey
  rw [max_eq_right h0]
  refine ⟨le_min zero_le_one h0, min_le_left _ _, fun h5 => min_eq_left ?_, fun h5 => ?_⟩
  · rw [le_div_iff₀ (by norm_num), one_mul]
    exact_mod_cast h5
  · rw [min_eq_right]
    · ring
    · rw [div_le_iff₀ (by norm_num), one_mul]
      exact_mod_cast h5.le

/-- Violation: for a scanner that looks along x the drawn point of a reading is not at the vertex of the mesh, unless the range is 0 or the scanner looks straight up or down along the ray in its middle. -/
theorem C173_forward_deviation (s : Scan) (hx : s.xForward = true) (l : Line) (i r : Nat) :
    place s l i r = (makeVertex s (s.originPhi + l.deltaPhi) (s.originPsi + i * s.deltaPsi) (r / 1000)).pos ↔
      r = 0 ∨ (Real.sin (s.originPsi + i * s.deltaPsi) = 0 ∧ Real.cos (s.originPhi + l.deltaPhi) = 0) := by
  unfold place makeVertex position rotX
  simp only [hx, if_true, Prod.mk_add_mk, Prod.mk.injEq]
  have hsc := Real.sin_sq_add_cos_sq (s.originPsi + i * s.deltaPsi)
  generalize Real.sin (s.originPsi + i * s.deltaPsi) = sp at *
  generalize Real.cos (s.originPsi + i * s.deltaPsi) = cp at *
  generalize Real.sin (s.originPhi + l.deltaPhi) = sf at *
  generalize Real.cos (s.originPhi + l.deltaPhi) = cf at *
  constructor
  · rintro ⟨h1, h2, _⟩
    by_cases hr : r = 0
    · exact .inl hr
    · right
      have hr0 : ((r : ℝ) / 1000) ≠ 0 := by
        have : (r : ℝ) ≠ 0 := by exact_mod_cast hr
        positivity
      generalize ((r : ℝ) / 1000) = q at *
      have e1 : (cf * cp + sp) * q = 0 := by linarith
      have e2 : (cf * cp - sp) * q = 0 := by linarith
      have e1' := (mul_eq_zero.1 e1).resolve_right hr0
      have e2' := (mul_eq_zero.1 e2).resolve_right hr0
      have hs : sp = 0 := by linarith
      have hcp : cp ≠ 0 := by
        rintro rfl
        rw [hs] at hsc
        norm_num at hsc
      have : cf * cp = 0 := by linarith
      exact ⟨hs, (mul_eq_zero.1 this).resolve_right hcp⟩
  · rintro (rfl | ⟨h1, h2⟩)
    · simp
    · simp [h1, h2]
      ring

example : place { exScan with xForward := true } { deltaPhi := 0, ranges := [1000, 2000], remissions := [2500, 7000] } 0 1000 ≠
    (makeVertex { exScan with xForward := true } (0 + 0) (0 + (0 : Nat) * (Real.pi / 2)) ((1000 : Nat) / 1000)).pos := by
  intro h
  have := (C173_forward_deviation { exScan with xForward := true } rfl _ 0 1000).1 h
  rcases this with h | ⟨_, h⟩
  · cases h
  · simp [exScan] at h

/-- Violation: changes of a scan are never drawn. -/
theorem C173_update_deviation : ∃ s t : Scan, draw s ≠ draw t ∧ updateNode t (draw s) = draw s :=
  ⟨exScan, { exScan with lines := [] }, by simp [draw, exScan], rfl⟩

#print axioms C173_points_partial
#print axioms C173_mesh_partial
#print axioms C173_colours
#print axioms C173_forward_deviation
#print axioms C173_update_deviation

end Envire.ScanView
