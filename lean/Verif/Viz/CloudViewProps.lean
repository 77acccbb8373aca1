import Verif.Viz.CloudViewModel
import Mathlib.Tactic.Linarith
import Mathlib.Tactic.NormNum
import Mathlib.Tactic.Positivity

/-!
C174: drawing of point clouds, meshes and trajectories. The colours of highlighted clouds and meshes (C175).
-/
namespace Envire.CloudView

/-! ### specification: what is seen of a geometry -/

/-- a dot at `p` in the colour `c` -/
inductive SeesDot (g : Geometry) (i : Nat) : V3 → Rgba → Prop
  | one {n : Nat} {c : Rgba} {p : V3} : g.prim = .points n → i < n → g.vertices[i]? = some p → g.colours = .overall c → SeesDot g i p c
  | own {n : Nat} {l : List Rgba} {c : Rgba} {p : V3} : g.prim = .points n → i < n → g.vertices[i]? = some p → g.colours = .perVertex l → l[i]? = some c → SeesDot g i p c

/-- a segment from `p` to `q` -/
inductive SeesSegment (g : Geometry) (i : Nat) : V3 → V3 → Prop
  | pair {n : Nat} {p q : V3} : g.prim = .lines n → 2 * i + 1 < n → g.vertices[2 * i]? = some p → g.vertices[2 * i + 1]? = some q → SeesSegment g i p q
  | strip {n : Nat} {p q : V3} : g.prim = .lineStrip n → i + 1 < n → g.vertices[i]? = some p → g.vertices[i + 1]? = some q → SeesSegment g i p q

/-- the corners of triangle `i` -/
def SeesTriangle (g : Geometry) (i : Nat) (p q r : V3) : Prop :=
  ∃ l a b c, g.prim = .triangles l ∧ l[3 * i]? = some a ∧ l[3 * i + 1]? = some b ∧ l[3 * i + 2]? = some c ∧ g.vertices[a]? = some p ∧ g.vertices[b]? = some q ∧ g.vertices[c]? = some r

/-- the colour of vertex `i` of a cloud by its data -/
def OwnColour (c : Cloud) (other : Rgba) (i : Nat) (k : Rgba) : Prop :=
  match c.colours with
  | some l => ∃ v, l[i]? = some v ∧ k = ⟨v.1, v.2.1, v.2.2, 1⟩
  | none => k = other

/-- data for each vertex, as Pointcloud requires it -/
def Complete (c : Cloud) : Prop := (∀ l, c.colours = some l → l.length = c.vertices.length) ∧ (∀ l, c.normals = some l → l.length = c.vertices.length)

/-! ### clouds -/

theorem normalLines_ok (a : ℚ) : ∀ (ps ns : List V3), ns.length = ps.length → ∃ l, normalLines a ps ns = some l ∧ l.length = 2 * ps.length ∧
    ∀ (i : Nat) p n, ps[i]? = some p → ns[i]? = some n → l[2 * i]? = some p ∧ l[2 * i + 1]? = some (p.1 + a * n.1, p.2.1 + a * n.2.1, p.2.2 + a * n.2.2) := by
  intro ps
  induction ps with
  | nil => intro ns _; exact ⟨[], rfl, rfl, fun i p n h => by simp at h⟩
  | cons p ps ih =>
    intro ns hn
    cases ns with
    | nil => simp at hn
    | cons n ns =>
      obtain ⟨l, h1, h2, h3⟩ := ih ns (by simpa using hn)
      refine ⟨p :: (p.1 + n.1 * a, p.2.1 + n.2.1 * a, p.2.2 + n.2.2 * a) :: l, by simp [normalLines, h1], by simp [h2]; omega, fun i q m hq hm => ?_⟩
      cases i with
      | zero =>
        have e1 : p = q := by simpa using hq
        have e2 : n = m := by simpa using hm
        subst e1 e2
        refine ⟨rfl, ?_⟩
        simp [mul_comm]
      | succ i =>
        have := h3 i q m (by simpa using hq) (by simpa using hm)
        rw [show 2 * (i + 1) = 2 * i + 1 + 1 by omega]
        simpa using this

/-- **C174** The picture of a cloud shows for each vertex one dot, in its place and its colour (of the data, or the same for all), nothing
of an earlier picture, and, if they are to be shown, for each normal the segment from the vertex in the direction of the normal, with its scaled length. -/
theorem C174_cloud (st : Settings) (address : Nat) {c : Cloud} (hc : Complete c) (old : List Geometry) :
    ∃ gs g, updateCloud st address c old = some (gs ++ [g]) ∧
      (∀ (i : Nat) p k, SeesDot g i p k ↔ c.vertices[i]? = some p ∧ OwnColour c (pointColor st address) i k) ∧ (∀ i p, c.vertices[i]? = some p → ∃ k, SeesDot g i p k) ∧
      (gs = [] ↔ st.showNormals = false ∨ c.normals = none) ∧
      (∀ ns, c.normals = some ns → st.showNormals = true → ∃ n, gs = [n] ∧ n.colours = .overall st.normalColor ∧
        ∀ (i : Nat) p q, SeesSegment n i p q ↔ c.vertices[i]? = some p ∧ ∃ v, ns[i]? = some v ∧
          q = (p.1 + st.normalScaling * v.1, p.2.1 + st.normalScaling * v.2.1, p.2.2 + st.normalScaling * v.2.2)) := by
  have hdot : ∀ (i : Nat) p k, SeesDot (pointGeometry st address c) i p k ↔ c.vertices[i]? = some p ∧ OwnColour c (pointColor st address) i k := by
    intro i p k
    constructor
    · intro h
      cases h with
      | one h1 h2 h3 h4 =>
        refine ⟨h3, ?_⟩
        unfold OwnColour
        simp only [pointGeometry, cloudColours] at h4
        cases hcol : c.colours with
        | none => rw [hcol] at h4; exact (Colours.overall.inj h4).symm
        | some l => rw [hcol] at h4; cases h4
      | own h1 h2 h3 h4 h5 =>
        refine ⟨h3, ?_⟩
        unfold OwnColour
        simp only [pointGeometry, cloudColours] at h4
        cases hcol : c.colours with
        | none => rw [hcol] at h4; cases h4
        | some l =>
          rw [hcol] at h4
          have := Colours.perVertex.inj h4
          subst this
          rw [List.getElem?_map] at h5
          cases hl : l[i]? with
          | none => rw [hl] at h5; cases h5
          | some v => rw [hl] at h5; exact ⟨v, hl, (Option.some.inj h5).symm⟩
    · rintro ⟨h1, h2⟩
      have hi : i < c.vertices.length := (List.getElem?_eq_some_iff.1 h1).1
      unfold OwnColour at h2
      cases hcol : c.colours with
      | none =>
        rw [hcol] at h2
        exact .one rfl hi h1 (by simp only [pointGeometry, cloudColours, hcol, h2])
      | some l =>
        rw [hcol] at h2
        obtain ⟨v, hv, rfl⟩ := h2
        refine .own (l := l.map fun v => ⟨v.1, v.2.1, v.2.2, 1⟩) rfl hi h1 (by simp only [pointGeometry, cloudColours, hcol]) (by simp [hv])
  have hex : ∀ i p, c.vertices[i]? = some p → ∃ k, SeesDot (pointGeometry st address c) i p k := by
    intro i p hp
    have hi : i < c.vertices.length := (List.getElem?_eq_some_iff.1 hp).1
    cases hcol : c.colours with
    | none => exact ⟨pointColor st address, (hdot i p _).2 ⟨hp, by unfold OwnColour; rw [hcol]⟩⟩
    | some l =>
      have hl := hc.1 l hcol
      have hv : l[i]? = some (l[i]'(by omega)) := List.getElem?_eq_getElem (by omega)
      exact ⟨_, (hdot i p _).2 ⟨hp, by unfold OwnColour; rw [hcol]; exact ⟨_, hv, rfl⟩⟩⟩
  unfold updateCloud
  cases hn : c.normals with
  | none =>
    refine ⟨[], pointGeometry st address c, rfl, hdot, hex, by simp, fun ns h => by cases h⟩
  | some ns =>
    cases hs : st.showNormals with
    | false => exact ⟨[], pointGeometry st address c, rfl, hdot, hex, by simp, fun ns h h' => by cases h'⟩
    | true =>
      have hlen := hc.2 ns hn
      obtain ⟨l, h1, h2, h3⟩ := normalLines_ok st.normalScaling c.vertices ns hlen
      refine ⟨[{ vertices := l, colours := .overall st.normalColor, normals := none, prim := .lines l.length }], pointGeometry st address c, by simp [normalGeometry, h1], hdot, hex, by simp, fun ns' h _ => ?_⟩
      cases h
      refine ⟨_, rfl, rfl, fun i p q => ?_⟩
      constructor
      · intro h
        cases h with
        | pair e1 e2 e3 e4 =>
          have := Prim.lines.inj e1
          have hi : i < c.vertices.length := by omega
          have g1 : c.vertices[i]? = some c.vertices[i] := List.getElem?_eq_getElem hi
          have g2 : ns[i]? = some (ns[i]'(by omega)) := List.getElem?_eq_getElem (by omega)
          obtain ⟨g3, g4⟩ := h3 i _ _ g1 g2
          dsimp only at e3 e4
          rw [g3] at e3
          rw [g4] at e4
          have e3' := Option.some.inj e3
          have e4' := Option.some.inj e4
          rw [e3'] at g1 e4'
          exact ⟨g1, _, g2, e4'.symm⟩
        | strip e1 => cases e1
      · rintro ⟨g1, v, g2, rfl⟩
        obtain ⟨g3, g4⟩ := h3 i p v g1 g2
        have hi : i < c.vertices.length := (List.getElem?_eq_some_iff.1 g1).1
        exact .pair rfl (by omega) g3 g4

/-- a cloud with normals -/
def exCloud : Cloud := { vertices := [(0, 0, 0), (1, 0, 0)], colours := some [(1, 0, 0), (0, 1, 0)], normals := some [(0, 0, 1), (0, 1, 0)], faces := [] }

/-- settings with normals -/
def exSettings : Settings := { vertexColor := ⟨1 / 10, 9 / 10, 1 / 10, 1 / 2⟩, normalColor := ⟨9 / 10, 1 / 10, 1 / 10, 1 / 2⟩, normalScaling := 1 / 5, showNormals := true, colorCycling := false }

example : Complete exCloud ∧ (updateCloud exSettings 7 exCloud []).map (·.map (·.vertices)) =
    some [[(0, 0, 0), (0, 0, 1 / 5), (1, 0, 0), (1, 1 / 5, 0)], [(0, 0, 0), (1, 0, 0)]] := by
  refine ⟨⟨fun l h => ?_, fun l h => ?_⟩, by decide +kernel⟩ <;> (cases h; rfl)

/-- C174: with less normals than vertices memory behind the end is read. -/
theorem C174_short_deviation (st : Settings) (address : Nat) (c : Cloud) (ns : List V3) (hn : c.normals = some ns) (hs : st.showNormals = true) (h : ns.length < c.vertices.length) (old : List Geometry) :
    updateCloud st address c old = none := by
  have key : ∀ (ps ns : List V3), ns.length < ps.length → normalLines st.normalScaling ps ns = none := by
    intro ps
    induction ps with
    | nil => intro ns h; simp at h
    | cons p ps ih =>
      intro ns h
      cases ns with
      | nil => rfl
      | cons n ns => simp [normalLines, ih ns (by simpa using h)]
  unfold updateCloud
  rw [hn, hs]
  simp [normalGeometry, key _ _ h]

example : updateCloud exSettings 7 { exCloud with normals := some [(0, 0, 1)] } [] = none := C174_short_deviation _ _ _ _ rfl rfl (by decide) _

/-- C174: the colours that cycle are colours. -/
theorem C174_cycle (st : Settings) (address : Nat) (h : st.colorCycling = true) :
    let c := pointColor st address
    (0 ≤ c.r ∧ c.r ≤ 1) ∧ (0 ≤ c.g ∧ c.g ≤ 1) ∧ (0 ≤ c.b ∧ c.b ≤ 1) ∧ c.a = 1 := by
  have key : ∀ k : Nat, (0 : ℚ) ≤ ((address * k % 2 ^ 64 % 256 : Nat) : ℚ) / 255 ∧ ((address * k % 2 ^ 64 % 256 : Nat) : ℚ) / 255 ≤ 1 := by
    intro k
    have : address * k % 2 ^ 64 % 256 ≤ 255 := Nat.le_of_lt_succ (Nat.mod_lt _ (by decide))
    generalize address * k % 2 ^ 64 % 256 = n at *
    have hq : (n : ℚ) ≤ 255 := by exact_mod_cast this
    exact ⟨by positivity, by rw [div_le_one (by norm_num)]; exact hq⟩
  dsimp only
  unfold pointColor
  rw [if_pos h]
  exact ⟨key _, key _, key _, rfl⟩

/-- Violation: the colours are taken from the lowest eight bits of the products with the address, so clouds whose addresses differ by a multiple of 256 have the same colour. -/
theorem C174_cycle_deviation (st : Settings) (a b k : Nat) (h : st.colorCycling = true) (hb : b = a + 256 * k) : pointColor st a = pointColor st b := by
  have key : ∀ m : Nat, a * m % 2 ^ 64 % 256 = b * m % 2 ^ 64 % 256 := by
    intro m
    rw [Nat.mod_mod_of_dvd _ (by decide : 256 ∣ 2 ^ 64), Nat.mod_mod_of_dvd _ (by decide : 256 ∣ 2 ^ 64), hb, Nat.add_mul, Nat.mul_assoc, Nat.add_mul_mod_self_left]
  unfold pointColor
  rw [if_pos h, if_pos h]
  simp only [key]

example : pointColor { exSettings with colorCycling := true } 4096 = pointColor { exSettings with colorCycling := true } 8192 := by decide +kernel

/-! ### meshes and trajectories -/

theorem flat_get : ∀ (l : List (Nat × Nat × Nat)) (i : Nat), (l.flatMap fun f => [f.1, f.2.1, f.2.2])[3 * i]? = l[i]?.map (·.1) ∧
    (l.flatMap fun f => [f.1, f.2.1, f.2.2])[3 * i + 1]? = l[i]?.map (·.2.1) ∧ (l.flatMap fun f => [f.1, f.2.1, f.2.2])[3 * i + 2]? = l[i]?.map (·.2.2) := by
  intro l
  induction l with
  | nil => intro i; simp
  | cons f l ih =>
    intro i
    cases i with
    | zero => simp
    | succ i =>
      have := ih i
      rw [show 3 * (i + 1) = 3 * i + 1 + 1 + 1 by omega]
      simpa using this

/-- C174: the picture of a mesh shows for each face one triangle with the vertices of the face as corners, in their order, and no others; it has the normals of the mesh, and nothing of an earlier picture. -/
theorem C174_mesh (c : Cloud) (old : List Geometry) : ∃ g, updateMesh c old = [g] ∧ g.normals = c.normals ∧
    ∀ (i : Nat) p q r, SeesTriangle g i p q r ↔ ∃ f, c.faces[i]? = some f ∧ c.vertices[f.1]? = some p ∧ c.vertices[f.2.1]? = some q ∧ c.vertices[f.2.2]? = some r := by
  refine ⟨_, rfl, rfl, fun i p q r => ?_⟩
  obtain ⟨h1, h2, h3⟩ := flat_get c.faces i
  constructor
  · rintro ⟨l, a, b, d, e, e1, e2, e3, e4, e5, e6⟩
    have := Prim.triangles.inj e
    subst this
    cases hf : c.faces[i]? with
    | none => rw [hf] at h1; rw [h1] at e1; cases e1
    | some f =>
      rw [hf] at h1 h2 h3
      rw [h1] at e1
      rw [h2] at e2
      rw [h3] at e3
      cases e1
      cases e2
      cases e3
      exact ⟨f, rfl, e4, e5, e6⟩
  · rintro ⟨f, hf, e1, e2, e3⟩
    rw [hf] at h1 h2 h3
    exact ⟨_, f.1, f.2.1, f.2.2, rfl, h1, h2, h3, e1, e2, e3⟩

example : ∃ g, updateMesh { vertices := [(0, 0, 0), (1, 0, 0), (0, 1, 0)], colours := none, normals := none, faces := [(0, 1, 2)] } [] = [g] ∧
    SeesTriangle g 0 (0, 0, 0) (1, 0, 0) (0, 1, 0) :=
  ⟨_, rfl, _, 0, 1, 2, rfl, rfl, rfl, rfl, rfl, rfl, rfl⟩

/-- C174: each trajectory of a map segment is drawn as the segments between each point and the next. -/
theorem C174_trajectories (ts : List (List V3)) : (updateSegment ts).length = ts.length ∧ ∀ (k : Nat) t, ts[k]? = some t → ∃ g, (updateSegment ts)[k]? = some g ∧
    ∀ (i : Nat) p q, SeesSegment g i p q ↔ t[i]? = some p ∧ t[i + 1]? = some q := by
  refine ⟨by simp [updateSegment], fun k t ht => ⟨{ vertices := t, colours := .overall ⟨1, 1, 1, 1⟩, normals := none, prim := .lineStrip t.length }, by simp [updateSegment, ht], fun i p q => ?_⟩⟩
  constructor
  · intro h
    cases h with
    | pair e => cases e
    | strip e1 e2 e3 e4 => exact ⟨e3, e4⟩
  · rintro ⟨h1, h2⟩
    exact .strip rfl ((List.getElem?_eq_some_iff.1 h2).1) h1 h2

example : (updateSegment [[(0, 0, 0), (1, 0, 0)], []]).length = 2 := by decide

/-! ### highlighting -/

/-- C175: a mesh looks the same after it was highlighted and unhighlighted. -/
theorem C175_mesh (c : Cloud) (old : List Geometry) : ∃ h, highlight (updateMesh c old) = some h ∧ h ≠ updateMesh c old ∧ unhighlightMesh h = some (updateMesh c old) := by
  refine ⟨_, rfl, ?_, rfl⟩
  intro h
  have := congrArg (·.map (·.colours)) h
  exact absurd this (by simp [updateMesh, red])

/-- C175: a cloud without data for colours and without normals, and with the one colour of the settings, looks the same after it was highlighted and unhighlighted; all its dots are red in between.
Missing: clouds with colours, colours that cycle (C175_colour_deviation), normals (C175_normals_deviation). -/
theorem C175_cloud_partial (st : Settings) (address : Nat) {c : Cloud} (hcol : c.colours = none) (hcyc : st.colorCycling = false) (hn : c.normals = none ∨ st.showNormals = false) (old : List Geometry) :
    ∃ g h, updateCloud st address c old = some g ∧ highlight g = some h ∧ (∀ x ∈ h, ∀ (i : Nat) p k, SeesDot x i p k → k = red) ∧ unhighlightCloud st h = some g := by
  have hu : updateCloud st address c old = some [pointGeometry st address c] := by
    unfold updateCloud
    rcases hn with h | h
    · rw [h]
    · rw [h]
      cases c.normals <;> rfl
  refine ⟨_, _, hu, rfl, fun x hx i p k hk => ?_, ?_⟩
  · have : x = { pointGeometry st address c with colours := .overall red } := by simpa using hx
    subst this
    cases hk with
    | one h1 h2 h3 h4 => exact (Colours.overall.inj h4).symm
    | own h1 h2 h3 h4 => cases h4
  · simp [unhighlightCloud, paint, pointGeometry, cloudColours, hcol, pointColor, hcyc]

example : (updateCloud exSettings 7 { exCloud with colours := none, normals := none } []).isSome = true := by decide +kernel

/-- Violation: a cloud with its own colours for the vertices loses them when it is highlighted and unhighlighted. -/
theorem C175_colour_deviation (st : Settings) (address : Nat) {c : Cloud} {l : List V3} (hcol : c.colours = some l) (hn : c.normals = none ∨ st.showNormals = false) (old : List Geometry) :
    ∃ g h u, updateCloud st address c old = some g ∧ highlight g = some h ∧ unhighlightCloud st h = some u ∧ u ≠ g ∧ ∀ x ∈ u, ∀ (i : Nat) p k, SeesDot x i p k → k = st.vertexColor := by
  have hu : updateCloud st address c old = some [pointGeometry st address c] := by
    unfold updateCloud
    rcases hn with h | h
    · rw [h]
    · rw [h]
      cases c.normals <;> rfl
  refine ⟨_, _, _, hu, rfl, rfl, ?_, fun x hx i p k hk => ?_⟩
  · intro h
    have := congrArg (·.map (·.colours)) h
    simp [pointGeometry, cloudColours, hcol] at this
  · have : x = { pointGeometry st address c with colours := .overall st.vertexColor } := by simpa using hx
    subst this
    cases hk with
    | one h1 h2 h3 h4 => exact (Colours.overall.inj h4).symm
    | own h1 h2 h3 h4 => cases h4

/-- Violation: if normals are shown, highlighting a cloud paints them and not the dots; when it is unhighlighted the normals have the colour of the dots. -/
theorem C175_normals_deviation (st : Settings) (address : Nat) {c : Cloud} (hc : Complete c) {ns : List V3} (hn : c.normals = some ns) (hs : st.showNormals = true) (old : List Geometry) :
    ∃ n h u, updateCloud st address c old = some [n, pointGeometry st address c] ∧ highlight [n, pointGeometry st address c] = some h ∧ h[1]? = some (pointGeometry st address c) ∧
      unhighlightCloud st h = some u ∧ u.map (·.colours) = [.overall st.vertexColor, cloudColours st address c] := by
  obtain ⟨l, h1, _, _⟩ := normalLines_ok st.normalScaling c.vertices ns (hc.2 ns hn)
  refine ⟨{ vertices := l, colours := .overall st.normalColor, normals := none, prim := .lines l.length }, _, _, ?_, rfl, rfl, rfl, rfl⟩
  unfold updateCloud
  rw [hn, hs]
  simp [normalGeometry, h1]

example : exCloud.normals = some [(0, 0, 1), (0, 1, 0)] ∧ exSettings.showNormals = true ∧ exSettings.vertexColor ≠ exSettings.normalColor := by decide +kernel

#print axioms C174_cloud
#print axioms C174_short_deviation
#print axioms C174_cycle
#print axioms C174_cycle_deviation
#print axioms C174_mesh
#print axioms C174_trajectories
#print axioms C175_mesh
#print axioms C175_cloud_partial
#print axioms C175_colour_deviation
#print axioms C175_normals_deviation

end Envire.CloudView
