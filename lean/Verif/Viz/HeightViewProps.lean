import Verif.Viz.HeightViewModel
import Verif.Grid.GridProps
import Mathlib.Tactic.Positivity
import Mathlib.Tactic.NormNum

/-!
C170: the drawing of elevation grids.
-/
namespace Envire.HeightView

theorem mem_cells {w h x y : Nat} : (x, y) ∈ cells w h ↔ x < w ∧ y < h := by
  unfold cells
  simp only [List.mem_flatMap, List.mem_map, List.mem_range, Prod.mk.injEq]
  constructor
  · rintro ⟨a, ha, b, hb, rfl, rfl⟩
    exact ⟨hb, ha⟩
  · rintro ⟨hx, hy⟩
    exact ⟨y, hy, x, hx, rfl, rfl⟩

theorem fold_spec {l : List (Nat × Nat)} {z : Heights} : ∀ (r : ℚ × ℚ), ∃ m : ℚ × ℚ, l.foldl (fun r c => step r (z c.1 c.2)) r = m ∧
    m.1 ≤ r.1 ∧ r.2 ≤ m.2 ∧ (∀ c ∈ l, ∀ v, z c.1 c.2 = some v → m.1 ≤ v ∧ v ≤ m.2) ∧
    (m.1 = r.1 ∨ ∃ c ∈ l, z c.1 c.2 = some m.1) ∧ (m.2 = r.2 ∨ ∃ c ∈ l, z c.1 c.2 = some m.2) := by
  induction l with
  | nil => 
    intro r
    refine ⟨r, rfl, le_rfl, le_rfl, ?_, Or.inl rfl, Or.inl rfl⟩
    intro c hc
    simp at hc
  | cons c l ih =>
    intro r
    obtain ⟨m, h1, h2, h3, h4, h5, h6⟩ := ih (step r (z c.1 c.2))
    cases hz : z c.1 c.2 with
    | none =>
      rw [hz] at h1 h2 h3 h5 h6
      refine ⟨m, by rw [List.foldl_cons, hz]; exact h1, h2, h3, ?_, ?_, ?_⟩
      · intro d hd v hv
        rcases List.mem_cons.1 hd with rfl | hd
        · rw [hz] at hv; cases hv
        · exact h4 d hd v hv
      · exact h5.imp id fun ⟨d, hd, h⟩ => ⟨d, List.mem_cons_of_mem _ hd, h⟩
      · exact h6.imp id fun ⟨d, hd, h⟩ => ⟨d, List.mem_cons_of_mem _ hd, h⟩
    | some v =>
      rw [hz] at h1 h2 h3 h5 h6
      dsimp only [step] at h2 h3 h5 h6
      refine ⟨m, by rw [List.foldl_cons, hz]; exact h1, h2.trans (min_le_left _ _), (le_max_left _ _).trans h3, ?_, ?_, ?_⟩
      · intro d hd u hu
        rcases List.mem_cons.1 hd with rfl | hd
        · rw [hz] at hu
          cases hu
          exact ⟨h2.trans (min_le_right _ _), (le_max_right _ _).trans h3⟩
        · exact h4 d hd u hu
      · rcases h5 with h5 | ⟨d, hd, h⟩
        · rcases min_choice r.1 v with h | h
          · exact .inl (h5.trans h)
          · exact .inr ⟨c, by simp, by rw [hz, h5, h]⟩
        · exact .inr ⟨d, List.mem_cons_of_mem _ hd, h⟩
      · rcases h6 with h6 | ⟨d, hd, h⟩
        · rcases max_choice r.2 v with h | h
          · exact .inl (h6.trans h)
          · exact .inr ⟨c, by simp, by rw [hz, h6, h]⟩
        · exact .inr ⟨d, List.mem_cons_of_mem _ hd, h⟩

/-- specification: the value is the height of a cell of the grid -/
def Known (g : Grid.GridBase ℚ) (z : Heights) (v : ℚ) : Prop := ∃ x y, x < g.nx ∧ y < g.ny ∧ z x y = some v

theorem range_spec (big tiny : ℚ) (g : Grid.GridBase ℚ) (z : Heights) :
    let m := range big tiny g.nx g.ny z
    m.1 ≤ big ∧ tiny ≤ m.2 ∧ (∀ v, Known g z v → m.1 ≤ v ∧ v ≤ m.2) ∧ (m.1 = big ∨ Known g z m.1) ∧ (m.2 = tiny ∨ Known g z m.2) := by
  obtain ⟨m, h1, h2, h3, h4, h5, h6⟩ := fold_spec (l := cells g.nx g.ny) (z := z) (big, tiny)
  have : range big tiny g.nx g.ny z = m := h1
  dsimp only
  rw [this]
  have conv : ∀ v, (∃ c ∈ cells g.nx g.ny, z c.1 c.2 = some v) → Known g z v := by
    rintro v ⟨⟨x, y⟩, hc, hv⟩
    exact ⟨x, y, (mem_cells.1 hc).1, (mem_cells.1 hc).2, hv⟩
  refine ⟨h2, h3, ?_, h5.imp id (conv _), h6.imp id (conv _)⟩
  rintro v ⟨x, y, hx, hy, hv⟩
  exact h4 (x, y) (mem_cells.2 ⟨hx, hy⟩) v hv

/-- **C170** Each cell with a height is drawn at this height. All cells without a height are drawn at the same height, which is 0 if all heights are positive (or there are none), and the
lowest height otherwise: so never above a known height. -/
theorem C170_heights {big tiny : ℚ} (hb : 0 < big) (g : Grid.GridBase ℚ) (z : Heights) :
    (∀ x y v, z x y = some v → (draw big tiny g z x y).1.2.2 = v) ∧
    ∃ low : ℚ, (∀ x y, z x y = none → (draw big tiny g z x y).1.2.2 = low) ∧ (∀ v, Known g z v → low ≤ v) ∧
      ((∀ v, Known g z v → 0 < v) → low = 0) ∧ ((∃ v, Known g z v ∧ v ≤ 0) → Known g z low) := by
  obtain ⟨h1, h2, h3, h4, h5⟩ := range_spec big tiny g z
  refine ⟨fun x y v h => by simp [draw, vertex, h], offset (range big tiny g.nx g.ny z), fun x y h => by simp [draw, vertex, h], ?_, ?_, ?_⟩
  · intro v hv
    have := (h3 v hv).1
    unfold offset
    split
    · linarith
    · exact this
  · intro h
    unfold offset
    rcases h4 with h4 | h4
    · rw [h4, if_pos hb]
    · rw [if_pos (h _ h4)]
  · rintro ⟨v, hv, h0⟩
    have hv' := (h3 v hv).1
    unfold offset
    rw [if_neg (by linarith)]
    refine h4.resolve_left fun h => ?_
    rw [h] at hv'
    linarith

/-- numeric_limits<double>::max() and ::min() -/
def dblMax : ℚ := (2 ^ 53 - 1) * 2 ^ 971
def dblMin : ℚ := 1 / 2 ^ 1022

/-- a grid with two columns: a known height and a cell without a height -/
def exGrid : Grid.GridBase ℚ := ⟨2, 1, 1 / 2, 1 / 2, 3, 4⟩
def exHeights (v : ℚ) : Heights := fun x _ => if x = 0 then some v else none

example : (draw dblMax dblMin exGrid (exHeights (-2)) 1 0).1 = (7 / 2, 4, -2) ∧ (draw dblMax dblMin exGrid (exHeights 2) 1 0).1 = (7 / 2, 4, 0) ∧
    (draw dblMax dblMin exGrid (exHeights 2) 0 0).1 = (3, 4, 2) ∧ 0 < dblMax := by decide +kernel

theorem hue_range {s z u : ℚ} (hs : 0 < s) (h : hue s (some z) = some u) : 0 ≤ u ∧ u < 1 ∧ ∃ k : Int, z = (u + k) * s := by
  have hu : u = (z - ⌊z / s⌋ * s) / s := by simpa [hue] using h.symm
  have h1 := Int.floor_le (z / s)
  have h2 := Int.lt_floor_add_one (z / s)
  rw [le_div_iff₀ hs] at h1
  rw [div_lt_iff₀ hs] at h2
  subst hu
  refine ⟨div_nonneg (by linarith) hs.le, ?_, ⌊z / s⌋, ?_⟩
  · rw [div_lt_one hs]; linarith
  · field_simp
    ring

/-- C170: the hue of a cell with a height is in [0, 1), and two cells with the same hue have the same height, except that the lowest and the highest cell may have
the same hue. -/
theorem C170_hue {big tiny : ℚ} (g : Grid.GridBase ℚ) (z : Heights) {x y x' y' : Nat} (hx : x < g.nx) (hy : y < g.ny)
    (hx' : x' < g.nx) (hy' : y' < g.ny) {v v' : ℚ} (hv : z x y = some v) (hv' : z x' y' = some v') :
    (∃ u, (draw big tiny g z x y).2 = some u ∧ 0 ≤ u ∧ u < 1) ∧
    ((draw big tiny g z x y).2 = (draw big tiny g z x' y').2 → v < v' → (∀ w, Known g z w → v ≤ w ∧ w ≤ v')) := by
  obtain ⟨h1, h2, h3, h4, h5⟩ := range_spec big tiny g z
  have hk : Known g z v := ⟨x, y, hx, hy, hv⟩
  have hk' : Known g z v' := ⟨x', y', hx', hy', hv'⟩
  have hs : 0 < scaling (range big tiny g.nx g.ny z) := by
    unfold scaling
    split
    · norm_num
    · rename_i h; exact lt_of_le_of_ne (abs_nonneg _) (Ne.symm h)
  have hdv : (draw big tiny g z x y).2 = hue (scaling (range big tiny g.nx g.ny z)) (some v) := by simp [draw, hv]
  have hdv' : (draw big tiny g z x' y').2 = hue (scaling (range big tiny g.nx g.ny z)) (some v') := by simp [draw, hv']
  obtain ⟨u, hu⟩ : ∃ u, hue (scaling (range big tiny g.nx g.ny z)) (some v) = some u := ⟨_, rfl⟩
  obtain ⟨r1, r2, k, hk1⟩ := hue_range hs hu
  refine ⟨⟨u, hdv.trans hu, r1, r2⟩, fun he hlt => ?_⟩
  rw [hdv, hdv', hu] at he
  obtain ⟨-, -, k', hk2⟩ := hue_range hs he.symm
  generalize hm : range big tiny g.nx g.ny z = m at *
  have hb := h3 v hk
  have hb' := h3 v' hk'
  have hne : ¬ |m.2 - m.1| = 0 := by
    rw [abs_eq_zero]; linarith
  have hsc : scaling m = m.2 - m.1 := by
    unfold scaling
    rw [if_neg hne, abs_of_nonneg (by linarith)]
  rw [hsc] at hk1 hk2 hs
  have hkk : k < k' := by
    rcases lt_or_ge k k' with h | h
    · exact h
    · exfalso
      have : (k' : ℚ) ≤ k := by exact_mod_cast h
      nlinarith
  have hkk' : (k : ℚ) + 1 ≤ k' := by exact_mod_cast hkk
  have hdiff : m.2 - m.1 ≤ v' - v := by
    rw [hk1, hk2]
    nlinarith
  have e1 : v = m.1 := by linarith
  have e2 : v' = m.2 := by linarith
  intro w hw
  have := h3 w hw
  rw [e1, e2]
  exact this

/-- three cells with heights from 1000 to 1001 -/
def exSlope (o : ℚ) : Heights := fun x _ => some (o + x / 2)

example : (draw dblMax dblMin ⟨3, 1, 1, 1, 0, 0⟩ (exSlope 1000) 0 0).2 = some 0 ∧ (draw dblMax dblMin ⟨3, 1, 1, 1, 0, 0⟩ (exSlope 1000) 1 0).2 = some (1 / 2) ∧
    (draw dblMax dblMin ⟨3, 1, 1, 1, 0, 0⟩ (exSlope 1000) 2 0).2 = some 0 := by decide +kernel

/-- Violation: the colours are meant to run through all hues between the lowest and the highest cell, and do so for the heights 1000, 1000.5 and 1001 (0, 1/2, 0);
for the heights -1001, -1000.5 and -1000 the difference of the hues is less than 1/1000, since the highest value is searched for from the smallest positive number on. -/
theorem C170_negative_deviation :
    ∃ a b c, (draw dblMax dblMin ⟨3, 1, 1, 1, 0, 0⟩ (exSlope (-1001)) 0 0).2 = some a ∧ (draw dblMax dblMin ⟨3, 1, 1, 1, 0, 0⟩ (exSlope (-1001)) 1 0).2 = some b ∧
      (draw dblMax dblMin ⟨3, 1, 1, 1, 0, 0⟩ (exSlope (-1001)) 2 0).2 = some c ∧ |a - b| < 1 / 1000 ∧ |b - c| < 1 / 1000 := by
  refine ⟨_, _, _, rfl, rfl, rfl, ?_, ?_⟩ <;> decide +kernel

/-- C170: the vertex of a cell is in the square of the cell. -/
theorem C170_position_partial {conv : Int → Nat} (hc : Grid.ConvOk conv) {g : Grid.GridBase ℚ} (hg : Grid.Ok g) (big tiny : ℚ) (z : Heights) {x y : Nat} (hx : x < g.nx) (hy : y < g.ny) :
    (g.toGrid conv (draw big tiny g z x y).1.1 (draw big tiny g z x y).1.2.1).map (fun r => (r.1, r.2.1)) = some (x, y) := by
  have key : ∀ (i n : Nat) (s o : ℚ), 0 < s → i < n → n ≤ 2 ^ 63 → conv ⌊(o + i * s - o) / s⌋ = i := by
    intro i n s o hs hi hn
    have he : (o + i * s - o) / s = ((i : Int) : ℚ) := by
      rw [add_sub_cancel_left]
      push_cast
      field_simp
    rw [he, Int.floor_intCast]
    have := hc.exact (i : Int) (by omega) (by omega)
    exact_mod_cast this
  have kx := key x g.nx g.sx g.ox hg.sx hx hg.nx
  have ky := key y g.ny g.sy g.oy hg.sy hy hg.ny
  show (g.toGrid conv (g.ox + x * g.sx) (g.oy + y * g.sy)).map _ = _
  have hsome : (g.toGrid conv (g.ox + x * g.sx) (g.oy + y * g.sy)).isSome = true := by
    rw [Grid.toGrid_isSome, kx, ky]
    exact ⟨hx, hy⟩
  obtain ⟨r, hr⟩ := Option.isSome_iff_exists.1 hsome
  have := (Grid.toGrid_eq hr).1
  rw [hr, Option.map_some, this]
  dsimp only
  rw [kx, ky]

/-- Violation: the vertex is not at the centre of the cell, as fromGrid gives it, but half a cell before it in both directions; the last half of each
last cell is outside of the drawn surface. -/
theorem C170_position_deviation {g : Grid.GridBase ℚ} (hx : 0 < g.sx) (hy : 0 < g.sy) (big tiny : ℚ) (z : Heights) (x y : Nat) :
    (draw big tiny g z x y).1.1 = (g.fromGrid x y).1 - g.sx / 2 ∧ (draw big tiny g z x y).1.2.1 = (g.fromGrid x y).2 - g.sy / 2 ∧
      (draw big tiny g z x y).1.1 ≠ (g.fromGrid x y).1 ∧ (draw big tiny g z x y).1.2.1 ≠ (g.fromGrid x y).2 := by
  have h1 : (draw big tiny g z x y).1.1 = (g.fromGrid x y).1 - g.sx / 2 := by
    show g.ox + x * g.sx = _
    unfold Grid.GridBase.fromGrid
    ring
  have h2 : (draw big tiny g z x y).1.2.1 = (g.fromGrid x y).2 - g.sy / 2 := by
    show g.oy + y * g.sy = _
    unfold Grid.GridBase.fromGrid
    ring
  exact ⟨h1, h2, by rw [h1]; linarith, by rw [h2]; linarith⟩

example : (draw dblMax dblMin exGrid (exHeights 2) 1 0).1.1 = 7 / 2 ∧ (exGrid.fromGrid 1 0).1 = 15 / 4 := by decide +kernel

#print axioms C170_heights
#print axioms C170_hue
#print axioms C170_negative_deviation
#print axioms C170_position_partial
#print axioms C170_position_deviation

end Envire.HeightView
