import Verif.Ops.ElevationModel
import Mathlib.Tactic.Linarith
import Mathlib.Tactic.FieldSimp
import Mathlib.Tactic.FinCases
import Mathlib.Tactic.NormNum

/-!
C107: elevations of point clouds. C108: interpolation of elevations.
-/

namespace Envire.Elevation

open Envire.Rect Envire.Voxel

/-! ### C107 -/

/-- the point is in the area of the cell (column, row) of the grid -/
def InCell (g : Geo) (c : Nat × Nat) (p : P3) : Prop :=
  (c.1 < g.w ∧ g.ox + c.1 * g.sx ≤ p.1 ∧ p.1 < g.ox + (c.1 + 1) * g.sx) ∧ (c.2 < g.h ∧ g.oy + c.2 * g.sy ≤ p.2.1 ∧ p.2.1 < g.oy + (c.2 + 1) * g.sy)

/-- v is the height of the highest of the points, minus infinity if there is none -/
def Highest (S : P3 → Prop) (v : EReal) : Prop := (∀ p, S p → (p.2.2 : EReal) ≤ v) ∧ ((v = ⊥ ∧ ∀ p, ¬ S p) ∨ ∃ p, S p ∧ v = (p.2.2 : EReal))

/-- v is the height of the lowest of the points, plus infinity if there is none -/
def Lowest (S : P3 → Prop) (v : EReal) : Prop := (∀ p, S p → v ≤ (p.2.2 : EReal)) ∧ ((v = ⊤ ∧ ∀ p, ¬ S p) ∨ ∃ p, S p ∧ v = (p.2.2 : EReal))

/-- the points of the inputs in the frame of the grid -/
def Point (inputs : List ((P3 → P3) × List P3)) (p : P3) : Prop := ∃ i ∈ inputs, ∃ q ∈ i.2, p = i.1 q

theorem floor_cell {a s o : ℝ} (hs : 0 < s) (n : Nat) : ⌊(a - o) / s⌋ = (n : Int) ↔ o + n * s ≤ a ∧ a < o + (n + 1) * s := by
  rw [Int.floor_eq_iff]
  push_cast
  rw [le_div_iff₀ hs, div_lt_iff₀ hs]
  constructor <;> rintro ⟨h1, h2⟩ <;> constructor <;> linarith

theorem toGrid_iff {g : Geo} (hx : 0 < g.sx) (hy : 0 < g.sy) (p : P3) (c : Nat × Nat) : toGrid g p.1 p.2.1 = some c ↔ InCell g c p := by
  unfold toGrid InCell
  rw [← floor_cell hx, ← floor_cell hy]
  constructor
  · intro h
    by_cases hv : valid g (p.1, p.2.1)
    · rw [if_pos hv] at h
      injection h with h
      subst h
      obtain ⟨h1, h2, h3, h4⟩ := hv
      dsimp only at *
      refine ⟨⟨by omega, by omega⟩, by omega, by omega⟩
    · rw [if_neg hv] at h
      exact absurd h (by simp)
  · rintro ⟨⟨h1, h2⟩, h3, h4⟩
    have hv : valid g (p.1, p.2.1) := by
      unfold valid
      dsimp only
      rw [h2, h4]
      refine ⟨by omega, by omega, by omega, by omega⟩
    rw [if_pos hv, h2, h4]
    simp

theorem Highest.congr {S T : P3 → Prop} {v : EReal} (h : Highest S v) (e : ∀ p, S p ↔ T p) : Highest T v := by
  have : S = T := funext fun p => propext (e p)
  rw [← this]
  exact h

theorem Lowest.congr {S T : P3 → Prop} {v : EReal} (h : Lowest S v) (e : ∀ p, S p ↔ T p) : Lowest T v := by
  have : S = T := funext fun p => propext (e p)
  rw [← this]
  exact h

theorem Highest.add {S : P3 → Prop} {v : EReal} (h : Highest S v) (p : P3) : Highest (fun q => S q ∨ q = p) (v ⊔ (p.2.2 : EReal)) := by
  refine ⟨?_, ?_⟩
  · rintro q (hq | rfl)
    · exact le_sup_of_le_left (h.1 q hq)
    · exact le_sup_right
  · right
    rcases le_total v (p.2.2 : EReal) with hv | hv
    · exact ⟨p, .inr rfl, sup_eq_right.2 hv⟩
    · rcases h.2 with ⟨h1, h2⟩ | ⟨q, hq, h2⟩
      · refine ⟨p, .inr rfl, ?_⟩
        rw [h1]
        simp
      · exact ⟨q, .inl hq, by rw [sup_eq_left.2 hv, h2]⟩

theorem Lowest.add {S : P3 → Prop} {v : EReal} (h : Lowest S v) (p : P3) : Lowest (fun q => S q ∨ q = p) (v ⊓ (p.2.2 : EReal)) := by
  refine ⟨?_, ?_⟩
  · rintro q (hq | rfl)
    · exact inf_le_of_left_le (h.1 q hq)
    · exact inf_le_right
  · right
    rcases le_total (p.2.2 : EReal) v with hv | hv
    · exact ⟨p, .inr rfl, inf_eq_right.2 hv⟩
    · rcases h.2 with ⟨h1, h2⟩ | ⟨q, hq, h2⟩
      · refine ⟨p, .inr rfl, ?_⟩
        rw [h1]
        simp
      · exact ⟨q, .inl hq, by rw [inf_eq_left.2 hv, h2]⟩

/-- the bands hold the elevations of the points -/
def Holds (g : Geo) (S : P3 → Prop) (b : Bands) : Prop :=
  ∀ r c, Highest (fun p => S p ∧ InCell g (c, r) p) (b.max r c) ∧ Lowest (fun p => S p ∧ InCell g (c, r) p) (b.min r c)

theorem Holds.add {g : Geo} (hx : 0 < g.sx) (hy : 0 < g.sy) {S : P3 → Prop} {b : Bands} (h : Holds g S b) (p : P3) : Holds g (fun q => S q ∨ q = p) (addPoint g b p) := by
  intro r c
  unfold addPoint
  cases ht : toGrid g p.1 p.2.1 with
  | none =>
    have hn : ∀ c, ¬ InCell g c p := fun c hc => by rw [(toGrid_iff hx hy p c).2 hc] at ht; exact absurd ht (by simp)
    have e : ∀ q, (S q ∧ InCell g (c, r) q) ↔ ((S q ∨ q = p) ∧ InCell g (c, r) q) := by
      intro q
      constructor
      · exact fun ⟨h1, h2⟩ => ⟨.inl h1, h2⟩
      · rintro ⟨h1 | rfl, h2⟩
        · exact ⟨h1, h2⟩
        · exact absurd h2 (hn _)
    exact ⟨(h r c).1.congr e, (h r c).2.congr e⟩
  | some m =>
    obtain ⟨x, y⟩ := m
    have hc := (toGrid_iff hx hy p (x, y)).1 ht
    simp only [set]
    by_cases hm : r = y ∧ c = x
    · obtain ⟨rfl, rfl⟩ := hm
      have e : ∀ q, ((S q ∧ InCell g (c, r) q) ∨ q = p) ↔ ((S q ∨ q = p) ∧ InCell g (c, r) q) := by
        intro q
        constructor
        · rintro (⟨h1, h2⟩ | rfl)
          · exact ⟨.inl h1, h2⟩
          · exact ⟨.inr rfl, hc⟩
        · rintro ⟨h1 | rfl, h2⟩
          · exact .inl ⟨h1, h2⟩
          · exact .inr rfl
      rw [if_pos ⟨rfl, rfl⟩, if_pos ⟨rfl, rfl⟩]
      exact ⟨((h r c).1.add p).congr e, ((h r c).2.add p).congr e⟩
    · have e : ∀ q, (S q ∧ InCell g (c, r) q) ↔ ((S q ∨ q = p) ∧ InCell g (c, r) q) := by
        intro q
        constructor
        · exact fun ⟨h1, h2⟩ => ⟨.inl h1, h2⟩
        · rintro ⟨h1 | rfl, h2⟩
          · exact ⟨h1, h2⟩
          · have := (toGrid_iff hx hy q (c, r)).2 h2
            rw [ht] at this
            injection this with this
            injection this with h3 h4
            exact absurd ⟨h4.symm, h3.symm⟩ hm
      rw [if_neg hm, if_neg hm]
      exact ⟨(h r c).1.congr e, (h r c).2.congr e⟩

theorem Holds.congr {g : Geo} {S T : P3 → Prop} {b : Bands} (h : Holds g S b) (e : ∀ p, S p ↔ T p) : Holds g T b := by
  have : S = T := funext fun p => propext (e p)
  rw [← this]
  exact h

theorem Holds.cloud {g : Geo} (hx : 0 < g.sx) (hy : 0 < g.sy) (f : P3 → P3) : ∀ (l : List P3) {S : P3 → Prop} {b : Bands}, Holds g S b → Holds g (fun p => S p ∨ ∃ q ∈ l, p = f q) (l.foldl (fun b p => addPoint g b (f p)) b)
  | [], S, b, h => h.congr fun p => by simp
  | q :: l, S, b, h => (Holds.cloud hx hy f l (h.add hx hy (f q))).congr fun p => by
      rw [List.exists_mem_cons_iff]
      exact or_assoc

theorem Holds.inputs {g : Geo} (hx : 0 < g.sx) (hy : 0 < g.sy) (root : P3 → P3) : ∀ (l : List ((P3 → P3) × List P3)) {S : P3 → Prop} {b : Bands}, Holds g S b →
    Holds g (fun p => S p ∨ ∃ i ∈ l, ∃ q ∈ i.2, p = root (i.1 q)) (l.foldl (fun b i => i.2.foldl (fun b p => addPoint g b (root (i.1 p))) b) b)
  | [], S, b, h => h.congr fun p => by simp
  | i :: l, S, b, h => (Holds.inputs hx hy root l (h.cloud hx hy (fun p => root (i.1 p)) i.2)).congr fun p => by
      rw [List.exists_mem_cons_iff]
      exact or_assoc

theorem elevation_holds {g : Geo} (hx : 0 < g.sx) (hy : 0 < g.sy) (root : P3 → P3) (inputs : List ((P3 → P3) × List P3)) :
    Holds g (fun p => ∃ i ∈ inputs, ∃ q ∈ i.2, p = root (i.1 q)) (updateElevation g root inputs) := by
  have h0 : Holds g (fun _ => False) { max := fun _ _ => ⊥, min := fun _ _ => ⊤ } := by
    intro r c
    exact ⟨⟨fun p hp => hp.1.elim, .inl ⟨rfl, fun p hp => hp.1⟩⟩, fun p hp => hp.1.elim, .inl ⟨rfl, fun p hp => hp.1⟩⟩
  exact (h0.inputs hx hy root inputs).congr fun p => by simp

/-- C107 if the transform of the root node is the identity: the elevations of a cell are those of the highest and of the lowest point in its area, of all inputs; infinite if there is none. -/
theorem C107_elevation_partial (g : Geo) (hx : 0 < g.sx) (hy : 0 < g.sy) (inputs : List ((P3 → P3) × List P3)) (r c : Nat) :
    Highest (fun p => Point inputs p ∧ InCell g (c, r) p) ((updateElevation g id inputs).max r c) ∧ Lowest (fun p => Point inputs p ∧ InCell g (c, r) p) ((updateElevation g id inputs).min r c) :=
  elevation_holds hx hy id inputs r c

/-- the elevations are determined by the points: order and partition into inputs do not matter -/
theorem C107_order (g : Geo) (hx : 0 < g.sx) (hy : 0 < g.sy) (a b : List ((P3 → P3) × List P3)) (h : ∀ p, Point a p ↔ Point b p) (r c : Nat) :
    (updateElevation g id a).max r c = (updateElevation g id b).max r c ∧ (updateElevation g id a).min r c = (updateElevation g id b).min r c := by
  have e : ∀ p, (Point b p ∧ InCell g (c, r) p) ↔ (Point a p ∧ InCell g (c, r) p) := fun p => and_congr_left' (h p).symm
  obtain ⟨a1, a2⟩ := C107_elevation_partial g hx hy a r c
  obtain ⟨b1, b2⟩ := C107_elevation_partial g hx hy b r c
  have b1 := b1.congr e
  have b2 := b2.congr e
  constructor
  · rcases a1.2 with ⟨h1, h2⟩ | ⟨p, hp, h1⟩
    · rcases b1.2 with ⟨h3, -⟩ | ⟨q, hq, -⟩
      · rw [h1, h3]
      · exact absurd hq (h2 q)
    · rcases b1.2 with ⟨-, h2⟩ | ⟨q, hq, h2⟩
      · exact absurd hp (h2 p)
      · exact le_antisymm (h1 ▸ b1.1 p hp) (h2 ▸ a1.1 q hq)
  · rcases a2.2 with ⟨h1, h2⟩ | ⟨p, hp, h1⟩
    · rcases b2.2 with ⟨h3, -⟩ | ⟨q, hq, -⟩
      · rw [h1, h3]
      · exact absurd hq (h2 q)
    · rcases b2.2 with ⟨-, h2⟩ | ⟨q, hq, h2⟩
      · exact absurd hp (h2 p)
      · exact le_antisymm (h2 ▸ a2.1 q hq) (h1 ▸ b2.1 p hp)

def unitGrid (w h : Nat) : Geo := ⟨1, 1, 0, 0, w, h⟩

/-- Violation: the transform of the root node is applied to the points, though they are in the frame of the grid. If it moves them by one along x, then the only point of the cell (0, 0) is in the cell (1, 0). -/
theorem C107_root : (updateElevation (unitGrid 2 1) (fun p => (p.1 + 1, p.2)) [(id, [(1 / 2, 1 / 2, 3)])]).max 0 0 = ⊥ ∧ InCell (unitGrid 2 1) (0, 0) (1 / 2, 1 / 2, 3) := by
  have hc : InCell (unitGrid 2 1) (0, 0) (1 / 2, 1 / 2, 3) := by
    refine ⟨⟨by decide, ?_⟩, by decide, ?_⟩ <;> norm_num [unitGrid]
  refine ⟨?_, hc⟩
  have h := (elevation_holds (g := unitGrid 2 1) (by norm_num [unitGrid]) (by norm_num [unitGrid]) (fun p => (p.1 + 1, p.2)) [(id, [(1 / 2, 1 / 2, 3)])] 0 0).1.2
  rcases h with ⟨h, -⟩ | ⟨p, ⟨⟨i, hi, q, hq, hp⟩, hc⟩, -⟩
  · exact h
  · rw [List.mem_singleton] at hi
    subst hi
    rw [List.mem_singleton] at hq
    subst hq
    subst hp
    obtain ⟨⟨-, -, h⟩, -⟩ := hc
    norm_num [unitGrid] at h

/-- an example of the theorem: two clouds, one of them moved -/
example : (updateElevation (unitGrid 2 1) id [(id, [(1 / 2, 1 / 2, 3)]), (fun p => (p.1 - 1, p.2), [(5 / 4, 1 / 2, 7)])]).max 0 0 = (7 : ℝ) := by
  have h := (C107_elevation_partial (unitGrid 2 1) (by norm_num [unitGrid]) (by norm_num [unitGrid]) [(id, [(1 / 2, 1 / 2, 3)]), (fun p => (p.1 - 1, p.2), [(5 / 4, 1 / 2, 7)])] 0 0).1
  have h7 := h.1 (1 / 4, 1 / 2, 7) ⟨⟨(fun p => (p.1 - 1, p.2), [(5 / 4, 1 / 2, 7)]), List.mem_cons_of_mem _ (List.mem_singleton_self _), (5 / 4, 1 / 2, 7), List.mem_singleton_self _, by norm_num⟩, ⟨by decide, by norm_num [unitGrid], by norm_num [unitGrid]⟩, by decide, by norm_num [unitGrid], by norm_num [unitGrid]⟩
  rcases h.2 with ⟨h1, h2⟩ | ⟨p, ⟨⟨i, hi, q, hq, hp⟩, hc⟩, h1⟩
  · rw [h1] at h7
    exact absurd h7 (by simp)
  · simp only [List.mem_cons, List.not_mem_nil, or_false] at hi
    rcases hi with rfl | rfl <;> rw [List.mem_singleton] at hq <;> subst hq <;> subst hp
    · rw [h1] at h7
      have := EReal.coe_le_coe_iff.1 h7
      norm_num at this
    · exact h1

/-! ### C108 -/

/-- q is in the triangle of a, b and c, which are not on a line -/
def InTriangle (a b c : P3) (x y : ℝ) : Prop :=
  (a.1 - c.1) * (b.2.1 - c.2.1) - (b.1 - c.1) * (a.2.1 - c.2.1) ≠ 0 ∧
    ∃ u v w : ℝ, 0 ≤ u ∧ 0 ≤ v ∧ 0 ≤ w ∧ u + v + w = 1 ∧ x = u * a.1 + v * b.1 + w * c.1 ∧ y = u * a.2.1 + v * b.2.1 + w * c.2.1

/-- q is within the convex hull of the points, in the plane -/
def InHull (ps : List P3) (x y : ℝ) : Prop := ∃ a ∈ ps, ∃ b ∈ ps, ∃ c ∈ ps, InTriangle a b c x y

/-- what is assumed of the triangulation for the points ps: a triangle in which a position is located consists of inserted points and contains it; a position of the hull is located in a triangle, any other, if the points are not on a
line, in an infinite face -/
structure Locates (locate : List P3 → ℝ → ℝ → Face) (ps : List P3) : Prop where
  sound : ∀ x y a b c, locate ps x y = .finite a b c → a ∈ ps ∧ b ∈ ps ∧ c ∈ ps ∧ InTriangle a b c x y
  hull : ∀ x y, InHull ps x y → ∃ a b c, locate ps x y = .finite a b c
  outside : ∀ x y, ¬ InHull ps x y → (∃ x y, InHull ps x y) → locate ps x y = .infinite

/-- the interpolated value is the one of the triangle at the position -/
theorem plane_eq {a b c : P3} {x y u v w : ℝ} (hd : (a.1 - c.1) * (b.2.1 - c.2.1) - (b.1 - c.1) * (a.2.1 - c.2.1) ≠ 0) (hs : u + v + w = 1) (hx : x = u * a.1 + v * b.1 + w * c.1)
    (hy : y = u * a.2.1 + v * b.2.1 + w * c.2.1) : plane a b c x y = u * a.2.2 + v * b.2.2 + w * c.2.2 := by
  have hdet : (matA a b c).det = (a.1 - c.1) * (b.2.1 - c.2.1) - (b.1 - c.1) * (a.2.1 - c.2.1) := by
    simp [matA, Matrix.det_fin_three]
    ring
  have hu : IsUnit (matA a b c).det := by
    rw [hdet]
    exact isUnit_iff_ne_zero.2 hd
  have hrow : ![x, y, 1] = Matrix.vecMul ![u, v, w] (matA a b c) := by
    funext i
    fin_cases i <;> simp [matA, Matrix.vecMul, dotProduct, Fin.sum_univ_three, hx, hy, hs]
  unfold plane
  rw [hrow, ← Matrix.dotProduct_mulVec, Matrix.mulVec_mulVec, Matrix.mul_nonsing_inv _ hu, Matrix.one_mulVec]
  simp [dotProduct, Fin.sum_univ_three]

theorem mem_measured {h w : Nat} {d : Nat → Nat → EReal} {p : Nat × Nat} : p ∈ measured h w d ↔ p.1 < h ∧ p.2 < w ∧ Measured (d p.1 p.2) := by
  obtain ⟨r, c⟩ := p
  simp [measured, and_assoc]

theorem mem_inserted {h w : Nat} {d : Nat → Nat → EReal} {p : P3} : p ∈ inserted h w d ↔ ∃ r c, r < h ∧ c < w ∧ Measured (d r c) ∧ p = ((r : ℝ), (c : ℝ), (d r c).toReal) := by
  unfold inserted
  rw [List.mem_map]
  constructor
  · rintro ⟨⟨r, c⟩, hm, rfl⟩
    rw [mem_measured] at hm
    exact ⟨r, c, hm.1, hm.2.1, hm.2.2, rfl⟩
  · rintro ⟨r, c, h1, h2, h3, rfl⟩
    exact ⟨(r, c), mem_measured.2 ⟨h1, h2, h3⟩, rfl⟩

theorem box_fold (l : List (Nat × Nat)) : ∀ b : Box,
    let e := l.foldl (fun b p => (⟨min b.minR p.1, max b.maxR p.1, min b.minC p.2, max b.maxC p.2⟩ : Box)) b
    (e.minR ≤ b.minR ∧ b.maxR ≤ e.maxR ∧ e.minC ≤ b.minC ∧ b.maxC ≤ e.maxC) ∧ (∀ p ∈ l, e.minR ≤ p.1 ∧ p.1 ≤ e.maxR ∧ e.minC ≤ p.2 ∧ p.2 ≤ e.maxC) ∧
      (e.maxR = b.maxR ∨ ∃ p ∈ l, e.maxR = p.1) ∧ (e.maxC = b.maxC ∨ ∃ p ∈ l, e.maxC = p.2) := by
  induction l with
  | nil => intro b; simp
  | cons q l ih =>
    intro b
    obtain ⟨⟨h1, h2, h3, h4⟩, h5, h6, h7⟩ := ih ⟨min b.minR q.1, max b.maxR q.1, min b.minC q.2, max b.maxC q.2⟩
    dsimp only [List.foldl_cons] at *
    generalize l.foldl _ _ = e at *
    refine ⟨?_, ?_, ?_, ?_⟩
    · clear h5 h6 h7
      omega
    · clear h6 h7
      intro p hp
      rcases List.mem_cons.1 hp with rfl | hp
      · omega
      · exact h5 p hp
    · clear h5 h7
      rcases h6 with h | ⟨p, hp, h⟩
      · rcases le_total b.maxR q.1 with hm | hm
        · exact .inr ⟨q, by simp, by omega⟩
        · exact .inl (by omega)
      · exact .inr ⟨p, by simp [hp], h⟩
    · clear h5 h6
      rcases h7 with h | ⟨p, hp, h⟩
      · rcases le_total b.maxC q.2 with hm | hm
        · exact .inr ⟨q, by simp, by omega⟩
        · exact .inl (by omega)
      · exact .inr ⟨p, by simp [hp], h⟩

theorem mem_box {h w : Nat} {d : Nat → Nat → EReal} {r c : Nat} (hr : r < h) (hc : c < w) (hm : Measured (d r c)) :
    (box h w d).minR ≤ r ∧ r ≤ (box h w d).maxR ∧ (box h w d).minC ≤ c ∧ c ≤ (box h w d).maxC :=
  (box_fold (measured h w d) ⟨h - 1, 0, w - 1, 0⟩).2.1 (r, c) (mem_measured.2 ⟨hr, hc, hm⟩)

/-- a position of the hull is within the box -/
theorem hull_box {h w : Nat} {d : Nat → Nat → EReal} {r c : Nat} (hh : InHull (inserted h w d) r c) : (box h w d).minR ≤ r ∧ (box h w d).minC ≤ c := by
  obtain ⟨p, hp, q, hq, s, hs, -, u, v, t, hu, hv, ht, h1, h2, h3⟩ := hh
  obtain ⟨pr, pc, a1, a2, a3, rfl⟩ := mem_inserted.1 hp
  obtain ⟨qr, qc, b1, b2, b3, rfl⟩ := mem_inserted.1 hq
  obtain ⟨sr, sc, c1, c2, c3, rfl⟩ := mem_inserted.1 hs
  have ha := mem_box a1 a2 a3
  have hb := mem_box b1 b2 b3
  have hc := mem_box c1 c2 c3
  dsimp only at h2 h3
  constructor
  · have e1 : ((box h w d).minR : ℝ) ≤ pr := by exact_mod_cast ha.1
    have e2 : ((box h w d).minR : ℝ) ≤ qr := by exact_mod_cast hb.1
    have e3 : ((box h w d).minR : ℝ) ≤ sr := by exact_mod_cast hc.1
    have : ((box h w d).minR : ℝ) ≤ r := by
      rw [h2]
      nlinarith [mul_le_mul_of_nonneg_left e1 hu, mul_le_mul_of_nonneg_left e2 hv, mul_le_mul_of_nonneg_left e3 ht]
    exact_mod_cast this
  · have e1 : ((box h w d).minC : ℝ) ≤ pc := by exact_mod_cast ha.2.2.1
    have e2 : ((box h w d).minC : ℝ) ≤ qc := by exact_mod_cast hb.2.2.1
    have e3 : ((box h w d).minC : ℝ) ≤ sc := by exact_mod_cast hc.2.2.1
    have : ((box h w d).minC : ℝ) ≤ c := by
      rw [h3]
      nlinarith [mul_le_mul_of_nonneg_left e1 hu, mul_le_mul_of_nonneg_left e2 hv, mul_le_mul_of_nonneg_left e3 ht]
    exact_mod_cast this

/-- measured elevations stay as they are -/
theorem C108_measured (locate : List P3 → ℝ → ℝ → Face) (h w : Nat) (d : Nat → Nat → EReal) (r c : Nat) (hm : Measured (d r c)) : interpolate locate h w d r c = some (d r c) := by
  unfold interpolate
  dsimp only
  rw [if_neg fun h => h.2.2.2.2 hm]

/-- there is a measured cell in a later row and one in a later column -/
def Before (h w : Nat) (d : Nat → Nat → EReal) (r c : Nat) : Prop := (∃ r' c', r' < h ∧ c' < w ∧ Measured (d r' c') ∧ r < r') ∧ ∃ r' c', r' < h ∧ c' < w ∧ Measured (d r' c') ∧ c < c'

/-- C108 for the cells of the hull before the last row and the last column of it: the value is the one of a triangle of measured cells around the cell. -/
theorem C108_interpolate_partial {locate : List P3 → ℝ → ℝ → Face} {h w : Nat} {d : Nat → Nat → EReal} (hl : Locates locate (inserted h w d)) (r c : Nat) (hm : ¬ Measured (d r c))
    (hh : InHull (inserted h w d) r c) (hb : Before h w d r c) :
    ∃ p ∈ inserted h w d, ∃ q ∈ inserted h w d, ∃ s ∈ inserted h w d, ∃ u v t : ℝ, 0 ≤ u ∧ 0 ≤ v ∧ 0 ≤ t ∧ u + v + t = 1 ∧ (r : ℝ) = u * p.1 + v * q.1 + t * s.1 ∧ (c : ℝ) = u * p.2.1 + v * q.2.1 + t * s.2.1 ∧
      interpolate locate h w d r c = some ((u * p.2.2 + v * q.2.2 + t * s.2.2 : ℝ) : EReal) := by
  obtain ⟨⟨r1, c1, a1, a2, a3, a4⟩, r2, c2, b1, b2, b3, b4⟩ := hb
  have ha := mem_box a1 a2 a3
  have hb := mem_box b1 b2 b3
  have hbox := hull_box hh
  obtain ⟨p, q, s, hf⟩ := hl.hull r c hh
  obtain ⟨hp, hq, hs, hd, u, v, t, hu, hv, ht, h1, h2, h3⟩ := hl.sound _ _ _ _ _ hf
  refine ⟨p, hp, q, hq, s, hs, u, v, t, hu, hv, ht, h1, h2, h3, ?_⟩
  unfold interpolate
  dsimp only
  rw [if_pos ⟨hbox.1, by omega, hbox.2, by omega, hm⟩, hf]
  dsimp only
  rw [plane_eq hd h1 h2 h3]

/-- interpolated values are between the measured ones -/
theorem C108_between {locate : List P3 → ℝ → ℝ → Face} {h w : Nat} {d : Nat → Nat → EReal} (hl : Locates locate (inserted h w d)) (r c : Nat) (hm : ¬ Measured (d r c))
    (hh : InHull (inserted h w d) r c) (hb : Before h w d r c) (lo hi : ℝ) (hr : ∀ r c, r < h → c < w → Measured (d r c) → (lo : EReal) ≤ d r c ∧ d r c ≤ (hi : EReal)) :
    ∃ v : ℝ, interpolate locate h w d r c = some (v : EReal) ∧ lo ≤ v ∧ v ≤ hi := by
  obtain ⟨p, hp, q, hq, s, hs, u, v, t, hu, hv, ht, h1, -, -, h2⟩ := C108_interpolate_partial hl r c hm hh hb
  have hz : ∀ p ∈ inserted h w d, lo ≤ p.2.2 ∧ p.2.2 ≤ hi := by
    intro p hp
    obtain ⟨r, c, e1, e2, e3, rfl⟩ := mem_inserted.1 hp
    obtain ⟨f1, f2⟩ := hr r c e1 e2 e3
    rw [← EReal.coe_toReal e3.1 e3.2] at f1 f2
    exact ⟨EReal.coe_le_coe_iff.1 f1, EReal.coe_le_coe_iff.1 f2⟩
  obtain ⟨p1, p2⟩ := hz p hp
  obtain ⟨q1, q2⟩ := hz q hq
  obtain ⟨s1, s2⟩ := hz s hs
  have e : ∀ k : ℝ, k = u * k + v * k + t * k := fun k => by rw [← add_mul, ← add_mul, h1, one_mul]
  refine ⟨_, h2, ?_, ?_⟩
  · linarith [e lo, mul_le_mul_of_nonneg_left p1 hu, mul_le_mul_of_nonneg_left q1 hv, mul_le_mul_of_nonneg_left s1 ht]
  · linarith [e hi, mul_le_mul_of_nonneg_left p2 hu, mul_le_mul_of_nonneg_left q2 hv, mul_le_mul_of_nonneg_left s2 ht]

/-- planes are interpolated exactly -/
theorem C108_plane {locate : List P3 → ℝ → ℝ → Face} {h w : Nat} {d : Nat → Nat → EReal} (hl : Locates locate (inserted h w d)) (r c : Nat) (hm : ¬ Measured (d r c))
    (hh : InHull (inserted h w d) r c) (hb : Before h w d r c) (α β γ : ℝ) (hr : ∀ r c, r < h → c < w → Measured (d r c) → d r c = ((α * r + β * c + γ : ℝ) : EReal)) :
    interpolate locate h w d r c = some ((α * r + β * c + γ : ℝ) : EReal) := by
  obtain ⟨p, hp, q, hq, s, hs, u, v, t, hu, hv, ht, h1, h2, h3, h4⟩ := C108_interpolate_partial hl r c hm hh hb
  have hz : ∀ p ∈ inserted h w d, p.2.2 = α * p.1 + β * p.2.1 + γ := by
    intro p hp
    obtain ⟨r, c, e1, e2, e3, rfl⟩ := mem_inserted.1 hp
    dsimp only
    rw [hr r c e1 e2 e3, EReal.toReal_coe]
  rw [h4, hz p hp, hz q hq, hz s hs, h2, h3]
  congr 2
  linear_combination γ * h1

/-- cells in which there is no value and which are not in the box of the measured ones stay as they are -/
theorem C108_outside_box (locate : List P3 → ℝ → ℝ → Face) (h w : Nat) (d : Nat → Nat → EReal) (r c : Nat)
    (ho : (∀ r' c', r' < h → c' < w → Measured (d r' c') → r' ≤ r) ∨ (∀ r' c', r' < h → c' < w → Measured (d r' c') → c' ≤ c)) : interpolate locate h w d r c = some (d r c) := by
  unfold interpolate
  dsimp only
  have hb := box_fold (measured h w d) ⟨h - 1, 0, w - 1, 0⟩
  change _ ∧ _ ∧ ((box h w d).maxR = 0 ∨ ∃ p ∈ measured h w d, (box h w d).maxR = p.1) ∧ ((box h w d).maxC = 0 ∨ ∃ p ∈ measured h w d, (box h w d).maxC = p.2) at hb
  obtain ⟨-, -, h1, h2⟩ := hb
  refine if_neg fun hi => ?_
  rcases ho with ho | ho
  · rcases h1 with h1 | ⟨p, hp, h1⟩
    · omega
    · rw [mem_measured] at hp
      have := ho p.1 p.2 hp.1 hp.2.1 hp.2.2
      omega
  · rcases h2 with h2 | ⟨p, hp, h2⟩
    · omega
    · rw [mem_measured] at hp
      have := ho p.1 p.2 hp.1 hp.2.1 hp.2.2
      omega

/-- Violation: a cell of the last row or of the last column of the hull gets no value (`C108_last_example`) -/
theorem C108_last (locate : List P3 → ℝ → ℝ → Face) (h w : Nat) (d : Nat → Nat → EReal) (r c : Nat) (hm : ¬ Measured (d r c)) (hb : ¬ Before h w d r c) : ∃ v, interpolate locate h w d r c = some v ∧ ¬ Measured v := by
  refine ⟨d r c, C108_outside_box locate h w d r c ?_, hm⟩
  by_contra hn
  push Not at hn
  obtain ⟨⟨r1, c1, a1, a2, a3, a4⟩, r2, c2, b1, b2, b3, b4⟩ := hn
  exact hb ⟨⟨r1, c1, a1, a2, a3, a4⟩, r2, c2, b1, b2, b3, b4⟩

/-! ### examples -/

/-- three measured cells (0, 0), (3, 0) and (3, 3) of a grid, with the values a, b and c -/
noncomputable def three (a b c : ℝ) (r k : Nat) : EReal := if r = 0 ∧ k = 0 then (a : EReal) else if r = 3 ∧ k = 0 then (b : EReal) else if r = 3 ∧ k = 3 then (c : EReal) else ⊥

open Classical in
/-- the triangulation of three points -/
noncomputable def locateThree (a b c : P3) (_ : List P3) (x y : ℝ) : Face := if InTriangle a b c x y then .finite a b c else .infinite

theorem three_measured {a b c : ℝ} {r k : Nat} : Measured (three a b c r k) ↔ (r = 0 ∧ k = 0) ∨ (r = 3 ∧ k = 0) ∨ (r = 3 ∧ k = 3) := by
  unfold three
  by_cases h1 : r = 0 ∧ k = 0
  · rw [if_pos h1]
    simp [Measured, h1]
  · rw [if_neg h1]
    by_cases h2 : r = 3 ∧ k = 0
    · rw [if_pos h2]
      simp [Measured, h2]
    · rw [if_neg h2]
      by_cases h3 : r = 3 ∧ k = 3
      · rw [if_pos h3]
        simp [Measured, h3]
      · rw [if_neg h3]
        simp only [h1, h2, h3, or_self, iff_false]
        exact fun h => h.2 rfl

theorem three_inserted {a b c : ℝ} {p : P3} : p ∈ inserted 4 4 (three a b c) ↔ p = (0, 0, a) ∨ p = (3, 0, b) ∨ p = (3, 3, c) := by
  rw [mem_inserted]
  constructor
  · rintro ⟨r, k, -, -, h, rfl⟩
    rcases three_measured.1 h with ⟨rfl, rfl⟩ | ⟨rfl, rfl⟩ | ⟨rfl, rfl⟩
    · left
      simp [three]
    · right; left
      simp [three]
    · right; right
      simp [three]
  · rintro (rfl | rfl | rfl)
    · exact ⟨0, 0, by decide, by decide, three_measured.2 (by decide), by simp [three]⟩
    · exact ⟨3, 0, by decide, by decide, three_measured.2 (by decide), by simp [three]⟩
    · exact ⟨3, 3, by decide, by decide, three_measured.2 (by decide), by simp [three]⟩

theorem three_triangle {a b c x y : ℝ} : InTriangle (0, 0, a) (3, 0, b) (3, 3, c) x y ↔ 0 ≤ y ∧ y ≤ x ∧ x ≤ 3 := by
  constructor
  · rintro ⟨-, u, v, w, hu, hv, hw, h1, h2, h3⟩
    dsimp only at h2 h3
    refine ⟨by linarith, by linarith, by linarith⟩
  · rintro ⟨h1, h2, h3⟩
    refine ⟨by norm_num, 1 - x / 3, (x - y) / 3, y / 3, by linarith, by linarith, by linarith, by ring, ?_, ?_⟩ <;> dsimp only <;> ring

theorem three_hull {a b c x y : ℝ} : InHull (inserted 4 4 (three a b c)) x y ↔ 0 ≤ y ∧ y ≤ x ∧ x ≤ 3 := by
  constructor
  · rintro ⟨p, hp, q, hq, s, hs, -, u, v, w, hu, hv, hw, h1, h2, h3⟩
    have hz : ∀ p ∈ inserted 4 4 (three a b c), 0 ≤ p.2.1 ∧ p.2.1 ≤ p.1 ∧ p.1 ≤ 3 := by
      intro p hp
      rcases three_inserted.1 hp with rfl | rfl | rfl <;> norm_num
    obtain ⟨p1, p2, p3⟩ := hz p hp
    obtain ⟨q1, q2, q3⟩ := hz q hq
    obtain ⟨s1, s2, s3⟩ := hz s hs
    rw [h2, h3]
    refine ⟨by positivity, ?_, ?_⟩
    · nlinarith [mul_le_mul_of_nonneg_left p2 hu, mul_le_mul_of_nonneg_left q2 hv, mul_le_mul_of_nonneg_left s2 hw]
    · nlinarith [mul_le_mul_of_nonneg_left p3 hu, mul_le_mul_of_nonneg_left q3 hv, mul_le_mul_of_nonneg_left s3 hw]
  · intro h
    exact ⟨_, three_inserted.2 (.inl rfl), _, three_inserted.2 (.inr (.inl rfl)), _, three_inserted.2 (.inr (.inr rfl)), three_triangle.2 h⟩

theorem three_locates (a b c : ℝ) : Locates (locateThree (0, 0, a) (3, 0, b) (3, 3, c)) (inserted 4 4 (three a b c)) where
  sound x y p q s h := by
    unfold locateThree at h
    by_cases ht : InTriangle (0, 0, a) (3, 0, b) (3, 3, c) x y
    · rw [if_pos ht] at h
      injection h with h1 h2 h3
      subst h1 h2 h3
      exact ⟨three_inserted.2 (.inl rfl), three_inserted.2 (.inr (.inl rfl)), three_inserted.2 (.inr (.inr rfl)), ht⟩
    · rw [if_neg ht] at h
      exact absurd h (by simp)
  hull x y h := ⟨_, _, _, if_pos (three_triangle.2 (three_hull.1 h))⟩
  outside x y h _ := if_neg fun ht => h (three_hull.2 (three_triangle.1 ht))

/-- an example of the theorems: the value of the cell (2, 1) is the mean of those of the corners -/
example : interpolate (locateThree (0, 0, 2) (3, 0, 4) (3, 3, 9)) 4 4 (three 2 4 9) 2 1 = some ((5 : ℝ) : EReal) := by
  have h := C108_plane (three_locates 2 4 9) 2 1 (by rw [three_measured]; decide) (three_hull.2 (by norm_num)) ⟨⟨3, 0, by decide, by decide, three_measured.2 (by decide), by decide⟩, 3, 3, by decide, by decide, three_measured.2 (by decide), by decide⟩
    (2 / 3) (5 / 3) 2 (by
      intro r c _ _ hm
      rcases three_measured.1 hm with ⟨rfl, rfl⟩ | ⟨rfl, rfl⟩ | ⟨rfl, rfl⟩ <;> norm_num [three])
  rw [h]
  norm_num

/-- Violation: for any triangulation, a cell in the last row of the hull gets no value. -/
theorem C108_last_example (locate : List P3 → ℝ → ℝ → Face) (a b c : ℝ) :
    InHull (inserted 4 4 (three a b c)) ((3 : Nat) : ℝ) ((1 : Nat) : ℝ) ∧ interpolate locate 4 4 (three a b c) 3 1 = some ⊥ := by
  refine ⟨three_hull.2 (by norm_num), ?_⟩
  rw [C108_outside_box]
  · rfl
  · left
    intro r k hr _ _
    omega

/-- Violation: it is not checked whether a face is infinite. A cell which is not in the hull, but in the box of the measured ones, gets a value computed from a position that is not initialised. -/
theorem C108_not_in_hull {locate : List P3 → ℝ → ℝ → Face} {h w : Nat} {d : Nat → Nat → EReal} (hl : Locates locate (inserted h w d)) (r c : Nat) (hm : ¬ Measured (d r c)) (hh : ¬ InHull (inserted h w d) r c)
    (hp : ∃ x y, InHull (inserted h w d) x y) (hb : Before h w d r c) (ha : (∃ r' c', r' < h ∧ c' < w ∧ Measured (d r' c') ∧ r' ≤ r) ∧ ∃ r' c', r' < h ∧ c' < w ∧ Measured (d r' c') ∧ c' ≤ c) :
    interpolate locate h w d r c = none := by
  obtain ⟨⟨r1, c1, a1, a2, a3, a4⟩, r2, c2, b1, b2, b3, b4⟩ := hb
  obtain ⟨⟨r3, c3, e1, e2, e3, e4⟩, r4, c4, f1, f2, f3, f4⟩ := ha
  have m1 := mem_box a1 a2 a3
  have m2 := mem_box b1 b2 b3
  have m3 := mem_box e1 e2 e3
  have m4 := mem_box f1 f2 f3
  unfold interpolate
  dsimp only
  rw [if_pos ⟨by omega, by omega, by omega, by omega, hm⟩, hl.outside _ _ hh hp]

example (a b c : ℝ) : interpolate (locateThree (0, 0, a) (3, 0, b) (3, 3, c)) 4 4 (three a b c) 1 2 = none :=
  C108_not_in_hull (three_locates a b c) 1 2 (by rw [three_measured]; decide) (by rw [three_hull]; norm_num) ⟨1, 1, three_hull.2 (by norm_num)⟩
    ⟨⟨3, 0, by decide, by decide, three_measured.2 (by decide), by decide⟩, 3, 3, by decide, by decide, three_measured.2 (by decide), by decide⟩
    ⟨⟨0, 0, by decide, by decide, three_measured.2 (by decide), by decide⟩, 0, 0, by decide, by decide, three_measured.2 (by decide), by decide⟩

end Envire.Elevation

#print axioms Envire.Elevation.C107_elevation_partial
#print axioms Envire.Elevation.C107_order
#print axioms Envire.Elevation.C107_root
#print axioms Envire.Elevation.C108_measured
#print axioms Envire.Elevation.C108_interpolate_partial
#print axioms Envire.Elevation.C108_between
#print axioms Envire.Elevation.C108_plane
#print axioms Envire.Elevation.C108_outside_box
#print axioms Envire.Elevation.C108_last
#print axioms Envire.Elevation.C108_last_example
#print axioms Envire.Elevation.C108_not_in_hull
