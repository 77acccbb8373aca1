import Verif.Maps.ImageModel
import Verif.Maps.RasterLemmas
import Mathlib.Algebra.Field.Rat

/-!
C143: images in grids. C144: copies between grids.
-/

namespace Envire.Image

open Envire.Raster

variable {V W K : Type}

/-! ### C143 -/

theorem rgbLoop_spec (n : Nat) (k : Nat) (l : List V) (hl : l.length = 3 * k) (i : Nat) (hi : i + k ≤ n) (m : (Nat → V) × (Nat → V) × (Nat → V)) :
    ∃ m', rgbLoop n l i m = some m' ∧
      (∀ j, j < k → l[3 * j]? = some (m'.1 (i + j)) ∧ l[3 * j + 1]? = some (m'.2.1 (i + j)) ∧ l[3 * j + 2]? = some (m'.2.2 (i + j))) ∧
      ∀ j, j < i ∨ i + k ≤ j → m'.1 j = m.1 j ∧ m'.2.1 j = m.2.1 j ∧ m'.2.2 j = m.2.2 j := by
  induction k generalizing l i m with
  | zero =>
    have : l = [] := by simpa using hl
    subst this
    exact ⟨m, rfl, fun j hj => absurd hj (by omega), fun j _ => ⟨rfl, rfl, rfl⟩⟩
  | succ k ih =>
    match l, hl with
    | r :: g :: b :: l, hl =>
      obtain ⟨m', e, h1, h2⟩ := ih l (by simp at hl; omega) (i + 1) (by omega)
        (Function.update m.1 i r, Function.update m.2.1 i g, Function.update m.2.2 i b)
      refine ⟨m', ?_, ?_, ?_⟩
      · rw [rgbLoop, if_pos (by omega)]
        exact e
      · intro j hj
        cases j with
        | zero =>
          obtain ⟨a1, a2, a3⟩ := h2 i (by omega)
          dsimp only at a1 a2 a3
          rw [Function.update_self] at a1 a2 a3
          rw [Nat.add_zero, a1, a2, a3]
          exact ⟨rfl, rfl, rfl⟩
        | succ j =>
          obtain ⟨a1, a2, a3⟩ := h1 j (by omega)
          have e1 : i + 1 + j = i + (j + 1) := by omega
          rw [e1] at a1 a2 a3
          rw [← a1, ← a2, ← a3]
          exact ⟨rfl, rfl, rfl⟩
      · intro j hj
        obtain ⟨a1, a2, a3⟩ := h2 j (by omega)
        dsimp only at a1 a2 a3
        rw [Function.update_of_ne (by omega)] at a1 a2 a3
        exact ⟨a1, a2, a3⟩
    | [], hl => simp at hl
    | [_], hl => simp at hl; omega
    | [_, _], hl => simp at hl; omega

theorem rgbLoop_none (n : Nat) (k : Nat) (l : List V) (hl : l.length = 3 * k) (i : Nat) (hi : n < i + k) (hk : 0 < k) (m : (Nat → V) × (Nat → V) × (Nat → V)) :
    rgbLoop n l i m = none := by
  induction k generalizing l i m with
  | zero => omega
  | succ k ih =>
    match l, hl with
    | r :: g :: b :: l, hl =>
      rw [rgbLoop]
      by_cases h : i < n
      · rw [if_pos h]
        exact ih l (by simp at hl; omega) (i + 1) (by omega) (by omega) _
      · rw [if_neg h]
    | [], hl => simp at hl
    | [_], hl => simp at hl; omega
    | [_, _], hl => simp at hl; omega

/-- the bytes of an RGB frame: pixel (y, x) has three bytes -/
def pixel (bytes : List V) (w y x c : Nat) : Option V := bytes[(y * w + x) * 3 + c]?

/-- everything except the cells of the bands is as before -/
def OnlyBands [Inhabited V] (g o : Grid V K) (ks : List String) : Prop :=
  Same g o ∧ o.nodata = g.nodata ∧ ∀ k, k ∉ ks → o.data k = g.data k

/-- the cells before the given address have the bytes of the image, and the others are as before -/
def Prefix [Inhabited V] (g o : Grid V K) (bytes : List V) (n : Nat) : Prop :=
  ∀ y x, y < g.ny → x < g.nx →
    if y * g.nx + x < n then
      bytes[(y * g.nx + x) * 3]? = some (o.cell "r" y x) ∧ bytes[(y * g.nx + x) * 3 + 1]? = some (o.cell "g" y x) ∧
        bytes[(y * g.nx + x) * 3 + 2]? = some (o.cell "b" y x)
    else o.cell "r" y x = g.cell "r" y x ∧ o.cell "g" y x = g.cell "g" y x ∧ o.cell "b" y x = g.cell "b" y x

section

variable [Inhabited V]

theorem getGridData_congr {g g' : Grid V K} {k : String} (h : g'.data k = g.data k) (hx : g'.nx = g.nx) (hy : g'.ny = g.ny) :
    g'.getGridData k = g.getGridData k := by
  unfold Grid.getGridData
  rw [h, hx, hy]

theorem put_data_other (g : Grid V K) (k k' : String) (a : Arr V) (h : k' ≠ k) : (g.put k a).data k' = g.data k' := by
  unfold Grid.put
  dsimp only
  rw [Function.update_of_ne h]

/-- copyFromFrame, with the grid after the three calls of getGridData as one value -/
theorem copyFromFrame_eq (g : Grid V K) (bytes : List V) : ∃ g3 : Grid V K, Same g g3 ∧ g3.nodata = g.nodata ∧ (∀ k, k ∉ ["r", "g", "b"] → g3.data k = g.data k) ∧
    copyFromFrame g bytes = match rgbLoop (g.ny * g.nx) bytes 0 ((g.getGridData "r").mem, (g.getGridData "g").mem, (g.getGridData "b").mem) with
      | none => .ub
      | some m => .ok (((g3.put "r" { g.getGridData "r" with mem := m.1 }).put "g" { g.getGridData "g" with mem := m.2.1 }).put "b" { g.getGridData "b" with mem := m.2.2 }, true) := by
  have eg : (g.put "r" (g.getGridData "r")).getGridData "g" = g.getGridData "g" :=
    getGridData_congr (put_data_other _ _ _ _ (by decide)) rfl rfl
  have eb : ((g.put "r" (g.getGridData "r")).put "g" (g.getGridData "g")).getGridData "b" = g.getGridData "b" :=
    getGridData_congr ((put_data_other _ _ _ _ (by decide)).trans (put_data_other _ _ _ _ (by decide))) rfl rfl
  refine ⟨((g.put "r" (g.getGridData "r")).put "g" (g.getGridData "g")).put "b" (g.getGridData "b"), ⟨rfl, rfl, rfl, rfl, rfl, rfl, rfl⟩, rfl, ?_, ?_⟩
  · intro k hk
    simp only [List.mem_cons, List.not_mem_nil, or_false, not_or] at hk
    rw [put_data_other _ _ _ _ hk.2.2, put_data_other _ _ _ _ hk.2.1, put_data_other _ _ _ _ hk.1]
  · unfold copyFromFrame
    dsimp only
    rw [eg, eb]
    rfl

theorem copyFromFrame_spec (g : Grid V K) (bytes : List V) (n : Nat) (hl : bytes.length = 3 * n) :
    (n ≤ g.ny * g.nx → ∃ o, copyFromFrame g bytes = .ok (o, true) ∧ OnlyBands g o ["r", "g", "b"] ∧ Prefix g o bytes n) ∧
      (g.ny * g.nx < n → copyFromFrame g bytes = .ub) := by
  obtain ⟨g3, s3, n3, d3, e3⟩ := copyFromFrame_eq g bytes
  constructor
  · intro hn
    obtain ⟨m, e, h1, h2⟩ := rgbLoop_spec (g.ny * g.nx) n bytes hl 0 (by omega) ((g.getGridData "r").mem, (g.getGridData "g").mem, (g.getGridData "b").mem)
    rw [e] at e3
    refine ⟨_, e3, ?_, ?_⟩
    · refine ⟨⟨s3.ty, s3.nx, s3.ny, s3.sx, s3.sy, s3.ox, s3.oy⟩, n3, fun k hk => ?_⟩
      rw [← d3 k hk]
      simp only [List.mem_cons, List.not_mem_nil, or_false, not_or] at hk
      rw [put_data_other _ _ _ _ hk.2.2, put_data_other _ _ _ _ hk.2.1, put_data_other _ _ _ _ hk.1]
    · intro y x hy hx
      have hgr := getGridData_get g "r" hy hx
      have hgg := getGridData_get g "g" hy hx
      have hgb := getGridData_get g "b" hy hx
      obtain ⟨wr, hr⟩ : (g.getGridData "r").w = g.nx ∧ (g.getGridData "r").h = g.ny := ⟨rfl, rfl⟩
      obtain ⟨wg, hg⟩ : (g.getGridData "g").w = g.nx ∧ (g.getGridData "g").h = g.ny := ⟨rfl, rfl⟩
      obtain ⟨wb, hb⟩ : (g.getGridData "b").w = g.nx ∧ (g.getGridData "b").h = g.ny := ⟨rfl, rfl⟩
      generalize g.getGridData "r" = ar at *
      generalize g.getGridData "g" = ag at *
      generalize g.getGridData "b" = ab at *
      have cb : (((g3.put "r" { ar with mem := m.1 }).put "g" { ag with mem := m.2.1 }).put "b" { ab with mem := m.2.2 }).cell "b" y x = m.2.2 (y * g.nx + x) := by
        rw [put_cell _ _ _ ⟨by dsimp only; rw [wb]; exact hx, by dsimp only; rw [hb]; exact hy⟩]
        unfold Arr.get
        dsimp only
        rw [wb]
      have cg : (((g3.put "r" { ar with mem := m.1 }).put "g" { ag with mem := m.2.1 }).put "b" { ab with mem := m.2.2 }).cell "g" y x = m.2.1 (y * g.nx + x) := by
        rw [put_other _ _ _ (by decide), put_cell _ _ _ ⟨by dsimp only; rw [wg]; exact hx, by dsimp only; rw [hg]; exact hy⟩]
        unfold Arr.get
        dsimp only
        rw [wg]
      have cr : (((g3.put "r" { ar with mem := m.1 }).put "g" { ag with mem := m.2.1 }).put "b" { ab with mem := m.2.2 }).cell "r" y x = m.1 (y * g.nx + x) := by
        rw [put_other _ _ _ (by decide), put_other _ _ _ (by decide), put_cell _ _ _ ⟨by dsimp only; rw [wr]; exact hx, by dsimp only; rw [hr]; exact hy⟩]
        unfold Arr.get
        dsimp only
        rw [wr]
      rw [cr, cg, cb]
      split_ifs with h
      · have := h1 _ h
        rw [Nat.zero_add] at this
        rw [Nat.mul_comm _ 3]
        exact this
      · obtain ⟨a1, a2, a3⟩ := h2 (y * g.nx + x) (Or.inr (by omega))
        rw [a1, a2, a3]
        exact ⟨hgr.2, hgg.2, hgb.2⟩
  · intro hn
    rw [rgbLoop_none (g.ny * g.nx) n bytes hl 0 (by omega) (by omega)] at e3
    exact e3

/-- C143: a frame of the size of the image grid: every cell gets the three bytes of its pixel, nothing else is changed, and the change
is announced. Missing: frames of another size, which are not rejected (`C143_larger`, `C143_smaller`, `C143_shape`) -/
theorem C143_frame_partial (g : Grid V K) (bytes : List V) (hl : bytes.length = g.ny * g.nx * 3) :
    ∃ o, copyFromFrame g bytes = .ok (o, true) ∧ OnlyBands g o ["r", "g", "b"] ∧
      ∀ y x, y < g.ny → x < g.nx → pixel bytes g.nx y x 0 = some (o.cell "r" y x) ∧ pixel bytes g.nx y x 1 = some (o.cell "g" y x) ∧
        pixel bytes g.nx y x 2 = some (o.cell "b" y x) := by
  obtain ⟨o, h1, h2, h3⟩ := (copyFromFrame_spec g bytes (g.ny * g.nx) (by omega)).1 (le_refl _)
  refine ⟨o, h1, h2, fun y x hy hx => ?_⟩
  have := h3 y x hy hx
  rw [if_pos (addr_lt hy hx)] at this
  exact this

/-- an example for C143: an image of two pixels -/
example : ∃ o, copyFromFrame (⟨.byte, 2, 1, 1, 1, 0, 0, fun _ => none, fun _ => none⟩ : Grid Nat ℚ) [1, 2, 3, 4, 5, 6] = .ok (o, true) ∧ o.cell "g" 0 1 = 5 := by
  obtain ⟨o, h1, -, h3⟩ := C143_frame_partial (⟨.byte, 2, 1, 1, 1, 0, 0, fun _ => none, fun _ => none⟩ : Grid Nat ℚ) [1, 2, 3, 4, 5, 6] rfl
  exact ⟨o, h1, (Option.some.inj (h3 0 1 (by decide) (by decide)).2.1).symm⟩

/-- C143 is wrong: a frame with more pixels than the grid has cells is written beyond the end of the arrays -/
theorem C143_larger (g : Grid V K) (bytes : List V) (n : Nat) (hl : bytes.length = 3 * n) (h : g.ny * g.nx < n) : copyFromFrame g bytes = .ub :=
  (copyFromFrame_spec g bytes n hl).2 h

/-- C143 is wrong: a frame with fewer pixels leaves the rest of the cells as they were, and the change is announced as usual -/
theorem C143_smaller (g : Grid V K) (bytes : List V) (n : Nat) (hl : bytes.length = 3 * n) (h : n ≤ g.ny * g.nx) :
    ∃ o, copyFromFrame g bytes = .ok (o, true) ∧ ∀ y x, y < g.ny → x < g.nx → n ≤ y * g.nx + x → o.cell "r" y x = g.cell "r" y x := by
  obtain ⟨o, h1, -, h3⟩ := (copyFromFrame_spec g bytes n hl).1 h
  refine ⟨o, h1, fun y x hy hx hn => ?_⟩
  have := h3 y x hy hx
  rw [if_neg (by omega)] at this
  exact this.1

/-- C143 is wrong: a frame of another shape with the same number of pixels, here three columns and two rows into two columns and three
rows, puts pixels into cells with other indices: pixel (0, 2) of the frame is in cell (1, 0) -/
theorem C143_shape (p : Nat → Nat → Nat → V) :
    ∃ o, copyFromFrame (⟨.byte, 2, 3, 1, 1, 0, 0, fun _ => none, fun _ => none⟩ : Grid V ℚ)
        ((order 3 2).flatMap fun q => [p q.1 q.2 0, p q.1 q.2 1, p q.1 q.2 2]) = .ok (o, true) ∧
      o.cell "r" 1 0 = p 0 2 0 ∧ o.cell "r" 1 1 = p 1 0 0 := by
  obtain ⟨o, h1, -, h3⟩ := (copyFromFrame_spec (⟨.byte, 2, 3, 1, 1, 0, 0, fun _ => none, fun _ => none⟩ : Grid V ℚ)
        ((order 3 2).flatMap fun q => [p q.1 q.2 0, p q.1 q.2 1, p q.1 q.2 2]) 6 rfl).1 (by simp)
  refine ⟨o, h1, ?_, ?_⟩
  · have := h3 1 0 (by simp) (by simp)
    rw [if_pos (by simp)] at this
    exact (Option.some.inj this.1).symm
  · have := h3 1 1 (by simp) (by simp)
    rw [if_pos (by simp)] at this
    exact (Option.some.inj this.1).symm

theorem copyM_spec (nx w : Nat) (data : List V) (l : List (Nat × Nat)) (hl : l.Pairwise fun q p => q.1 * w + q.2 ≠ p.1 * w + p.2)
    (hd : ∀ p ∈ l, p.1 * nx + p.2 < data.length) (m : Nat → V) :
    ∃ m', l.foldlM (fun (m : Nat → V) p => (data[p.1 * nx + p.2]?).map fun v => Function.update m (p.1 * w + p.2) v) m = some m' ∧
      (∀ p ∈ l, data[p.1 * nx + p.2]? = some (m' (p.1 * w + p.2))) ∧ ∀ i, (∀ p ∈ l, p.1 * w + p.2 ≠ i) → m' i = m i := by
  induction l generalizing m with
  | nil => exact ⟨m, rfl, fun p hp => absurd hp (by simp), fun _ _ => rfl⟩
  | cons p l ih =>
    obtain ⟨h1, h2⟩ := List.pairwise_cons.1 hl
    have hp := hd p (by simp)
    obtain ⟨m', e, a1, a2⟩ := ih h2 (fun q hq => hd q (by simp [hq])) (Function.update m (p.1 * w + p.2) data[p.1 * nx + p.2])
    refine ⟨m', ?_, ?_, ?_⟩
    · rw [List.foldlM_cons, List.getElem?_eq_getElem hp]
      exact e
    · intro q hq
      rcases List.mem_cons.1 hq with rfl | hq
      · rw [a2 _ (fun r hr => (h1 r hr).symm), Function.update_self, List.getElem?_eq_getElem hp]
      · exact a1 q hq
    · intro i hi
      rw [a2 i (fun r hr => hi r (by simp [hr])), Function.update_of_ne (hi p (by simp)).symm]

/-- C143: a distance image with at least as many values as the grid has cells: the values are taken line by line with the width of the
grid; nothing else is changed -/
theorem C143_distance_partial (g : Grid V K) (im : DistanceImage V K) (h : g.ny * g.nx ≤ im.data.length) :
    ∃ o, copyFromDistanceImage g im = .ok (o, false) ∧ OnlyBands g o ["distance"] ∧
      ∀ y x, y < g.ny → x < g.nx → im.data[y * g.nx + x]? = some (o.cell "distance" y x) := by
  have hw : (g.getGridData "distance").w = g.nx := rfl
  obtain ⟨m, e, h1, -⟩ := copyM_spec g.nx (g.getGridData "distance").w im.data (order g.nx g.ny)
    ((order_pairwise g.nx g.ny).imp fun hp => by rw [hw]; omega)
    (fun p hp => lt_of_lt_of_le (addr_lt (mem_order.1 hp).1 (mem_order.1 hp).2) h) (g.getGridData "distance").mem
  refine ⟨g.put "distance" ⟨g.ny, g.nx, m⟩, ?_, ⟨⟨rfl, rfl, rfl, rfl, rfl, rfl, rfl⟩, rfl, fun k hk => ?_⟩, ?_⟩
  · unfold copyFromDistanceImage
    dsimp only
    rw [e]
    rfl
  · unfold Grid.put
    dsimp only
    rw [Function.update_of_ne (by simpa using hk)]
  · intro y x hy hx
    rw [put_cell _ _ _ ⟨hx, hy⟩]
    exact h1 (y, x) (mem_order.2 ⟨hy, hx⟩)

/-- C143: a grid that is made for a distance image has its size, scale and offset, but none of its values; after the copy every cell
has the value of its pixel. Missing: the change is not announced; images of other sizes (`C143_distance_small`, `C143_distance_shape`) -/
theorem C143_new_partial (im : DistanceImage V K) (h : im.data.length = im.height * im.width) :
    (∀ k, (newDistanceGrid im).data k = none) ∧
      ∃ o, copyFromDistanceImage (newDistanceGrid im) im = .ok (o, false) ∧ o.nx = im.width ∧ o.ny = im.height ∧ o.sx = im.scaleX ∧ o.sy = im.scaleY ∧
        o.ox = im.centerX ∧ o.oy = im.centerY ∧
        ∀ y x, y < im.height → x < im.width → im.data[y * im.width + x]? = some (o.cell "distance" y x) := by
  refine ⟨fun _ => rfl, ?_⟩
  obtain ⟨o, h1, h2, h3⟩ := C143_distance_partial (newDistanceGrid im) im (by rw [h]; exact le_refl _)
  exact ⟨o, h1, h2.1.nx, h2.1.ny, h2.1.sx, h2.1.sy, h2.1.ox, h2.1.oy, h3⟩

/-- C143 is wrong: a distance image with fewer values than the grid has cells is read beyond its end -/
theorem C143_distance_small (g : Grid V K) (im : DistanceImage V K) (h : im.data.length < g.ny * g.nx) : copyFromDistanceImage g im = .ub := by
  have key : ∀ (l : List (Nat × Nat)) (m : Nat → V), (∃ p ∈ l, im.data.length ≤ p.1 * g.nx + p.2) →
      l.foldlM (fun (m : Nat → V) p => (im.data[p.1 * g.nx + p.2]?).map fun v => Function.update m (p.1 * (g.getGridData "distance").w + p.2) v) m = none := by
    intro l
    induction l with
    | nil => rintro m ⟨p, hp, -⟩; exact absurd hp (by simp)
    | cons q l ih =>
      rintro m ⟨p, hp, hlen⟩
      rw [List.foldlM_cons]
      rcases List.mem_cons.1 hp with rfl | hp
      · rw [List.getElem?_eq_none hlen]
        rfl
      · cases im.data[q.1 * g.nx + q.2]? with
        | none => rfl
        | some v => exact ih _ ⟨p, hp, hlen⟩
  have hx : 0 < g.nx := by
    rcases Nat.eq_zero_or_pos g.nx with h0 | h0
    · rw [h0] at h; omega
    · exact h0
  have hy : 0 < g.ny := by
    rcases Nat.eq_zero_or_pos g.ny with h0 | h0
    · rw [h0] at h; omega
    · exact h0
  unfold copyFromDistanceImage
  dsimp only
  rw [key]
  refine ⟨(g.ny - 1, g.nx - 1), mem_order.2 ⟨by dsimp only; omega, by dsimp only; omega⟩, ?_⟩
  dsimp only
  have : (g.ny - 1) * g.nx + g.nx = g.ny * g.nx := by
    rw [← Nat.succ_mul]
    congr 1
    omega
  omega

/-- C143 is wrong: the width of the image is not compared: for an image that is wider than the grid, the second row of the grid
continues with the first row of the image -/
theorem C143_distance_shape (g : Grid V K) (im : DistanceImage V K) (h : g.nx < im.width) (hx : 0 < g.nx) (hy : 1 < g.ny)
    (hd : im.data.length = im.height * im.width) (hh : g.ny ≤ im.height) :
    ∃ o, copyFromDistanceImage g im = .ok (o, false) ∧ im.data[0 * im.width + g.nx]? = some (o.cell "distance" 1 0) := by
  obtain ⟨o, h1, -, h3⟩ := C143_distance_partial g im (by rw [hd]; exact Nat.mul_le_mul hh h.le)
  refine ⟨o, h1, ?_⟩
  have := h3 1 0 hy hx
  rw [← this]
  simp

/-! ### C144 -/

theorem copy_spec [Inhabited W] (w : Nat) (c : Nat × Nat → W) (l : List (Nat × Nat)) (hl : l.Pairwise fun q p => q.1 * w + q.2 ≠ p.1 * w + p.2) (m : Nat → W) :
    (∀ p ∈ l, l.foldl (fun (m : Nat → W) p => Function.update m (p.1 * w + p.2) (c p)) m (p.1 * w + p.2) = c p) ∧
      ∀ i, (∀ p ∈ l, p.1 * w + p.2 ≠ i) → l.foldl (fun (m : Nat → W) p => Function.update m (p.1 * w + p.2) (c p)) m i = m i := by
  induction l generalizing m with
  | nil => exact ⟨fun p hp => absurd hp (by simp), fun _ _ => rfl⟩
  | cons p l ih =>
    obtain ⟨h1, h2⟩ := List.pairwise_cons.1 hl
    obtain ⟨a1, a2⟩ := ih h2 (Function.update m (p.1 * w + p.2) (c p))
    refine ⟨fun q hq => ?_, fun i hi => ?_⟩
    · rw [List.foldl_cons]
      rcases List.mem_cons.1 hq with rfl | hq
      · rw [a2 _ (fun r hr => (h1 r hr).symm), Function.update_self]
      · exact a1 q hq
    · rw [List.foldl_cons, a2 i (fun r hr => hi r (by simp [hr])), Function.update_of_ne (hi p (by simp)).symm]

/-- C144: copyGridToGrid gives every cell of the band "elevation" whose indices both grids have the converted value of the cell of the
first grid with the same indices; all other cells and bands are as before, in both grids. Nothing is said about places: the scales,
offsets and frames are not used (`C144_place`) -/
theorem C144_cells_partial [Inhabited W] (conv : V → W) (band : String) (g : Grid V K) (g2 : Grid W K) :
    OnlyBands g (copyGridToGrid conv band g g2).1 [band] ∧ OnlyBands g2 (copyGridToGrid conv band g g2).2 ["elevation"] ∧
      (∀ y x, y < g.ny → x < g.nx → (copyGridToGrid conv band g g2).1.cell band y x = g.cell band y x) ∧
      ∀ y x, y < g2.ny → x < g2.nx → (copyGridToGrid conv band g g2).2.cell "elevation" y x =
        if y < g.ny ∧ x < g.nx then conv (g.cell band y x) else g2.cell "elevation" y x := by
  have hw : (g2.getGridData "elevation").w = g2.nx := rfl
  have inj : ∀ p ∈ order (min g.nx g2.nx) (min g.ny g2.ny), p.1 < g.ny ∧ p.1 < g2.ny ∧ p.2 < g.nx ∧ p.2 < g2.nx := by
    intro p hp
    have := mem_order.1 hp
    omega
  have hp : (order (min g.nx g2.nx) (min g.ny g2.ny)).Pairwise fun q p => q.1 * (g2.getGridData "elevation").w + q.2 ≠ p.1 * (g2.getGridData "elevation").w + p.2 := by
    refine List.Pairwise.imp_of_mem ?_ (order_pairwise (min g.nx g2.nx) (min g.ny g2.ny))
    intro q p hq hp h he
    rw [hw] at he
    obtain ⟨e1, e2⟩ := addr_inj (inj q hq).2.2.2 (inj p hp).2.2.2 he
    rw [e1, e2] at h
    exact absurd h.2 (lt_irrefl _)
  obtain ⟨a1, a2⟩ := copy_spec (g2.getGridData "elevation").w (fun p => conv ((g.getGridData band).get p.1 p.2)) _ hp (g2.getGridData "elevation").mem
  refine ⟨⟨⟨rfl, rfl, rfl, rfl, rfl, rfl, rfl⟩, rfl, fun k hk => ?_⟩, ⟨⟨rfl, rfl, rfl, rfl, rfl, rfl, rfl⟩, rfl, fun k hk => ?_⟩, ?_, ?_⟩
  · show Function.update g.data band _ k = _
    rw [Function.update_of_ne (by simpa using hk)]
  · show Function.update g2.data "elevation" _ k = _
    rw [Function.update_of_ne (by simpa using hk)]
  · intro y x hy hx
    unfold copyGridToGrid
    dsimp only
    rw [put_cell _ _ _ ⟨hx, hy⟩]
    exact (getGridData_get g band hy hx).1
  · intro y x hy hx
    unfold copyGridToGrid
    dsimp only
    rw [put_cell _ _ _ ⟨hx, hy⟩]
    unfold Arr.get
    dsimp only
    rw [hw]
    split_ifs with h
    · have := a1 (y, x) (mem_order.2 ⟨by dsimp only; omega, by dsimp only; omega⟩)
      dsimp only at this
      rw [(getGridData_get g band h.1 h.2).1] at this
      exact this
    · have := a2 (y * g2.nx + x) (fun p hp' he => by
        obtain ⟨e1, e2⟩ := addr_inj (inj p hp').2.2.2 hx he
        have := inj p hp'
        rw [e1, e2] at this
        exact h ⟨this.1, this.2.2.1⟩)
      rw [(getGridData_get g2 "elevation" hy hx).2] at this
      exact this

/-- an example for C144: a grid with two columns into one with three; the third column keeps its value -/
example : (copyGridToGrid (fun n => n * 2) "a" (⟨.byte, 2, 1, 1, 1, 0, 0, fun _ => some ⟨1, 2, fun i => i + 1⟩, fun _ => none⟩ : Grid Nat ℚ)
    (⟨.byte, 3, 1, 1, 1, 0, 0, fun _ => some ⟨1, 3, fun _ => 9⟩, fun _ => none⟩ : Grid Nat ℚ)).2.cell "elevation" 0 1 = 4 ∧
    (copyGridToGrid (fun n => n * 2) "a" (⟨.byte, 2, 1, 1, 1, 0, 0, fun _ => some ⟨1, 2, fun i => i + 1⟩, fun _ => none⟩ : Grid Nat ℚ)
    (⟨.byte, 3, 1, 1, 1, 0, 0, fun _ => some ⟨1, 3, fun _ => 9⟩, fun _ => none⟩ : Grid Nat ℚ)).2.cell "elevation" 0 2 = 9 := by
  decide

/-- C144 is wrong about places: the cell of the result at (15, 5) gets the value of the cell at (3/2, 1/2) -/
theorem C144_place : ∃ (g g2 : Grid Nat ℚ), ((1 : ℚ) + 1 / 2) * g.sx + g.ox = 3 / 2 ∧ ((1 : ℚ) + 1 / 2) * g2.sx + g2.ox = 15 ∧
    (copyGridToGrid id "a" g g2).2.cell "elevation" 0 1 = g.cell "a" 0 1 ∧ g.cell "a" 0 1 = 2 := by
  refine ⟨⟨.byte, 2, 1, 1, 1, 0, 0, fun _ => some ⟨1, 2, fun i => i + 1⟩, fun _ => none⟩, ⟨.byte, 2, 1, 10, 10, 0, 0, fun _ => none, fun _ => none⟩, by norm_num, by norm_num, by decide, by decide⟩

end

#print axioms C143_frame_partial
#print axioms C143_larger
#print axioms C143_smaller
#print axioms C143_shape
#print axioms C143_distance_partial
#print axioms C143_new_partial
#print axioms C143_distance_small
#print axioms C143_distance_shape
#print axioms C144_cells_partial
#print axioms C144_place

end Envire.Image
