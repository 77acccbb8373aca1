import Verif.Maps.RasterModel
import Mathlib.Tactic.Ring
import Mathlib.Tactic.Linarith

/-!
Lemmas for C135 to C137: copies between rasters and memory.
-/

namespace Envire.Raster

variable {V K : Type}

theorem addr_div {w y x : Nat} (hx : x < w) : (y * w + x) / w = y ∧ (y * w + x) % w = x := by
  have hw : 0 < w := by omega
  constructor
  · rw [Nat.mul_comm, Nat.mul_add_div hw, Nat.div_eq_of_lt hx, Nat.add_zero]
  · rw [Nat.mul_comm, Nat.mul_add_mod, Nat.mod_eq_of_lt hx]

theorem addr_inj {w y x y' x' : Nat} (hx : x < w) (hx' : x' < w) (h : y * w + x = y' * w + x') : y = y' ∧ x = x' := by
  have h1 := addr_div (y := y) hx
  have h2 := addr_div (y := y') hx'
  rw [h] at h1
  exact ⟨h1.1.symm.trans h2.1, h1.2.symm.trans h2.2⟩

theorem addr_lt {w h y x : Nat} (hy : y < h) (hx : x < w) : y * w + x < h * w := by
  have : (y + 1) * w ≤ h * w := Nat.mul_le_mul_right _ hy
  rw [Nat.succ_mul] at this
  omega

theorem resize_get [Inhabited V] (a : Arr V) {h w y x : Nat} (hy : y < h) (hx : x < w) :
    (a.resize h w).get y x = if x < a.w ∧ y < a.h then a.get y x else default := by
  obtain ⟨h1, h2⟩ := addr_div (y := y) hx
  unfold Arr.resize
  show (if _ then _ else _) = _
  dsimp only
  rw [h1, h2]
  simp [hy]

theorem mem_order {nx ny : Nat} {p : Nat × Nat} : p ∈ order nx ny ↔ p.1 < ny ∧ p.2 < nx := by
  unfold order
  obtain ⟨y, x⟩ := p
  simp

theorem order_pairwise (nx ny : Nat) : (order nx ny).Pairwise fun q p => q.1 ≤ p.1 ∧ q.1 * nx + q.2 < p.1 * nx + p.2 := by
  unfold order
  rw [List.pairwise_flatMap]
  constructor
  · intro y _
    rw [List.pairwise_map]
    refine List.Pairwise.imp ?_ List.pairwise_lt_range
    intro a b h
    exact ⟨le_refl _, by simpa using h⟩
  · refine List.Pairwise.imp ?_ List.pairwise_lt_range
    intro a b h p hp q hq
    obtain ⟨x, hx, rfl⟩ := List.mem_map.1 hp
    obtain ⟨x', hx', rfl⟩ := List.mem_map.1 hq
    have hx := List.mem_range.1 hx
    refine ⟨h.le, ?_⟩
    dsimp only
    have : (a + 1) * nx ≤ b * nx := Nat.mul_le_mul_right _ h
    rw [Nat.succ_mul] at this
    omega

theorem pokes {n : Nat} (f : Nat × Nat → Int) (c : Nat × Nat → V) (l : List (Nat × Nat)) (h : ∀ p ∈ l, 0 ≤ f p ∧ f p < n) (m : Nat → V) :
    ∃ m', l.foldlM (fun m p => poke n m (f p) (c p)) m = some m' ∧
      ∀ p, (∀ q ∈ l, f q = f p → c q = c p) → (p ∈ l ∨ (0 ≤ f p ∧ m (f p).toNat = c p)) → m' (f p).toNat = c p := by
  induction l generalizing m with
  | nil => exact ⟨m, rfl, fun p _ hp => hp.elim (fun h => absurd h (by simp)) (fun h => h.2)⟩
  | cons q l ih =>
    obtain ⟨m', e, hm'⟩ := ih (fun p hp => h p (by simp [hp])) (Function.update m (f q).toNat (c q))
    have hq := h q (by simp)
    refine ⟨m', ?_, ?_⟩
    · rw [List.foldlM_cons]
      have : poke n m (f q) (c q) = some (Function.update m (f q).toNat (c q)) := by unfold poke; rw [if_pos hq]
      rw [this]
      exact e
    · intro p hp hcase
      refine hm' p (fun r hr => hp r (by simp [hr])) ?_
      rcases hcase with hcase | ⟨h0, hcase⟩
      · rcases List.mem_cons.1 hcase with rfl | hcase
        · right
          exact ⟨hq.1, by rw [Function.update_self]⟩
        · exact Or.inl hcase
      · right
        refine ⟨h0, ?_⟩
        by_cases he : f q = f p
        · rw [he, Function.update_self]
          exact hp q (by simp) he
        · rw [Function.update_of_ne (by omega)]
          exact hcase

theorem moves (t s : Nat × Nat → Nat) (l : List (Nat × Nat)) (h : l.Pairwise fun q p => t q ≠ t p ∧ t q ≠ s p) (m : Nat → V) :
    (∀ p ∈ l, l.foldl (fun m p => Function.update m (t p) (m (s p))) m (t p) = m (s p)) ∧
      ∀ i, (∀ p ∈ l, t p ≠ i) → l.foldl (fun m p => Function.update m (t p) (m (s p))) m i = m i := by
  induction l generalizing m with
  | nil => exact ⟨fun p hp => absurd hp (by simp), fun i _ => rfl⟩
  | cons q l ih =>
    obtain ⟨h1, h2⟩ := List.pairwise_cons.1 h
    obtain ⟨g1, g2⟩ := ih h2 (Function.update m (t q) (m (s q)))
    refine ⟨?_, ?_⟩
    · intro p hp
      rw [List.foldl_cons]
      rcases List.mem_cons.1 hp with rfl | hp
      · rw [g2 _ (fun r hr => (h1 r hr).1.symm), Function.update_self]
      · rw [g1 p hp, Function.update_of_ne (h1 p hp).2.symm]
    · intro i hi
      rw [List.foldl_cons, g2 i (fun r hr => hi r (by simp [hr])), Function.update_of_ne (hi q (by simp)).symm]

theorem turnLines_get {nx ny : Nat} (m : Nat → V) {y x : Nat} (hy : y < ny) (hx : x < nx) :
    turnLines nx ny m (y * nx + x) = m ((y + 1) * nx + (nx - 1 - x)) := by
  have := (moves (fun p => p.1 * nx + p.2) (fun p => (p.1 + 1) * nx + (nx - 1 - p.2)) (order nx ny) ?_ m).1 (y, x) (mem_order.2 ⟨hy, hx⟩)
  · exact this
  · have hp := order_pairwise nx ny
    refine List.Pairwise.imp_of_mem ?_ hp
    rintro q p hq - ⟨h1, h2⟩
    refine ⟨h2.ne, ?_⟩
    have := (mem_order.1 hq).2
    have : (q.1 + 1) * nx ≤ (p.1 + 1) * nx := Nat.mul_le_mul_right _ (by omega)
    rw [Nat.succ_mul] at this
    have h3 : q.1 * nx + q.2 < (p.1 + 1) * nx := by omega
    intro he
    rw [he] at h3
    omega

/-- an index, from the other end if `b` -/
def turn (b : Bool) (n i : Nat) : Nat := if b then n - 1 - i else i

theorem turn_lt {b : Bool} {n i : Nat} (h : i < n) : turn b n i < n := by
  unfold turn
  split <;> omega

theorem turn_turn {b : Bool} {n i : Nat} (h : i < n) : turn b n (turn b n i) = i := by
  unfold turn
  split
  · omega
  · rfl

/-- RasterIO with the start and the distance of the lines of the code -/
theorem rasterRead_get (off nx ny n : Nat) (yDir : Bool) (cells : Nat → Nat → V) (m : Nat → V) (hn : off + ny * nx ≤ n) :
    ∃ m', rasterRead n ((off : Int) + if yDir then (nx : Int) * ((ny : Int) - 1) else 0) (if yDir then -(nx : Int) else nx) cells nx ny m = some m' ∧
      ∀ y x, y < ny → x < nx → m' (off + y * nx + x) = cells (turn yDir ny y) x := by
  have haddr : ∀ y x : Nat, y < ny → ((off : Int) + if yDir then (nx : Int) * ((ny : Int) - 1) else 0) + (y : Int) * (if yDir then -(nx : Int) else nx) + (x : Int) =
      ((off + turn yDir ny y * nx + x : Nat) : Int) := by
    intro y x hy
    cases yDir with
    | false => simp [turn]
    | true =>
      simp only [turn, if_true]
      have : ((ny - 1 - y : Nat) : Int) = (ny : Int) - 1 - y := by omega
      push_cast [this]
      ring
  obtain ⟨m', e, h⟩ := pokes (n := n)
    (fun p => ((off : Int) + if yDir then (nx : Int) * ((ny : Int) - 1) else 0) + (p.1 : Int) * (if yDir then -(nx : Int) else nx) + (p.2 : Int))
    (fun p => cells p.1 p.2) (order nx ny) (fun p hp => by
      obtain ⟨h1, h2⟩ := mem_order.1 hp
      rw [haddr _ _ h1]
      have := addr_lt (turn_lt (b := yDir) h1) h2
      refine ⟨Int.natCast_nonneg _, ?_⟩
      exact_mod_cast (by omega : off + turn yDir ny p.1 * nx + p.2 < n)) m
  refine ⟨m', e, fun y x hy hx => ?_⟩
  have hy' := turn_lt (b := yDir) hy
  have := h (turn yDir ny y, x) (fun q hq he => ?_) (Or.inl (mem_order.2 ⟨hy', hx⟩))
  · dsimp only at this
    rw [haddr _ _ hy', turn_turn hy, Int.toNat_natCast] at this
    exact this
  · obtain ⟨h1, h2⟩ := mem_order.1 hq
    dsimp only at he ⊢
    rw [haddr _ _ h1, haddr _ _ hy'] at he
    have he' : off + turn yDir ny q.1 * nx + q.2 = off + turn yDir ny (turn yDir ny y) * nx + x := by exact_mod_cast he
    obtain ⟨g1, g2⟩ := addr_inj h2 hx (by omega : turn yDir ny q.1 * nx + q.2 = turn yDir ny (turn yDir ny y) * nx + x)
    have : q.1 = turn yDir ny y := by rw [← turn_turn (b := yDir) h1, g1, turn_turn hy']
    rw [this, g2]

/-- the value of a cell of a band -/
def Grid.cell [Inhabited V] (g : Grid V K) (key : String) (y x : Nat) : V :=
  match g.data key with
  | none => default
  | some a => if x < a.w ∧ y < a.h then a.get y x else default

theorem getGridData_get [Inhabited V] (g : Grid V K) (key : String) {y x : Nat} (hy : y < g.ny) (hx : x < g.nx) :
    (g.getGridData key).get y x = g.cell key y x ∧ (g.getGridData key).mem (y * g.nx + x) = g.cell key y x := by
  have h : (g.getGridData key).get y x = g.cell key y x := by
    unfold Grid.getGridData Grid.cell
    rw [resize_get _ hy hx]
    cases g.data key with
    | none => simp
    | some a => rfl
  exact ⟨h, h⟩

theorem put_cell [Inhabited V] (g : Grid V K) (key : String) (a : Arr V) {y x : Nat} (h : x < a.w ∧ y < a.h) :
    (g.put key a).cell key y x = a.get y x := by
  unfold Grid.put Grid.cell
  dsimp only
  rw [Function.update_self]
  dsimp only
  rw [if_pos h]

theorem put_other [Inhabited V] (g : Grid V K) (key : String) (a : Arr V) {key' : String} (h : key' ≠ key) (y x : Nat) :
    (g.put key a).cell key' y x = g.cell key' y x := by
  unfold Grid.put Grid.cell
  dsimp only
  rw [Function.update_of_ne h]

/-- the grids have the same type, size and scale -/
structure Same (g g' : Grid V K) : Prop where
  ty : g'.ty = g.ty
  nx : g'.nx = g.nx
  ny : g'.ny = g.ny
  sx : g'.sx = g.sx
  sy : g'.sy = g.sy
  ox : g'.ox = g.ox
  oy : g'.oy = g.oy

theorem Same.trans {a b c : Grid V K} (h : Same a b) (h' : Same b c) : Same a c :=
  ⟨h'.ty.trans h.ty, h'.nx.trans h.nx, h'.ny.trans h.ny, h'.sx.trans h.sx, h'.sy.trans h.sy, h'.ox.trans h.ox, h'.oy.trans h.oy⟩

theorem readBand_spec [Inhabited V] (g : Grid V K) (f : File V K) (xDir yDir : Bool) (key : String) (b : Band V) :
    ∃ g', readBand g f xDir yDir key b = some g' ∧ Same g g' ∧
      (∀ y x, y < g.ny → x < g.nx → g'.cell key y x = b.cells (turn yDir g.ny y) (turn xDir g.nx x)) ∧
      (∃ a, g'.data key = some a ∧ a.h = g.ny ∧ a.w = g.nx) ∧
      (∀ key', key' ≠ key → g'.data key' = g.data key' ∧ g'.nodata key' = g.nodata key') ∧
      g'.nodata key = f.nodata.or (g.nodata key) := by
  -- the grid with the value for no data
  obtain ⟨g1, hg1, hs, hd, hn, hn'⟩ : ∃ g1 : Grid V K, g.takeNoData key f.nodata = g1 ∧ Same g g1 ∧
      g1.data = g.data ∧ g1.nodata key = f.nodata.or (g.nodata key) ∧ ∀ key', key' ≠ key → g1.nodata key' = g.nodata key' := by
    refine ⟨_, rfl, ?_⟩
    cases f.nodata with
    | none => exact ⟨⟨rfl, rfl, rfl, rfl, rfl, rfl, rfl⟩, rfl, rfl, fun _ _ => rfl⟩
    | some v =>
      refine ⟨⟨rfl, rfl, rfl, rfl, rfl, rfl, rfl⟩, rfl, ?_, fun k hk => ?_⟩
      · show Function.update g.nodata key (some v) key = _
        rw [Function.update_self]
        rfl
      · show Function.update g.nodata key (some v) k = _
        rw [Function.update_of_ne hk]
  unfold readBand
  dsimp only
  rw [hg1, hs.nx, hs.ny]
  cases xDir with
  | false =>
    simp only [Bool.false_eq_true, if_false]
    have hsz : (g.getGridData key).h = g.ny ∧ (g.getGridData key).w = g.nx := ⟨rfl, rfl⟩
    obtain ⟨m', e, hm⟩ := rasterRead_get 0 g.nx g.ny ((g.getGridData key).h * (g.getGridData key).w) yDir b.cells (g.getGridData key).mem
      (by rw [hsz.1, hsz.2]; omega)
    rw [Nat.cast_zero] at e
    rw [e]
    dsimp only
    refine ⟨_, rfl, ⟨hs.ty, hs.nx, hs.ny, hs.sx, hs.sy, hs.ox, hs.oy⟩, ?_, ⟨_, Function.update_self .., rfl, rfl⟩, ?_, hn⟩
    · intro y x hy hx
      rw [put_cell _ _ _ ⟨hx, hy⟩]
      have := hm y x hy hx
      rw [Nat.zero_add] at this
      exact this
    · intro key' hk
      refine ⟨?_, hn' key' hk⟩
      show Function.update g1.data key _ key' = _
      rw [Function.update_of_ne hk, hd]
  | true =>
    simp only [if_true]
    have hsz : ((g.getGridData key).resize (g.ny + 1) g.nx).h = g.ny + 1 ∧ ((g.getGridData key).resize (g.ny + 1) g.nx).w = g.nx := ⟨rfl, rfl⟩
    obtain ⟨m', e, hm⟩ := rasterRead_get g.nx g.nx g.ny
      (((g.getGridData key).resize (g.ny + 1) g.nx).h * ((g.getGridData key).resize (g.ny + 1) g.nx).w) yDir b.cells
      ((g.getGridData key).resize (g.ny + 1) g.nx).mem (by rw [hsz.1, hsz.2, Nat.succ_mul]; omega)
    rw [e]
    dsimp only
    refine ⟨_, rfl, ⟨hs.ty, hs.nx, hs.ny, hs.sx, hs.sy, hs.ox, hs.oy⟩, ?_, ⟨_, Function.update_self .., rfl, rfl⟩, ?_, hn⟩
    · intro y x hy hx
      rw [put_cell _ _ _ ⟨hx, hy⟩, resize_get _ hy hx, if_pos ⟨hx, Nat.lt_succ_of_lt hy⟩]
      have h1 := turnLines_get m' hy hx
      have h2 := hm y (g.nx - 1 - x) hy (by omega)
      show turnLines g.nx g.ny m' (y * g.nx + x) = _
      rw [h1]
      have h3 : (y + 1) * g.nx + (g.nx - 1 - x) = g.nx + y * g.nx + (g.nx - 1 - x) := by rw [Nat.succ_mul]; omega
      rw [h3, h2]
      rfl
    · intro key' hk
      refine ⟨?_, hn' key' hk⟩
      show Function.update g1.data key _ key' = _
      rw [Function.update_of_ne hk, hd]

theorem cell_congr [Inhabited V] {g g' : Grid V K} {key : String} (h : g'.data key = g.data key) (y x : Nat) : g'.cell key y x = g.cell key y x := by
  unfold Grid.cell
  rw [h]

theorem readBands_spec [Inhabited V] (f : File V K) (xDir yDir : Bool) (keys : List String) (hk : keys.Nodup) (n : Nat) (g : Grid V K)
    (hb : ∀ i, i < keys.length → ∃ b, f.bands[n + i]? = some b ∧ b.ty = g.ty) :
    ∃ g', readBands f xDir yDir ((n : Int) + 1) keys g = .ok g' ∧ Same g g' ∧
      (∀ key, key ∉ keys → g'.data key = g.data key ∧ g'.nodata key = g.nodata key) ∧
      ∀ i key b, keys[i]? = some key → f.bands[n + i]? = some b →
        (∀ y x, y < g.ny → x < g.nx → g'.cell key y x = b.cells (turn yDir g.ny y) (turn xDir g.nx x)) ∧
        (∃ a, g'.data key = some a ∧ a.h = g.ny ∧ a.w = g.nx) ∧ g'.nodata key = f.nodata.or (g.nodata key) := by
  induction keys generalizing n g with
  | nil => exact ⟨g, rfl, ⟨rfl, rfl, rfl, rfl, rfl, rfl, rfl⟩, fun _ _ => ⟨rfl, rfl⟩, fun i key b hi => by simp at hi⟩
  | cons key keys ih =>
    obtain ⟨hk1, hk2⟩ := List.nodup_cons.1 hk
    obtain ⟨b, hb1, hb2⟩ := hb 0 (by simp)
    obtain ⟨g1, e1, s1, c1, a1, o1, n1⟩ := readBand_spec g f xDir yDir key b
    obtain ⟨g2, e2, s2, o2, c2⟩ := ih hk2 (n + 1) g1 (fun i hi => by
      obtain ⟨b', h1, h2⟩ := hb (i + 1) (by simpa using hi)
      exact ⟨b', by rw [← h1]; congr 1; omega, by rw [h2, s1.ty]⟩)
    refine ⟨g2, ?_, s1.trans s2, ?_, ?_⟩
    · rw [readBands, if_neg (by omega)]
      have hi : ((n : Int) + 1 - 1).toNat = n + 0 := by omega
      rw [hi, hb1]
      dsimp only
      rw [if_pos hb2, e1]
      dsimp only
      have : (n : Int) + 1 + 1 = ((n + 1 : Nat) : Int) + 1 := by push_cast; ring
      rw [this]
      exact e2
    · intro key' hkey'
      have h1 : key' ≠ key := fun h => hkey' (by simp [h])
      have h2 : key' ∉ keys := fun h => hkey' (by simp [h])
      exact ⟨(o2 key' h2).1.trans (o1 key' h1).1, (o2 key' h2).2.trans (o1 key' h1).2⟩
    · intro i key' b' hi hbi
      cases i with
      | zero =>
        simp only [List.getElem?_cons_zero, Option.some.injEq] at hi
        subst hi
        rw [hb1] at hbi
        cases hbi
        refine ⟨fun y x hy hx => ?_, ?_, ?_⟩
        · rw [cell_congr (o2 key hk1).1]
          exact c1 y x hy hx
        · rw [(o2 key hk1).1]
          exact a1
        · rw [(o2 key hk1).2]
          exact n1
      | succ i =>
        rw [List.getElem?_cons_succ] at hi
        have hne : key' ≠ key := by
          rintro rfl
          exact hk1 (List.mem_of_getElem? hi)
        have hbi' : f.bands[n + 1 + i]? = some b' := by rw [← hbi]; congr 1; omega
        obtain ⟨d1, d2, d3⟩ := c2 i key' b' hi hbi'
        rw [s1.nx, s1.ny] at d1
        rw [s1.nx, s1.ny] at d2
        rw [(o1 key' hne).2] at d3
        exact ⟨d1, d2, d3⟩

theorem writeBands_spec [Inhabited V] [Field K] (keys : List String) (g : Grid V K) (bs : List (Band V)) (nd : Option V) :
    Same g (writeBands g keys (bs, nd)).1 ∧ (writeBands g keys (bs, nd)).1.nodata = g.nodata ∧
      (∀ key y x, y < g.ny → x < g.nx → (writeBands g keys (bs, nd)).1.cell key y x = g.cell key y x) ∧
      (writeBands g keys (bs, nd)).2.1.length = bs.length + keys.length ∧
      (∀ i, i < bs.length → (writeBands g keys (bs, nd)).2.1[i]? = bs[i]?) ∧
      (∀ i key, keys[i]? = some key → ∃ b, (writeBands g keys (bs, nd)).2.1[bs.length + i]? = some b ∧ b.ty = g.ty ∧
        ∀ y x, y < g.ny → x < g.nx → b.cells y x = g.cell key y x) ∧
      (writeBands g keys (bs, nd)).2.2 = keys.foldl (fun r key => (g.nodata key).or r) nd := by
  induction keys generalizing g bs nd with
  | nil => exact ⟨⟨rfl, rfl, rfl, rfl, rfl, rfl, rfl⟩, rfl, fun _ _ _ _ _ => rfl, by simp [writeBands], fun _ _ => rfl, fun i key hi => by simp at hi, rfl⟩
  | cons k keys ih =>
    rw [writeBands]
    obtain ⟨i1, i2, i3, i4, i5, i6, i7⟩ := ih (g.put k (g.getGridData k)) (bs ++ [⟨g.ty, fun y x => (g.getGridData k).mem (y * g.nx + x)⟩]) ((g.nodata k).or nd)
    have hcell : ∀ key y x, y < g.ny → x < g.nx → (g.put k (g.getGridData k)).cell key y x = g.cell key y x := by
      intro key y x hy hx
      by_cases hk : key = k
      · subst hk
        rw [put_cell _ _ _ ⟨hx, hy⟩]
        exact (getGridData_get g key hy hx).1
      · exact put_other _ _ _ hk y x
    refine ⟨⟨i1.ty, i1.nx, i1.ny, i1.sx, i1.sy, i1.ox, i1.oy⟩, i2, ?_, ?_, ?_, ?_, ?_⟩
    · intro key y x hy hx
      rw [i3 key y x hy hx]
      exact hcell key y x hy hx
    · rw [i4]
      simp
      omega
    · intro i hi
      rw [i5 i (by simp; omega), List.getElem?_append_left hi]
    · intro i key hi
      cases i with
      | zero =>
        simp only [List.getElem?_cons_zero, Option.some.injEq] at hi
        subst hi
        refine ⟨⟨g.ty, fun y x => (g.getGridData k).mem (y * g.nx + x)⟩, ?_, rfl, ?_⟩
        · rw [Nat.add_zero, i5 bs.length (by simp)]
          simp
        · intro y x hy hx
          exact (getGridData_get g k hy hx).2
      | succ i =>
        rw [List.getElem?_cons_succ] at hi
        obtain ⟨b, h1, h2, h3⟩ := i6 i key hi
        refine ⟨b, ?_, h2, ?_⟩
        · rw [← h1]
          congr 1
          simp
          omega
        · intro y x hy hx
          rw [h3 y x hy hx]
          exact hcell key y x hy hx
    · rw [i7]
      rfl

end Envire.Raster
