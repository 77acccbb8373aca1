import Verif.Maps.RasterLemmas
import Mathlib.Tactic.NormNum
import Mathlib.Tactic.FieldSimp
import Mathlib.Tactic.Order
import Mathlib.Tactic.Positivity
import Mathlib.Algebra.Order.Archimedean.Basic
import Mathlib.Data.Rat.Floor

/-!
Properties of the bands of grids: C135 (files), C136 (files of other programs), C137 (operations on bands).
-/

namespace Envire.Raster

variable {V K : Type}

/-! ### specification -/

/-- the place of a position in a raster, in columns and rows -/
def Geo.at [Field K] (t : Geo K) (u v : K) : K × K := (t.x0 + t.a * u + t.b * v, t.y0 + t.c * u + t.d * v)

/-- a point after a transform in the plane -/
def Flat.apply [Field K] (t : Flat K) (p : K × K) : K × K := (t.m00 * p.1 + t.m01 * p.2 + t.tx, t.m10 * p.1 + t.m11 * p.2 + t.ty)

/-- the centre of a cell of a grid, in the frame of the grid (fromGrid, see C29) -/
def Grid.centre [Field K] (g : Grid V K) (x y : Nat) : K × K := ((x + 1 / 2) * g.sx + g.ox, (y + 1 / 2) * g.sy + g.oy)

/-! ### C135 -/

section Write

variable [Inhabited V] [Field K]

/-- C135: writing bands changes no cell of the grid; the file has the size of the grid and contains the cells of the bands in the
order of the keys, with the type of the grid -/
theorem C135_write (g : Grid V K) (frame : Option (Flat K)) (keys : List String) (hx : 0 < g.nx) (hy : 0 < g.ny) (hk : keys ≠ []) :
    ∃ g' f, g.write frame keys = some (g', f) ∧ Same g g' ∧ g'.nodata = g.nodata ∧
      (∀ key y x, y < g.ny → x < g.nx → g'.cell key y x = g.cell key y x) ∧
      f.w = g.nx ∧ f.h = g.ny ∧ f.bands.length = keys.length ∧ f.geo = some (geoOf g frame) ∧
      f.nodata = keys.foldl (fun r key => (g.nodata key).or r) none ∧
      ∀ (i : Nat) key, keys[i]? = some key → ∃ b, f.bands[i]? = some b ∧ b.ty = g.ty ∧ ∀ y x, y < g.ny → x < g.nx → b.cells y x = g.cell key y x := by
  obtain ⟨h1, h2, h3, h4, -, h6, h7⟩ := writeBands_spec keys g [] none
  refine ⟨(writeBands g keys ([], none)).1, ⟨g.nx, g.ny, some (geoOf g frame), (writeBands g keys ([], none)).2.1, (writeBands g keys ([], none)).2.2⟩,
    ?_, h1, h2, h3, rfl, rfl, ?_, rfl, h7, ?_⟩
  · unfold Grid.write
    rw [if_neg]
    rintro (h | h | h)
    · omega
    · omega
    · exact hk h
  · rw [h4]
    simp
  · intro i key hi
    obtain ⟨b, g1, g2, g3⟩ := h6 i key hi
    refine ⟨b, ?_, g2, g3⟩
    rw [← g1]
    simp

/-- C135: the geotransform of the file puts the centre of every cell at its place: in the frame of the grid without an
environment, otherwise in the root frame, for all transforms -/
theorem C135_place [CharZero K] (g : Grid V K) (frame : Option (Flat K)) (x y : Nat) :
    (geoOf g frame).at (x + 1 / 2) (y + 1 / 2) = match frame with
      | none => g.centre x y
      | some f => f.apply (g.centre x y) := by
  cases frame with
  | none =>
    unfold geoOf Geo.at Grid.centre
    ext
    · dsimp only; ring
    · dsimp only; ring
  | some f =>
    unfold geoOf Geo.at Grid.centre Flat.apply
    ext
    · dsimp only; ring
    · dsimp only; ring

end Write

section Read

variable [Inhabited V] [Field K] [LinearOrder K] [IsStrictOrderedRing K]

theorem readScale_set (g : Grid V K) (f : File V K) (h : g.sx ≠ 0 ∧ g.sy ≠ 0) : readScale g f = .ok (g, false, false) := by
  unfold readScale
  rw [if_neg]
  rintro (h' | h')
  · exact h.1 h'
  · exact h.2 h'

/-- C135: bands that were written are read again into a grid of the same type and size (or an empty one) that has a scale, under
any names: every cell has its value, other bands are not changed, as are the scale and the offset.

Missing: the values for no data, see C135_nodata_one, C135_nodata_shared and C135_nodata_stale -/
theorem C135_files_partial (g g2 : Grid V K) (frame : Option (Flat K)) (keys keys2 : List String) (hx : 0 < g.nx) (hy : 0 < g.ny)
    (hk : keys ≠ []) (hl : keys2.length = keys.length) (hb : keys.length < 2 ^ 32) (hn : keys2.Nodup) (hty : g2.ty = g.ty)
    (h2x : g2.nx = 0 ∨ g2.nx = g.nx) (h2y : g2.ny = 0 ∨ g2.ny = g.ny) (hs : g2.sx ≠ 0 ∧ g2.sy ≠ 0) :
    ∃ g' f g2', g.write frame keys = some (g', f) ∧ g2.read f keys2 = .ok g2' ∧
      (g2'.nx = g.nx ∧ g2'.ny = g.ny ∧ g2'.ty = g.ty ∧ g2'.sx = g2.sx ∧ g2'.sy = g2.sy ∧ g2'.ox = g2.ox ∧ g2'.oy = g2.oy) ∧
      (∀ (i : Nat) key key2, keys[i]? = some key → keys2[i]? = some key2 → (∀ y x, y < g.ny → x < g.nx → g2'.cell key2 y x = g.cell key y x) ∧
        g2'.nodata key2 = f.nodata.or (g2.nodata key2)) ∧
      ∀ key, key ∉ keys2 → g2'.data key = g2.data key ∧ g2'.nodata key = g2.nodata key := by
  obtain ⟨g', f, e, -, -, -, w1, w2, w3, w4, w5, w6⟩ := C135_write g frame keys hx hy hk
  obtain ⟨g2', r1, r2, r3, r4⟩ := readBands_spec f false false keys2 hn 0 { g2 with nx := f.w, ny := f.h } (fun i hi => by
    have hi' : i < keys.length := hl ▸ hi
    obtain ⟨b, b1, b2, -⟩ := w6 i keys[i] (List.getElem?_eq_getElem hi')
    exact ⟨b, by rw [← b1]; congr 1; omega, b2.trans hty.symm⟩)
  refine ⟨g', f, g2', e, ?_, ⟨r2.nx.trans w1, r2.ny.trans w2, r2.ty.trans hty, r2.sx, r2.sy, r2.ox, r2.oy⟩, ?_, r3⟩
  · unfold Grid.read
    rw [if_neg (by rintro ⟨h1, h2⟩; rcases h2x with h | h; exacts [h1 h, h2 (w1.trans h.symm)]),
      if_neg (by rintro ⟨h1, h2⟩; rcases h2y with h | h; exacts [h1 h, h2 (w2.trans h.symm)]), readScale_set _ _ (by exact hs)]
    dsimp only
    rw [if_neg]
    · exact r1
    · rw [w3, hl]
      omega
  · intro i key key2 hi hi2
    obtain ⟨b, b1, -, b3⟩ := w6 i key hi
    obtain ⟨c1, -, c3⟩ := r4 i key2 b hi2 (by rw [← b1]; congr 1; omega)
    refine ⟨fun y x hy' hx' => ?_, c3⟩
    rw [c1 y x (by rw [w2]; exact hy') (by rw [w1]; exact hx')]
    exact b3 y x hy' hx'

/-- C135: the value for no data of a band that has a file of its own is read again, if it has one -/
theorem C135_nodata_one (g g2 : Grid V K) (frame : Option (Flat K)) (key key2 : String) (v : V) (hv : g.nodata key = some v) (hx : 0 < g.nx)
    (hy : 0 < g.ny) (hty : g2.ty = g.ty) (h2x : g2.nx = 0 ∨ g2.nx = g.nx) (h2y : g2.ny = 0 ∨ g2.ny = g.ny) (hs : g2.sx ≠ 0 ∧ g2.sy ≠ 0) :
    ∃ g' f g2', g.write frame [key] = some (g', f) ∧ g2.read f [key2] = .ok g2' ∧ g2'.nodata key2 = some v := by
  obtain ⟨g', f, g2', e1, e2, -, h, -⟩ := C135_files_partial g g2 frame [key] [key2] hx hy (by simp) rfl (by simp) (by simp) hty h2x h2y hs
  refine ⟨g', f, g2', e1, e2, ?_⟩
  obtain ⟨g'', f', e3, -, -, -, -, -, -, -, w5, -⟩ := C135_write g frame [key] hx hy (by simp)
  rw [e1] at e3
  cases e3
  rw [(h 0 key key2 rfl rfl).2, w5]
  simp [hv]

/-- C135, wrong: bands in one file (ImageRGB24) share the value for no data: if the values of two bands differ, the first one is
lost -/
theorem C135_nodata_shared (g g2 : Grid V K) (frame : Option (Flat K)) (k1 k2 : String) (hk : k1 ≠ k2) (v1 v2 : V) (hne : v1 ≠ v2)
    (h1 : g.nodata k1 = some v1) (h2 : g.nodata k2 = some v2) (hx : 0 < g.nx)
    (hy : 0 < g.ny) (hty : g2.ty = g.ty) (h2x : g2.nx = 0 ∨ g2.nx = g.nx) (h2y : g2.ny = 0 ∨ g2.ny = g.ny) (hs : g2.sx ≠ 0 ∧ g2.sy ≠ 0) :
    ∃ g' f g2', g.write frame [k1, k2] = some (g', f) ∧ g2.read f [k1, k2] = .ok g2' ∧ g2'.nodata k1 ≠ g.nodata k1 := by
  obtain ⟨g', f, g2', e1, e2, -, h, -⟩ := C135_files_partial g g2 frame [k1, k2] [k1, k2] hx hy (by simp) rfl (by simp) (by simp [hk]) hty h2x h2y hs
  refine ⟨g', f, g2', e1, e2, ?_⟩
  obtain ⟨g'', f', e3, -, -, -, -, -, -, -, w5, -⟩ := C135_write g frame [k1, k2] hx hy (by simp)
  rw [e1] at e3
  cases e3
  rw [(h 0 k1 k1 rfl rfl).2, w5, h1]
  simp only [List.foldl_cons, List.foldl_nil, h1, h2, Option.or]
  intro he
  exact hne (Option.some.inj he).symm

/-- C135, wrong: a band without a value for no data is read into a band that has one: the old value stays -/
theorem C135_nodata_stale (g g2 : Grid V K) (frame : Option (Flat K)) (key : String) (v : V) (h1 : g.nodata key = none)
    (h2 : g2.nodata key = some v) (hx : 0 < g.nx)
    (hy : 0 < g.ny) (hty : g2.ty = g.ty) (h2x : g2.nx = 0 ∨ g2.nx = g.nx) (h2y : g2.ny = 0 ∨ g2.ny = g.ny) (hs : g2.sx ≠ 0 ∧ g2.sy ≠ 0) :
    ∃ g' f g2', g.write frame [key] = some (g', f) ∧ g2.read f [key] = .ok g2' ∧ g2'.nodata key ≠ g.nodata key := by
  obtain ⟨g', f, g2', e1, e2, -, h, -⟩ := C135_files_partial g g2 frame [key] [key] hx hy (by simp) rfl (by simp) (by simp) hty h2x h2y hs
  refine ⟨g', f, g2', e1, e2, ?_⟩
  obtain ⟨g'', f', e3, -, -, -, -, -, -, -, w5, -⟩ := C135_write g frame [key] hx hy (by simp)
  rw [e1] at e3
  cases e3
  rw [(h 0 key key rfl rfl).2, w5, h1]
  simp [h1, h2]

/-- C135: a file of another size throws and changes nothing; a band of another type throws and changes no cell of any band that
comes before it in the file, and none of its own -/
theorem C135_rejects (g : Grid V K) (f : File V K) (keys : List String) (base : Int) :
    (((g.nx ≠ 0 ∧ f.w ≠ g.nx) ∨ (g.ny ≠ 0 ∧ f.h ≠ g.ny)) → g.read f keys base = .thrown g) ∧
      ∀ key b, base = 1 → keys = [key] → f.bands = [b] → b.ty ≠ g.ty → ∃ g', g.read f keys base = .thrown g' ∧ g'.data = g.data ∧ g'.nodata = g.nodata := by
  constructor
  · intro h
    unfold Grid.read
    by_cases hx : g.nx ≠ 0 ∧ f.w ≠ g.nx
    · rw [if_pos hx]
    · rw [if_neg hx, if_pos (h.resolve_left hx)]
  · rintro key b rfl rfl hb hne
    unfold Grid.read
    by_cases hx : g.nx ≠ 0 ∧ f.w ≠ g.nx
    · rw [if_pos hx]; exact ⟨g, rfl, rfl, rfl⟩
    · rw [if_neg hx]
      by_cases hy : g.ny ≠ 0 ∧ f.h ≠ g.ny
      · rw [if_pos hy]; exact ⟨g, rfl, rfl, rfl⟩
      · rw [if_neg hy]
        have key : ∀ r : Out (Grid V K × Bool × Bool), r = readScale { g with nx := f.w, ny := f.h } f →
            (∃ g1 a c, r = .thrown (g1, a, c) ∧ g1.data = g.data ∧ g1.nodata = g.nodata) ∨
            ∃ g1 a c, r = .ok (g1, a, c) ∧ g1.data = g.data ∧ g1.nodata = g.nodata ∧ g1.ty = g.ty := by
          intro r hr
          unfold readScale at hr
          split at hr
          · split at hr
            · exact Or.inl ⟨_, _, _, hr, rfl, rfl⟩
            · dsimp only at hr
              split at hr
              · exact Or.inl ⟨_, _, _, hr, rfl, rfl⟩
              · exact Or.inr ⟨_, _, _, hr, rfl, rfl, rfl⟩
          · exact Or.inr ⟨_, _, _, hr, rfl, rfl, rfl⟩
        rcases key _ rfl with ⟨g1, a, c, e, d1, d2⟩ | ⟨g1, a, c, e, d1, d2, d3⟩
        · rw [e]
          exact ⟨g1, rfl, d1, d2⟩
        · rw [e]
          dsimp only
          refine ⟨g1, ?_, d1, d2⟩
          rw [hb, if_neg (by simp), readBands, if_neg (by decide), hb]
          simp [d3, hne]

/-! ### C136 -/

/-- the file has a geotransform that is not turned, with both directions -/
structure Upright (f : File V K) (t : Geo K) : Prop where
  geo : f.geo = some t
  a : t.a ≠ 0
  b : t.b = 0
  c : t.c = 0
  d : t.d ≠ 0
  w : 0 < f.w
  h : 0 < f.h
  count : f.bands.length < 2 ^ 32

theorem readGdal (f : File V K) (t : Geo K) (hf : Upright f t) (name : String) (n : Nat) (b : Band V) (hb : f.bands[n]? = some b) :
    ∃ g, readGridFromGdal f name (n + 1) =
        .ok (some (g, if t.a < 0 then t.x0 - f.w * |t.a| else t.x0, if t.d < 0 then t.y0 - f.h * |t.d| else t.y0)) ∧
      g.nx = f.w ∧ g.ny = f.h ∧ g.sx = |t.a| ∧ g.sy = |t.d| ∧ g.ox = 0 ∧ g.oy = 0 ∧ g.ty = b.ty ∧ g.nodata name = f.nodata ∧
      ∀ y x, y < f.h → x < f.w → g.cell name y x = b.cells (turn (decide (t.d < 0)) f.h y) (turn (decide (t.a < 0)) f.w x) := by
  have hlen : n < f.bands.length := (List.getElem?_eq_some_iff.1 hb).1
  have hc := hf.count
  obtain ⟨g, r1, r2, -, r4⟩ := readBands_spec f (decide (t.a < 0)) (decide (t.d < 0)) [name] (by simp) n
    { (Grid.empty b.ty : Grid V K) with nx := f.w, ny := f.h, sx := |t.a|, sy := |t.d| } (fun i hi => by
      have : i = 0 := by simpa using hi
      subst this
      exact ⟨b, hb, rfl⟩)
  obtain ⟨c1, -, c3⟩ := r4 0 name b rfl hb
  refine ⟨g, ?_, r2.nx, r2.ny, r2.sx, r2.sy, r2.ox, r2.oy, r2.ty, c3.trans ?_, c1⟩
  · unfold readGridFromGdal
    rw [if_neg (by omega), if_neg (by omega)]
    have : ((n : Int) + 1 - 1).toNat = n := by omega
    rw [this, hb]
    dsimp only
    have hread : Grid.read (Grid.empty b.ty : Grid V K) f [name] ((n : Int) + 1) = .ok g := by
      unfold Grid.read
      rw [if_neg (by rintro ⟨h, -⟩; exact h rfl), if_neg (by rintro ⟨h, -⟩; exact h rfl)]
      unfold readScale
      rw [if_pos (by exact Or.inl rfl), hf.geo]
      dsimp only
      rw [hf.b, hf.c, if_neg]
      · dsimp only
        rw [if_neg]
        · exact r1
        · simp only [List.length_singleton]
          omega
      · have h1 := abs_pos.2 hf.a
        have h2 := abs_pos.2 hf.d
        simp only [zero_mul, abs_zero, gt_iff_lt, not_or, not_lt]
        constructor <;> positivity
    rw [hread]
    dsimp only
    rw [hf.geo, Option.getD_some, r2.nx, r2.ny, r2.sx, r2.sy]
  · cases f.nodata <;> rfl

/-- the centre of the cell that has the value of a pixel -/
theorem axis (x0 a : K) (_ha : a ≠ 0) (n i : Nat) (hi : i < n) :
    ((turn (decide (a < 0)) n i : Nat) + 1 / 2) * |a| + (if a < 0 then x0 - n * |a| else x0) = x0 + a * (i + 1 / 2) := by
  by_cases h : a < 0
  · rw [decide_eq_true h, if_pos h, abs_of_neg h]
    unfold turn
    rw [if_pos rfl]
    have : ((n - 1 - i : Nat) : K) = n - 1 - i := by
      have : n = (n - 1 - i) + i + 1 := by omega
      conv_rhs => rw [this]
      push_cast
      ring
    rw [this]
    ring
  · rw [decide_eq_false h, if_neg h, abs_of_nonneg (not_lt.1 h)]
    unfold turn
    simp only [Bool.false_eq_true, if_false]
    ring

/-- C136: for a file that is not turned, in all four directions of its axes, readGridFromGdal returns a grid and a transform that
put every pixel with its value at its place, and no other cells; the cells have the size of the pixels.

Missing: files that are turned or sheared by little, see C136_sheared; numbers of bands below 1, see C136_band -/
theorem C136_place_partial (f : File V K) (t : Geo K) (hf : Upright f t) (name : String) (n : Nat) (b : Band V) (hb : f.bands[n]? = some b) :
    ∃ g dx dy, readGridFromGdal f name (n + 1) = .ok (some (g, dx, dy)) ∧ g.nx = f.w ∧ g.ny = f.h ∧ g.sx = |t.a| ∧ g.sy = |t.d| ∧
      g.nodata name = f.nodata ∧
      (∀ y x, y < f.h → x < f.w → ∃ cy cx, cy < g.ny ∧ cx < g.nx ∧ g.cell name cy cx = b.cells y x ∧
        ((g.centre cx cy).1 + dx, (g.centre cx cy).2 + dy) = t.at (x + 1 / 2) (y + 1 / 2)) ∧
      ∀ cy cx, cy < g.ny → cx < g.nx → ∃ y x, y < f.h ∧ x < f.w ∧ g.cell name cy cx = b.cells y x ∧
        ((g.centre cx cy).1 + dx, (g.centre cx cy).2 + dy) = t.at (x + 1 / 2) (y + 1 / 2) := by
  obtain ⟨g, e, h1, h2, h3, h4, h5, h6, -, h8, h9⟩ := readGdal f t hf name n b hb
  have key : ∀ y x, y < f.h → x < f.w →
      ((g.centre (turn (decide (t.a < 0)) f.w x) (turn (decide (t.d < 0)) f.h y)).1 + (if t.a < 0 then t.x0 - f.w * |t.a| else t.x0),
        (g.centre (turn (decide (t.a < 0)) f.w x) (turn (decide (t.d < 0)) f.h y)).2 + (if t.d < 0 then t.y0 - f.h * |t.d| else t.y0)) =
      t.at (x + 1 / 2) (y + 1 / 2) := by
    intro y x hy hx
    unfold Grid.centre Geo.at
    rw [h3, h4, h5, h6, hf.b, hf.c]
    ext
    · have := axis t.x0 t.a hf.a f.w x hx
      dsimp only
      rw [add_zero, this]
      ring
    · have := axis t.y0 t.d hf.d f.h y hy
      dsimp only
      rw [add_zero, this]
      ring
  refine ⟨g, _, _, e, h1, h2, h3, h4, h8, ?_, ?_⟩
  · intro y x hy hx
    refine ⟨turn (decide (t.d < 0)) f.h y, turn (decide (t.a < 0)) f.w x, by rw [h2]; exact turn_lt hy, by rw [h1]; exact turn_lt hx, ?_, key y x hy hx⟩
    rw [h9 _ _ (turn_lt hy) (turn_lt hx), turn_turn hy, turn_turn hx]
  · intro cy cx hcy hcx
    rw [h2] at hcy
    rw [h1] at hcx
    refine ⟨turn (decide (t.d < 0)) f.h cy, turn (decide (t.a < 0)) f.w cx, turn_lt hcy, turn_lt hcx, h9 cy cx hcy hcx, ?_⟩
    have := key _ _ (turn_lt (b := decide (t.d < 0)) hcy) (turn_lt (b := decide (t.a < 0)) hcx)
    rw [turn_turn hcy, turn_turn hcx] at this
    exact this

/-- C136: a grid that is written without an environment, or in a frame that is not turned or turned by half a turn or mirrored
along an axis, and read with readGridFromGdal: every cell is at its place in the root frame and has its value -/
theorem C136_saved (g : Grid V K) (frame : Flat K) (key name : String) (hx : 0 < g.nx) (hy : 0 < g.ny) (hs : g.sx ≠ 0 ∧ g.sy ≠ 0)
    (h00 : frame.m00 ≠ 0) (h01 : frame.m01 = 0) (h10 : frame.m10 = 0) (h11 : frame.m11 ≠ 0) :
    ∃ g' f r dx dy, g.write (some frame) [key] = some (g', f) ∧ readGridFromGdal f name = .ok (some (r, dx, dy)) ∧
      r.nx = g.nx ∧ r.ny = g.ny ∧ ∀ y x, y < g.ny → x < g.nx → ∃ cy cx, cy < r.ny ∧ cx < r.nx ∧ r.cell name cy cx = g.cell key y x ∧
        ((r.centre cx cy).1 + dx, (r.centre cx cy).2 + dy) = frame.apply (g.centre x y) := by
  obtain ⟨g', f, e, -, -, -, w1, w2, w3, w4, -, w6⟩ := C135_write g (some frame) [key] hx hy (by simp)
  obtain ⟨b, b1, -, b3⟩ := w6 0 key rfl
  have hf : Upright f (geoOf g (some frame)) := by
    refine ⟨w4, mul_ne_zero h00 hs.1, ?_, ?_, mul_ne_zero h11 hs.2, by omega, by omega, by rw [w3]; simp⟩
    · show frame.m01 * g.sy = 0
      rw [h01, zero_mul]
    · show frame.m10 * g.sx = 0
      rw [h10, zero_mul]
  obtain ⟨r, dx, dy, r1, r2, r3, -, -, -, r7, -⟩ := C136_place_partial f _ hf name 0 b b1
  refine ⟨g', f, r, dx, dy, e, r1, r2.trans w1, r3.trans w2, fun y x hy' hx' => ?_⟩
  obtain ⟨cy, cx, c1, c2, c3, c4⟩ := r7 y x (by omega) (by omega)
  refine ⟨cy, cx, c1, c2, c3.trans (b3 y x hy' hx'), ?_⟩
  rw [c4]
  exact C135_place g (some frame) x y

/-- C136, wrong: the number of a band that is not positive is not rejected: undefined behaviour -/
theorem C136_band (f : File V K) (name : String) (band : Int) (h : band < 1) : readGridFromGdal f name band = .ub := by
  unfold readGridFromGdal
  rw [if_neg (by omega), if_pos h]

/-- C136, wrong: the tolerance for turned files is compared with the shift of a single row: for every number of cells there is a
file that is read although its last row is shifted by more cells than that -/
theorem C136_sheared [Archimedean K] (N : K) (name : String) (v : V) : ∃ (f : File V K) (t : Geo K) (g : Grid V K) (dx dy : K) (y : Nat), f.geo = some t ∧
    readGridFromGdal f name = .ok (some (g, dx, dy)) ∧ g.sx = 1 ∧ y < g.ny ∧ 0 < g.nx ∧
      N < |(t.at (1 / 2) (y + 1 / 2)).1 - ((g.centre 0 y).1 + dx)| / g.sx := by
  obtain ⟨m, hm⟩ := exists_nat_gt (100 * N)
  let t : Geo K := ⟨0, 1, 1 / 100, 0, 0, 1⟩
  let b : Band V := ⟨.byte, fun _ _ => v⟩
  let f : File V K := ⟨1, m + 1, some t, [b], none⟩
  obtain ⟨g, r1, r2, -, -⟩ := readBands_spec f false false [name] (by simp) 0
    { (Grid.empty .byte : Grid V K) with nx := f.w, ny := f.h, sx := 1, sy := 1 } (fun i hi => by
      have : i = 0 := by simpa using hi
      subst this
      exact ⟨b, rfl, rfl⟩)
  refine ⟨f, t, g, 0, 0, m, rfl, ?_, r2.sx, ?_, ?_, ?_⟩
  · unfold readGridFromGdal
    rw [if_neg (by show ¬ ((1 : Nat) : Int) < 1; omega), if_neg (by omega)]
    have h0 : f.bands[((1 : Int) - 1).toNat]? = some b := rfl
    rw [h0]
    dsimp only
    have hread : Grid.read (Grid.empty .byte : Grid V K) f [name] 1 = .ok g := by
      unfold Grid.read
      rw [if_neg (by rintro ⟨h, -⟩; exact h rfl), if_neg (by rintro ⟨h, -⟩; exact h rfl)]
      unfold readScale
      rw [if_pos (by exact Or.inl rfl)]
      have hgeo : f.geo = some t := rfl
      rw [hgeo]
      dsimp only
      rw [if_neg]
      · dsimp only
        rw [if_neg]
        · have h1 : decide (t.a < 0) = false := decide_eq_false (by show ¬ (1 : K) < 0; exact not_lt.2 zero_le_one)
          have h2 : decide (t.d < 0) = false := decide_eq_false (by show ¬ (1 : K) < 0; exact not_lt.2 zero_le_one)
          rw [h1]
          try rw [h2]
          have h3 : |t.a| = 1 := abs_one
          have h4 : |t.d| = 1 := abs_one
          rw [h3]
          try rw [h4]
          exact r1
        · show ¬ (((1 : Nat) : Int) - 1 + 1) % 2 ^ 32 < ((1 : Nat) : Int)
          omega
      · show ¬ (|(0 : K) * _| > |(1 : K)| * (1 / 100) ∨ |(1 / 100 : K)| > |(1 : K)| * (1 / 100))
        rw [zero_mul, abs_zero, abs_one, one_mul, abs_of_pos (by norm_num : (0 : K) < 1 / 100)]
        rintro (h | h)
        · exact absurd h (not_lt.2 (by norm_num))
        · exact lt_irrefl _ h
    have hty : b.ty = Ty.byte := rfl
    rw [hty, hread]
    dsimp only
    show Out.ok (some (g, if (1 : K) < 0 then _ else _, if (1 : K) < 0 then _ else _)) = _
    rw [if_neg (not_lt.2 zero_le_one), if_neg (not_lt.2 zero_le_one)]
    rfl
  · rw [r2.ny]
    exact Nat.lt_succ_self m
  · rw [r2.nx]
    exact Nat.one_pos
  · have h1 : (t.at (1 / 2) ((m : K) + 1 / 2)).1 = 1 / 2 + (1 / 100) * (m + 1 / 2) := by
      show (0 : K) + 1 * (1 / 2) + 1 / 100 * (m + 1 / 2) = _
      ring
    have h2 : (g.centre 0 m).1 + 0 = 1 / 2 := by
      unfold Grid.centre
      rw [r2.sx, r2.ox]
      show (((0 : Nat) : K) + 1 / 2) * 1 + 0 + 0 = _
      push_cast
      ring
    rw [h1, h2, r2.sx]
    have hm0 : (0 : K) ≤ m := Nat.cast_nonneg m
    have h3 : (1 / 2 + 1 / 100 * ((m : K) + 1 / 2) - 1 / 2) = 1 / 100 * (m + 1 / 2) := by ring
    rw [h3, abs_of_nonneg (by positivity)]
    show N < _ / (1 : K)
    rw [div_one]
    linarith

end Read

/-! ### C137 -/

section Bands

variable [Inhabited V]

/-- the name of the target of copyBandFrom -/
def targetOf (band target : String) : String := if target = "" then band else target

/-- C137: copyBandFrom of a band with the size of the grid: the target has its cells and its value for no data if there is one; all
other bands are not changed; the source may be the same grid.

Missing: a value for no data that the source does not have, see C137_nodata; bands of other sizes, see C137_size -/
theorem C137_copy_partial (g source : Grid V K) (band target : String) (a : Arr V) (ha : source.data band = some a) (hh : a.h = g.ny) (hw : a.w = g.nx) :
    ∃ g', g.copyBandFrom source band target = .ok g' ∧ Same g g' ∧
      (∀ y x, y < g.ny → x < g.nx → g'.cell (targetOf band target) y x = source.cell band y x) ∧
      g'.nodata (targetOf band target) = (source.nodata band).or (g.nodata (targetOf band target)) ∧
      ∀ key, key ≠ targetOf band target → g'.data key = g.data key ∧ g'.nodata key = g.nodata key := by
  unfold Grid.copyBandFrom
  dsimp only
  rw [ha]
  dsimp only
  rw [if_pos ⟨hh, hw⟩]
  have ht : (if target = "" then band else target) = targetOf band target := rfl
  rw [ht]
  have hcell : ∀ g1 : Grid V K, g1.data (targetOf band target) = some a → ∀ y x, y < g.ny → x < g.nx →
      g1.cell (targetOf band target) y x = source.cell band y x := by
    intro g1 h1 y x _ _
    unfold Grid.cell
    rw [h1, ha]
  cases hn : source.nodata band with
  | none =>
    refine ⟨_, rfl, ⟨rfl, rfl, rfl, rfl, rfl, rfl, rfl⟩, hcell _ (Function.update_self ..), rfl, fun key hk => ⟨?_, rfl⟩⟩
    exact Function.update_of_ne hk ..
  | some v =>
    refine ⟨_, rfl, ⟨rfl, rfl, rfl, rfl, rfl, rfl, rfl⟩, hcell _ (Function.update_self ..), Function.update_self .., fun key hk => ⟨?_, ?_⟩⟩
    · exact Function.update_of_ne hk ..
    · exact Function.update_of_ne hk ..

/-- C137: a band that the source does not have throws; no cell and no value for no data is changed -/
theorem C137_missing (g source : Grid V K) (band target : String) (h : source.data band = none) :
    ∃ g', g.copyBandFrom source band target = .thrown g' ∧ g'.nodata = g.nodata ∧
      ∀ key y x, y < g.ny → x < g.nx → g'.cell key y x = g.cell key y x := by
  unfold Grid.copyBandFrom
  dsimp only
  rw [h]
  refine ⟨_, rfl, rfl, fun key y x hy hx => ?_⟩
  by_cases hk : key = targetOf band target
  · subst hk
    show (g.put (targetOf band target) _).cell _ y x = _
    rw [put_cell _ _ _ ⟨hx, hy⟩]
    exact (getGridData_get g _ hy hx).1
  · exact put_other _ _ _ hk y x

/-- C137, wrong: if the source has no value for no data, the target keeps its old one, although its cells are new -/
theorem C137_nodata (g source : Grid V K) (band target : String) (a : Arr V) (v : V) (ha : source.data band = some a) (hh : a.h = g.ny)
    (hw : a.w = g.nx) (h1 : source.nodata band = none) (h2 : g.nodata (targetOf band target) = some v) :
    ∃ g', g.copyBandFrom source band target = .ok g' ∧ g'.nodata (targetOf band target) ≠ source.nodata band := by
  obtain ⟨g', e, -, -, h, -⟩ := C137_copy_partial g source band target a ha hh hw
  refine ⟨g', e, ?_⟩
  rw [h, h1, h2]
  simp

/-- C137, wrong: a band of another size violates an assertion of the array, instead of an exception -/
theorem C137_size (g source : Grid V K) (band target : String) (a : Arr V) (ha : source.data band = some a) (h : a.h ≠ g.ny ∨ a.w ≠ g.nx) :
    g.copyBandFrom source band target = .ub := by
  unfold Grid.copyBandFrom
  dsimp only
  rw [ha]
  dsimp only
  rw [if_neg]
  rintro ⟨h1, h2⟩
  rcases h with h | h
  · exact h h1
  · exact h h2

variable [LinearOrder V]

theorem minmax_fold (f : Nat → V) (l : List Nat) (lo hi : V) :
    let r := l.foldl (fun r i => (if f i < r.1 then f i else r.1, if r.2 < f i then f i else r.2)) (lo, hi)
    (r.1 ≤ lo ∧ (∀ i ∈ l, r.1 ≤ f i) ∧ (r.1 = lo ∨ ∃ i ∈ l, r.1 = f i)) ∧ hi ≤ r.2 ∧ (∀ i ∈ l, f i ≤ r.2) ∧ (r.2 = hi ∨ ∃ i ∈ l, r.2 = f i) := by
  induction l generalizing lo hi with
  | nil => simp
  | cons a l ih =>
    obtain ⟨⟨h1, h2, h3⟩, h4, h5, h6⟩ := ih (if f a < lo then f a else lo) (if hi < f a then f a else hi)
    intro r
    have hr : r = l.foldl (fun r i => (if f i < r.1 then f i else r.1, if r.2 < f i then f i else r.2))
      (if f a < lo then f a else lo, if hi < f a then f a else hi) := rfl
    rw [← hr] at h1 h2 h3 h4 h5 h6
    have e1 : (if f a < lo then f a else lo) ≤ lo ∧ (if f a < lo then f a else lo) ≤ f a := by
      split
      · exact ⟨by order, le_refl _⟩
      · exact ⟨le_refl _, by order⟩
    have e2 : hi ≤ (if hi < f a then f a else hi) ∧ f a ≤ (if hi < f a then f a else hi) := by
      split
      · exact ⟨by order, le_refl _⟩
      · exact ⟨le_refl _, by order⟩
    refine ⟨⟨h1.trans e1.1, ?_, ?_⟩, e2.1.trans h4, ?_, ?_⟩
    · intro i hi'
      rcases List.mem_cons.1 hi' with rfl | hi'
      · exact h1.trans e1.2
      · exact h2 i hi'
    · rcases h3 with h3 | ⟨i, hi', h3⟩
      · rw [h3]
        split
        · exact Or.inr ⟨a, by simp, rfl⟩
        · exact Or.inl rfl
      · exact Or.inr ⟨i, by simp [hi'], h3⟩
    · intro i hi'
      rcases List.mem_cons.1 hi' with rfl | hi'
      · exact e2.2.trans h4
      · exact h5 i hi'
    · rcases h6 with h6 | ⟨i, hi', h6⟩
      · rw [h6]
        split
        · exact Or.inr ⟨a, by simp, rfl⟩
        · exact Or.inl rfl
      · exact Or.inr ⟨i, by simp [hi'], h6⟩

theorem minmax_cells (top bottom : V) (g : Grid V K) (key : String) :
    let r := (g.getMinMaxValues top bottom key).2
    (∀ y x, y < g.ny → x < g.nx → r.1 ≤ g.cell key y x ∧ g.cell key y x ≤ r.2) ∧
      (r.1 = top ∨ ∃ y x, y < g.ny ∧ x < g.nx ∧ r.1 = g.cell key y x) ∧ (r.2 = bottom ∨ ∃ y x, y < g.ny ∧ x < g.nx ∧ r.2 = g.cell key y x) ∧
      r.1 ≤ top ∧ bottom ≤ r.2 := by
  obtain ⟨⟨h1, h2, h3⟩, h4, h5, h6⟩ := minmax_fold (g.getGridData key).mem (List.range (g.ny * g.nx)) top bottom
  intro r
  have hr : r = (List.range (g.ny * g.nx)).foldl (fun r i =>
    (if (g.getGridData key).mem i < r.1 then (g.getGridData key).mem i else r.1,
      if r.2 < (g.getGridData key).mem i then (g.getGridData key).mem i else r.2)) (top, bottom) := rfl
  rw [← hr] at h1 h2 h3 h4 h5 h6
  have hcell : ∀ i ∈ List.range (g.ny * g.nx), ∃ y x, y < g.ny ∧ x < g.nx ∧ (g.getGridData key).mem i = g.cell key y x := by
    intro i hi
    have hi := List.mem_range.1 hi
    have hx : 0 < g.nx := by
      rcases Nat.eq_zero_or_pos g.nx with h | h
      · rw [h] at hi
        simp at hi
      · exact h
    have hy : i / g.nx < g.ny := (Nat.div_lt_iff_lt_mul hx).2 hi
    have hm : i % g.nx < g.nx := Nat.mod_lt _ hx
    refine ⟨i / g.nx, i % g.nx, hy, hm, ?_⟩
    rw [← (getGridData_get g key hy hm).2]
    congr 1
    rw [Nat.mul_comm]
    exact (Nat.div_add_mod i g.nx).symm
  refine ⟨?_, ?_, ?_, h1, h4⟩
  · intro y x hy hx
    have hmem : y * g.nx + x ∈ List.range (g.ny * g.nx) := List.mem_range.2 (addr_lt hy hx)
    rw [← (getGridData_get g key hy hx).2]
    exact ⟨h2 _ hmem, h5 _ hmem⟩
  · rcases h3 with h | ⟨i, hi, h⟩
    · exact Or.inl h
    · obtain ⟨y, x, a, b, c⟩ := hcell i hi
      exact Or.inr ⟨y, x, a, b, h.trans c⟩
  · rcases h6 with h | ⟨i, hi, h⟩
    · exact Or.inl h
    · obtain ⟨y, x, a, b, c⟩ := hcell i hi
      exact Or.inr ⟨y, x, a, b, h.trans c⟩

/-- C137: getMinMaxValues of a grid with cells returns the smallest and the largest value of the band, if `top` and `bottom` bound
all values. For integers they do.

Missing: numeric_limits<T>::min() of float and double is positive, see C137_negative -/
theorem C137_minmax_partial (top bottom : V) (g : Grid V K) (key : String) (hx : 0 < g.nx) (hy : 0 < g.ny)
    (ht : ∀ y x, y < g.ny → x < g.nx → g.cell key y x ≤ top) (hb : ∀ y x, y < g.ny → x < g.nx → bottom ≤ g.cell key y x) :
    let r := (g.getMinMaxValues top bottom key).2
    (∀ y x, y < g.ny → x < g.nx → r.1 ≤ g.cell key y x ∧ g.cell key y x ≤ r.2) ∧
      (∃ y x, y < g.ny ∧ x < g.nx ∧ r.1 = g.cell key y x) ∧ ∃ y x, y < g.ny ∧ x < g.nx ∧ r.2 = g.cell key y x := by
  obtain ⟨h1, h2, h3, -, -⟩ := minmax_cells top bottom g key
  intro r
  refine ⟨h1, ?_, ?_⟩
  · rcases h2 with h | h
    · exact ⟨0, 0, hy, hx, le_antisymm (h1 0 0 hy hx).1 (by rw [h]; exact ht 0 0 hy hx)⟩
    · exact h
  · rcases h3 with h | h
    · exact ⟨0, 0, hy, hx, le_antisymm (by rw [h]; exact hb 0 0 hy hx) (h1 0 0 hy hx).2⟩
    · exact h

/-- C137, wrong: with a positive `bottom` (float and double), the maximum of a band of negative values is `bottom`, which is not one of
the values -/
theorem C137_negative (top bottom zero : V) (hpos : zero < bottom) (g : Grid V K) (key : String)
    (h : ∀ y x, y < g.ny → x < g.nx → g.cell key y x < zero) :
    (g.getMinMaxValues top bottom key).2.2 = bottom ∧ ∀ y x, y < g.ny → x < g.nx → (g.getMinMaxValues top bottom key).2.2 ≠ g.cell key y x := by
  obtain ⟨-, -, h3, -, h5⟩ := minmax_cells top bottom g key
  have hb : (g.getMinMaxValues top bottom key).2.2 = bottom := by
    rcases h3 with h3 | ⟨y, x, hy, hx, h3⟩
    · exact h3
    · have := h y x hy hx
      rw [← h3] at this
      exact absurd (h5.trans_lt (this.trans hpos)) (lt_irrefl _)
  refine ⟨hb, fun y x hy hx => ?_⟩
  rw [hb]
  exact ((h y x hy hx).trans hpos).ne'

end Bands

/-! ### examples -/

/-- a grid with two bands and two columns -/
def ex : Grid Int ℚ where
  ty := .int16
  nx := 2
  ny := 1
  sx := 1
  sy := 1 / 2
  ox := 3
  oy := 4
  data := fun k => if k = "a" then some ⟨1, 2, fun i => if i = 0 then -5 else -7⟩ else if k = "b" then some ⟨1, 2, fun _ => 1⟩ else none
  nodata := fun k => if k = "a" then some (-1) else none

/-- the result of a call, if there is one -/
def Out.get? {A : Type} : Out A → Option A
  | .ok a => some a
  | _ => none

example : ((ex.write none ["a", "b"]).map fun r => (r.2.w, r.2.h, r.2.bands.map (fun b => [b.cells 0 0, b.cells 0 1]), r.2.nodata)) =
    some (2, 1, [[-5, -7], [1, 1]], some (-1)) := by decide +kernel

/-- in a frame that is turned by half a turn both directions are negative; the cells are turned, and placed at the other end -/
example : ((ex.write (some ⟨-1, 0, 0, -1, 10, 20⟩) ["a"]).bind fun r => (readGridFromGdal r.2 "z").get?.bind fun o => o.map fun q =>
    (q.1.cell "z" 0 0, q.1.cell "z" 0 1, q.1.sx, q.1.sy, q.2.1, q.2.2)) = some (-7, -5, 1, 1 / 2, 5, 31 / 2) := by decide +kernel

example : Upright (⟨2, 1, some ⟨10, -1, 0, 20, 0, 1⟩, [⟨.byte, fun _ x => x⟩], none⟩ : File Nat ℚ) ⟨10, -1, 0, 20, 0, 1⟩ :=
  ⟨rfl, by norm_num, rfl, rfl, by norm_num, by norm_num, by norm_num, by norm_num⟩

example : ((ex.copyBandFrom ex "a" "b").get?.map fun g => (g.cell "b" 0 0, g.cell "b" 0 1, g.nodata "b")) = some (-5, -7, some (-1)) := by decide +kernel

example : (ex.getMinMaxValues 32767 (-32768) "a").2 = (-7, -5) := by decide +kernel

example : ∀ y x, y < ex.ny → x < ex.nx → ex.cell "a" y x < 0 := by
  intro y x hy hx
  have hy : y = 0 := by have : y < 1 := hy; omega
  have hx : x = 0 ∨ x = 1 := by have : x < 2 := hx; omega
  subst hy
  rcases hx with rfl | rfl <;> decide +kernel

#print axioms C135_write
#print axioms C135_place
#print axioms C135_files_partial
#print axioms C135_nodata_one
#print axioms C135_nodata_shared
#print axioms C135_nodata_stale
#print axioms C135_rejects
#print axioms C136_place_partial
#print axioms C136_saved
#print axioms C136_band
#print axioms C136_sheared
#print axioms C137_copy_partial
#print axioms C137_missing
#print axioms C137_nodata
#print axioms C137_size
#print axioms C137_minmax_partial
#print axioms C137_negative

end Envire.Raster
