import Verif.Maps.GridSaveModel
import Verif.Maps.RasterProps
import Mathlib.Algebra.Order.Ring.Rat
import Mathlib.Algebra.Field.Rat

/-!
C141: saved grids. C142: names of the files of bands.
-/

namespace Envire.GridSave

open Envire.Raster

variable {V K : Type}

/-! ### specification -/

/-- the files of a grid -/
def Item.files (it : Item V K) : List (List Char) := if it.single then [it.file ""] else it.keys.map it.file

/-- the grid `g'` that was loaded has the size, scale, offset and cells of `g`, and exactly its bands -/
def Restored [Inhabited V] (g g' : Grid V K) (keys : List String) : Prop :=
  Same g g' ∧ (∀ k ∈ keys, (∀ y x, y < g.ny → x < g.nx → g'.cell k y x = g.cell k y x) ∧ ∃ a, g'.data k = some a ∧ a.h = g.ny ∧ a.w = g.nx) ∧
    ∀ k, k ∉ keys → g'.data k = none ∧ g'.nodata k = none

/-- grids that can be saved: cells, different names of bands, a scale, and a band if there is only one file -/
structure Item.Usable [Zero K] (it : Item V K) : Prop where
  nx : 0 < it.grid.nx
  ny : 0 < it.grid.ny
  sx : it.grid.sx ≠ 0
  sy : it.grid.sy ≠ 0
  keys : it.keys.Nodup
  few : it.keys.length < 2 ^ 32
  some : it.single = true → it.keys ≠ []

/-! ### lemmas -/

/-- the file has the bands of the grid with the given names -/
structure Holds [Inhabited V] (g : Grid V K) (keys : List String) (f : File V K) : Prop where
  w : f.w = g.nx
  h : f.h = g.ny
  len : f.bands.length = keys.length
  nodata : f.nodata = keys.foldl (fun r key => (g.nodata key).or r) none
  bands : ∀ (i : Nat) key, keys[i]? = some key → ∃ b, f.bands[i]? = some b ∧ b.ty = g.ty ∧ ∀ y x, y < g.ny → x < g.nx → b.cells y x = g.cell key y x

theorem file_inj (it : Item V K) {k k' : String} (h : it.file k = it.file k') : k = k' := by
  unfold Item.file fullPath at h
  have h1 := List.append_cancel_right h
  have h2 := List.append_cancel_left h1
  exact String.toList_inj.1 (List.cons.inj h2).2

section

variable [Inhabited V] [Field K]

theorem write_holds (g : Grid V K) (frame : Option (Flat K)) (keys : List String) (hx : 0 < g.nx) (hy : 0 < g.ny) (hk : keys ≠ []) :
    ∃ g' f, g.write frame keys = some (g', f) ∧ Same g g' ∧ g'.nodata = g.nodata ∧
      (∀ key y x, y < g.ny → x < g.nx → g'.cell key y x = g.cell key y x) ∧ Holds g keys f := by
  obtain ⟨g', f, h1, h2, h3, h4, h5, h6, h7, -, h9, h10⟩ := C135_write g frame keys hx hy hk
  exact ⟨g', f, h1, h2, h3, h4, h5, h6, h7, h9, h10⟩

theorem Holds.congr {g g' : Grid V K} {keys : List String} {f : File V K} (h : Holds g' keys f) (hs : Same g g') (hn : g'.nodata = g.nodata)
    (hc : ∀ key y x, y < g.ny → x < g.nx → g'.cell key y x = g.cell key y x) : Holds g keys f := by
  refine ⟨h.w.trans hs.nx, h.h.trans hs.ny, h.len, by rw [h.nodata, hn], fun i key hi => ?_⟩
  obtain ⟨b, b1, b2, b3⟩ := h.bands i key hi
  refine ⟨b, b1, b2.trans hs.ty, fun y x hy hx => ?_⟩
  rw [b3 y x (by rw [hs.ny]; exact hy) (by rw [hs.nx]; exact hx), hc key y x hy hx]

theorem saveBands_spec (it : Item V K) (hx : 0 < it.grid.nx) (hy : 0 < it.grid.ny) (ks : List String) (hk : ks.Nodup) (g : Grid V K) (d : Dir V K) (hs : Same it.grid g)
    (hn : g.nodata = it.grid.nodata) (hc : ∀ key y x, y < it.grid.ny → x < it.grid.nx → g.cell key y x = it.grid.cell key y x) :
    ∃ g' d', saveBands it ks g d = .ok (g', d') ∧ (∀ k ∈ ks, ∃ f, d' (it.file k) = some f ∧ Holds it.grid [k] f) ∧
      ∀ n, n ∉ ks.map it.file → d' n = d n := by
  induction ks generalizing g d with
  | nil => exact ⟨g, d, rfl, fun k hk => absurd hk (by simp), fun _ _ => rfl⟩
  | cons k ks ih =>
    obtain ⟨k1, k2⟩ := List.nodup_cons.1 hk
    obtain ⟨g1, f, e, s1, n1, c1, h1⟩ := write_holds g it.frame [k] (by rw [hs.nx]; exact hx) (by rw [hs.ny]; exact hy) (by simp)
    obtain ⟨g', d', e', h2, h3⟩ := ih k2 g1 (d.store (it.file k) f) (hs.trans s1) (n1.trans hn) (fun key y x hy hx => by
      rw [c1 key y x (by rw [hs.ny]; exact hy) (by rw [hs.nx]; exact hx), hc key y x hy hx])
    refine ⟨g', d', ?_, ?_, ?_⟩
    · rw [saveBands, e]
      exact e'
    · intro k' hk'
      rcases List.mem_cons.1 hk' with rfl | hk'
      · refine ⟨f, ?_, h1.congr hs hn hc⟩
        rw [h3 _ (by
          intro hm
          obtain ⟨k'', m1, m2⟩ := List.mem_map.1 hm
          exact k1 (file_inj it m2 ▸ m1))]
        unfold Dir.store
        rw [if_pos rfl]
      · exact h2 k' hk'
    · intro n hn'
      rw [List.map_cons, List.mem_cons, not_or] at hn'
      rw [h3 n hn'.2]
      unfold Dir.store
      rw [if_neg hn'.1]

/-- the directory has the bands of `g` in the files of the grid -/
def Stored (d : Dir V K) (it : Item V K) : Prop :=
  if it.single then ∃ f, d (it.file "") = some f ∧ Holds it.grid it.keys f
  else ∀ k ∈ it.keys, ∃ f, d (it.file k) = some f ∧ Holds it.grid [k] f

theorem Stored.congr {d d' : Dir V K} {it : Item V K} (h : Stored d it) (he : ∀ n ∈ it.files, d' n = d n) : Stored d' it := by
  unfold Stored Item.files at *
  split_ifs at * with hs
  · obtain ⟨f, h1, h2⟩ := h
    exact ⟨f, by rw [he _ (by simp)]; exact h1, h2⟩
  · intro k hk
    obtain ⟨f, h1, h2⟩ := h k hk
    exact ⟨f, by rw [he _ (List.mem_map_of_mem hk)]; exact h1, h2⟩

theorem save_spec (it : Item V K) (h : it.Usable) (d : Dir V K) :
    ∃ g' d', it.save d = .ok (g', d') ∧ Stored d' it ∧ ∀ n, n ∉ it.files → d' n = d n := by
  unfold Item.save Stored Item.files
  by_cases hs : it.single = true
  · simp only [if_pos hs]
    obtain ⟨g1, f, e, -, -, -, h1⟩ := write_holds it.grid it.frame it.keys h.nx h.ny (h.some hs)
    rw [e]
    refine ⟨g1, _, rfl, ⟨f, ?_, h1⟩, ?_⟩
    · unfold Dir.store
      rw [if_pos rfl]
    · intro n hn
      unfold Dir.store
      rw [if_neg (by simpa using hn)]
  · simp only [if_neg hs]
    exact saveBands_spec it h.nx h.ny it.keys h.keys it.grid d ⟨rfl, rfl, rfl, rfl, rfl, rfl, rfl⟩ rfl (fun _ _ _ _ _ => rfl)

theorem saveAll_spec (its : List (Item V K)) (h : ∀ it ∈ its, it.Usable) (hf : (its.flatMap Item.files).Nodup) (d : Dir V K) :
    ∃ d', saveAll its d = some (its.map propsOf, d') ∧ (∀ it ∈ its, Stored d' it) ∧ ∀ n, n ∉ its.flatMap Item.files → d' n = d n := by
  induction its generalizing d with
  | nil => exact ⟨d, rfl, fun it hit => absurd hit (by simp), fun _ _ => rfl⟩
  | cons it its ih =>
    rw [List.flatMap_cons, List.nodup_append] at hf
    obtain ⟨g1, d1, e1, s1, o1⟩ := save_spec it (h it (by simp)) d
    obtain ⟨d2, e2, s2, o2⟩ := ih (fun i hi => h i (by simp [hi])) hf.2.1 d1
    refine ⟨d2, ?_, ?_, ?_⟩
    · rw [saveAll, e1]
      dsimp only
      rw [e2]
      rfl
    · intro i hi
      rcases List.mem_cons.1 hi with rfl | hi
      · exact s1.congr (fun n hn => o2 n (fun hm => hf.2.2 n hn n hm rfl))
      · exact s2 i hi
    · intro n hn
      rw [List.flatMap_cons, List.mem_append, not_or] at hn
      rw [o2 n hn.2, o1 n hn.1]

variable [LinearOrder K] [IsStrictOrderedRing K]

theorem read_holds (g g2 : Grid V K) (keys : List String) (f : File V K) (h : Holds g keys f) (hk : keys.Nodup) (hl : keys.length < 2 ^ 32) (hs : g2.ty = g.ty ∧ g2.nx = g.nx ∧ g2.ny = g.ny)
    (hsc : g2.sx ≠ 0 ∧ g2.sy ≠ 0) :
    ∃ g', g2.read f keys = .ok g' ∧ Same g2 g' ∧ (∀ k, k ∉ keys → g'.data k = g2.data k ∧ g'.nodata k = g2.nodata k) ∧
      ∀ k ∈ keys, (∀ y x, y < g.ny → x < g.nx → g'.cell k y x = g.cell k y x) ∧ (∃ a, g'.data k = some a ∧ a.h = g.ny ∧ a.w = g.nx) ∧
        g'.nodata k = f.nodata.or (g2.nodata k) := by
  obtain ⟨g', r1, r2, r3, r4⟩ := readBands_spec f false false keys hk 0 { g2 with nx := f.w, ny := f.h } (fun i hi => by
    obtain ⟨b, b1, b2, -⟩ := h.bands i keys[i] (List.getElem?_eq_getElem hi)
    exact ⟨b, by rw [← b1]; congr 1; omega, b2.trans hs.1.symm⟩)
  refine ⟨g', ?_, ⟨r2.ty, r2.nx.trans (h.w.trans hs.2.1.symm), r2.ny.trans (h.h.trans hs.2.2.symm), r2.sx, r2.sy, r2.ox, r2.oy⟩, r3, ?_⟩
  · unfold Grid.read
    rw [if_neg (by rintro ⟨-, h2⟩; exact h2 (h.w.trans hs.2.1.symm)),
      if_neg (by rintro ⟨-, h2⟩; exact h2 (h.h.trans hs.2.2.symm)), readScale_set _ _ (by exact hsc)]
    dsimp only
    rw [if_neg]
    · exact r1
    · rw [h.len]
      omega
  · intro k hm
    obtain ⟨i, hi, he⟩ := List.mem_iff_getElem.1 hm
    have hi' : keys[i]? = some k := by rw [List.getElem?_eq_getElem hi, he]
    obtain ⟨b, b1, -, b3⟩ := h.bands i k hi'
    obtain ⟨c1, c2, c3⟩ := r4 i k b hi' (by rw [← b1]; congr 1; omega)
    refine ⟨fun y x hy' hx' => ?_, ?_, c3⟩
    · rw [c1 y x (by rw [h.h]; exact hy') (by rw [h.w]; exact hx')]
      exact b3 y x hy' hx'
    · obtain ⟨a, a1, a2, a3⟩ := c2
      exact ⟨a, a1, a2.trans h.h, a3.trans h.w⟩

theorem loadBands_spec (g : Grid V K) (d : Dir V K) (cls id : List Char) (ks : List String) (hk : ks.Nodup)
    (hd : ∀ k ∈ ks, ∃ f, d (fullPath (mapName cls id) k.toList) = some f ∧ Holds g [k] f) (g2 : Grid V K) (hs : g2.ty = g.ty ∧ g2.nx = g.nx ∧ g2.ny = g.ny)
    (hsc : g2.sx ≠ 0 ∧ g2.sy ≠ 0) :
    ∃ g', loadBands d cls id ks g2 = .ok g' ∧ Same g2 g' ∧ (∀ k, k ∉ ks → g'.data k = g2.data k ∧ g'.nodata k = g2.nodata k) ∧
      ∀ k ∈ ks, (∀ y x, y < g.ny → x < g.nx → g'.cell k y x = g.cell k y x) ∧ (∃ a, g'.data k = some a ∧ a.h = g.ny ∧ a.w = g.nx) ∧
        g'.nodata k = (g.nodata k).or (g2.nodata k) := by
  induction ks generalizing g2 with
  | nil => exact ⟨g2, rfl, ⟨rfl, rfl, rfl, rfl, rfl, rfl, rfl⟩, fun _ _ => ⟨rfl, rfl⟩, fun k hk => absurd hk (by simp)⟩
  | cons k ks ih =>
    obtain ⟨k1, k2⟩ := List.nodup_cons.1 hk
    obtain ⟨f, f1, f2⟩ := hd k (by simp)
    obtain ⟨g1, e1, s1, o1, c1⟩ := read_holds g g2 [k] f f2 (by simp) (by simp) hs hsc
    obtain ⟨g', e2, s2, o2, c2⟩ := ih k2 (fun k' hk' => hd k' (by simp [hk'])) g1 ⟨s1.ty.trans hs.1, s1.nx.trans hs.2.1, s1.ny.trans hs.2.2⟩
      ⟨by rw [s1.sx]; exact hsc.1, by rw [s1.sy]; exact hsc.2⟩
    refine ⟨g', ?_, s1.trans s2, ?_, ?_⟩
    · rw [loadBands, f1]
      dsimp only
      rw [e1]
      exact e2
    · intro k' hk'
      rw [List.mem_cons, not_or] at hk'
      have a1 := o2 k' hk'.2
      have a2 := o1 k' (by simpa using hk'.1)
      exact ⟨a1.1.trans a2.1, a1.2.trans a2.2⟩
    · intro k' hk'
      rcases List.mem_cons.1 hk' with rfl | hk'
      · obtain ⟨d1, d2, d3⟩ := c1 k' (by simp)
        obtain ⟨d4, d5⟩ := o2 k' k1
        refine ⟨fun y x hy hx => ?_, ?_, ?_⟩
        · rw [cell_congr d4]
          exact d1 y x hy hx
        · rw [d4]
          exact d2
        · rw [d5, d3, f2.nodata]
          simp
      · obtain ⟨d1, d2, d3⟩ := c2 k' hk'
        refine ⟨d1, d2, ?_⟩
        rw [d3, (o1 k' (by rintro hm; rw [List.mem_singleton] at hm; exact k1 (hm ▸ hk'))).2]

/-! ### C141 -/

/-- C141: all grids of a scene whose files have different names are saved and loaded again: size, scale, offset, all bands and all
cells. The values for no data are loaded too if the grid has one file for each band, or if all its bands have the same. Missing: files
with the same name (`C141_clash`, and see C142), different values for no data in one file (`C141_nodata_image`), grids
without cells and images without bands (`C141_empty`) -/
theorem C141_files_partial (its : List (Item V K)) (h : ∀ it ∈ its, it.Usable) (hf : (its.flatMap Item.files).Nodup) (d : Dir V K) :
    ∃ d', saveAll its d = some (its.map propsOf, d') ∧ ∀ it ∈ its, ∃ g', load it.grid.ty it.single it.cls it.id (propsOf it) d' = .ok g' ∧
      Restored it.grid g' it.keys ∧
      ∀ k ∈ it.keys, (it.single = true → ∀ k' ∈ it.keys, it.grid.nodata k' = it.grid.nodata k) → g'.nodata k = it.grid.nodata k := by
  obtain ⟨d', e, hd, -⟩ := saveAll_spec its h hf d
  refine ⟨d', e, fun it hit => ?_⟩
  have hu := h it hit
  have hs := hd it hit
  have same : Same it.grid (start it.grid.ty (propsOf it) : Grid V K) := ⟨rfl, rfl, rfl, rfl, rfl, rfl, rfl⟩
  unfold load
  unfold Stored at hs
  by_cases h1 : it.single = true
  · rw [if_pos h1] at hs ⊢
    obtain ⟨f, f1, f2⟩ := hs
    have f1' : d' (fullPath (mapName it.cls it.id) []) = some f := f1
    rw [f1']
    dsimp only
    obtain ⟨g', r1, r2, r3, r4⟩ := read_holds it.grid (start it.grid.ty (propsOf it)) it.keys f f2 hu.keys hu.few ⟨rfl, rfl, rfl⟩ ⟨hu.sx, hu.sy⟩
    refine ⟨g', r1, ⟨same.trans r2, fun k hk => ⟨(r4 k hk).1, (r4 k hk).2.1⟩, r3⟩, fun k hk hn => ?_⟩
    rw [(r4 k hk).2.2, f2.nodata]
    have key : ∀ (l : List String) (r : Option V), (∀ k' ∈ l, it.grid.nodata k' = it.grid.nodata k) → (l ≠ [] ∨ r = it.grid.nodata k) →
        l.foldl (fun r key => (it.grid.nodata key).or r) r = (it.grid.nodata k).or r := by
      intro l
      induction l with
      | nil => rintro r - (h | rfl); exacts [absurd rfl h, by cases it.grid.nodata k <;> rfl]
      | cons k0 l ih =>
        intro r hl _
        rw [List.foldl_cons, hl k0 (by simp)]
        by_cases hl0 : l = []
        · rw [hl0]
          rfl
        · rw [ih _ (fun k' hk' => hl k' (by simp [hk'])) (Or.inl hl0)]
          cases it.grid.nodata k <;> rfl
    rw [key it.keys none (hn h1) (Or.inl (hu.some h1))]
    cases it.grid.nodata k <;> rfl
  · rw [if_neg h1] at hs ⊢
    dsimp only
    obtain ⟨g', r1, r2, r3, r4⟩ := loadBands_spec it.grid d' it.cls it.id it.keys hu.keys hs (start it.grid.ty (propsOf it)) ⟨rfl, rfl, rfl⟩ ⟨hu.sx, hu.sy⟩
    refine ⟨g', r1, ⟨same.trans r2, fun k hk => ⟨(r4 k hk).1, (r4 k hk).2.1⟩, r3⟩, fun k hk _ => ?_⟩
    rw [(r4 k hk).2.2]
    cases it.grid.nodata k <;> rfl

/-- C141 is wrong: if the files of a band of two grids have the same name, the band of the first grid is loaded with the cells of the
second one -/
theorem C141_clash (a b : Item V K) (ka kb : String) (ha : a.Usable) (hb : b.Usable) (h1 : a.single = false) (h2 : b.single = false)
    (hka : a.keys = [ka]) (hkb : b.keys = [kb]) (hn : a.file ka = b.file kb)
    (hs : b.grid.ty = a.grid.ty ∧ b.grid.nx = a.grid.nx ∧ b.grid.ny = a.grid.ny) (d : Dir V K) :
    ∃ d' g', saveAll [a, b] d = some ([propsOf a, propsOf b], d') ∧ load a.grid.ty a.single a.cls a.id (propsOf a) d' = .ok g' ∧
      ∀ y x, y < a.grid.ny → x < a.grid.nx → g'.cell ka y x = b.grid.cell kb y x := by
  obtain ⟨g1, d1, e1, -, -⟩ := save_spec a ha d
  obtain ⟨g2, d2, e2, s2, -⟩ := save_spec b hb d1
  unfold Stored at s2
  rw [if_neg (by rw [h2]; simp), hkb] at s2
  obtain ⟨f, f1, f2⟩ := s2 kb (by simp)
  rw [← hn] at f1
  have hr : readBands f false false 1 [ka] { (start a.grid.ty (propsOf a) : Grid V K) with nx := f.w, ny := f.h } =
      readBands f false false (((0 : Nat) : Int) + 1) [ka] { (start a.grid.ty (propsOf a) : Grid V K) with nx := f.w, ny := f.h } := rfl
  obtain ⟨bd, b1, b2, b3⟩ := f2.bands 0 kb rfl
  obtain ⟨g', r1, r2, r3, r4⟩ := readBands_spec f false false [ka] (by simp) 0 { (start a.grid.ty (propsOf a) : Grid V K) with nx := f.w, ny := f.h } (fun i hi => by
    have : i = 0 := by simpa using hi
    subst this
    exact ⟨bd, b1, b2.trans hs.1⟩)
  refine ⟨d2, g', ?_, ?_, ?_⟩
  · rw [saveAll, e1]
    dsimp only
    rw [saveAll, e2]
    rfl
  · unfold load
    rw [if_neg (by rw [h1]; simp)]
    dsimp only
    have hl : (propsOf a).layers = [ka] := hka
    rw [hl, loadBands]
    have f1' : d2 (fullPath (mapName a.cls a.id) ka.toList) = some f := f1
    rw [f1']
    dsimp only
    have hread : (start a.grid.ty (propsOf a) : Grid V K).read f [ka] = .ok g' := by
      unfold Grid.read
      rw [if_neg (by rintro ⟨-, h3⟩; exact h3 (f2.w.trans hs.2.1)),
        if_neg (by rintro ⟨-, h3⟩; exact h3 (f2.h.trans hs.2.2)), readScale_set _ _ (by exact ⟨ha.sx, ha.sy⟩)]
      dsimp only
      rw [if_neg]
      · rw [hr]
        exact r1
      · rw [f2.len]
        simp
    rw [hread]
    rfl
  · intro y x hy hx
    obtain ⟨c1, -, -⟩ := r4 0 ka bd rfl b1
    rw [c1 y x (by rw [f2.h, hs.2.2]; exact hy) (by rw [f2.w, hs.2.1]; exact hx)]
    exact b3 y x (by rw [hs.2.2]; exact hy) (by rw [hs.2.1]; exact hx)

end

/-- C141 is wrong: a scene with an image without bands, or with bands of a grid without cells, cannot be saved at all -/
theorem C141_empty [Inhabited V] [Field K] (its : List (Item V K)) (it : Item V K) (hit : it ∈ its)
    (h : (it.single = true ∧ it.keys = []) ∨ ((it.grid.nx = 0 ∨ it.grid.ny = 0) ∧ it.keys ≠ [])) (d : Dir V K) : saveAll its d = none := by
  have key : ∀ d : Dir V K, ∃ r, it.save d = .thrown r := by
    intro d
    unfold Item.save
    by_cases hs : it.single = true
    · rw [if_pos hs]
      have : it.grid.write it.frame it.keys = none := by
        unfold Grid.write
        rw [if_pos (by tauto)]
      rw [this]
      exact ⟨_, rfl⟩
    · rw [if_neg hs]
      have h' := h.resolve_left (by tauto)
      cases hk : it.keys with
      | nil => exact absurd hk h'.2
      | cons k ks =>
        rw [saveBands]
        have : it.grid.write it.frame [k] = none := by
          unfold Grid.write
          rw [if_pos (by tauto)]
        rw [this]
        exact ⟨_, rfl⟩
  induction its generalizing d with
  | nil => exact absurd hit (by simp)
  | cons i its ih =>
    rw [saveAll]
    rcases List.mem_cons.1 hit with rfl | hit
    · obtain ⟨r, hr⟩ := key d
      rw [hr]
    · cases hi : i.save d with
      | ok r =>
        dsimp only
        rw [ih hit]
      | thrown r => rfl
      | ub => rfl

/-- a grid of one cell for each band, with cells of a metre -/
def small (ty : Ty) (cls id : String) (single : Bool) (bands : List (String × Nat × Option Nat)) : Item Nat ℚ :=
  ⟨cls.toList, id.toList, single, none, bands.map Prod.fst, ⟨ty, 1, 1, 1, 1, 0, 0, fun k => (bands.lookup k).map fun v => ⟨1, 1, fun _ => v.1⟩, fun k => (bands.lookup k).bind Prod.snd⟩⟩

theorem small_usable (ty : Ty) (cls id : String) (single : Bool) (bands : List (String × Nat × Option Nat)) (h : (bands.map Prod.fst).Nodup) (hl : bands.length < 2 ^ 32)
    (hn : bands ≠ []) : (small ty cls id single bands).Usable :=
  ⟨Nat.one_pos, Nat.one_pos, one_ne_zero, one_ne_zero, h, by simpa [small] using hl, fun _ => by simpa [small] using hn⟩

/-- an example for C141: a scene with an image and two grids -/
example : (∀ it ∈ [small .byte "envire::ImageRGB24" "/0" true [("r", 1, none), ("g", 2, none), ("b", 3, none)],
      small .float64 "envire::ElevationGrid" "/1" false [("elevation_min", 4, some 9), ("elevation_max", 5, none)],
      small .float64 "envire::ElevationGrid" "/2" false [("elevation_min", 6, none)]], it.Usable) ∧
    ([small .byte "envire::ImageRGB24" "/0" true [("r", 1, none), ("g", 2, none), ("b", 3, none)],
      small .float64 "envire::ElevationGrid" "/1" false [("elevation_min", 4, some 9), ("elevation_max", 5, none)],
      small .float64 "envire::ElevationGrid" "/2" false [("elevation_min", 6, none)]].flatMap Item.files).Nodup := by
  constructor
  · intro it hit
    simp only [List.mem_cons, List.not_mem_nil, or_false] at hit
    rcases hit with rfl | rfl | rfl
    · exact small_usable _ _ _ _ _ (by decide) (by decide) (by decide)
    · exact small_usable _ _ _ _ _ (by decide) (by decide) (by decide)
    · exact small_usable _ _ _ _ _ (by decide) (by decide) (by decide)
  · have : [small .byte "envire::ImageRGB24" "/0" true [("r", 1, none), ("g", 2, none), ("b", 3, none)],
        small .float64 "envire::ElevationGrid" "/1" false [("elevation_min", 4, some 9), ("elevation_max", 5, none)],
        small .float64 "envire::ElevationGrid" "/2" false [("elevation_min", 6, none)]].flatMap Item.files =
      ["envire::ImageRGB24_0_.tiff".toList, "envire::ElevationGrid_1_elevation_min.tiff".toList,
        "envire::ElevationGrid_1_elevation_max.tiff".toList, "envire::ElevationGrid_2_elevation_min.tiff".toList] := by decide
    rw [this]
    decide

/-- C141 is wrong: in an image with different values for no data, the value of a band is replaced by the one of the last band -/
theorem C141_nodata_image (id : String) (d : Dir Nat ℚ) (v w : Nat) :
    ∃ d' g', saveAll [small .byte "envire::ImageRGB24" id true [("b", 1, some v), ("g", 2, some w)]] d =
        some ([propsOf (small .byte "envire::ImageRGB24" id true [("b", 1, some v), ("g", 2, some w)])], d') ∧
      load .byte true "envire::ImageRGB24".toList id.toList (propsOf (small .byte "envire::ImageRGB24" id true [("b", 1, some v), ("g", 2, some w)])) d' = .ok g' ∧
      (small .byte "envire::ImageRGB24" id true [("b", 1, some v), ("g", 2, some w)]).grid.nodata "b" = some v ∧ g'.nodata "b" = some w := by
  have hu := small_usable .byte "envire::ImageRGB24" id true [("b", 1, some v), ("g", 2, some w)] (by simp) (by simp) (by simp)
  obtain ⟨d', e, hd, -⟩ := saveAll_spec [small .byte "envire::ImageRGB24" id true [("b", 1, some v), ("g", 2, some w)]]
    (fun it hit => by rw [List.mem_singleton.1 hit]; exact hu) (by simp [small, Item.files]) d
  have hs := hd (small .byte "envire::ImageRGB24" id true [("b", 1, some v), ("g", 2, some w)]) (by simp)
  obtain ⟨f, f1, f2⟩ := hs
  obtain ⟨g', r1, -, -, r4⟩ := read_holds (small .byte "envire::ImageRGB24" id true [("b", 1, some v), ("g", 2, some w)]).grid
    (start .byte (propsOf (small .byte "envire::ImageRGB24" id true [("b", 1, some v), ("g", 2, some w)]))) _ f f2 hu.keys hu.few ⟨rfl, rfl, rfl⟩ ⟨hu.sx, hu.sy⟩
  refine ⟨d', g', e, ?_, rfl, ?_⟩
  · unfold load
    rw [if_pos rfl]
    have f1' : d' (fullPath (mapName "envire::ImageRGB24".toList id.toList) []) = some f := f1
    rw [f1']
    exact r1
  · rw [(r4 "b" (by simp [small])).2.2, f2.nodata]
    rfl

/-! ### binary streams -/

section

variable [Inhabited V] [Field K]

theorem saveStreams_get (it : Item V K) (s : Streams V) : (∀ k ∈ it.keys, saveStreams it s (it.file k) = some (it.grid.rawBand k)) := by
  unfold saveStreams
  have key : ∀ (ks : List String) (s : Streams V) (k : String), (k ∈ ks ∨ s (it.file k) = some (it.grid.rawBand k)) →
      ks.foldl (fun (s : Streams V) k => s.store (it.file k) (it.grid.rawBand k)) s (it.file k) = some (it.grid.rawBand k) := by
    intro ks
    induction ks with
    | nil => rintro s k (h | h); exacts [absurd h (by simp), h]
    | cons k0 ks ih =>
      intro s k h
      rw [List.foldl_cons]
      apply ih
      by_cases hk : k = k0
      · right
        unfold Streams.store
        rw [hk, if_pos rfl]
      · rcases h with h | h
        · exact Or.inl ((List.mem_cons.1 h).resolve_left hk)
        · right
          unfold Streams.store
          rw [if_neg (fun he => hk (file_inj it he))]
          exact h
  intro k hk
  exact key it.keys s k (Or.inl hk)

/-- reading a stream of the right length gives every cell its value -/
theorem readStream_spec (g g2 : Grid V K) (k : String) (hs : g2.nx = g.nx ∧ g2.ny = g.ny) :
    Same g2 (readStream g2 k (g.rawBand k)) ∧ (readStream g2 k (g.rawBand k)).nodata = g2.nodata ∧
      (∀ k', k' ≠ k → (readStream g2 k (g.rawBand k)).data k' = g2.data k') ∧
      (∀ y x, y < g.ny → x < g.nx → (readStream g2 k (g.rawBand k)).cell k y x = g.cell k y x) ∧
      ∃ a, (readStream g2 k (g.rawBand k)).data k = some a ∧ a.h = g.ny ∧ a.w = g.nx := by
  unfold readStream
  dsimp only
  refine ⟨⟨rfl, rfl, rfl, rfl, rfl, rfl, rfl⟩, rfl, ?_, ?_, ?_⟩
  · intro k' hk'
    unfold Grid.put
    dsimp only
    rw [Function.update_of_ne hk']
  · intro y x hy hx
    have hw : (g2.getGridData k).w = g.nx := hs.1
    have hh : (g2.getGridData k).h = g.ny := hs.2
    rw [put_cell _ _ _ ⟨by dsimp only; rw [hw]; exact hx, by dsimp only; rw [hh]; exact hy⟩]
    unfold Arr.get
    dsimp only
    rw [hw, hh, if_pos (addr_lt hy hx)]
    unfold Grid.rawBand
    rw [List.getElem?_map, List.getElem?_range (addr_lt hy hx)]
    exact (getGridData_get g k hy hx).2
  · unfold Grid.put
    dsimp only
    rw [Function.update_self]
    exact ⟨_, rfl, hs.2, hs.1⟩

/-- C141: a grid that is saved to binary streams and loaded from them has its size, scale, offset, bands and cells, also if it has no
cells; but no values for no data: what is missing for the full claim, see `C141_nodata_stream` -/
theorem C141_streams_partial (it : Item V K) (hk : it.keys.Nodup) (s : Streams V) :
    ∃ g', loadStreams (saveStreams it s) it.cls it.id (propsOf it).layers (start it.grid.ty (propsOf it)) = .ok g' ∧
      Restored it.grid g' it.keys ∧ ∀ k, g'.nodata k = none := by
  have key : ∀ (ks : List String), ks.Nodup → (∀ k ∈ ks, k ∈ it.keys) → ∀ g2 : Grid V K, (g2.nx = it.grid.nx ∧ g2.ny = it.grid.ny) →
      ∃ g', loadStreams (saveStreams it s) it.cls it.id ks g2 = .ok g' ∧ Same g2 g' ∧ g'.nodata = g2.nodata ∧
        (∀ k, k ∉ ks → g'.data k = g2.data k) ∧
        ∀ k ∈ ks, (∀ y x, y < it.grid.ny → x < it.grid.nx → g'.cell k y x = it.grid.cell k y x) ∧ ∃ a, g'.data k = some a ∧ a.h = it.grid.ny ∧ a.w = it.grid.nx := by
    intro ks
    induction ks with
    | nil => exact fun _ _ g2 _ => ⟨g2, rfl, ⟨rfl, rfl, rfl, rfl, rfl, rfl, rfl⟩, rfl, fun _ _ => rfl, fun k hk => absurd hk (by simp)⟩
    | cons k ks ih =>
      intro hn hm g2 hs
      obtain ⟨k1, k2⟩ := List.nodup_cons.1 hn
      obtain ⟨a1, a2, a3, a4, a5⟩ := readStream_spec it.grid g2 k hs
      obtain ⟨g', e, b1, b2, b3, b4⟩ := ih k2 (fun k' hk' => hm k' (by simp [hk'])) (readStream g2 k (it.grid.rawBand k)) ⟨a1.nx.trans hs.1, a1.ny.trans hs.2⟩
      refine ⟨g', ?_, a1.trans b1, b2.trans a2, ?_, ?_⟩
      · rw [loadStreams]
        have : saveStreams it s (fullPath (mapName it.cls it.id) k.toList) = some (it.grid.rawBand k) := saveStreams_get it s k (hm k (by simp))
        rw [this]
        exact e
      · intro k' hk'
        rw [List.mem_cons, not_or] at hk'
        rw [b3 k' hk'.2, a3 k' hk'.1]
      · intro k' hk'
        rcases List.mem_cons.1 hk' with rfl | hk'
        · refine ⟨fun y x hy hx => ?_, by rw [b3 _ k1]; exact a5⟩
          rw [cell_congr (b3 k' k1)]
          exact a4 y x hy hx
        · exact b4 k' hk'
  obtain ⟨g', e, b1, b2, b3, b4⟩ := key it.keys hk (fun _ h => h) (start it.grid.ty (propsOf it)) ⟨rfl, rfl⟩
  refine ⟨g', e, ⟨?_, b4, fun k hk' => ⟨by rw [b3 k hk']; rfl, by rw [b2]; rfl⟩⟩, fun k => by rw [b2]; rfl⟩
  have same : Same it.grid (start it.grid.ty (propsOf it) : Grid V K) := ⟨rfl, rfl, rfl, rfl, rfl, rfl, rfl⟩
  exact same.trans b1

/-- C141 is wrong for binary streams: every value for no data is lost -/
theorem C141_nodata_stream (it : Item V K) (hk : it.keys.Nodup) (s : Streams V) (k : String) (v : V) (hv : it.grid.nodata k = some v) :
    ∃ g', loadStreams (saveStreams it s) it.cls it.id (propsOf it).layers (start it.grid.ty (propsOf it)) = .ok g' ∧ g'.nodata k ≠ it.grid.nodata k := by
  obtain ⟨g', e, -, h⟩ := C141_streams_partial it hk s
  exact ⟨g', e, by rw [h k, hv]; simp⟩

end

/-! ### C142 -/

theorem split_first {a b c e : List Char} (ha : '_' ∉ a) (hb : '_' ∉ b) (h : a ++ '_' :: c = b ++ '_' :: e) : a = b ∧ c = e := by
  induction a generalizing b with
  | nil =>
    cases b with
    | nil => exact ⟨rfl, (List.cons.inj h).2⟩
    | cons y b =>
      have := (List.cons.inj h).1
      exact absurd (by rw [this]; simp) hb
  | cons x a ih =>
    cases b with
    | nil =>
      have := (List.cons.inj h).1
      exact absurd (by rw [this]; simp) ha
    | cons y b =>
      obtain ⟨h1, h2⟩ := List.cons.inj h
      obtain ⟨i1, i2⟩ := ih (fun hm => ha (by simp [hm])) (fun hm => hb (by simp [hm])) h2
      exact ⟨by rw [h1, i1], i2⟩

theorem replace_id {l : List Char} (h : '/' ∉ l) : l.map (fun c => if c = '/' then '_' else c) = l := by
  induction l with
  | nil => rfl
  | cons c l ih =>
    rw [List.map_cons, ih (fun hm => h (by simp [hm])), if_neg (fun he => h (by simp [he]))]

/-- C142: the bands of one grid have files with different names -/
theorem C142_bands (it : Item V K) (k k' : String) (h : k ≠ k') : it.file k ≠ it.file k' := fun he => h (file_inj it he)

/-- C142, for the ids that an environment with the prefix "/" assigns (a slash and a number), and for class names of which none, with
an underscore, begins another: bands of different grids have files with different names. Missing: other ids (`C142_clash`) -/
theorem C142_names_partial (a b : Item V K) (da db : List Char) (ka kb : String) (ha : a.id = '/' :: da) (hb : b.id = '/' :: db)
    (h1 : '/' ∉ da ∧ '_' ∉ da) (h2 : '/' ∉ db ∧ '_' ∉ db)
    (hc : a.cls = b.cls ∨ ¬ (a.cls ++ ['_']) <+: (b.cls ++ ['_']) ∧ ¬ (b.cls ++ ['_']) <+: (a.cls ++ ['_']))
    (he : a.file ka = b.file kb) : a.cls = b.cls ∧ a.id = b.id ∧ ka = kb := by
  unfold Item.file fullPath mapName at he
  have he := List.append_cancel_right he
  rw [ha, hb, List.map_cons, List.map_cons, replace_id h1.1, replace_id h2.1, if_pos rfl] at he
  have he' : (a.cls ++ ['_']) ++ (da ++ '_' :: ka.toList) = (b.cls ++ ['_']) ++ (db ++ '_' :: kb.toList) := by simpa using he
  have hcls : a.cls = b.cls := by
    rcases hc with hc | ⟨hc1, hc2⟩
    · exact hc
    · exfalso
      rcases List.prefix_or_prefix_of_prefix (List.prefix_append (a.cls ++ ['_']) (da ++ '_' :: ka.toList))
        (he' ▸ List.prefix_append (b.cls ++ ['_']) (db ++ '_' :: kb.toList)) with h | h
      · exact hc1 h
      · exact hc2 h
  rw [hcls] at he'
  obtain ⟨e1, e2⟩ := split_first h1.2 h2.2 (List.append_cancel_left he')
  exact ⟨hcls, by rw [ha, hb, e1], String.toList_inj.1 e2⟩

/-- the class names of the grids in the library -/
def classNames : List String := ["envire::Grid_d", "envire::Grid_f", "envire::Grid_h", "envire::Grid_s", "envire::Grid_t", "envire::Grid_i", "envire::Grid_j",
  "envire::ConfidenceGrid", "envire::DistanceGrid", "envire::OccupancyGrid", "envire::ImageRGB24", "envire::ElevationGrid", "envire::TraversabilityGrid"]

/-- the class names of the library fulfil the hypothesis of `C142_names_partial` -/
example : ∀ a ∈ classNames, ∀ b ∈ classNames, a = b ∨ ¬ (a.toList ++ ['_']) <+: (b.toList ++ ['_']) ∧ ¬ (b.toList ++ ['_']) <+: (a.toList ++ ['_']) := by decide

/-- C142 is wrong: band "b_c" of the grid "/a" and band "c" of the grid "/a_b" have the same file, as have the bands of "/a/b" and
"/a_b". The band of the first grid then has the cells of the second one after loading -/
theorem C142_clash (d : Dir Nat ℚ) :
    let a := small .float64 "envire::Grid_d" "/a" false [("b_c", 1, none)]
    let b := small .float64 "envire::Grid_d" "/a_b" false [("c", 2, none)]
    a.id ≠ b.id ∧ a.file "b_c" = b.file "c" ∧
      ∃ d' g', saveAll [a, b] d = some ([propsOf a, propsOf b], d') ∧ load .float64 false a.cls a.id (propsOf a) d' = .ok g' ∧
        a.grid.cell "b_c" 0 0 = 1 ∧ g'.cell "b_c" 0 0 = 2 := by
  have hn : (small .float64 "envire::Grid_d" "/a" false [("b_c", 1, none)]).file "b_c" = (small .float64 "envire::Grid_d" "/a_b" false [("c", 2, none)]).file "c" := by decide
  obtain ⟨d', g', e1, e2, e3⟩ := C141_clash (small .float64 "envire::Grid_d" "/a" false [("b_c", 1, none)]) (small .float64 "envire::Grid_d" "/a_b" false [("c", 2, none)]) "b_c" "c"
    (small_usable _ _ _ _ _ (by simp) (by simp) (by simp)) (small_usable _ _ _ _ _ (by simp) (by simp) (by simp)) rfl rfl rfl rfl hn ⟨rfl, rfl, rfl⟩ d
  exact ⟨by decide, hn, d', g', e1, e2, rfl, e3 0 0 Nat.one_pos Nat.one_pos⟩

section Missing
variable {V K : Type} [Inhabited V] [Field K] [LinearOrder K]

theorem loadBands_missing (d : Dir V K) (cls id : List Char) (ks : List String) (g : Grid V K) (k : String) (hk : k ∈ ks)
    (hd : d (fullPath (mapName cls id) k.toList) = none) (g' : Grid V K) : loadBands d cls id ks g ≠ .ok g' := by
  induction ks generalizing g with
  | nil => cases hk
  | cons a ks ih =>
    unfold loadBands
    cases hf : d (fullPath (mapName cls id) a.toList) with
    | none => simp
    | some f =>
      dsimp only
      have hk' : k ∈ ks := by
        rcases List.mem_cons.1 hk with rfl | h
        · rw [hd] at hf
          cases hf
        · exact h
      cases hr : g.read f [a] with
      | ok g1 => exact ih g1 hk'
      | thrown g1 => simp
      | ub => simp

/-- C141: a grid of which the file of a band is missing is not loaded, as if nothing were missing -/
theorem C141_missing_file (ty : Ty) (single : Bool) (cls id : List Char) (p : Props K) (d : Dir V K) (k : String) (hk : k ∈ p.layers)
    (hd : d (fullPath (mapName cls id) k.toList) = none) (hs : single = true → d (fullPath (mapName cls id) []) = none) (g' : Grid V K) :
    load ty single cls id p d ≠ .ok g' := by
  have e : (if single then d (fullPath (mapName cls id) []) else none) = none := by
    cases single
    · rfl
    · exact hs rfl
  unfold load
  rw [e]
  exact loadBands_missing d cls id _ _ k hk hd g'

/-- C141: and so a grid of which the stream of a band is missing: all bands before it are read, then there is an exception -/
theorem C141_missing_stream (s : Streams V) (cls id : List Char) (ks1 ks2 : List String) (k : String) (g g1 : Grid V K)
    (h1 : loadStreams s cls id ks1 g = .ok g1) (hs : s (fullPath (mapName cls id) k.toList) = none) :
    loadStreams s cls id (ks1 ++ k :: ks2) g = .thrown g1 := by
  induction ks1 generalizing g with
  | nil =>
    cases h1
    rw [List.nil_append, loadStreams, hs]
  | cons a ks1 ih =>
    rw [List.cons_append, loadStreams]
    rw [loadStreams] at h1
    cases ha : s (fullPath (mapName cls id) a.toList) with
    | none => rw [ha] at h1; cases h1
    | some l =>
      rw [ha] at h1
      exact ih _ h1

end Missing

example : load (V := Nat) (K := ℚ) .float64 false "envire::Grid_d".toList "/7".toList ⟨1, 1, 1, 1, 0, 0, ["z"]⟩ (fun _ => none) ≠
    .ok (start .float64 ⟨1, 1, 1, 1, 0, 0, ["z"]⟩) :=
  C141_missing_file _ _ _ _ _ _ "z" (by simp) rfl (by simp) _

#print axioms C141_missing_file
#print axioms C141_missing_stream
#print axioms C141_files_partial
#print axioms C141_clash
#print axioms C141_empty
#print axioms C141_nodata_image
#print axioms C141_streams_partial
#print axioms C141_nodata_stream
#print axioms C142_bands
#print axioms C142_names_partial
#print axioms C142_clash

end Envire.GridSave
