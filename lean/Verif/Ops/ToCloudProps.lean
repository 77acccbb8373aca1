import Verif.Ops.ToCloudModel
import Verif.Ops.ElevationProps
import Verif.Maps.PlyProps

/-!
C116: the point cloud of a multi-level surface grid. C117: the point cloud of a distance grid.
-/

namespace Envire.ToCloud

open Envire.Patch Envire.Rect Envire.Elevation Envire.Query Envire.Ply

noncomputable section

/-! ### specification -/

/-- the transform keeps the direction of z -/
def Level (T : P3 → P3) : Prop := ∀ x y z, T (x, y, z) = ((T (x, y, 0)).1, (T (x, y, 0)).2.1, (T (x, y, 0)).2.2 + z)

/-- the heights of the surface of a patch -/
def OnPatch (p : Patch) (z : ℝ) : Prop := (p.kind = .horizontal ∧ z = p.mean) ∨ (p.kind = .vertical ∧ p.mean - p.height ≤ z ∧ z ≤ p.mean)

def InGrid (g : Geo) (c : Nat × Nat) : Prop := c.1 < g.w ∧ c.2 < g.h

/-- a point above the middle of a cell, in the frame of the grid -/
def Above (g : Geo) (c : Nat × Nat) (z : ℝ) : P3 := (g.ox + g.sx * c.1 + g.sx / 2, g.oy + g.sy * c.2 + g.sy / 2, z)

open Classical in
/-- the number of points for a patch -/
def Count (step : ℝ) (p : Patch) : Nat :=
  if p.kind = .horizontal then 1 else if p.kind = .vertical ∧ 0 ≤ p.height then ⌊p.height / step⌋₊ + 1 else 0

/-- no attributes that were made by ScanMeshing -/
def Clearable (c : PC) : Prop := ∀ l, c.attributes ≠ some (.ints l)

/-! ### lemmas -/

theorem clear_ok {c : PC} (h : Clearable c) : clear c = .ok { c with vertices := [], normals := c.normals.map fun _ => [], colors := c.colors.map fun _ => [], variance := c.variance.map fun _ => [], attributes := c.attributes.map fun _ => .flags [] } := by
  unfold clear
  split
  · rename_i l hl
    exact absurd hl (h l)
  · rfl

theorem mem_cellOrder {g : Geo} {c : Nat × Nat} : c ∈ cellOrder g ↔ InGrid g c := by
  obtain ⟨x, y⟩ := c
  simp [cellOrder, InGrid]

theorem middle_above (g : Geo) (c : Nat × Nat) : middle g c = Above g c 0 := by
  unfold middle Above
  ext <;> simp <;> ring

theorem steps_eq (vd max : ℝ) : ∀ (n m : Nat) (z : ℝ), m ≤ n → (∀ k < m, z + k * vd ≤ max) → (m < n → max < z + m * vd) → steps vd max n z = (List.range m).map fun k : Nat => z + (k : ℝ) * vd
  | 0, m, z, hm, _, _ => by
    obtain rfl : m = 0 := by omega
    rfl
  | n + 1, 0, z, _, _, h => by
    have h := h (by omega)
    simp at h
    simp [steps, h]
  | n + 1, m + 1, z, hm, h1, h2 => by
    have h0 := h1 0 (by omega)
    simp at h0
    rw [steps, if_pos h0, steps_eq vd max n m (z + vd) (by omega), List.range_succ_eq_map]
    · simp only [List.map_cons, List.map_map, Function.comp_def, Nat.cast_zero, zero_mul, add_zero, Nat.cast_succ]
      congr 1
      refine List.map_congr_left fun k _ => ?_
      ring
    · intro k hk
      have := h1 (k + 1) (by omega)
      push_cast at this
      linarith
    · intro hk
      have := h2 (by omega)
      push_cast at this
      linarith

theorem steps_all {vd : ℝ} (hv : 0 < vd) (mean : ℝ) {height : ℝ} (hh : 0 ≤ height) {n : Nat} (hn : ⌊height / vd⌋₊ + 1 ≤ n) :
    steps vd mean n (mean - height) = (List.range (⌊height / vd⌋₊ + 1)).map fun k : Nat => mean - height + (k : ℝ) * vd := by
  apply steps_eq vd mean n _ _ hn
  · intro k hk
    have h1 : (k : ℝ) ≤ height / vd := (Nat.le_floor_iff (by positivity)).1 (by omega)
    have := (le_div_iff₀ hv).1 h1
    linarith
  · intro _
    have := Nat.lt_floor_add_one (height / vd)
    have := (div_lt_iff₀ hv).1 this
    push_cast
    linarith

theorem steps_none {vd mean height : ℝ} (hh : height < 0) (n : Nat) : steps vd mean n (mean - height) = [] := by
  cases n with
  | zero => rfl
  | succ n => rw [steps, if_neg (by linarith)]

/-- the loop has ended after the turns of the model: more turns add nothing -/
theorem loop_ends {g : Geo} (hv : 0 < verticalDistance g) (p : Patch) (n : Nat) (hn : ⌊p.height / verticalDistance g⌋₊ + 1 ≤ n) :
    steps (verticalDistance g) p.mean n (p.mean - p.height) = steps (verticalDistance g) p.mean (⌊p.height / verticalDistance g⌋₊ + 1) (p.mean - p.height) := by
  rcases le_or_gt 0 p.height with h | h
  · rw [steps_all hv _ h hn, steps_all hv _ h le_rfl]
  · rw [steps_none h, steps_none h]

theorem verticalDistance_eq {g : Geo} (hx : 0 < g.sx) (hy : 0 < g.sy) : verticalDistance g = (g.sx + g.sy) / 2 := by
  unfold verticalDistance
  rw [if_neg (by linarith)]

theorem patch_points {g : Geo} (hx : 0 < g.sx) (hy : 0 < g.sy) {T : P3 → P3} (hT : Level T) (c : Nat × Nat) (p : Patch) :
    (∀ q ∈ patchPoints g T c p, ∃ z, OnPatch p z ∧ q = T (Above g c z)) ∧
    (∀ z, OnPatch p z → ∃ z', OnPatch p z' ∧ z - (g.sx + g.sy) / 2 < z' ∧ z' ≤ z ∧ T (Above g c z') ∈ patchPoints g T c p) ∧
    (patchPoints g T c p).length = Count ((g.sx + g.sy) / 2) p := by
  have hv : 0 < (g.sx + g.sy) / 2 := by linarith
  have e : ∀ z, T (Above g c z) = ((T (middle g c)).1, (T (middle g c)).2.1, (T (middle g c)).2.2 + z) := fun z => by
    rw [middle_above]; exact hT _ _ z
  unfold patchPoints Count OnPatch
  rw [verticalDistance_eq hx hy]
  cases hk : p.kind with
  | horizontal =>
    refine ⟨?_, ?_, by simp⟩
    · intro q hq
      simp only [List.mem_singleton] at hq
      exact ⟨p.mean, .inl ⟨rfl, rfl⟩, by rw [hq, e]⟩
    · rintro z (⟨-, rfl⟩ | ⟨h, -⟩)
      · exact ⟨p.mean, .inl ⟨rfl, rfl⟩, by linarith, le_rfl, by simp [e]⟩
      · cases h
  | negative => simp
  | vertical =>
    rcases lt_or_ge p.height 0 with hh | hh
    · have : ¬ 0 ≤ p.height := not_le.2 hh
      simp only [steps_none hh]
      refine ⟨by simp, ?_, by simp [this]⟩
      rintro z (⟨h, -⟩ | ⟨-, h1, h2⟩)
      · cases h
      · linarith
    · simp only [steps_all hv _ hh le_rfl]
      refine ⟨?_, ?_, by simp [hh]⟩
      · intro q hq
        simp only [List.map_map, List.mem_map, List.mem_range, Function.comp_apply] at hq
        obtain ⟨k, hk, rfl⟩ := hq
        have h1 : (k : ℝ) ≤ p.height / ((g.sx + g.sy) / 2) := (Nat.le_floor_iff (by positivity)).1 (by omega)
        have h2 := (le_div_iff₀ hv).1 h1
        exact ⟨p.mean - p.height + k * ((g.sx + g.sy) / 2), .inr ⟨by trivial, by nlinarith [Nat.cast_nonneg (α := ℝ) k], by linarith⟩, by rw [e]⟩
      · rintro z (⟨h, -⟩ | ⟨-, h1, h2⟩)
        · cases h
        · have h0 : 0 ≤ (z - (p.mean - p.height)) / ((g.sx + g.sy) / 2) := div_nonneg (by linarith) hv.le
          have a := (le_div_iff₀ hv).1 (Nat.floor_le h0)
          have b := (div_lt_iff₀ hv).1 (Nat.lt_floor_add_one ((z - (p.mean - p.height)) / ((g.sx + g.sy) / 2)))
          refine ⟨p.mean - p.height + ⌊(z - (p.mean - p.height)) / ((g.sx + g.sy) / 2)⌋₊ * ((g.sx + g.sy) / 2), .inr ⟨by trivial, ?_, by linarith⟩, by linarith, by linarith, ?_⟩
          · have : (0 : ℝ) ≤ ⌊(z - (p.mean - p.height)) / ((g.sx + g.sy) / 2)⌋₊ * ((g.sx + g.sy) / 2) := by positivity
            linarith
          · rw [e]
            simp only [List.map_map, List.mem_map, List.mem_range, Function.comp_apply]
            refine ⟨_, Nat.lt_succ_of_le (Nat.floor_le_floor ?_), rfl⟩
            gcongr
            linarith

/-! ### C116 -/

/-- C116: the points of the cloud are on the patches of the grid, each patch is covered from its bottom with a point in each step of the mean size of a cell, there are no other points, and what was in the cloud before is gone.
Missing: the top of a vertical patch (C116_top), transforms that tilt (C116_tilted), clouds in other frames than the root node (C116_frame), meshes (C116_undefined, C116_faces). -/
theorem C116_cloud_partial {inputs : List (Option MLSInput)} {outputs : List (Option PC)} {i : MLSInput} {c : PC} (hi : inputs.reduceOption = [i]) (ho : outputs.reduceOption = [c]) (hc : Clearable c)
    (hx : 0 < i.g.sx) (hy : 0 < i.g.sy) (hT : Level i.T) :
    ∃ r, mlsUpdateAll inputs outputs = .ok r ∧
      (∀ q ∈ r.vertices, ∃ x p z, InGrid i.g x ∧ p ∈ i.cells x ∧ OnPatch p z ∧ q = i.T (Above i.g x z)) ∧
      (∀ x p z, InGrid i.g x → p ∈ i.cells x → OnPatch p z → ∃ z', OnPatch p z' ∧ z - (i.g.sx + i.g.sy) / 2 < z' ∧ z' ≤ z ∧ i.T (Above i.g x z') ∈ r.vertices) ∧
      r.vertices.length = ∑ x ∈ Finset.range i.g.w, ∑ y ∈ Finset.range i.g.h, ((i.cells (x, y)).map (Count ((i.g.sx + i.g.sy) / 2))).sum ∧
      (∀ l, r.normals = some l → l = []) ∧ (∀ l, r.colors = some l → l = []) ∧ (∀ l, r.variance = some l → l = []) := by
  have P := fun x p => patch_points hx hy hT x p
  simp only [mlsUpdateAll, only, hi, ho, mlsToCloud, clear_ok hc]
  refine ⟨_, rfl, ?_, ?_, ?_, by simp, by simp, by simp⟩
  · intro q hq
    simp only [List.mem_flatMap] at hq
    obtain ⟨x, h1, p, h2, h3⟩ := hq
    obtain ⟨z, h4, h5⟩ := (P x p).1 q h3
    exact ⟨x, p, z, mem_cellOrder.1 h1, h2, h4, h5⟩
  · intro x p z h1 h2 h3
    obtain ⟨z', a, b, c, d⟩ := (P x p).2.1 z h3
    refine ⟨z', a, b, c, ?_⟩
    simp only [List.mem_flatMap]
    exact ⟨x, mem_cellOrder.2 h1, p, h2, d⟩
  · have s : ∀ (n : Nat) (f : Nat → Nat), ((List.range n).map f).sum = ∑ k ∈ Finset.range n, f k := fun n f => by
      induction n with
      | zero => rfl
      | succ n ih => simp [List.range_succ, Finset.sum_range_succ, ih]
    simp only [cellOrder, List.length_flatMap, List.flatMap_assoc, List.flatMap_map, s, fun x p => (P x p).2.2]

/-- C116: with no grid or cloud, or more than one, there is an exception -/
theorem C116_errors (inputs : List (Option MLSInput)) (outputs : List (Option PC)) (h : inputs.reduceOption.length ≠ 1 ∨ outputs.reduceOption.length ≠ 1) : mlsUpdateAll inputs outputs = .throws := by
  have o : ∀ {α : Type} (l : List (Option α)), l.reduceOption.length ≠ 1 → only l = none := by
    intro α l hl
    unfold only
    split
    · rename_i a ha
      rw [ha] at hl
      exact absurd rfl hl
    · rfl
  unfold mlsUpdateAll
  rcases h with h | h
  · rw [o _ h]
    cases only outputs <;> rfl
  · rw [o _ h]

/-- a patch for examples -/
def somePatch (k : Kind) (mean height : ℝ) : Patch := Patch.make mean 1 height k

def blank : PC := { vertices := [], normals := none, colors := none, variance := none, faces := none, attributes := none }

/-- a grid of one cell with one patch -/
def oneCell (T : P3 → P3) (p : Patch) : MLSInput := ⟨unitGrid 1 1, T, fun _ => [p]⟩

theorem unit_order : cellOrder (unitGrid 1 1) = [(0, 0)] := by
  simp [cellOrder, unitGrid]

theorem blank_clearable : Clearable blank := fun l => by simp [blank]

theorem unit_middle : middle (unitGrid 1 1) (0, 0) = (1 / 2, 1 / 2, 0) := by
  norm_num [middle, unitGrid]

theorem unit_distance : verticalDistance (unitGrid 1 1) = 1 := by
  rw [verticalDistance_eq (by norm_num [unitGrid]) (by norm_num [unitGrid])]
  norm_num [unitGrid]

theorem run_one (i : MLSInput) (c : PC) : mlsUpdateAll [some i] [some c] = mlsToCloud i.g i.T i.cells c := rfl

theorem one_cell (T : P3 → P3) (p : Patch) : mlsUpdateAll [some (oneCell T p)] [some blank] = .ok { blank with vertices := patchPoints (unitGrid 1 1) T (0, 0) p } := by
  simp only [run_one, mlsToCloud, clear_ok blank_clearable, oneCell, unit_order]
  simp [blank]

/-- an example of C116_cloud_partial: a vertical patch from 0 to 2, moved by 5 upwards -/
example : mlsUpdateAll [none, some (oneCell (fun p => (p.1, p.2.1, p.2.2 + 5)) (somePatch .vertical 2 2))] [some blank] = .ok { blank with vertices := [(1 / 2, 1 / 2, 5), (1 / 2, 1 / 2, 6), (1 / 2, 1 / 2, 7)] } := by
  refine (one_cell (fun p => (p.1, p.2.1, p.2.2 + 5)) (somePatch .vertical 2 2)).trans ?_
  have s := steps_all (vd := 1) one_pos 2 (height := 2) (by norm_num) (n := ⌊(2 : ℝ) / 1⌋₊ + 1) le_rfl
  have f : ⌊(2 : ℝ) / 1⌋₊ = 2 := by norm_num
  rw [f] at s
  simp only [patchPoints, somePatch, Patch.make, unit_distance, unit_middle, f, s]
  norm_num [List.range_succ]

example : Level fun p => (p.1, p.2.1, p.2.2 + 5) := fun x y z => by simp [add_comm]

/-- Violation: a vertical patch from 0 to 3/2 has points at 0 and 1, none at its top. -/
theorem C116_top : ∃ r, mlsUpdateAll [some (oneCell id (somePatch .vertical (3 / 2) (3 / 2)))] [some blank] = .ok r ∧ r.vertices = [(1 / 2, 1 / 2, 0), (1 / 2, 1 / 2, 1)] ∧
    OnPatch (somePatch .vertical (3 / 2) (3 / 2)) (3 / 2) := by
  have s := steps_all (vd := 1) one_pos (3 / 2) (height := 3 / 2) (by norm_num) (n := ⌊(3 / 2 : ℝ) / 1⌋₊ + 1) le_rfl
  have f : ⌊(3 / 2 : ℝ) / 1⌋₊ = 1 := by rw [Nat.floor_eq_iff (by norm_num)]; norm_num
  rw [f] at s
  refine ⟨_, one_cell _ _, ?_, .inr ⟨rfl, ?_, ?_⟩⟩
  · simp only [patchPoints, somePatch, Patch.make, unit_distance, unit_middle, f, s, id]
    norm_num [List.range_succ]
  · norm_num [somePatch, Patch.make]
  · norm_num [somePatch, Patch.make]

/-- Violation: if the frame of the grid is turned by a quarter around x, then the height of the patch is still added along z of the root node: the point of the patch is at (1/2, -1, 1/2), the one in the cloud at (1/2, 0, 3/2). -/
theorem C116_tilted : ∃ r, mlsUpdateAll [some (oneCell (fun p => (p.1, -p.2.2, p.2.1)) (somePatch .horizontal 1 0))] [some blank] = .ok r ∧ r.vertices = [(1 / 2, 0, 3 / 2)] ∧
    (fun p : P3 => ((p.1, -p.2.2, p.2.1) : P3)) (Above (unitGrid 1 1) (0, 0) 1) = (1 / 2, -1, 1 / 2) := by
  refine ⟨_, one_cell _ _, ?_, ?_⟩
  · simp only [patchPoints, somePatch, Patch.make, unit_middle]
    norm_num
  · norm_num [Above, unitGrid]

/-- Violation: the points are those of the root node, whatever the frame of the cloud. If that is moved by one along x, the point of the cloud is not at the place of the patch. -/
theorem C116_frame : ∃ r, mlsUpdateAll [some (oneCell id (somePatch .horizontal 0 0))] [some blank] = .ok r ∧
    ∀ q ∈ r.vertices, (fun p : P3 => ((p.1 + 1, p.2) : P3)) q ≠ Above (unitGrid 1 1) (0, 0) 0 := by
  refine ⟨_, one_cell _ _, ?_⟩
  simp only [patchPoints, somePatch, Patch.make, unit_middle, id]
  norm_num [Above, unitGrid]

/-- Violation: a mesh that was made by ScanMeshing cannot be cleared. -/
theorem C116_undefined (i : MLSInput) (c : PC) (l : List Nat) (hc : c.attributes = some (.ints l)) : mlsUpdateAll [some i] [some c] = .undefined := by
  simp only [run_one, mlsToCloud, clear, hc]

/-- Violation: the faces of a mesh are kept, though its points are gone. -/
theorem C116_faces (i : MLSInput) (c : PC) (hc : Clearable c) : ∃ r, mlsUpdateAll [some i] [some c] = .ok r ∧ r.faces = c.faces := by
  simp only [run_one, mlsToCloud, clear_ok hc]
  exact ⟨_, rfl, rfl⟩

/-- Violation: of a cloud that had normals or colors the (empty) data is kept, so that the new cloud, if it is not empty, cannot be written as a PLY file. -/
theorem C116_save (k : Codec) (double : Bool) (T : P3 → P3) (z : ℝ) (c : PC) (hc : Clearable c) (h : c.normals.isSome = true ∨ c.colors.isSome = true) :
    ∃ r, mlsUpdateAll [some (oneCell T (somePatch .horizontal z 0))] [some c] = .ok r ∧ serialize k r.toCloud double = .throws := by
  simp only [run_one, mlsToCloud, clear_ok hc, oneCell, unit_order]
  refine ⟨_, rfl, C115_sizes k double _ ?_⟩
  rcases h with h | h
  · obtain ⟨l, hl⟩ := Option.isSome_iff_exists.1 h
    exact .inl ⟨[], by simp [hl], by simp [patchPoints, somePatch, Patch.make]⟩
  · obtain ⟨l, hl⟩ := Option.isSome_iff_exists.1 h
    exact .inr ⟨[], by simp [hl], by simp [patchPoints, somePatch, Patch.make]⟩

/-! ### C117 -/

/-- the distance d was measured in a cell, and is below the limit: a positive normal `float` -/
def Measured (g : Geo) (dist : Nat × Nat → Option ℝ) (limit : ℝ) (x : Nat × Nat) (d : ℝ) : Prop := InGrid g x ∧ dist x = some d ∧ 1 / 2 ^ 126 ≤ d ∧ d < limit

/-- the point at depth d on the ray through the middle of a cell on the plane z = 1 -/
def OnRay (g : Geo) (x : Nat × Nat) (d : ℝ) : P3 := (d * (g.ox + g.sx * x.1 + g.sx / 2), d * (g.oy + g.sy * x.2 + g.sy / 2), d)

/-- the order of the points: by column, then by row -/
def Before (x y : Nat × Nat) : Prop := x.1 < y.1 ∨ (x.1 = y.1 ∧ x.2 < y.2)

def used (dist : Nat × Nat → Option ℝ) (limit : ℝ) (l : List (Nat × Nat)) : List ((Nat × Nat) × ℝ) := l.filterMap fun x => (usable limit (dist x)).map fun d => (x, d)

def colorOf (i : Image) (x : Nat × Nat) : P3 := ((i.rgb x).1 / 255, (i.rgb x).2.1 / 255, (i.rgb x).2.2 / 255)

theorem scale_ray (g : Geo) (x : Nat × Nat) (d : ℝ) : scaleV d ((middle g x).1, (middle g x).2.1, 1) = OnRay g x d := by
  rw [middle_above]
  simp [scaleV, Above, OnRay]

theorem scale_color (i : Image) (x : Nat × Nat) : scaleV (1 / 255) (i.rgb x) = colorOf i x := by
  simp [scaleV, colorOf, div_eq_inv_mul]

theorem usable_some {limit : ℝ} {o : Option ℝ} {d : ℝ} : usable limit o = some d ↔ o = some d ∧ 1 / 2 ^ 126 ≤ |d| ∧ d < limit := by
  unfold usable
  rw [Option.filter_eq_some_iff]
  simp

theorem order_sorted (g : Geo) : (cellOrder g).Pairwise Before := by
  unfold cellOrder
  rw [List.pairwise_flatMap]
  refine ⟨fun x _ => ?_, ?_⟩
  · rw [List.pairwise_map]
    exact List.pairwise_lt_range.imp fun h => .inr ⟨rfl, h⟩
  · refine List.pairwise_lt_range.imp fun {a b} h p hp q hq => ?_
    simp only [List.mem_map] at hp hq
    obtain ⟨_, _, rfl⟩ := hp
    obtain ⟨_, _, rfl⟩ := hq
    exact .inl h

theorem add_none (g : Geo) (T : P3 → P3) (f limit : ℝ) (dist : Nat × Nat → Option ℝ) : ∀ (l : List (Nat × Nat)) (c : PC) (v : List ℝ), c.variance = some v →
    addCells g T f limit dist none l c = some { c with vertices := c.vertices ++ (used dist limit l).map (fun u => T (OnRay g u.1 u.2)), variance := some (v ++ (used dist limit l).map fun u => u.2 * f) }
  | [], c, v, hv => by
    obtain ⟨⟨_, _, _, _, _⟩, _⟩ := c
    simp_all [addCells, used]
  | x :: l, c, v, hv => by
    rw [addCells]
    cases hu : usable limit (dist x) with
    | none =>
      have : used dist limit (x :: l) = used dist limit l := by simp [used, hu]
      rw [this]
      exact add_none g T f limit dist l c v hv
    | some d =>
      have : used dist limit (x :: l) = (x, d) :: used dist limit l := by simp [used, hu]
      rw [this]
      simp only [addCell, Option.bind_some]
      rw [add_none g T f limit dist l _ (v ++ [d * f]) (by simp [hv])]
      simp [scale_ray]

theorem add_image (g : Geo) (T : P3 → P3) (f limit : ℝ) (dist : Nat × Nat → Option ℝ) (i : Image) : ∀ (l : List (Nat × Nat)) (c : PC) (v : List ℝ) (w : List V3), (∀ x ∈ l, x.1 < i.w ∧ x.2 < i.h) → c.variance = some v → c.colors = some w →
    addCells g T f limit dist (some i) l c = some { c with vertices := c.vertices ++ (used dist limit l).map (fun u => T (OnRay g u.1 u.2)), variance := some (v ++ (used dist limit l).map fun u => u.2 * f), colors := some (w ++ (used dist limit l).map fun u => colorOf i u.1) }
  | [], c, v, w, _, hv, hw => by
    obtain ⟨⟨_, _, _, _, _⟩, _⟩ := c
    simp_all [addCells, used]
  | x :: l, c, v, w, hi, hv, hw => by
    rw [addCells]
    cases hu : usable limit (dist x) with
    | none =>
      have : used dist limit (x :: l) = used dist limit l := by simp [used, hu]
      rw [this]
      exact add_image g T f limit dist i l c v w (fun y hy => hi y (List.mem_cons_of_mem _ hy)) hv hw
    | some d =>
      have : used dist limit (x :: l) = (x, d) :: used dist limit l := by simp [used, hu]
      rw [this]
      simp only [addCell]
      rw [if_pos (hi x List.mem_cons_self)]
      simp only [Option.bind_some]
      rw [add_image g T f limit dist i l _ (v ++ [d * f]) (w ++ [colorOf i x]) (fun y hy => hi y (List.mem_cons_of_mem _ hy)) (by simp [hv]) (by rw [scale_color, hw]; rfl)]
      simp [scale_ray]

theorem used_spec (g : Geo) (dist : Nat × Nat → Option ℝ) (limit : ℝ) (hd : ∀ x d, InGrid g x → dist x = some d → 0 ≤ d) :
    (∀ x d, (x, d) ∈ used dist limit (cellOrder g) ↔ Measured g dist limit x d) ∧ (used dist limit (cellOrder g)).Pairwise fun a b => Before a.1 b.1 := by
  constructor
  · intro x d
    simp only [used, List.mem_filterMap, Option.map_eq_some_iff, Prod.mk.injEq, Measured]
    constructor
    · rintro ⟨y, h1, e, h2, rfl, rfl⟩
      obtain ⟨a, b, c⟩ := usable_some.1 h2
      rw [mem_cellOrder] at h1
      rw [abs_of_nonneg (hd _ _ h1 a)] at b
      exact ⟨h1, a, b, c⟩
    · rintro ⟨h1, a, b, c⟩
      exact ⟨x, mem_cellOrder.2 h1, d, usable_some.2 ⟨a, by rwa [abs_of_nonneg (hd _ _ h1 a)], c⟩, rfl, rfl⟩
  · refine (order_sorted g).filterMap _ ?_
    intro a a' h b hb b' hb'
    simp only [Option.map_eq_some_iff] at hb hb'
    obtain ⟨_, _, rfl⟩ := hb
    obtain ⟨_, _, rfl⟩ := hb'
    exact h

/-- C117: the cloud has exactly one point for each cell with a distance below the limit, on the ray of the cell at this distance, in the frame of the cloud, with a variance in proportion to the distance and, with an image, its color.
Missing: negative distances (C117_negative), images smaller than the grid (C117_image), no distance grid (C117_no_grid), meshes of ScanMeshing (C117_undefined). -/
theorem C117_cloud_partial (g : Geo) (dist : Nat × Nat → Option ℝ) (T : P3 → P3) (f limit : ℝ) (image : Option Image) (c : PC) (hc : Clearable c) (hd : ∀ x d, InGrid g x → dist x = some d → 0 ≤ d)
    (hi : ∀ i, image = some i → g.w ≤ i.w ∧ g.h ≤ i.h) :
    ∃ r, ∃ u : List ((Nat × Nat) × ℝ), distanceToCloud (some (g, dist)) T f limit image c = .ok r ∧ (∀ x d, (x, d) ∈ u ↔ Measured g dist limit x d) ∧ (u.Pairwise fun a b => Before a.1 b.1) ∧
      r.vertices = u.map (fun a => T (OnRay g a.1 a.2)) ∧ r.variance = some (u.map fun a => a.2 * f) ∧ (∀ i, image = some i → r.colors = some (u.map fun a => colorOf i a.1)) ∧
      (image = none → ∀ l, r.colors = some l → l = []) ∧ (∀ l, r.normals = some l → l = []) := by
  obtain ⟨h1, h2⟩ := used_spec g dist limit hd
  unfold distanceToCloud
  cases image with
  | none =>
    simp only [Option.isSome_none]
    rw [clear_ok (by exact hc)]
    simp only [Option.map_some]
    rw [add_none g T f limit dist _ _ [] rfl]
    exact ⟨_, _, rfl, h1, h2, by simp, by simp, by simp, by simp, by simp⟩
  | some i =>
    obtain ⟨hw, hh⟩ := hi i rfl
    simp only [Option.isSome_some, if_true]
    rw [clear_ok (by exact hc)]
    simp only [Option.map_some]
    rw [add_image g T f limit dist i _ _ [] [] (fun x hx => ⟨lt_of_lt_of_le (mem_cellOrder.1 hx).1 hw, lt_of_lt_of_le (mem_cellOrder.1 hx).2 hh⟩) rfl rfl]
    exact ⟨_, _, rfl, h1, h2, by simp, by simp, by simp, by simp, by simp⟩

/-- an example of C117_cloud_partial: two cells, one of them without a measurement -/
def twoCells (d : ℝ) : Nat × Nat → Option ℝ := fun x => if x = (0, 0) then some d else none

theorem two_order : cellOrder (unitGrid 2 1) = [(0, 0), (1, 0)] := by
  simp [cellOrder, unitGrid, List.range_succ]

theorem two_used {d limit : ℝ} (h1 : 1 / 2 ^ 126 ≤ |d|) (h2 : d < limit) : used (twoCells d) limit (cellOrder (unitGrid 2 1)) = [((0, 0), d)] := by
  have a : usable limit (some d) = some d := usable_some.2 ⟨rfl, h1, h2⟩
  have b : usable limit none = none := rfl
  simp [two_order, used, twoCells, a, b]

theorem two_run {d limit : ℝ} (h1 : 1 / 2 ^ 126 ≤ |d|) (h2 : d < limit) (T : P3 → P3) (f : ℝ) {c : PC} (hc : Clearable c) :
    distanceToCloud (some (unitGrid 2 1, twoCells d)) T f limit none c =
      .ok { c with vertices := [T (OnRay (unitGrid 2 1) (0, 0) d)], variance := some [d * f], colors := c.colors.map fun _ => [], normals := c.normals.map fun _ => [], attributes := c.attributes.map fun _ => .flags [] } := by
  unfold distanceToCloud
  simp only [Option.isSome_none]
  rw [clear_ok (by exact hc)]
  simp only [Option.map_some]
  rw [add_none _ T f limit _ _ _ [] rfl, two_used h1 h2]
  simp

example : distanceToCloud (some (unitGrid 2 1, twoCells 4)) id (1 / 10) 10 none blank = .ok { blank with vertices := [(2, 2, 4)], variance := some [4 * (1 / 10)] } := by
  rw [two_run (by rw [abs_of_pos] <;> norm_num) (by norm_num) id _ blank_clearable]
  norm_num [blank, OnRay, unitGrid]

/-- C117: a distance at or above the limit gives no point -/
theorem C117_limit {g : Geo} {dist : Nat × Nat → Option ℝ} {T : P3 → P3} {f limit : ℝ} {c : PC} (hc : Clearable c) (hd : ∀ x d, InGrid g x → dist x = some d → limit ≤ d) :
    ∃ r, distanceToCloud (some (g, dist)) T f limit none c = .ok r ∧ r.vertices = [] ∧ r.variance = some [] := by
  have hu : used dist limit (cellOrder g) = [] := by
    rw [List.eq_nil_iff_forall_not_mem]
    rintro ⟨x, d⟩ h
    simp only [used, List.mem_filterMap, Option.map_eq_some_iff, Prod.mk.injEq] at h
    obtain ⟨y, h1, e, h2, rfl, rfl⟩ := h
    obtain ⟨a, _, b⟩ := usable_some.1 h2
    exact absurd (hd _ _ (mem_cellOrder.1 h1) a) (not_le.2 b)
  unfold distanceToCloud
  simp only [Option.isSome_none]
  rw [clear_ok (by exact hc)]
  simp only [Option.map_some]
  rw [add_none g T f limit dist _ _ [] rfl, hu]
  exact ⟨_, rfl, by simp, by simp⟩

/-- Violation: a negative distance is no measurement, but gives a point behind the sensor, with a negative variance. -/
theorem C117_negative : ∃ r, distanceToCloud (some (unitGrid 2 1, twoCells (-4))) id (1 / 10) 10 none blank = .ok r ∧ r.vertices = [(-2, -2, -4)] ∧ ∃ v, r.variance = some [v] ∧ v < 0 := by
  refine ⟨_, two_run (by rw [abs_of_neg] <;> norm_num) (by norm_num) id _ blank_clearable, ?_, _, rfl, by norm_num⟩
  norm_num [OnRay, unitGrid]

/-- Violation: the size of the image is not compared with that of the grid. -/
theorem C117_image (T : P3 → P3) (f : ℝ) (rgb : Nat × Nat → ℝ × ℝ × ℝ) : distanceToCloud (some (unitGrid 2 1, twoCells 4)) T f 10 (some ⟨0, 0, rgb⟩) blank = .undefined := by
  have a : usable 10 (twoCells 4 (0, 0)) = some 4 := usable_some.2 ⟨by simp [twoCells], by rw [abs_of_pos] <;> norm_num, by norm_num⟩
  unfold distanceToCloud
  simp only [Option.isSome_some, if_true]
  rw [clear_ok (by exact blank_clearable)]
  simp only [two_order, addCells, a, addCell]
  simp

/-- Violation: without a distance grid NULL is dereferenced. -/
theorem C117_no_grid (T : P3 → P3) (f limit : ℝ) (image : Option Image) (c : PC) : distanceToCloud none T f limit image c = .undefined := rfl

/-- Violation: a mesh that was made by ScanMeshing cannot be cleared. -/
theorem C117_undefined (g : Geo) (dist : Nat × Nat → Option ℝ) (T : P3 → P3) (f limit : ℝ) (image : Option Image) (c : PC) (l : List Nat) (hc : c.attributes = some (.ints l)) : distanceToCloud (some (g, dist)) T f limit image c = .undefined := by
  simp only [distanceToCloud, clear, hc]

/-- Violation: without an image, a cloud that had colors (or normals) cannot be written as a PLY file any more. -/
theorem C117_save (k : Codec) (double : Bool) (c : PC) (hc : Clearable c) (h : c.normals.isSome = true ∨ c.colors.isSome = true) :
    ∃ r, distanceToCloud (some (unitGrid 2 1, twoCells 4)) id (1 / 10) 10 none c = .ok r ∧ serialize k r.toCloud double = .throws := by
  refine ⟨_, two_run (by rw [abs_of_pos] <;> norm_num) (by norm_num) id _ hc, C115_sizes k double _ ?_⟩
  rcases h with h | h
  · obtain ⟨l, hl⟩ := Option.isSome_iff_exists.1 h
    exact .inl ⟨[], by simp [hl], by simp⟩
  · obtain ⟨l, hl⟩ := Option.isSome_iff_exists.1 h
    exact .inr ⟨[], by simp [hl], by simp⟩

end

end Envire.ToCloud

#print axioms Envire.ToCloud.C116_cloud_partial
#print axioms Envire.ToCloud.C116_errors
#print axioms Envire.ToCloud.C116_top
#print axioms Envire.ToCloud.C116_tilted
#print axioms Envire.ToCloud.C116_frame
#print axioms Envire.ToCloud.C116_undefined
#print axioms Envire.ToCloud.C116_faces
#print axioms Envire.ToCloud.C116_save
#print axioms Envire.ToCloud.C117_cloud_partial
#print axioms Envire.ToCloud.C117_negative
#print axioms Envire.ToCloud.C117_image
#print axioms Envire.ToCloud.C117_no_grid
#print axioms Envire.ToCloud.C117_undefined
#print axioms Envire.ToCloud.C117_limit
#print axioms Envire.ToCloud.C117_save
