import Verif.Maps.MapSetModel
import Mathlib.Data.List.ProdSigma
import Mathlib.Data.List.Nodup

/-!
Model of the operators MLSToGrid, GridFloatToMLS and MergeMLS (src/operators/MLSToGrid.cpp, GridFloatToMLS.cpp, MergeMLS.cpp).

Simplifications: real numbers for `double` and `float`; two nested loops over the cells are one loop over the product of their ranges. `MLSGrid::updateCell` is a parameter:
a function from the patches of a cell and a new patch to the patches afterwards (C31 and others are about it). Negative numbers that are
converted to `size_t` are outside of the grid. None of the inputs of MergeMLS is its output. All children of an
MLSMap are multi-level surface grids (asserted in l.32).
-/

namespace Envire.Convert

open Envire.MapSet Matrix

/-- scale, offset, size and pose in the root frame of a grid; GridBase.hpp -/
structure Geo where
  sx : ℝ
  sy : ℝ
  ox : ℝ
  oy : ℝ
  w : Nat
  h : Nat
  frame : Pose

/-- `toGrid`; GridBase.cpp l.392-414 -/
noncomputable def toGrid (g : Geo) (x y : ℝ) : Option (Nat × Nat) :=
  let a := ⌊(x - g.ox) / g.sx⌋
  let b := ⌊(y - g.oy) / g.sy⌋
  if 0 ≤ a ∧ a < g.w ∧ 0 ≤ b ∧ b < g.h then some (a.toNat, b.toNat) else none

/-- `fromGrid`; l.451-455 -/
noncomputable def fromGrid (g : Geo) (c : Nat × Nat) : ℝ × ℝ := ((c.1 + 0.5) * g.sx + g.ox, (c.2 + 0.5) * g.sy + g.oy)

/-- the patches of the cells (x, y) of a multi-level surface grid -/
abbrev Cells := Nat × Nat → List Patch

/-! ### MLSToGrid -/

open Classical in
/-- `std::max_element` of the patches of a cell -/
noncomputable def maxElement : List Patch → Option Patch
  | [] => none
  | p :: ps => some (ps.foldl (fun m q => if m.mean < q.mean then q else m) p)

inductive Outcome where
  | ok (data : Nat × Nat → ℝ)
  | exception
  /-- access outside of the array of the output -/
  | undefined

/-- one cell; MLSToGrid.cpp l.54-59 -/
noncomputable def copyCell (mls : Cells) (d : Nat × Nat → ℝ) (c : Nat × Nat) : Nat × Nat → ℝ :=
  match maxElement (mls c) with
  | none => d
  | some p => Function.update d c p.mean

open Classical in
/-- `updateAll`; l.34-64 -/
noncomputable def mlsToGrid (g : Geo) (mls : Cells) (out : Geo) (old : Nat × Nat → ℝ) : Outcome :=
  if g.w ≠ out.w ∧ g.h ≠ out.h then .exception
  else if g.sx ≠ out.sx ∧ g.sy ≠ out.sy then .exception
  else if ∃ c : Nat × Nat, c.1 < g.w ∧ c.2 < g.h ∧ mls c ≠ [] ∧ ¬ (c.1 < out.w ∧ c.2 < out.h) then .undefined
  else .ok ((List.range g.w ×ˢ List.range g.h).foldl (copyCell mls) old)

/-! ### GridFloatToMLS -/

/-- one cell; GridFloatToMLS.cpp l.62-72. `e` is (yi, xi). -/
noncomputable def convertCell (upd : List Patch → Patch → List Patch) (t : Pose) (grid : Geo) (data : Nat × Nat → ℝ) (mls : Geo) (o : Cells)
    (e : Nat × Nat) : Cells :=
  let y := mls.sy * e.1 + mls.oy
  let x := mls.sx * e.2 + mls.ox
  let p := t.apply ![x, y, 0]
  match toGrid grid (p 0) (p 1) with
  | none => o
  | some s => Function.update o (e.2, e.1) (upd (o (e.2, e.1)) ⟨data s, 0⟩)

/-- `convert`; l.49-75. `relativeTransform(grid, mls)` is the transform from the grid to the MLS. -/
noncomputable def convert (upd : List Patch → Patch → List Patch) (grid : Geo) (data : Nat × Nat → ℝ) (mls : Geo) (o : Cells) : Cells :=
  (List.range mls.h ×ˢ List.range mls.w).foldl (convertCell upd (rel grid.frame mls.frame) grid data mls) o

/-! ### MergeMLS -/

structure Input where
  geo : Geo
  cells : Cells

/-- one patch of the forward case; MergeMLS.cpp l.57-72 -/
noncomputable def put (upd : List Patch → Patch → List Patch) (out : Geo) (i : Input) (c : Nat × Nat) (o : Cells) (p : Patch) : Cells :=
  let v := (rel i.geo.frame out.frame).apply ![(fromGrid i.geo c).1, (fromGrid i.geo c).2, p.mean]
  match toGrid out (v 0) (v 1) with
  | none => o
  | some t => Function.update o t (upd (o t) { p with mean := v 2 })

/-- the forward case; l.45-76 -/
noncomputable def mergeForward (upd : List Patch → Patch → List Patch) (out : Geo) (inputs : List Input) (o : Cells) : Cells :=
  inputs.foldl (fun o i => (List.range i.geo.w ×ˢ List.range i.geo.h).foldl (fun o c => (i.cells c).foldl (put upd out i c) o) o) o

/-- one cell of the output in the reverse case; l.98-123 -/
noncomputable def pull (upd : List Patch → Patch → List Patch) (out : Geo) (inputs : List Input) (o : Cells) (c : Nat × Nat) : Cells :=
  inputs.foldl (fun o i =>
    let v := (rel out.frame i.geo.frame).apply ![(fromGrid out c).1, (fromGrid out c).2, 0]
    match toGrid i.geo (v 0) (v 1) with
    | none => o
    | some s => (i.cells s).foldl (fun o p => Function.update o c (upd (o c) { p with mean := p.mean + v 2 })) o) o

/-- the reverse case; l.84-125 -/
noncomputable def mergeReverse (upd : List Patch → Patch → List Patch) (out : Geo) (inputs : List Input) (o : Cells) : Cells :=
  (List.range out.w ×ˢ List.range out.h).foldl (pull upd out inputs) o

/-- the inputs of the operator: grids, maps with their children, or other layers -/
inductive InLayer where
  | grid (i : Input)
  | map (children : List Input)
  | other

/-- the loop that collects the grids; l.16-39. `none` is the exception. -/
def collect : List InLayer → List Input → Option (List Input)
  | [], grids => some grids
  | .grid i :: l, grids => collect l (grids ++ [i])
  | .map cs :: l, grids => collect l (grids ++ cs)
  | .other :: _, _ => none

/-- `updateAll`; l.8-129 -/
noncomputable def mergeMLS (upd : List Patch → Patch → List Patch) (reverse : Bool) (out : Geo) (inputs : List InLayer) (o : Cells) : Option Cells :=
  match collect inputs [] with
  | none => none
  | some grids => some (if reverse = false then mergeForward upd out grids o else mergeReverse upd out grids o)

end Envire.Convert
