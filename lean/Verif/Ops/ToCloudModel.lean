import Verif.Maps.QueryModel
import Verif.Maps.PlyModel

/-!
Model of the operators that make point clouds of grids: src/operators/MLSToPointCloud.cpp l.29-74, src/operators/DistanceGridToPointcloud.cpp l.12-99, and of Pointcloud::clear, src/maps/Pointcloud.hpp l.55-62.

Simplifications: real numbers for `float` and `double`; a transform is a function of points; that points are not transformed if the transform is nearly the identity (isApprox) is left out. A distance that is NaN or infinite is `none`. That in `float` adding the step to a large height may change nothing (a loop without end) is left out.
The layers of an operator are lists with `none` for layers of other types.
-/

namespace Envire.ToCloud

open Envire.Patch Envire.Rect Envire.Elevation Envire.Query Envire.Ply

/-- Environment::getInput and getOutput, src/core/Environment.hpp l.186-240: the only layer of the type, `none` for an exception -/
def only {α : Type} (l : List (Option α)) : Option α :=
  match l.reduceOption with
  | [a] => some a
  | _ => none

/-- the data of VERTEX_ATTRIBUTES: a vector of `attr_flag`, or of `vertex_attr`, which is `int` (as in src/operators/ScanMeshing.cpp l.124) -/
inductive Attributes where
  | flags (l : List Nat)
  | ints (l : List Nat)

structure PC extends Ply.Cloud where
  attributes : Option Attributes

/-- Pointcloud::clear, Pointcloud.hpp l.55-62. With data of another type `get` dereferences NULL, see src/core/Holder.hpp l.65-68, src/core/Layer.hpp l.139-161. -/
def clear (c : PC) : Ply.Res PC :=
  match c.attributes with
  | some (.ints _) => .undefined
  | _ => .ok { c with vertices := [], normals := c.normals.map fun _ => [], colors := c.colors.map fun _ => [], variance := c.variance.map fun _ => [], attributes := c.attributes.map fun _ => .flags [] }

noncomputable section

/-- the middle of a cell, GridBase.cpp l.451-455 -/
def middle (g : Geo) (c : Nat × Nat) : P3 := ((c.1 + 1 / 2) * g.sx + g.ox, (c.2 + 1 / 2) * g.sy + g.oy, 0)

/-- the order of the loops over the cells -/
def cellOrder (g : Geo) : List (Nat × Nat) := (List.range g.w).flatMap fun x => (List.range g.h).map fun y => (x, y)

/-! ### MLSToPointCloud -/

open Classical in
/-- l.37-39 -/
def verticalDistance (g : Geo) : ℝ := if (g.sx + g.sy) / 2 ≤ 0 then 1 / 10 else (g.sx + g.sy) / 2

open Classical in
/-- the loop of l.62-66, up to n turns -/
def steps (vd max : ℝ) : Nat → ℝ → List ℝ
  | 0, _ => []
  | n + 1, z => if z ≤ max then z :: steps vd max n (z + vd) else []

/-- the points of a patch, l.49-67; T is the transform to the root node -/
def patchPoints (g : Geo) (T : P3 → P3) (c : Nat × Nat) (p : Patch) : List P3 :=
  let q := T (middle g c)
  match p.kind with
  | .horizontal => [(q.1, q.2.1, q.2.2 + p.mean)]
  | .vertical => (steps (verticalDistance g) p.mean (⌊p.height / verticalDistance g⌋₊ + 1) (p.mean - p.height)).map fun z => (q.1, q.2.1, q.2.2 + z)
  | .negative => []

/-- l.35-74 -/
def mlsToCloud (g : Geo) (T : P3 → P3) (cells : Nat × Nat → List Patch) (c : PC) : Ply.Res PC :=
  match clear c with
  | .ok c => .ok { c with vertices := (cellOrder g).flatMap fun x => (cells x).flatMap (patchPoints g T x) }
  | .throws => .throws
  | .undefined => .undefined

/-- an MLSGrid as an input -/
structure MLSInput where
  g : Geo
  T : P3 → P3
  cells : Nat × Nat → List Patch

/-- updateAll l.29-74 -/
def mlsUpdateAll (inputs : List (Option MLSInput)) (outputs : List (Option PC)) : Ply.Res PC :=
  match only outputs, only inputs with
  | some c, some i => mlsToCloud i.g i.T i.cells c
  | _, _ => .throws

/-! ### DistanceGridToPointcloud -/

/-- an image with values from 0 to 255 -/
structure Image where
  w : Nat
  h : Nat
  rgb : Nat × Nat → ℝ × ℝ × ℝ

open Classical in
/-- isnormal and the limit, l.65-66: the distance that is used -/
def usable (maxDistance : ℝ) (d : Option ℝ) : Option ℝ := d.filter fun d => decide (1 / 2 ^ 126 ≤ |d| ∧ d < maxDistance)

def scaleV (d : ℝ) (p : P3) : P3 := (d * p.1, d * p.2.1, d * p.2.2)

/-- what is added for a cell, l.68-92: point, variance and color -/
def addCell (g : Geo) (T : P3 → P3) (factor : ℝ) (image : Option Image) (x : Nat × Nat) (d : ℝ) (c : PC) : Option PC :=
  let m := middle g x
  let c1 := { c with vertices := c.vertices ++ [T (scaleV d (m.1, m.2.1, 1))], variance := some (c.variance.getD [] ++ [d * factor]) }
  match image with
  | none => some c1
  | some i =>
    if x.1 < i.w ∧ x.2 < i.h then some { c1 with colors := some (c.colors.getD [] ++ [scaleV (1 / 255) (i.rgb x)]) }
    else none

/-- the loop, l.60-95 -/
def addCells (g : Geo) (T : P3 → P3) (factor maxDistance : ℝ) (dist : Nat × Nat → Option ℝ) (image : Option Image) : List (Nat × Nat) → PC → Option PC
  | [], c => some c
  | x :: l, c =>
    match usable maxDistance (dist x) with
    | none => addCells g T factor maxDistance dist image l c
    | some d => (addCell g T factor image x d c).bind (addCells g T factor maxDistance dist image l)

/-- updateAll l.12-99; the last inputs of each type. Without a distance grid NULL is dereferenced. -/
def distanceToCloud (grid : Option (Geo × (Nat × Nat → Option ℝ))) (T : P3 → P3) (factor maxDistance : ℝ) (image : Option Image) (c : PC) : Ply.Res PC :=
  match grid with
  | none => .undefined
  | some (g, dist) =>
    match clear { c with variance := some (c.variance.getD []), colors := if image.isSome then some (c.colors.getD []) else c.colors } with
    | .ok c =>
      match addCells g T factor maxDistance dist image (cellOrder g) c with
      | some c => .ok c
      | none => .undefined
    | .throws => .throws
    | .undefined => .undefined

end

end Envire.ToCloud
