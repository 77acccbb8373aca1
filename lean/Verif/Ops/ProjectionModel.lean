import Verif.Grid.MLSModel
import Verif.Ops.ElevationModel
import Verif.Tools.BresenhamModel

/-!
Model of src/operators/MLSProjection.cpp l.54-236: point clouds are projected into a multi-level surface grid.

Simplifications: real numbers for `float` and `double` (a patch with deviation 0 has infinite weight in the code, weight 0 here); no colors; of the update models SLOPE is not modelled. `m` is MLSGrid::mergePatch, any function, as in
Verif/Grid/MLSModel. An input is a point cloud with its transform to the frame of the grid, and the variance of the height that the uncertainty of this transform gives to a point (both are arbitrary functions).
The temporary grid has the geometry and the configuration of the target, so that `m` is the same for both.
-/

namespace Envire.Projection

open Envire.MLS Envire.Patch Envire.Rect Envire.Elevation

abbrev Merge : Type := Patch → Patch → Bool × Patch × Patch
abbrev Grid : Type := MLS Patch

structure Input where
  points : List P3
  variance : Option (List ℝ)
  origin : P3
  /-- C_m2g -/
  T : P3 → P3
  /-- the entry (2,2) of the covariance for a point in the frame of the grid, l.101-111 -/
  cov : P3 → ℝ

structure Config where
  withUncertainty : Bool
  negative : Bool
  default : ℝ
  /-- the area of interest, smallest and largest coordinates -/
  area : Option (P3 × P3)

noncomputable section

/-- the points with their variances, l.187-191 -/
def Input.samples (i : Input) (default : ℝ) : List (P3 × ℝ) :=
  if i.points.length = (i.variance.getD []).length then i.points.zip (i.variance.getD []) else i.points.map fun p => (p, default)

open Classical in
/-- l.196; AlignedBox::contains -/
def inArea (area : Option (P3 × P3)) (p : P3) : Bool :=
  match area with
  | none => true
  | some (a, b) => decide (a.1 ≤ p.1 ∧ p.1 ≤ b.1 ∧ a.2.1 ≤ p.2.1 ∧ p.2.1 ≤ b.2.1 ∧ a.2.2 ≤ p.2.2 ∧ p.2.2 ≤ b.2.2)

/-- a point in the frame of the grid, l.196-206 with MLSGrid::update, src/maps/MLSGrid.cpp l.523-542 -/
def addSample (m : Merge) (geo : Geo) (area : Option (P3 × P3)) (g : Grid) (s : P3 × ℝ) : Option Grid :=
  if inArea area s.1 then
    match toGrid geo s.1.1 s.1.2.1 with
    | some c => g.updateCell m c.1 c.2 (Patch.make s.1.2.2 (Real.sqrt s.2))
    | none => some g
  else some g

/-- projectPointcloud l.174-208; `none` would be an access outside of the grid -/
def projectCloud (m : Merge) (geo : Geo) (k : Config) (i : Input) (g : Grid) : Option Grid :=
  ((i.samples k.default).map fun s => (i.T s.1, s.2)).foldlM (addSample m geo k.area) g

/-- the middle of a cell, src/maps/GridBase.cpp l.451-455 -/
def centre (geo : Geo) (c : Nat × Nat) (z : ℝ) : P3 := ((c.1 + 1 / 2) * geo.sx + geo.ox, (c.2 + 1 / 2) * geo.sy + geo.oy, z)

/-- l.101-111 -/
def smear (geo : Geo) (k : Config) (i : Input) (c : Nat × Nat) (p : Patch) : Patch :=
  if k.withUncertainty then { p with stdev := Real.sqrt (p.stdev * p.stdev + i.cov (centre geo c p.mean)) } else p

/-! ### negative information -/

/-- l.128-140 -/
def rise (geo : Geo) (origin : Nat × Nat) (originZ : ℝ) (c : Nat × Nat) (p : Patch) : ℝ :=
  let a := centre geo origin 0
  let b := centre geo c 0
  let dist := Real.sqrt ((a.1 - b.1) ^ 2 + (a.2.1 - b.2.1) ^ 2)
  let z := originZ - p.mean
  if dist * z ≠ 0 then geo.sx / dist * z else 0

/-- l.145-155 -/
def factor (origin c : Nat × Nat) (q : Int × Int) : ℝ :=
  let xdiff : Int := c.1 - origin.1
  let ydiff : Int := c.2 - origin.2
  if |xdiff| ≥ |ydiff| ∧ xdiff ≠ 0 then (q.1 - origin.1 : Int) / (xdiff : ℝ)
  else if ydiff ≠ 0 then (q.2 - origin.2 : Int) / (ydiff : ℝ)
  else 1

/-- the patch for a cell of the line, l.157-161 -/
def negativePatch (geo : Geo) (origin : Nat × Nat) (originZ : ℝ) (c : Nat × Nat) (p : Patch) (f : ℝ) : Patch :=
  let h := rise geo origin originZ c p
  Patch.make (p.mean + h * f + (originZ - p.mean) * (1 - f)) (p.stdev * f) |(p.height + h) * f| .negative

/-- the cells of the line and their patches, l.142-168 -/
def negatives (geo : Geo) (origin : Nat × Nat) (originZ : ℝ) (c : Nat × Nat) (p : Patch) : Option (List ((Nat × Nat) × Patch)) :=
  (Bresenham.lineBresenham (geo.w + geo.h + 2) (c.1, c.2) (origin.1, origin.2)).map fun l =>
    (l.filter fun q => decide (factor origin c q < 1)).map fun q => ((q.1.toNat, q.2.toNat), negativePatch geo origin originZ c p (factor origin c q))

/-! ### the loop over the cells -/

/-- Position::operator<, src/maps/GridBase.hpp l.40-49 -/
def before (a b : Nat × Nat) : Bool := a.1 < b.1 || (a.1 == b.1 && a.2 < b.2)

/-- the smallest -/
def least : List (Nat × Nat) → Option (Nat × Nat)
  | [] => none
  | a :: l => match least l with
    | none => some a
    | some b => some (if before b a then b else a)

/-- the element of the set after `last`, or the first: `it++` and begin() of std::set -/
def nextCell (index : List (Nat × Nat)) : Option (Nat × Nat) → Option (Nat × Nat)
  | none => least index
  | some last => least (index.filter fun c => before last c)

/-- t_grid, and grid if it is another object -/
structure State where
  t : Grid
  grid : Option Grid

/-- grid->updateCell -/
def State.update (m : Merge) (s : State) (e : (Nat × Nat) × Patch) : Option State :=
  match s.grid with
  | none => (s.t.updateCell m e.1.1 e.1.2 e.2).map fun t => { s with t := t }
  | some g => (g.updateCell m e.1.1 e.1.2 e.2).map fun g => { s with grid := some g }

/-- a patch, l.114-169, after its deviation was changed -/
def visitPatch (m : Merge) (geo : Geo) (k : Config) (origin : Nat × Nat) (originZ : ℝ) (c : Nat × Nat) (s : State) (p : Patch) : Option State :=
  (if s.grid.isSome then s.update m (c, p) else some s).bind fun s =>
  if k.negative then (negatives geo origin originZ c p).bind fun l => l.foldlM (State.update m) s else some s

/-- a cell, l.87-170. The deviations of all its patches are changed at once: what is done for a patch does not change the cell, as `factor` is 1 there. -/
def visitCell (m : Merge) (geo : Geo) (k : Config) (i : Input) (origin : Nat × Nat) (originZ : ℝ) (s : State) (c : Nat × Nat) : Option State :=
  let l := (s.t.cells.cells c.1 c.2).map (smear geo k i c)
  l.foldlM (visitPatch m geo k origin originZ c) { s with t := { s.t with cells := s.t.cells.set c.1 c.2 l } }

/-- the loop l.85-171. The set is the one of the grid, in which cells may be inserted on the way. At most n turns; `none` if they do not suffice. -/
def visit (m : Merge) (geo : Geo) (k : Config) (i : Input) (origin : Nat × Nat) (originZ : ℝ) : Nat → Option (Nat × Nat) → State → Option State
  | 0, _, _ => none
  | n + 1, last, s =>
    match nextCell (s.t.index.getD []) last with
    | none => some s
    | some c => (visitCell m geo k i origin originZ s c).bind (visit m geo k i origin originZ n (some c))

inductive Res (A : Type) where
  | ok (a : A)
  | throws
  /-- an access outside of the grid, or a NULL pointer -/
  | undefined

/-- projectPointcloudWithUncertainty l.54-172. If the origin is outside of the grid its position is not initialised, but not used either. -/
def projectWithUncertainty (m : Merge) (geo : Geo) (k : Config) (i : Input) (g : Grid) : Res Grid :=
  let same : Bool := g.count = 0
  match projectCloud m geo k i (if same then g else MLS.init geo.w geo.h).initIndex with
  | none => .undefined
  | some t =>
    let o := i.T i.origin
    match toGrid geo o.1 o.2.1 with
    | none =>
      if k.negative then .throws
      else
        match visit m geo k i (0, 0) o.2.2 (geo.w * geo.h + 1) none { t := t, grid := if same then none else some g } with
        | none => .undefined
        | some s => .ok (s.grid.getD s.t)
    | some c =>
      match visit m geo k i c o.2.2 (geo.w * geo.h + 1) none { t := t, grid := if same then none else some g } with
      | none => .undefined
      | some s => .ok (s.grid.getD s.t)

/-- an input of updateAll, l.225-231; `none` is a layer of another type: a NULL pointer is dereferenced -/
def projectInput (m : Merge) (geo : Geo) (k : Config) (i : Option Input) (g : Grid) : Res Grid :=
  match i with
  | none => .undefined
  | some i =>
    if k.withUncertainty || k.negative then projectWithUncertainty m geo k i g
    else
      match projectCloud m geo k i g with
      | none => .undefined
      | some g => .ok g

/-- the loop of updateAll l.221-232 -/
def projectAll (m : Merge) (geo : Geo) (k : Config) : List (Option Input) → Grid → Res Grid
  | [], g => .ok g
  | i :: l, g =>
    match projectInput m geo k i g with
    | .ok g => projectAll m geo k l g
    | .throws => .throws
    | .undefined => .undefined

/-- updateAll l.210-236: its result and the grid. The output is the first one, `none` if it is of another type. -/
def updateAll (m : Merge) (geo : Geo) (k : Config) (inputs : List (Option Input)) (outputs : List (Option Grid)) : Res (Bool × Option Grid) :=
  match outputs with
  | some g :: _ =>
    match projectAll m geo k inputs g with
    | .ok g => .ok (true, some g)
    | .throws => .throws
    | .undefined => .undefined
  | _ => .ok (false, none)

end

end Envire.Projection
