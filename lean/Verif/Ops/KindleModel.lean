import Verif.Ops.GrassfireModel
import Verif.Maps.TravModel
/-!
Model of how TraversabilityGrassfire finds the place where its search begins, of the probabilities that it writes and of what it returns.

Source modelled: /repo/src/operators/TraversabilityGrassfire.cpp l.14-34 (setProbability), l.222-298 (determineDrivePlane), l.404-417 (computeTraversability, the probabilities), l.446-468 (updateAll);
/repo/src/core/Operator.hpp l.48; /repo/src/maps/GridBase.cpp l.378-390.

Simplifications: those of Verif/Ops/GrassfireModel and of `Trav.storeProb`; patches with a negative deviation are left out (C65); the maps have the same number of rows and columns except in `writeAll`;
the transform from the root to the map and the conversion to cells are parameters.
-/
namespace Envire.Kindle

open Envire.Grassfire Envire.Trav

abbrev Pos := ℚ × ℚ × ℚ

/-- the patches of the cells -/
abbrev Cells := Cell → List Patch

/-- getNearestPatchWhereRobotFits, patch and isObstacle -/
def fits (cfg : Config) (g : Cells) (z : ℚ) (c : Cell) : Option (Patch × Bool) := (nearest cfg z (g c) ((g c).length + 1)).join

/-- the offsets (xi, yi) of the round i in the order of the loops, l.253-260 -/
def rim (i : Nat) : List (Int × Int) :=
  let r := (List.range (2 * i + 1)).map fun k : Nat => (k : Int) - i
  (r.flatMap fun yi => r.map fun xi => (xi, yi)).filter fun o => o.1.natAbs == i || o.2.natAbs == i

/-- l.262-271: the cells of the round with their patches -/
def found (cfg : Config) (g : Cells) (w h : Nat) (z : ℚ) (c : Cell) (i : Nat) : List (Cell × Patch) :=
  (rim i).filterMap fun o => (shift w h c o.1 o.2).bind fun d => (fits cfg g z d).map fun r => (d, r.1)

/-- l.271 -/
def diff (z : ℚ) (p : Patch) : ℚ := |z - p.mean + p.stdev|

/-- l.272-278: the first with the smallest difference -/
def pick (z : ℚ) (best : Option (Cell × Patch)) (x : Cell × Patch) : Option (Cell × Patch) :=
  match best with
  | none => some x
  | some b => if diff z x.2 < diff z b.2 then some x else some b

/-- the rounds from `i` on, at most `n`; l.251-286 -/
def rounds (cfg : Config) (g : Cells) (w h : Nat) (z : ℚ) (c : Cell) : Nat → Nat → Option (Cell × Patch)
  | _, 0 => none
  | i, n + 1 =>
    match (found cfg g w h z c i).foldl (pick z) none with
    | some b => some b
    | none => rounds cfg g w h z c (i + 1) n

/-- l.222-298: cell and patch where the search begins. `toMap` takes the coordinates of the root to those of the map, `cellOf` is toGrid -/
def begins (cfg : Config) (g : Cells) (w h : Nat) (toMap : Pos → Pos) (cellOf : ℚ → ℚ → Option Cell) (s : Pos) : Option (Option (Cell × Patch)) :=
  let m := toMap s
  (cellOf m.1 m.2.1).map fun c => rounds cfg g w h s.2.2 c 0 10

/-- setProbability l.14-34: the byte -/
def byteOf (nominal : Int) : Option Patch → Res Nat
  | none => storeProb 0
  | some p =>
    if p.count > nominal then storeProb 1
    -- 0 / 0
    else if nominal = 0 then .undefined
    else storeProb ((p.count : ℚ) / nominal)

/-- the cells in the order of the loops l.409-411 -/
def cells (w h : Nat) : List Cell := (List.range h).flatMap fun y => (List.range w).map fun x => (x, y)

/-- computeTraversability, the band of the probabilities, which has tw columns and th rows -/
def writeAll (tw th : Nat) (f : Cell → Res Nat) : List Cell → (Cell → Nat) → Res (Cell → Nat)
  | [], m => .ok m
  | c :: l, m =>
    if c.1 < tw ∧ c.2 < th then
      match f c with
      | .ok v => writeAll tw th f l fun d => if d = c then v else m d
      | .throws => .throws
      | .undefined => .undefined
    else .undefined

/-- the patches at the end of the search, l.452-459 -/
def final (cfg : Config) (g : Cells) (w h : Nat) (c : Cell) (p : Patch) : St Patch :=
  (St.step w h fun d o => fits cfg g o.top d)^[8 * (w * h)] (start w h c p)

/-- updateAll l.446-468: the value that is returned and the probabilities -/
def update (cfg : Config) (nominal : Int) (g : Cells) (w h tw th : Nat) (toMap : Pos → Pos) (cellOf : ℚ → ℚ → Option Cell) (s : Pos) (old : Cell → Nat) : Res (Bool × (Cell → Nat)) :=
  match begins cfg g w h toMap cellOf s with
  | none => .ok (false, old)
  | some none => .ok (false, fun _ => 0)
  | some (some (c, p)) =>
    match writeAll tw th (fun d => byteOf nominal ((final cfg g w h c p).best d)) (cells w h) (fun _ => 0) with
    -- Operator::updateAll
    | .ok m => .ok (false, m)
    | .throws => .throws
    | .undefined => .undefined

end Envire.Kindle
