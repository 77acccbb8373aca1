import Verif.Maps.MapSetModel

/-!
Model of GridAccess and MLSAccess (src/tools/GridAccess.cpp).

Simplifications: real numbers; a grid is its pose in the root frame and a function from positions in its frame to what `toGrid` and the array
(for MLSAccess: `MLSGrid::get`) give, `none` outside. The environment does not change between the calls (GridAccess.hpp l.15-19 says that it must not).
-/

namespace Envire.Access

open Envire.MapSet

/-- an elevation grid, or a multi-level surface grid: the parameter of `data` is the height for which a patch is looked for -/
structure Grid (D : Type) where
  frame : Pose
  data : ℝ → ℝ → D

/-- the pose of the root node -/
def root : Pose := ⟨1, 0⟩

/-- the members of the implementation: the list of grids, filled at the first call, and the last grid with its transform; l.18-23, l.200-203 -/
structure State (D : Type) where
  grids : List (Grid D) := []
  grid : Option (Grid D × Pose) := none

variable {D P R : Type}

/-- the loop over the grids; l.55-70, l.225-240: the last grid that was tried stays -/
noncomputable def tryGrids (eval : Grid D → Pose → P → Option R) (p : P) : List (Grid D) → Option (Grid D × Pose) → Option (Grid D × Pose) × Option R
  | [], last => (last, none)
  | g :: gs, _ =>
    let t := rel root g.frame
    match eval g t p with
    | some r => (some (g, t), some r)
    | none => tryGrids eval p gs (some (g, t))

/-- `getElevation`; l.37-73, l.205-243 -/
noncomputable def getElevation (eval : Grid D → Pose → P → Option R) (env : List (Grid D)) (s : State D) (p : P) : State D × Option R :=
  match s.grid with
  | some (g, t) =>
    match eval g t p with
    | some r => (s, some r)
    | none => (s, none)
  | none =>
    let grids := if s.grids.isEmpty then env else s.grids
    let res := tryGrids eval p grids none
    ({ grids := grids, grid := res.1 }, res.2)

/-- `evalGridPoint`, with the offset of l.66; l.25-35 -/
noncomputable def evalElevation (g : Grid (Option ℝ)) (t : Pose) (p : Fin 3 → ℝ) : Option (Fin 3 → ℝ) :=
  let v := t.apply p
  match g.data (v 0) (v 1) with
  | some e => some (Function.update p 2 (e + t.inv.t 2))
  | none => none

/-- one look-up of MLSAccess: the height and its deviation; l.211-214, l.236-239 -/
noncomputable def evalMLS (g : Grid (ℝ → Option (ℝ × ℝ))) (t : Pose) (p : Fin 3 → ℝ) : Option (ℝ × ℝ) :=
  let v := t.apply p
  g.data (v 0) (v 1) (v 2)

end Envire.Access
