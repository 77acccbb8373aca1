import Mathlib.Data.Matrix.Mul
import Mathlib.LinearAlgebra.Matrix.Notation
import Mathlib.Algebra.BigOperators.Fin
import Mathlib.Data.Real.Basic
import Mathlib.Algebra.Order.Floor.Ring
import Mathlib.Data.Real.Archimedean

/-!
Model of MLSMap (src/maps/MLSMap.cpp), a set of multi-level surface grids.

Simplifications: real numbers for `double`; grids are identified by numbers (the pointers), a grid has a frame node of its own whose pose in the root frame is given
by the world; relative transforms are those of C09. The contents of the grids are a function from grid, position and probe to the patch that
`MLSGrid::get` finds, `none` also for positions outside of the grid. Of a patch, there is the mean and the rest.
-/

namespace Envire.MapSet

open Matrix

/-- a rigid transform -/
structure Pose where
  R : Matrix (Fin 3) (Fin 3) ℝ
  t : Fin 3 → ℝ

namespace Pose

def apply (P : Pose) (v : Fin 3 → ℝ) : Fin 3 → ℝ := P.R *ᵥ v + P.t

def mul (P Q : Pose) : Pose := ⟨P.R * Q.R, P.R *ᵥ Q.t + P.t⟩

def inv (P : Pose) : Pose := ⟨P.Rᵀ, -(P.Rᵀ *ᵥ P.t)⟩

end Pose

/-- `relativeTransform` from a frame to another one, both given by their poses in the root frame -/
def rel (from_ to_ : Pose) : Pose := to_.inv.mul from_

structure Patch where
  mean : ℝ
  rest : Nat

/-- the frame of the map, the poses and scales of the grids; grids with numbers from `next` on do not exist -/
structure World where
  mapFrame : Pose
  next : Nat
  frame : Nat → Pose
  scale : Nat → ℝ × ℝ

/-- what `toGrid` and `MLSGrid::get` find in a grid at a position for a probe -/
abbrev Contents := Nat → ℝ → ℝ → Patch → Option Patch

/-- the members of MLSMap; MLSMap.hpp l.76-91 -/
structure MMap where
  grids : List Nat := []
  active : Option Nat := none
  cache : Option (Nat × Pose) := none

/-- `getPatch` for one grid; MLSMap.cpp l.62-84 -/
noncomputable def getPatchIn (ct : Contents) (g : Nat) (C : Pose) (p : Fin 3 → ℝ) (patch : Patch) : Option Patch :=
  let v := C.apply p
  match ct g (v 0) (v 1) { patch with mean := patch.mean + C.t 2 } with
  | none => none
  | some r => some { r with mean := r.mean - C.t 2 }

/-- the loop over the grids, the newest one first; l.94-105 -/
noncomputable def search (w : World) (ct : Contents) (p : Fin 3 → ℝ) (patch : Patch) : List Nat → Option (Nat × Pose × Patch)
  | [] => none
  | g :: gs =>
    let C := rel w.mapFrame (w.frame g)
    match getPatchIn ct g C p patch with
    | some r => some (g, C, r)
    | none => search w ct p patch gs

/-- `MLSMap::getPatch`; l.86-107 -/
noncomputable def getPatch (w : World) (ct : Contents) (m : MMap) (p : Fin 3 → ℝ) (patch : Patch) : MMap × Option Patch :=
  let hit := match m.cache with
    | some (g, C) => getPatchIn ct g C p patch
    | none => none
  match hit with
  | some r => (m, some r)
  | none =>
    match search w ct p patch m.grids.reverse with
    | some (g, C, r) => ({ m with cache := some (g, C) }, some r)
    | none => (m, none)

/-- `addGrid`; l.109-115 -/
def addGrid (m : MMap) (g : Nat) : MMap := { m with grids := m.grids ++ [g], active := some g }

/-- a coordinate rounded down to a multiple of the scale; l.156-157 -/
noncomputable def alignTo (s x : ℝ) : ℝ := ⌊x / s⌋ * s

/-- `createGrid`; l.145-171 -/
noncomputable def createGrid (w : World) (m : MMap) (trans : Pose) (relative aligned : Bool) : World × MMap :=
  match m.active with
  | none => (w, m)
  | some a =>
    let t : Pose := if aligned then ⟨1, ![alignTo (w.scale a).1 (trans.t 0), alignTo (w.scale a).2 (trans.t 1), trans.t 2]⟩ else trans
    let parent := if relative then w.frame a else w.mapFrame
    ({ w with
        next := w.next + 1
        frame := Function.update w.frame w.next (parent.mul t)
        scale := Function.update w.scale w.next (w.scale a) },
      addGrid m w.next)

/-- the distance of a frame from a grid; l.125-126 -/
noncomputable def dist (w : World) (fn : Pose) (g : Nat) : ℝ :=
  let t := rel fn (w.frame g)
  max |t.t 0| |t.t 1|

open Classical in
/-- the loop of `selectActiveGrid`; l.119-132 -/
noncomputable def nearest (w : World) (fn : Pose) (gs : List Nat) (b : Option Nat × ℝ) : Option Nat × ℝ :=
  gs.foldl (fun b g => if dist w fn g < b.2 then (some g, dist w fn g) else b) b

/-- `selectActiveGrid`; l.117-143; `none` if a NULL pointer is dereferenced -/
noncomputable def selectActiveGrid (w : World) (m : MMap) (fn : Pose) (threshold : ℝ) (_aligned : Bool) : Option (World × MMap) :=
  match (nearest w fn m.grids (none, threshold)).1 with
  | some g => some (w, { m with active := some g })
  | none =>
    match m.active with
    | none => none
    | some a => some (createGrid w m (rel fn (w.frame a)) true true)

/-- `operator=` as far as the members are concerned; l.34-60 (the children in the environment are not modelled) -/
def assign (m other : MMap) : MMap := { m with grids := other.grids, active := other.active }

end Envire.MapSet
