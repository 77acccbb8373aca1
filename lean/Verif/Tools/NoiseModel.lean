import Verif.Grid.GridModel

/-!
Model of tools/env_grid_add_noise.cpp l.55-160: what is added to the cells of an elevation grid, and to which ones.

Simplifications: exact numbers of an ordered field with floor for `float` and `double`. What is added to a cell is an arbitrary function `delta` of the place (l.139-154: constants, slopes, bumps, spheres; a random number is a function of the place
as well, since it is drawn once for it). `toGrid` leaves the cell unset if the place is outside, its result is not looked at: the behaviour is undefined then. `boost::math::normal` throws unless its deviation is positive.
-/

namespace Envire.Noise

open Envire.Grid (GridBase)

variable {K : Type} [Field K] [LinearOrder K] [FloorRing K]

/-- the options that the window depends on, `none` if an option is not given, and `--normal`; l.57-74 -/
structure Options (K : Type) where
  center : Option (K × K) := none
  window : Option (K × K) := none
  sigma : Option K := none

/-- `position center`, l.21, l.58, l.72 -/
def Options.at (o : Options K) : K × K := o.center.getD (0, 0)

/-- l.98-102 -/
def Options.size (o : Options K) (g : GridBase K) : K × K := o.window.getD (g.nx * g.sx, g.ny * g.sy)

/-- l.122, l.124 -/
def lower (offset center width : K) : K := max offset (center - width / 2)

/-- l.123, l.125; the size is that of GridBase.hpp l.209 -/
def upper (offset : K) (n : Nat) (scale center width : K) : K := min (offset + n * scale) (center + width / 2)

/-- the values of the variable of a loop of l.130, l.132; `none` if it has not ended after `fuel` rounds -/
def walk : Nat → K → K → K → Option (List K)
  | 0, _, _, _ => none
  | fuel + 1, x, b, s => if x < b then (walk fuel (x + s) b s).map (x :: ·) else some []

/-- l.130 -/
def xs (fuel : Nat) (g : GridBase K) (o : Options K) : Option (List K) :=
  walk fuel (lower g.ox o.at.1 (o.size g).1 + g.sx * (1 / 2)) (upper g.ox g.nx g.sx o.at.1 (o.size g).1) g.sx

/-- l.132 -/
def ys (fuel : Nat) (g : GridBase K) (o : Options K) : Option (List K) :=
  walk fuel (lower g.oy o.at.2 (o.size g).2 + g.sy * (1 / 2)) (upper g.oy g.ny g.sy o.at.2 (o.size g).2) g.sy

abbrev Heights (K : Type) : Type := Nat → Nat → K

/-- l.134-154 -/
def addTo (conv : Int → Nat) (g : GridBase K) (delta : K → K → K) (h : Heights K) (p : K × K) : Option (Heights K) :=
  match g.toGrid conv p.1 p.2 with
  | none => none
  | some c => some fun i j => if i = c.1 ∧ j = c.2.1 then h i j + delta p.1 p.2 else h i j

inductive Res (A : Type) where
  | ok (a : A)
  | throws
  | undefined

/-- the deviation of the normal distribution l.113; `junk` is what the variable, which has no default, happens to be -/
def deviation (o : Options K) (junk : K) : K := o.sigma.getD junk

/-- l.98-156 -/
def addNoise (conv : Int → Nat) (fuel : Nat) (junk : K) (g : GridBase K) (o : Options K) (delta : K → K → K) (h : Heights K) : Res (Heights K) :=
  if deviation o junk ≤ 0 then .throws
  else match xs fuel g o, ys fuel g o with
    | some xs, some ys =>
      match (xs.flatMap fun x => ys.map fun y => (x, y)).foldlM (addTo conv g delta) h with
      | some h => .ok h
      | none => .undefined
    | _, _ => .undefined

end Envire.Noise
