import Verif.Tools.AccessModel
import Mathlib.Analysis.Real.Sqrt
import Mathlib.Algebra.Order.Archimedean.Real.Basic

/-!
Model of PointcloudAccess (src/tools/GridAccess.cpp l.90-188).

Simplifications: real numbers; the clouds have a frame; the tree of libkdtree++ keeps a list of points, its two searches are parameters
with the properties that the library promises: `find_within_range` visits the points of a square, in some order, `find_nearest` gives a
point of least distance in x and y that is not farther than the bound, and finds nothing only if no point is nearer than the bound.
-/
namespace Envire.NearCloud
open Envire.MapSet

noncomputable section

abbrev V3 := Fin 3 → ℝ

/-- a point cloud: the pose of its frame in the root frame and its points -/
structure Cloud where
  frame : Pose
  vertices : List V3

/-- distance in x and y, KDTree<2>; l.108 -/
def dist (p q : V3) : ℝ := Real.sqrt ((p 0 - q 0) ^ 2 + (p 1 - q 1) ^ 2)

/-- the region of `find_within_range`: a square with sides of twice the range -/
def inSquare (p : V3) (r : ℝ) (q : V3) : Prop := |q 0 - p 0| ≤ r ∧ |q 1 - p 1| ≤ r

/-- the library: what the searches promise -/
structure Library where
  within : List V3 → V3 → ℝ → List V3
  within_mem : ∀ l p r q, q ∈ within l p r ↔ q ∈ l ∧ inSquare p r q
  nearest : List V3 → V3 → ℝ → Option V3
  nearest_some : ∀ l p t q, nearest l p t = some q → q ∈ l ∧ dist p q ≤ t ∧ ∀ q' ∈ l, dist p q ≤ dist p q'
  nearest_none : ∀ l p t, nearest l p t = none → ∀ q ∈ l, t ≤ dist p q

/-- fillTree for one cloud; l.130-141 -/
def fillOne (c : Cloud) (tree : List V3) : List V3 :=
  let t := rel c.frame Access.root
  c.vertices.foldl (fun tree v => tree ++ [t.apply v]) tree

/-- the constructor and fillTree; l.112-128 -/
def build (env : List Cloud) : List V3 := env.foldl (fun tree c => fillOne c tree) []

/-- getElevation with a bound; l.164-179: only the height of the position changes -/
def nearest (L : Library) (tree : List V3) (p : V3) (t : ℝ) : Option V3 :=
  match L.nearest tree p t with
  | some q => some (Function.update p 2 (q 2))
  | none => none

/-- getElevation with a range; l.143-162: the first point found whose height is near `zpos` replaces the position. `absf` is the function that
`abs` in l.151 stands for. -/
def range (L : Library) (absf : ℝ → ℝ) (tree : List V3) (p : V3) (r zpos zt : ℝ) : Option V3 :=
  open Classical in (L.within tree p r).find? fun q => decide (absf (q 2 - zpos) < zt)

/-- `abs` of the C library for a number that is converted to `int`: the part behind the point is lost -/
def absInt (x : ℝ) : ℝ := (⌊|x|⌋ : ℤ)

end

end Envire.NearCloud
