import Verif.Grid.GridModel
import Mathlib.Algebra.Order.Group.MinMax
import Mathlib.Data.Fin.VecNotation

/-!
Model of getExtentsTransformed (src/Core.hpp l.119-141) with getExtents of point clouds (src/maps/Pointcloud.cpp l.165-174), and of the
choice of the grid in tools/env_mls.cpp l.51-117 and tools/env_dem.cpp l.34-56.

Simplifications: exact numbers of an ordered field with floor for `double`, `big` is the greatest finite number. Eigen::AlignedBox is its two
corners; `isNull` is the old name of `isEmpty`. A transform is its linear part and its translation. The conversion to size_t of the
size of the grid is the parameter `conv` of Verif/Grid/GridModel (after truncation, here floor, which is the same for the sizes of boxes that are not
empty). Of env_mls the words of the area argument are numbers or not; the merging of points into the cells is C118.
-/

namespace Envire.MlsTool

open Envire.Grid (GridBase)

abbrev V (K : Type) : Type := Fin 3 → K

section
variable {K : Type} [Field K] [LinearOrder K]

/-- Eigen::Affine3d -/
structure Aff (K : Type) where
  m : Fin 3 → Fin 3 → K
  t : Fin 3 → K

/-- the product with a vector -/
def Aff.apply (a : Aff K) (p : V K) : V K := fun i => a.m i 0 * p 0 + a.m i 1 * p 1 + a.m i 2 * p 2 + a.t i

/-- Eigen::AlignedBox -/
structure Box (K : Type) where
  lo : V K
  hi : V K

/-- the default constructor, setEmpty -/
def Box.empty (big : K) : Box K := ⟨fun _ => big, fun _ => -big⟩

/-- AlignedBox::extend( point ) -/
def Box.extend (b : Box K) (p : V K) : Box K := ⟨fun i => min (b.lo i) (p i), fun i => max (b.hi i) (p i)⟩

/-- AlignedBox::isEmpty -/
def Box.isEmpty (b : Box K) : Bool := decide (b.hi 0 < b.lo 0) || decide (b.hi 1 < b.lo 1) || decide (b.hi 2 < b.lo 2)

/-- Pointcloud::getExtents, src/maps/Pointcloud.cpp l.165-174 -/
def cloudExtents (big : K) (vertices : List (V K)) : Box K := vertices.foldl Box.extend (Box.empty big)

/-- src/Core.hpp l.131-133, tools/env_mls.cpp l.90-92 -/
def corner (b : Box K) (i : Nat) : V K := fun j => if i.testBit j then b.lo j else b.hi j

/-- src/Core.hpp l.127-135, tools/env_mls.cpp l.86-94 -/
def corners (b : Box K) : List (V K) := (List.range 8).map (corner b)

/-- tools/env_mls.cpp l.84-97 -/
def extendBy (r : Box K) (t : Aff K) (b : Box K) : Box K := ((corners b).map t.apply).foldl Box.extend r

/-- Map<3>::getExtentsTransformed, src/Core.hpp l.119-141 -/
def transformed (big : K) (t : Aff K) (b : Box K) : Box K := extendBy (Box.empty big) t b

/-- Map<2>::getExtentsTransformed: only two coordinates of the corner are set, src/Core.hpp l.131-133; `junk i` is what the third one of corner `i` happens to be. Of the result only the first two
coordinates are used -/
def corner2 (b : Box K) (junk : Nat → K) (i : Nat) : V K := fun j => if j = 2 then junk i else corner b i j

/-- src/Core.hpp l.127-138 -/
def transformed2 (big : K) (junk : Nat → K) (t : Aff K) (b : Box K) : Box K :=
  (((List.range 4).map (corner2 b junk)).map t.apply).foldl Box.extend (Box.empty big)

/-! ### the grid of env_mls -/

/-- a cloud with its transform to the root -/
structure Cloud (K : Type) where
  vertices : List (V K)
  toRoot : Aff K

/-- without an area argument, l.65-99; env_dem.cpp l.34-42 (the boxes of the clouds are merged there, with the same result) -/
def cloudsExtents (big : K) (cs : List (Cloud K)) : Box K := cs.foldl (fun r c => extendBy r c.toRoot (cloudExtents big c.vertices)) (Box.empty big)

/-- env_dem.cpp l.34-42, AlignedBox::extend( box ) -/
def Box.merge (b c : Box K) : Box K := ⟨fun i => min (b.lo i) (c.lo i), fun i => max (b.hi i) (c.hi i)⟩

def demExtents (big : K) (cs : List (Cloud K)) : Box K := cs.foldl (fun r c => r.merge (transformed big c.toRoot (cloudExtents big c.vertices))) (Box.empty big)

/-- the stream of the area argument: the words that are left (`none` is not a number), and whether it has failed -/
structure Words (K : Type) where
  words : List (Option K)
  failed : Bool

/-- `iss >> x`: a word that is not a number sets 0 and the stream fails, at the end of the stream the value is left -/
def Words.read (s : Words K) (x : K) : K × Words K :=
  if s.failed then (x, s)
  else match s.words with
    | [] => (x, { s with failed := true })
    | none :: ws => (0, { words := ws, failed := true })
    | some y :: ws => (y, { words := ws, failed := false })

/-- l.53-63 -/
def readArea (big : K) (words : List (Option K)) : Box K :=
  let e := Box.empty big
  let (x0, s) := Words.read { words := words, failed := false } (e.lo 0)
  let (y0, s) := s.read (e.lo 1)
  let (x1, s) := s.read (e.hi 0)
  let (y1, _) := s.read (e.hi 1)
  ⟨![x0, y0, 0], ![x1, y1, 1]⟩

/-- l.51-99; the area argument, `none` if there is none. If it has no words the string may be empty or not; here it is not -/
def extents (big : K) (area : Option (List (Option K))) (cs : List (Cloud K)) : Box K :=
  match area with
  | none => cloudsExtents big cs
  | some ws => readArea big ws

variable [FloorRing K]

/-- the grid with the translation of its frame, l.106-117 and env_dem.cpp l.48-56 -/
structure Placed (K : Type) where
  x : K
  y : K
  grid : GridBase K

def place (conv : Int → Nat) (res : K) (e : Box K) : Placed K :=
  { x := e.lo 0
    y := e.lo 1
    grid := { nx := conv ⌊(e.hi 0 - e.lo 0) / res⌋, ny := conv ⌊(e.hi 1 - e.lo 1) / res⌋, sx := res, sy := res, ox := 0, oy := 0 } }

/-- l.100-117: `none` if the tool stops without a result -/
def envMls (conv : Int → Nat) (big res : K) (area : Option (List (Option K))) (cs : List (Cloud K)) : Option (Placed K) :=
  let e := extents big area cs
  if e.isEmpty then none else some (place conv res e)

/-- env_dem.cpp, there is no check -/
def envDem (conv : Int → Nat) (big res : K) (cs : List (Cloud K)) : Placed K := place conv res (demExtents big cs)

/-- the cell that a point, in coordinates of the root, is projected to -/
def Placed.cell (conv : Int → Nat) (g : Placed K) (p : V K) : Option (Nat × Nat) := (g.grid.toGrid conv (p 0 - g.x) (p 1 - g.y)).map fun r => (r.1, r.2.1)

end
end Envire.MlsTool
