import Mathlib.Data.EReal.Operations

/-!
Model of the extents of maps that are made of others: MapSegment::getExtents, /repo/src/maps/MapSegment.cpp l.18-48, and MLSMap::getExtents, /repo/src/maps/MLSMap.cpp l.7-24.

Simplifications: numbers are real. The limits of a new Eigen::AlignedBox, the largest and the smallest number, are the infinities of the extended reals; adding a translation
does not change them. The transform to the frame of the map is a function on points with its value at the origin as translation.
-/
noncomputable section

namespace Envire.Combined

/-- a point of the space -/
abbrev P := Fin 3 → ℝ

/-- Eigen::AlignedBox: smallest and largest coordinate of each axis -/
abbrev Box (n : Nat) := Fin n → EReal × EReal

/-- a new box: setEmpty -/
def emptyBox (n : Nat) : Box n := fun _ => (⊤, ⊥)

/-- AlignedBox::extend with a box -/
def extend {n : Nat} (a b : Box n) : Box n := fun k => (min (a k).1 (b k).1, max (a k).2 (b k).2)

/-- AlignedBox::translate -/
def translate {n : Nat} (b : Box n) (t : Fin n → ℝ) : Box n := fun k => ((b k).1 + t k, (b k).2 + t k)

/-- extents of a map of two or of three dimensions; other maps are skipped -/
inductive Ext
  | two (b : Box 2)
  | three (b : Box 3)
  | other

structure Part where
  ext : Ext
  /-- transform from the frame of the part to that of the segment -/
  toSegment : P → P

/-- translation of the transform -/
def Part.shift (p : Part) : P := p.toSegment 0

/-- MapSegment.cpp l.40-43 -/
def lift (b : Box 2) : Box 3 := fun k => if h : k.val < 2 then b ⟨k.val, h⟩ else (⊤, ⊥)

/-- loop body l.23-45 -/
def addPart (e : Box 3) (p : Part) : Box 3 :=
  match p.ext with
  | .three b => extend e (translate b p.shift)
  | .two b => extend e (translate (lift b) p.shift)
  | .other => e

/-- MapSegment::getExtents -/
def segmentExtents (parts : List Part) : Box 3 := parts.foldl addPart (emptyBox 3)

/-- a child of an MLSMap: a grid with its extents, or a layer that is no grid -/
structure Child where
  grid : Option (Box 2)
  toMap : P → P

/-- MLSMap::getExtents; `none`: the null pointer of a child that is no grid is used -/
def mapExtents : Box 2 → List Child → Option (Box 2)
  | e, [] => some e
  | e, c :: cs =>
    match c.grid with
    | none => none
    | some b => mapExtents (extend e (translate b (fun k => c.toMap 0 (k.castLE (by decide))))) cs

end Envire.Combined
