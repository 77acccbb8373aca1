import Verif.Maps.RasterModel

/-!
Model of the copies of images into grids, src/maps/Grids.hpp and src/maps/Grids.cpp.

Images have the same elements as the grid. An access outside of an array is undefined behaviour. The mode of a frame is not modelled
(the code asserts that it is RGB: three bytes for each pixel). The announcement of a change (itemModified) is a result.
-/

namespace Envire.Image

open Envire.Raster

variable {V K : Type}

/-- the loop of copyFromFrame, Grids.hpp l.89-94; `n` is the number of elements of the arrays, `i` the pixel -/
def rgbLoop (n : Nat) : List V → Nat → (Nat → V) × (Nat → V) × (Nat → V) → Option ((Nat → V) × (Nat → V) × (Nat → V))
  | [], _, m => some m
  | r :: g :: b :: l, i, m =>
    if i < n then rgbLoop n l (i + 1) (Function.update m.1 i r, Function.update m.2.1 i g, Function.update m.2.2 i b) else none
  | _, _, _ => none

section

variable [Inhabited V]

/-- copyFromFrame, Grids.hpp l.77-97; the bytes of the frame. The flag tells whether itemModified was called -/
def copyFromFrame (g : Grid V K) (bytes : List V) : Out (Grid V K × Bool) :=
  let r := g.getGridData "r"
  let g := g.put "r" r
  let gg := g.getGridData "g"
  let g := g.put "g" gg
  let b := g.getGridData "b"
  let g := g.put "b" b
  match rgbLoop (g.ny * g.nx) bytes 0 (r.mem, gg.mem, b.mem) with
  | none => .ub
  | some m => .ok (((g.put "r" { r with mem := m.1 }).put "g" { gg with mem := m.2.1 }).put "b" { b with mem := m.2.2 }, true)

/-- base::samples::DistanceImage -/
structure DistanceImage (V K : Type) where
  width : Nat
  height : Nat
  scaleX : K
  scaleY : K
  centerX : K
  centerY : K
  data : List V

/-- DistanceGrid( dimage ), Grids.hpp l.34-35 -/
def newDistanceGrid (im : DistanceImage V K) : Grid V K :=
  ⟨.float32, im.width, im.height, im.scaleX, im.scaleY, im.centerX, im.centerY, fun _ => none, fun _ => none⟩

/-- copyFromDistanceImage, Grids.cpp l.36-49 -/
def copyFromDistanceImage (g : Grid V K) (im : DistanceImage V K) : Out (Grid V K × Bool) :=
  let a := g.getGridData "distance"
  match (order g.nx g.ny).foldlM (fun (m : Nat → V) p => (im.data[p.1 * g.nx + p.2]?).map fun v => Function.update m (p.1 * a.w + p.2) v) a.mem with
  | none => .ub
  | some m => .ok (g.put "distance" { a with mem := m }, false)

variable {W : Type} [Inhabited W]

/-- copyGridToGrid, Grids.hpp l.101-112: both grids after it; `conv` is the conversion to the other type and the product with the
scale, `band` the first band of the first grid -/
def copyGridToGrid (conv : V → W) (band : String) (g : Grid V K) (g2 : Grid W K) : Grid V K × Grid W K :=
  let a := g.getGridData band
  let b := g2.getGridData "elevation"
  (g.put band a, g2.put "elevation" { b with
    mem := (order (min g.nx g2.nx) (min g.ny g2.ny)).foldl (fun m p => Function.update m (p.1 * b.w + p.2) (conv (a.get p.1 p.2))) b.mem })

end

end Envire.Image
