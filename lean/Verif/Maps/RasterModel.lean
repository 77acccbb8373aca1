import Mathlib.Algebra.Order.Field.Basic
import Mathlib.Algebra.Order.Group.Abs
import Mathlib.Logic.Function.Basic

/-!
Model of the bands of Grid<T> and of its GDAL files, src/maps/Grid.hpp and src/maps/GridBase.cpp.

A grid has one element type `Ty` for all bands; `V` are the values, `K` the numbers of the geometry. Memory is modelled cell by
cell: a write outside of an array has no result (undefined behaviour).

Of GDAL: a file has a size, a geotransform, bands with a type and cells, and one value for "no data", which all bands of a GeoTIFF
file share (the last one set is kept). Files are not empty. RasterIO copies the cells line by line; a line space of 0 stands for
lines without gaps. Creating a file without cells or bands fails. Not modelled: the projection, errors of the file system.
-/

namespace Envire.Raster

/-- the element types, Grid.hpp l.700-718 -/
inductive Ty | byte | int16 | uint16 | int32 | uint32 | float32 | float64
  deriving DecidableEq

/-- boost::multi_array with two dimensions, Grid.hpp l.77; cell (y, x) is at `y * w + x` -/
structure Arr (V : Type) where
  h : Nat
  w : Nat
  mem : Nat → V

/-- element `[y][x]` -/
def Arr.get {V : Type} (a : Arr V) (y x : Nat) : V := a.mem (y * a.w + x)

/-- resize: keeps the elements whose indices exist before and after -/
def Arr.resize {V : Type} [Inhabited V] (a : Arr V) (h w : Nat) : Arr V :=
  ⟨h, w, fun i => if i % w < a.w ∧ i / w < a.h ∧ i / w < h then a.get (i / w) (i % w) else default⟩

/-- Grid<T>: GridBase.hpp l.78-80; Grid.hpp l.85, and the bands in the data map of the layer -/
structure Grid (V K : Type) where
  ty : Ty
  nx : Nat
  ny : Nat
  sx : K
  sy : K
  ox : K
  oy : K
  data : String → Option (Arr V)
  nodata : String → Option V

variable {V K : Type}

/-- GridBase::GridBase( id ), GridBase.cpp l.9-11 -/
def Grid.empty [Zero K] (ty : Ty) : Grid V K := ⟨ty, 0, 0, 0, 0, 0, 0, fun _ => none, fun _ => none⟩

/-- getGridData( key ), Grid.hpp l.197-202 -/
def Grid.getGridData [Inhabited V] (g : Grid V K) (key : String) : Arr V :=
  ((g.data key).getD ⟨0, 0, fun _ => default⟩).resize g.ny g.nx

/-- the change of the data map by getGridData( key ), or by an assignment to its result -/
def Grid.put (g : Grid V K) (key : String) (a : Arr V) : Grid V K := { g with data := Function.update g.data key (some a) }

/-- setNoData( key, value ), Grid.hpp l.120-123 -/
def Grid.setNoData (g : Grid V K) (key : String) (v : V) : Grid V K := { g with nodata := Function.update g.nodata key (some v) }

/-- geotransform of GDAL: x = x0 + a * column + b * row, y = y0 + c * column + d * row -/
structure Geo (K : Type) where
  x0 : K
  a : K
  b : K
  y0 : K
  c : K
  d : K

/-- GDALRasterBand -/
structure Band (V : Type) where
  ty : Ty
  cells : Nat → Nat → V

/-- GDALDataset -/
structure File (V K : Type) where
  w : Nat
  h : Nat
  geo : Option (Geo K)
  bands : List (Band V)
  nodata : Option V

/-- the two-dimensional part of a transform, Grid.hpp l.540-543 -/
structure Flat (K : Type) where
  m00 : K
  m01 : K
  m10 : K
  m11 : K
  tx : K
  ty : K

section Write

variable [Inhabited V] [Field K]

/-- the geotransform of a file, Grid.hpp l.527-559; `frame` is the transform to the root frame, if the grid is in an environment -/
def geoOf (g : Grid V K) : Option (Flat K) → Geo K
  | none => ⟨g.ox, g.sx, 0, g.oy, 0, g.sy⟩
  | some f => ⟨f.m00 * g.ox + f.m01 * g.oy + f.tx, f.m00 * g.sx, f.m01 * g.sy,
      f.m10 * g.ox + f.m11 * g.oy + f.ty, f.m10 * g.sx, f.m11 * g.sy⟩

/-- the loop over the bands, Grid.hpp l.567-585 -/
def writeBands : Grid V K → List String → List (Band V) × Option V → Grid V K × (List (Band V) × Option V)
  | g, [], r => (g, r)
  | g, key :: keys, (bs, nd) =>
    let a := g.getGridData key
    writeBands (g.put key a) keys (bs ++ [⟨g.ty, fun y x => a.mem (y * g.nx + x)⟩], (g.nodata key).or nd)

/-- writeGridData( keys, path ), Grid.hpp l.505-587; no result if an exception is thrown -/
def Grid.write (g : Grid V K) (frame : Option (Flat K)) (keys : List String) : Option (Grid V K × File V K) :=
  if g.nx = 0 ∨ g.ny = 0 ∨ keys = [] then none
  else
    let r := writeBands g keys ([], none)
    some (r.1, ⟨g.nx, g.ny, some (geoOf g frame), r.2.1, r.2.2⟩)

end Write

/-- result of a call: the grid after it, after an exception, or undefined behaviour -/
inductive Out (A : Type) | ok (a : A) | thrown (a : A) | ub

section Read

variable [Inhabited V]

/-- a write to the memory of an array with `n` elements -/
def poke (n : Nat) (m : Nat → V) (a : Int) (v : V) : Option (Nat → V) :=
  if 0 ≤ a ∧ a < n then some (Function.update m a.toNat v) else none

/-- the indices (y, x) of a raster, line by line -/
def order (nx ny : Nat) : List (Nat × Nat) := (List.range ny).flatMap fun y => (List.range nx).map fun x => (y, x)

/-- RasterIO with GF_Read into memory with `n` elements, from the element `start`, with the given distance of the lines -/
def rasterRead (n : Nat) (start line : Int) (cells : Nat → Nat → V) (nx ny : Nat) (m : Nat → V) : Option (Nat → V) :=
  (order nx ny).foldlM (fun m p => poke n m (start + p.1 * line + p.2) (cells p.1 p.2)) m

/-- the loop that turns the lines, Grid.hpp l.684-686 -/
def turnLines (nx ny : Nat) (m : Nat → V) : Nat → V :=
  (order nx ny).foldl (fun m p => Function.update m (p.1 * nx + p.2) (m ((p.1 + 1) * nx + (nx - 1 - p.2)))) m

/-- the value of a file for no data, Grid.hpp l.671-674 -/
def Grid.takeNoData (g : Grid V K) (key : String) : Option V → Grid V K
  | none => g
  | some v => g.setNoData key v

/-- the pass of the loop for one band that has the type of the grid, Grid.hpp l.656-688; `xDir` and `yDir` stand for -1 -/
def readBand (g : Grid V K) (f : File V K) (xDir yDir : Bool) (key : String) (b : Band V) : Option (Grid V K) :=
  let a := g.getGridData key
  let a := if xDir then a.resize (g.ny + 1) g.nx else a
  let start : Int := (if xDir then (g.nx : Int) else 0) + if yDir then (g.nx : Int) * ((g.ny : Int) - 1) else 0
  let g := g.takeNoData key f.nodata
  let line : Int := if yDir then -(g.nx : Int) else g.nx
  match rasterRead (a.h * a.w) start line b.cells g.nx g.ny a.mem with
  | none => none
  | some m =>
    if xDir then some (g.put key ((⟨a.h, a.w, turnLines g.nx g.ny m⟩ : Arr V).resize g.ny g.nx))
    else some (g.put key ⟨a.h, a.w, m⟩)

/-- the loop over the bands, Grid.hpp l.643-689; `base` is the number of the next band, from 1 -/
def readBands (f : File V K) (xDir yDir : Bool) : Int → List String → Grid V K → Out (Grid V K)
  | _, [], g => .ok g
  | base, key :: keys, g =>
    match (if base < 1 then none else f.bands[(base - 1).toNat]?) with
    | none => .thrown g
    | some b =>
      if b.ty = g.ty then
        match readBand g f xDir yDir key b with
        | none => .ub
        | some g => readBands f xDir yDir (base + 1) keys g
      else .thrown g

variable [Field K] [LinearOrder K]

/-- the scale of a file, if the grid has none, Grid.hpp l.616-632; `none` if an exception is thrown. The result is the grid and the
directions -/
def readScale (g : Grid V K) (f : File V K) : Out (Grid V K × Bool × Bool) :=
  if g.sx = 0 ∨ g.sy = 0 then
    match f.geo with
    | none => .thrown (g, false, false)
    | some t =>
      let g := { g with sx := |t.a|, sy := |t.d| }
      if |t.c * g.ny| > g.sy * (1 / 100) ∨ |t.b| > g.sx * (1 / 100) then .thrown (g, false, false)
      else .ok (g, decide (t.a < 0), decide (t.d < 0))
  else .ok (g, false, false)

/-- readGridData( keys, path, base_band ), Grid.hpp l.589-691, for a file that can be opened -/
def Grid.read (g : Grid V K) (f : File V K) (keys : List String) (base : Int := 1) : Out (Grid V K) :=
  if g.nx ≠ 0 ∧ f.w ≠ g.nx then .thrown g
  else if g.ny ≠ 0 ∧ f.h ≠ g.ny then .thrown g
  else
    match readScale { g with nx := f.w, ny := f.h } f with
    | .ub => .ub
    | .thrown (g, _) => .thrown g
    | .ok (g, xDir, yDir) =>
      -- the difference is converted to an unsigned number of 32 bits
      if ((f.bands.length : Int) - base + 1) % 2 ^ 32 < keys.length then .thrown g
      else readBands f xDir yDir base keys g

/-- readGridFromGdal, GridBase.cpp l.497-565: the grid and the translation of the transform. An exception leaves no result -/
def readGridFromGdal (f : File V K) (name : String) (band : Int := 1) : Out (Option (Grid V K × K × K)) :=
  if (f.bands.length : Int) < band then .thrown none
  else
    match (if band < 1 then none else f.bands[(band - 1).toNat]?) with
    | none => .ub
    | some b =>
      -- GetGeoTransform sets the identity if there is none
      let t := f.geo.getD ⟨0, 1, 0, 0, 0, 1⟩
      match Grid.read (Grid.empty b.ty) f [name] band with
      | .ub => .ub
      | .thrown _ => .thrown none
      | .ok g =>
        .ok (some (g, if t.a < 0 then t.x0 - g.nx * g.sx else t.x0, if t.d < 0 then t.y0 - g.ny * g.sy else t.y0))

end Read

/-! ### other operations on bands -/

section Bands

variable [Inhabited V]

/-- copyBandFrom, Grid.hpp l.305-317, from a grid of the same element type. The assignment of arrays of different shape, or of an
array that does not have the size of the grid, violates an assertion of boost -/
def Grid.copyBandFrom (g : Grid V K) (source : Grid V K) (band target : String) : Out (Grid V K) :=
  let target := if target = "" then band else target
  let a := g.getGridData target
  match source.data band with
  | none => .thrown (g.put target a)
  | some b =>
    if b.h = a.h ∧ b.w = a.w then
      .ok ((g.put target b).takeNoData target (source.nodata band))
    else .ub

/-- getMinMaxValues, Grid.hpp l.179-193; `top` is numeric_limits<T>::max(), `bottom` numeric_limits<T>::min() -/
def Grid.getMinMaxValues [LinearOrder V] (top bottom : V) (g : Grid V K) (key : String) : Grid V K × V × V :=
  let a := g.getGridData key
  (g.put key a, (List.range (a.h * a.w)).foldl (fun r i =>
    (if a.mem i < r.1 then a.mem i else r.1, if r.2 < a.mem i then a.mem i else r.2)) (top, bottom))

/-- convertToFrame, Grid.hpp l.475-484, and the raw data of the binary form, l.486-490: the elements in the order of memory -/
def Grid.rawBand (g : Grid V K) (key : String) : List V := (List.range (g.ny * g.nx)).map (g.getGridData key).mem

end Bands

end Envire.Raster
