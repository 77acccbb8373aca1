import Verif.Maps.RasterModel

/-!
Model of saving and loading grids, Grid<T>::serialize and unserialize, src/maps/Grid.hpp l.374-453, for a scene directory and for
binary streams.

Simplifications: the properties of an item are a record (their text form is C25 and C71); a file of the scene directory is found under
its name; the names have no directories. Elements of a stream are whole values. Items saved in the old format (without "map_count")
are not modelled.
-/

namespace Envire.GridSave

open Envire.Raster

/-- a map in an environment that is a grid: its class name, its unique id, singleFile(), the transform of its frame to the root
frame, the bands in its data map and the grid itself -/
structure Item (V K : Type) where
  cls : List Char
  id : List Char
  single : Bool
  frame : Option (Flat K)
  keys : List String
  grid : Grid V K

/-- what is in the scene file about a grid: GridBase::serialize, GridBase.cpp l.27-41, and Grid.hpp l.437-439, l.452 -/
structure Props (K : Type) where
  nx : Nat
  ny : Nat
  sx : K
  sy : K
  ox : K
  oy : K
  layers : List String

variable {V K : Type}

/-- getMapFileName, Layer.cpp l.131-136 -/
def mapName (cls id : List Char) : List Char := cls ++ id.map (fun c => if c = '/' then '_' else c)

/-- getFullPath, Grid.hpp l.326-327, without the directory -/
def fullPath (name key : List Char) : List Char := name ++ '_' :: key ++ ".tiff".toList

/-- the name of the file for a band -/
def Item.file (it : Item V K) (key : String) : List Char := fullPath (mapName it.cls it.id) key.toList

/-- the files of the scene directory -/
def Dir (V K : Type) := List Char → Option (File V K)

/-- a file is created or replaced -/
def Dir.store (d : Dir V K) (name : List Char) (f : File V K) : Dir V K := fun n => if n = name then some f else d n

def propsOf (it : Item V K) : Props K := ⟨it.grid.nx, it.grid.ny, it.grid.sx, it.grid.sy, it.grid.ox, it.grid.oy, it.keys⟩

section

variable [Inhabited V] [Field K]

/-- the loop over the bands with one file for each, Grid.hpp l.446-447 -/
def saveBands (it : Item V K) : List String → Grid V K → Dir V K → Out (Grid V K × Dir V K)
  | [], g, d => .ok (g, d)
  | k :: ks, g, d =>
    match g.write it.frame [k] with
    | none => .thrown (g, d)
    | some (g, f) => saveBands it ks g (d.store (it.file k) f)

/-- serialize into a scene directory, Grid.hpp l.424-453: the grid and the files -/
def Item.save (it : Item V K) (d : Dir V K) : Out (Grid V K × Dir V K) :=
  if it.single then
    match it.grid.write it.frame it.keys with
    | none => .thrown (it.grid, d)
    | some (g, f) => .ok (g, d.store (it.file "") f)
  else saveBands it it.keys it.grid d

/-- the items of a scene are saved one after the other; an exception ends this, and there is no scene file -/
def saveAll : List (Item V K) → Dir V K → Option (List (Props K) × Dir V K)
  | [], d => some ([], d)
  | it :: its, d =>
    match it.save d with
    | .ok r =>
      match saveAll its r.2 with
      | some q => some (propsOf it :: q.1, q.2)
      | none => none
    | _ => none

variable [LinearOrder K]

/-- GridBase::unserialize, GridBase.cpp l.43-56, of a new grid -/
def start (ty : Ty) (p : Props K) : Grid V K := ⟨ty, p.nx, p.ny, p.sx, p.sy, p.ox, p.oy, fun _ => none, fun _ => none⟩

/-- the loop over the bands, Grid.hpp l.402-403; a file that does not exist is an exception, l.596-598 -/
def loadBands (d : Dir V K) (cls id : List Char) : List String → Grid V K → Out (Grid V K)
  | [], g => .ok g
  | k :: ks, g =>
    match d (fullPath (mapName cls id) k.toList) with
    | none => .thrown g
    | some f =>
      match g.read f [k] with
      | .ok g => loadBands d cls id ks g
      | .thrown g => .thrown g
      | .ub => .ub

/-- unserialize from a scene directory, Grid.hpp l.374-404 -/
def load (ty : Ty) (single : Bool) (cls id : List Char) (p : Props K) (d : Dir V K) : Out (Grid V K) :=
  match (if single then d (fullPath (mapName cls id) []) else none) with
  | some f => (start ty p).read f p.layers
  | none => loadBands d cls id p.layers (start ty p)

/-! ### binary streams -/

/-- the binary streams of a serialization -/
def Streams (V : Type) := List Char → Option (List V)

/-- a stream is created or replaced, Serialization.cpp l.668-673 -/
def Streams.store (s : Streams V) (name : List Char) (l : List V) : Streams V := fun n => if n = name then some l else s n

/-- writeGridData( key, stream ), Grid.hpp l.486-490, for all bands, l.449-450; the grid does not change, except for the size of its
arrays, which getGridData sets for every access -/
def saveStreams (it : Item V K) (s : Streams V) : Streams V :=
  it.keys.foldl (fun s k => s.store (it.file k) (it.grid.rawBand k)) s

/-- readGridData( key, stream ), l.492-496: elements that the stream does not have are not changed -/
def readStream (g : Grid V K) (k : String) (l : List V) : Grid V K :=
  let a := g.getGridData k
  g.put k { a with mem := fun i => if i < a.h * a.w then (l[i]?).getD (a.mem i) else a.mem i }

/-- the loop of l.407-408; a stream that does not exist is an exception, Serialization.cpp l.663-664 -/
def loadStreams (s : Streams V) (cls id : List Char) : List String → Grid V K → Out (Grid V K)
  | [], g => .ok g
  | k :: ks, g =>
    match s (fullPath (mapName cls id) k.toList) with
    | none => .thrown g
    | some l => loadStreams s cls id ks (readStream g k l)

end

end Envire.GridSave
