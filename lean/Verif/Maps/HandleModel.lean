import Verif.Maps.RasterModel

/-!
Model of the files that are open: readGridData and writeGridData, /repo/src/maps/Grid.hpp l.505-587 and l.589-691; readGridFromGdal, /repo/src/maps/GridBase.cpp l.497-565; FileSerialization with its
binary streams, /repo/src/core/Serialization.cpp l.321-345, writeToFile l.347-479, readFromFile l.494-648.

What is read and written is that of Verif/Maps/RasterModel. Here a call also gets the number of files that the process has open, and `limit`, the number it may have open, and returns the new number.

Simplifications: a data set of GDAL is one open file; drivers that open more make it worse. Closing and the file system never fail, except that files are missing. An item of a scene opens binary streams
and files of grids one after the other; other exceptions, like a class that is not known, are items of their own. A
missing stream whose exception is caught (MLSGrid.cpp l.187) is no item, and so is the memory of its stream.
-/
namespace Envire.Handle

open Envire.Raster

section Grids

variable {V K : Type} [Inhabited V] [Field K]

/-- writeGridData, Grid.hpp l.505-587; `frame` is none if relativeTransform l.535-537 throws. Create opens the file, GDALClose l.586 is the only close -/
def writeFile (limit n : Nat) (g : Grid V K) (frame : Option (Option (Flat K))) (keys : List String) : Nat × Option (Grid V K × File V K) :=
  if limit ≤ n then (n, none)
  else if g.nx = 0 ∨ g.ny = 0 ∨ keys = [] then (n, none)
  else match frame with
    | none => (n + 1, none)
    | some fr => (n + 1 - 1, g.write fr keys)

variable [LinearOrder K]

/-- readGridData, Grid.hpp l.589-691; `f` is none if there is no such file. GDALOpen l.594 opens it, GDALClose l.690 is the only close -/
def readFile (limit n : Nat) (g : Grid V K) (f : Option (File V K)) (keys : List String) (base : Int) : Nat × Out (Grid V K) :=
  match f with
  | none => (n, .thrown g)
  | some f =>
    if limit ≤ n then (n, .thrown g)
    else match g.read f keys base with
      | .ok g => (n + 1 - 1, .ok g)
      | .thrown g => (n + 1, .thrown g)
      | .ub => (n + 1, .ub)

/-- readGridFromGdal, GridBase.cpp l.505-565; readGridFromGdalHelper l.497-503 opens the file again. There is no close -/
def readGdal (limit n : Nat) (f : Option (File V K)) (name : String) (band : Int) : Nat × Out (Option (Grid V K × K × K)) :=
  match f with
  | none => (n, .thrown none)
  | some f =>
    if limit ≤ n then (n, .thrown none)
    else if (f.bands.length : Int) < band then (n + 1, .thrown none)
    else match (if band < 1 then none else f.bands[(band - 1).toNat]?) with
      | none => (n + 1, .ub)
      | some b =>
        let t := f.geo.getD ⟨0, 1, 0, 0, 0, 1⟩
        let r := readFile limit (n + 1) (Grid.empty b.ty) (some f) [name] band
        (r.1, match r.2 with
          | .ub => .ub
          | .thrown _ => .thrown none
          | .ok g => .ok (some (g, if t.a < 0 then t.x0 - g.nx * g.sx else t.x0, if t.d < 0 then t.y0 - g.ny * g.sy else t.y0)))

end Grids

/-! ### scenes -/

/-- what the reading or writing of the items does, one after the other -/
inductive Item
  /-- nothing with files -/
  | plain
  /-- getBinaryInputStream or getBinaryOutputStream l.321-345; not `there`: it cannot be opened -/
  | stream (there : Bool)
  /-- a file of a grid, which is read or written without or with an exception after it was opened -/
  | grid (fine : Bool)
  /-- an exception -/
  | bad

/-- the number of open files, the number of streams in `ifstreams` or `ofstreams`, and if there was no exception -/
def items (limit : Nat) : List Item → Nat → Nat → Nat × Nat × Bool
  | [], n, k => (n, k, true)
  | .plain :: l, n, k => items limit l n k
  | .stream there :: l, n, k => if there && decide (n < limit) then items limit l (n + 1) (k + 1) else (n, k, false)
  | .grid fine :: l, n, k => if limit ≤ n then (n, k, false) else if fine then items limit l n k else (n + 1, k, false)
  | .bad :: _, n, k => (n, k, false)

/-- writeToFile l.347-479: the file of the scene and the streams are closed at the end -/
def save (limit n : Nat) (l : List Item) : Nat × Bool :=
  if limit ≤ n then (n, false)
  else
    let r := items limit l (n + 1) 0
    if r.2.2 then (r.1 - 1 - r.2.1, true) else (r.1, false)

structure Scene where
  /-- the file is there -/
  there : Bool
  /-- the text is YAML -/
  parses : Bool
  /-- the root is a map, l.523, else there is an exception l.620-623 -/
  mapping : Bool
  items : List Item

/-- Environment::unserialize, Environment.cpp l.811-826, with readFromFile l.494-648; none: the result of fopen is not looked at, and the parser asserts that it is a file -/
def load (limit n : Nat) (s : Scene) : Option (Nat × Bool) :=
  if s.there = false then some (n, false)
  else if limit ≤ n then none
  else if s.parses = false then some (n + 1 - 1, false)
  else if s.mapping = false then some (n + 1, false)
  else
    let r := Handle.items limit s.items (n + 1) 0
    some (if r.2.2 then (r.1 - 1 - r.2.1, true) else (r.1, false))

/-! ### histories -/

section Run

variable {V K : Type}

inductive Op (V K : Type)
  | read (g : Grid V K) (f : Option (File V K)) (keys : List String) (base : Int)
  | gdal (f : Option (File V K)) (name : String) (band : Int)
  | write (g : Grid V K) (frame : Option (Option (Flat K))) (keys : List String)
  | save (l : List Item)
  | load (s : Scene)

variable [Inhabited V] [Field K] [LinearOrder K]

def outcome {A : Type} : Nat × Out A → Option (Nat × Bool)
  | (n, .ok _) => some (n, true)
  | (n, .thrown _) => some (n, false)
  | (_, .ub) => none

/-- the number of open files and if the call succeeds; none: undefined behaviour -/
def step (limit n : Nat) : Op V K → Option (Nat × Bool)
  | .read g f keys base => outcome (readFile limit n g f keys base)
  | .gdal f name band => outcome (readGdal limit n f name band)
  | .write g frame keys => some ((writeFile limit n g frame keys).1, (writeFile limit n g frame keys).2.isSome)
  | .save l => some (save limit n l)
  | .load s => load limit n s

/-- the number of open files after the calls, and which succeeded -/
def run (limit : Nat) : Nat → List (Op V K) → Option (Nat × List Bool)
  | n, [] => some (n, [])
  | n, o :: l => match step limit n o with
    | none => none
    | some (n, b) => (run limit n l).map fun r => (r.1, b :: r.2)

end Run

end Envire.Handle
