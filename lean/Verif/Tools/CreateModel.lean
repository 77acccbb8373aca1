import Verif.Tools.GridArgsModel
import Verif.Core.CloneModel

/-!
Model of the creation of grids: GridBase::create, /repo/src/maps/GridBase.cpp l.572-594, with GridBase::unserialize l.43-56, Grid::unserialize (Grid.hpp l.386-410) and MLSGrid::unserialize
(MLSGrid.cpp l.154-180) for "map_count" 0, SerializationFactory.cpp l.22-44, Serialization.hpp l.124-138, Serialization.cpp l.119-142, l.206-233; and of the tool that uses it,
/repo/tools/env_create_grid.cpp l.122-159 (the command line is in Verif/Tools/GridArgsModel).

Simplifications: what `boost::lexical_cast` writes and reads is a pair of functions. The classes are given by a table; that of a class which is no grid says only that it is none. That the memory
for the cells may not suffice is not modelled.
-/
namespace Envire.Create
open Envire Envire.Env

/-- `boost::lexical_cast` to and from a text; reading may throw -/
structure Texts (R : Type) where
  writeR : R → String
  readR : String → Option R
  writeN : Nat → String
  readN : String → Option Nat

/-- the members of GridBase -/
structure Shape (R : Type) where
  cx : Nat
  cy : Nat
  sx : R
  sy : R
  ox : R
  oy : R
  deriving DecidableEq

/-- a node of the document: the pairs in the order in which they were written -/
abbrev Doc := List (String × String)

/-- findNodeInMap, Serialization.cpp l.119-142: the last pair with the key -/
def find (d : Doc) (k : String) : Option String := ((d.filter (fun e => e.1 == k)).getLast?).map (·.2)

/-- Serialization::read, Serialization.hpp l.124-133, of a member with a value before: kept if there is no such key; none: lexical_cast throws -/
def read {A : Type} (rd : String → Option A) (d : Doc) (k : String) (old : A) : Option A :=
  match find d k with
  | none => some old
  | some t => rd t

/-- what is written, GridBase.cpp l.579-589 -/
def document {R : Type} (T : Texts R) (type : String) (g : Shape R) : Doc :=
  [("class", type), ("id", "-1"), ("label", ""), ("immutable", "0"), ("cellSizeX", T.writeN g.cx), ("cellSizeY", T.writeN g.cy), ("scalex", T.writeR g.sx), ("scaley", T.writeR g.sy),
    ("offsetx", T.writeR g.ox), ("offsety", T.writeR g.oy), ("map_count", "0")]

/-- GridBase::unserialize l.47-55 on the members of the default constructor l.9-11 -/
def unserialize {R : Type} [OfNat R 0] (T : Texts R) (d : Doc) : Option (Shape R) := do
  let cx ← if (find d "cellSizeX").isSome then read T.readN d "cellSizeX" 0 else read T.readN d "width" 0
  let cy ← if (find d "cellSizeY").isSome then read T.readN d "cellSizeY" 0 else read T.readN d "height" 0
  let sx ← read T.readR d "scalex" 0
  let sy ← read T.readR d "scaley" 0
  let ox ← read T.readR d "offsetx" 0
  let oy ← read T.readR d "offsety" 0
  return ⟨cx, cy, sx, sy, ox, oy⟩

/-- what the factory knows of a class -/
structure Class where
  grid : Bool
  /-- derived from BandedGrid -/
  banded : Bool
  deriving DecidableEq

/-- a new grid: its class, its shape, the names of its bands in the order in which they were made -/
structure Grid (R : Type) where
  cls : String
  shape : Shape R
  bands : List String

inductive Made (R : Type)
  | exception
  /-- the class is no grid -/
  | null
  | grid (g : Grid R)

/-- GridBase::create l.572-594 -/
def create {R : Type} [OfNat R 0] (T : Texts R) (factory : String → Option Class) (type : String) (g : Shape R) : Made R :=
  match factory type with
  | none => .exception
  | some c =>
    if c.grid then
      match unserialize T (document T type g) with
      | none => .exception
      | some g => .grid ⟨type, g, []⟩
    else .null

/-- conversion of `int` to `size_t`, 64 bits -/
def toSize (n : Int) : Nat := (n % 2 ^ 64).toNat

/-- createBand, Grid.hpp l.171-174: a band that is there is left -/
def createBand {R : Type} (g : Grid R) (b : String) : Grid R := if b ∈ g.bands then g else { g with bands := g.bands ++ [b] }

inductive End (R : Type)
  | written (s : Env) (o : Obj) (g : Grid R)
  /-- a message and the exit code 1 -/
  | refused
  | exception
  | crash

/-- `env->attachItem(grid.get()); env->setFrameNode(grid.get(), base_frame);` l.154-155 -/
def put (s : Env) (o fn : Obj) : Res Env := ((Clone.alloc s o .cmap).attachMap o none).bind fun s => s.setFrameNode o fn

/-- the ids of the environment as texts -/
def name (s : Env) (o : Obj) : String := String.ofList (s.uid o)

/-- l.122-159; `base_frame` is the item with the id of the request -/
def build {R : Type} [OfNat R 0] (T : Texts R) (factory : String → Option Class) (s : Env) (o : Obj) (r : GridArgs.Request R) : End R :=
  match create T factory r.type ⟨toSize r.width, toSize r.height, r.sx, r.sy, r.ox, r.oy⟩ with
  | .exception => .exception
  | .null => if r.bands = [] then .crash else .refused
  | .grid g =>
    if r.bands ≠ [] ∧ (factory r.type).all (·.banded) = false then .refused
    else
      match s.getItem r.frame.toList with
      | none => .crash
      | some fn =>
        match put s o fn with
        | .ok s' => .written s' o (r.bands.foldl createBand g)
        | .throw _ => .exception
        | .fault _ => .crash

/-- what the command line is compared with: the grids of the environment by `shape`; l.63-64 convert `size_t` to `int` -/
def world {R : Type} (s : Env) (shape : Obj → Option (Shape R)) : GridArgs.World R where
  maps id := (s.getItem id.toList).bind fun o => (shape o).map fun g => ⟨Int.bmod g.cx (2 ^ 32), Int.bmod g.cy (2 ^ 32), g.sx, g.sy, g.ox, g.oy, (s.getFrameNode o).map (name s)⟩
  frames id := (s.getItem id.toList).any fun o => s.kind o = .frame
  root := name s s.rootNode

/-- env_create_grid -/
def tool {R : Type} [OfNat R 0] (D : GridArgs.Reader R) (T : Texts R) (factory : String → Option Class) (s : Env) (shape : Obj → Option (Shape R)) (o : Obj) (args : List String) : End R :=
  match GridArgs.createGrid D (world s shape) args with
  | .usage => .refused
  | .notFound _ => .refused
  | .badNumber => .exception
  | .crash => .crash
  | .make r => build T factory s o r

end Envire.Create
