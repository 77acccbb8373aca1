import Verif.Maps.PlyModel

/-!
Model of how point clouds, meshes and feature clouds are saved with a scene and loaded again:
Pointcloud::serialize and unserialize (src/maps/Pointcloud.cpp l.30-59), TriMesh
(src/maps/TriMesh.cpp l.14-26), Featurecloud (src/maps/Featurecloud.cpp l.11-23), the name of
the file (src/core/Layer.cpp l.126-136), opening files (src/core/Serialization.cpp l.321-345) and
the creation of items (src/core/Serialization.hpp l.20-25). The content of a PLY file is that of
PlyModel.lean.

Simplifications: the entries of the base classes (label, immutable) are left out; the sensor
origin is of any type `T` and survives the yaml document (C29, C30 treat numbers and matrices in
it); characters instead of bytes in names; files can always be created.
-/

namespace Envire.CloudFiles

open Envire.Ply (Cloud Codec State File Res V3 Tri)

inductive Kind where
  | cloud
  | mesh
  | features
  deriving DecidableEq, Repr

/-- `ENVIRONMENT_ITEM_DEF`, EnvironmentItem.hpp l.10-12 -/
def className : Kind → List Char
  | .cloud => "envire::Pointcloud".toList
  | .mesh => "envire::TriMesh".toList
  | .features => "envire::Featurecloud".toList

/-- an item; key points and descriptors belong to feature clouds, Featurecloud.hpp l.22-26 -/
structure Item (T K D : Type) where
  kind : Kind
  id : List Char
  origin : T
  cloud : Cloud
  keypoints : List K
  descriptors : List D

/-- the entry of an item in scene.yml -/
structure Doc (T : Type) where
  kind : Kind
  id : List Char
  origin : Option T

/-- the directory of a scene: PLY files and text files -/
structure Dir where
  ply : List Char → Option File
  text : List Char → Option (List Char)

def plain (c : Char) : Char := if c = '/' then '_' else c

/-- getMapFileName, Layer.cpp l.126-136 -/
def fileName (kind : Kind) (id : List Char) : List Char := className kind ++ id.map plain

def plyName (kind : Kind) (id : List Char) : List Char := fileName kind id ++ ".ply".toList

def textName (kind : Kind) (id : List Char) : List Char := fileName kind id ++ ".txt".toList

/-- the content of a file is replaced, Serialization.cpp l.334-345 -/
def Dir.write (d : Dir) (name : List Char) (f : File) : Dir :=
  { d with ply := fun n => if n = name then some f else d.ply n }

noncomputable section

/-- writePly into the file of the item, Pointcloud.cpp l.61-65 -/
def writeFile {T K D : Type} (k : Codec) (i : Item T K D) (d : Dir) : Res Dir :=
  match Ply.serialize k i.cloud true with
  | .ok f => .ok (d.write (plyName i.kind i.id) f)
  | .throws => .throws
  | .undefined => .undefined

/-- serialize with `handleMap`, Pointcloud.cpp l.35-43 -/
def serializeCloud {T K D : Type} (k : Codec) (i : Item T K D) (handleMap : Bool) (d : Dir) : Res Dir :=
  if handleMap then writeFile k i d else .ok d

/-- serialize of the class: Pointcloud.cpp l.30-33, TriMesh.cpp l.14-19, Featurecloud.cpp l.11-16 -/
def save {T K D : Type} (k : Codec) (i : Item T K D) (d : Dir) : Res (Doc T × Dir) :=
  let doc : Doc T := ⟨i.kind, i.id, some i.origin⟩
  let r : Res Dir :=
    match i.kind with
    | .cloud => serializeCloud k i true d
    | .mesh =>
      match serializeCloud k i false d with
      | .ok d => writeFile k i d
      | .throws => .throws
      | .undefined => .undefined
    | .features => serializeCloud k i false d
  match r with
  | .ok d => .ok (doc, d)
  | .throws => .throws
  | .undefined => .undefined

/-- readPly, Pointcloud.cpp l.67-71: PlyFile::unserialize returns true (PlyFile.cpp l.382) if it
does not throw -/
def readPly (k : Codec) (s : State) (f : File) : Res (State × Bool) :=
  match Ply.unserialize k s f with
  | .ok s => .ok (s, true)
  | .throws => .throws
  | .undefined => .undefined

/-- a new object of the class; the variables of PlyFile.cpp l.16 and l.68-69 keep their value -/
def fresh (kind : Kind) (v : V3) (t : Tri) (n : Nat) : State :=
  { cloud := { vertices := [], normals := none, colors := none, variance := none,
               faces := if kind = .mesh then some [] else none }
    vec := v, tri := t, triIdx := n }

/-- the file is opened, which throws NoSuchBinaryStream if there is none, and read;
Serialization.cpp l.321-332 -/
def readFile (k : Codec) (doc : List Char) (s : State) (d : Dir) : Res (State × Bool) :=
  match d.ply doc with
  | none => .throws
  | some f => readPly k s f

/-- readText of the text file, Pointcloud.cpp l.57; `text` is what readText adds -/
def readTextFile (text : List Char → Cloud → Cloud) (name : List Char) (s : State) (d : Dir) : Res State :=
  match d.text name with
  | none => .throws
  | some l => .ok { s with cloud := text l s.cloud }

/-- the part of unserialize under `handleMap`, Pointcloud.cpp l.54-58 -/
def readMap {T : Type} (k : Codec) (text : List Char → Cloud → Cloud) (doc : Doc T) (s : State)
    (d : Dir) : Res State :=
  match readFile k (plyName doc.kind doc.id) s d with
  | .ok (s, true) => .ok s
  | .ok (s, false) => readTextFile text (textName doc.kind doc.id) s d
  | .throws => .throws
  | .undefined => .undefined

/-- TriMesh::unserialize, TriMesh.cpp l.21-26: the result of readPly is not looked at -/
def readMesh {T : Type} (k : Codec) (doc : Doc T) (s : State) (d : Dir) : Res State :=
  match readFile k (plyName doc.kind doc.id) s d with
  | .ok (s, _) => .ok s
  | .throws => .throws
  | .undefined => .undefined

/-- createItem, Serialization.hpp l.20-25: a new object and its unserialize; `unit` is the
identity, Pointcloud.cpp l.49-52 -/
def load {T K D : Type} (k : Codec) (text : List Char → Cloud → Cloud) (unit : T)
    (v : V3) (t : Tri) (n : Nat) (doc : Doc T) (d : Dir) : Res (Item T K D) :=
  let r : Res State :=
    match doc.kind with
    | .cloud => readMap k text doc (fresh .cloud v t n) d
    | .mesh => readMesh k doc (fresh .mesh v t n) d
    | .features => readMap k text doc (fresh .features v t n) d
  match r with
  | .ok s => .ok ⟨doc.kind, doc.id, doc.origin.getD unit, s.cloud, [], []⟩
  | .throws => .throws
  | .undefined => .undefined

/-- all items of a scene are saved in turn -/
def saveAll {T K D : Type} (k : Codec) : List (Item T K D) → Dir → Res (List (Doc T) × Dir)
  | [], d => .ok ([], d)
  | i :: l, d =>
    match save k i d with
    | .throws => .throws
    | .undefined => .undefined
    | .ok (doc, d) =>
      match saveAll k l d with
      | .throws => .throws
      | .undefined => .undefined
      | .ok (docs, d) => .ok (doc :: docs, d)

end

end Envire.CloudFiles
