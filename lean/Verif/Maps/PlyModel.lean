import Mathlib.Data.Real.Archimedean
import Mathlib.Algebra.Order.Floor.Ring

/-!
Model of src/tools/PlyFile.cpp: point clouds and meshes as PLY files (serialize l.173-313, unserialize l.315-383 with the callbacks l.8-131).

Simplifications: real numbers for `double`; those that are doubles or floats are given by a codec of 8 or 4 bytes. The header is the list of its elements instead of text, and the parser of the external library ply is modelled by its
documented behaviour: for each element, in order, it reads its items, and calls the callbacks that were returned for its properties; if there are not enough bytes it calls the error callback, which throws. Numbers of items up to 255 in
lists (`uchar`). Messages on std::cerr are left out. A byte is a natural number below 256, the order of bytes is little endian.
-/

namespace Envire.Ply

abbrev V3 : Type := ℝ × ℝ × ℝ
abbrev Tri : Type := Int × Int × Int

/-- Pointcloud and TriMesh; `none` if there is no such data, or it is no mesh -/
structure Cloud where
  vertices : List V3
  normals : Option (List V3)
  colors : Option (List V3)
  variance : Option (List ℝ)
  faces : Option (List Tri)

/-- how doubles and floats are stored -/
structure Codec where
  isDouble : ℝ → Prop
  enc64 : ℝ → List Nat
  dec64 : List Nat → ℝ
  len64 : ∀ x, (enc64 x).length = 8
  dec_enc64 : ∀ x, isDouble x → dec64 (enc64 x) = x
  /-- conversion of a double to a float -/
  round : ℝ → ℝ
  enc32 : ℝ → List Nat
  dec32 : List Nat → ℝ
  len32 : ∀ x, (enc32 x).length = 4
  dec_enc32 : ∀ x, dec32 (enc32 (round x)) = round x

/-- four bytes of an `int32_t` -/
def encInt (i : Int) : List Nat :=
  let n := (i % 4294967296).toNat
  [n % 256, n / 256 % 256, n / 65536 % 256, n / 16777216 % 256]

def decInt : List Nat → Int
  | [a, b, c, d] =>
    let n := a + 256 * b + 65536 * c + 16777216 * d
    if n < 2147483648 then (n : Int) else (n : Int) - 4294967296
  | _ => 0

inductive Ty where
  | f64
  | f32
  | u8
  | i32
deriving DecidableEq

inductive Property where
  | scalar (ty : Ty) (name : String)
  /-- with the number of items as `uchar` -/
  | list (ty : Ty) (name : String)

structure Element where
  name : String
  count : Nat
  props : List Property

inductive Res (A : Type) where
  | ok (a : A)
  | throws
  | undefined

abbrev File : Type := List Element × List Nat

/-! ### writing -/

def precision (double : Bool) : Ty := if double then .f64 else .f32

def xyz (name : String) (n : Nat) (double : Bool) : Element := ⟨name, n, [.scalar (precision double) "x", .scalar (precision double) "y", .scalar (precision double) "z"]⟩

/-- the header, l.175-220 -/
def header (c : Cloud) (double : Bool) : List Element :=
  let n := c.vertices.length
  [xyz "vertex" n double] ++
  (if c.normals.isSome then [xyz "normal" n double] else []) ++
  (if c.colors.isSome then [⟨"color", n, [.scalar .u8 "red", .scalar .u8 "green", .scalar .u8 "blue"]⟩] else []) ++
  match c.faces with
  | some f => if f.isEmpty then [] else [⟨"face", f.length, [.list .i32 "vertex_index"]⟩]
  | none => []

noncomputable section

/-- one number, l.226-246 -/
def writeNumber (k : Codec) (double : Bool) (x : ℝ) : List Nat := if double then k.enc64 x else k.enc32 (k.round x)

def writeVector (k : Codec) (double : Bool) (v : V3) : List Nat := writeNumber k double v.1 ++ writeNumber k double v.2.1 ++ writeNumber k double v.2.2

open Classical in
/-- the conversion of a component of a color to `unsigned char`, l.287-289; it is undefined if the number without its fraction is not in its range -/
def colorByte (x : ℝ) : Option Nat := if -1 < x * 255 ∧ x * 255 < 256 then some ⌊x * 255⌋.toNat else none

def writeColor (v : V3) : Option (List Nat) :=
  (colorByte v.1).bind fun r => (colorByte v.2.1).bind fun g => (colorByte v.2.2).bind fun b => some [r, g, b]

def writeColors : List V3 → Option (List Nat)
  | [] => some []
  | v :: l => (writeColor v).bind fun a => (writeColors l).bind fun b => some (a ++ b)

def writeFace (t : Tri) : List Nat := [3] ++ encInt t.1 ++ encInt t.2.1 ++ encInt t.2.2

/-- serialize l.173-313 -/
def serialize (k : Codec) (c : Cloud) (double : Bool) : Res File :=
  if ∃ l, c.normals = some l ∧ l.length ≠ c.vertices.length then .throws
  else if ∃ l, c.colors = some l ∧ l.length ≠ c.vertices.length then .throws
  else
    match writeColors (c.colors.getD []) with
    | none => .undefined
    | some colors => .ok (header c double, c.vertices.flatMap (writeVector k double) ++ (c.normals.getD []).flatMap (writeVector k double) ++ colors ++ (c.faces.getD []).flatMap writeFace)

/-! ### reading -/

/-- the object that is read, the static vector of vector_property_callback l.16, and triangle__ and triangle_idx__ l.68-69 -/
structure State where
  cloud : Cloud
  vec : V3
  tri : Tri
  triIdx : Nat

def setV (v : V3) (i : Nat) (x : ℝ) : V3 := if i = 0 then (x, v.2) else if i = 1 then (v.1, x, v.2.2) else (v.1, v.2.1, x)

/-- the lists of vectors to which values are added -/
inductive Target where
  | vertices
  | normals
  | colors
deriving DecidableEq

def push (c : Cloud) (t : Target) (v : V3) : Cloud :=
  match t with
  | .vertices => { c with vertices := c.vertices ++ [v] }
  | .normals => { c with normals := some (c.normals.getD [] ++ [v]) }
  | .colors => { c with colors := some (c.colors.getD [] ++ [v]) }

/-- vector_property_callback l.13-26 -/
def vectorCallback (s : State) (x : ℝ) (t : Target) (idx : Nat) (scale : Bool) : State :=
  let v := setV s.vec idx (if scale then x / 255 else x)
  { s with vec := v, cloud := if idx = 2 then push s.cloud t v else s.cloud }

/-- scalar_property_definition_callback l.28-66: which of the callbacks is called for a property -/
def definition (element property : String) : Option (Target × Nat × Bool) :=
  if element = "vertex" then
    if property = "x" then some (.vertices, 0, false) else if property = "y" then some (.vertices, 1, false) else if property = "z" then some (.vertices, 2, false) else none
  else if element = "normal" then
    if property = "x" then some (.normals, 0, false) else if property = "y" then some (.normals, 1, false) else if property = "z" then some (.normals, 2, false) else none
  else if element = "color" then
    if property = "red" then some (.colors, 0, true) else if property = "green" then some (.colors, 1, true) else if property = "blue" then some (.colors, 2, true) else none
  else none

def scalarCallback (element property : String) (x : ℝ) (s : State) : State :=
  match definition element property with
  | some (t, i, scale) => vectorCallback s x t i scale
  | none => s

/-- the data that is created when a scalar property of an element is defined, l.43, l.55 -/
def define (c : Cloud) (e : Element) : Cloud :=
  if e.props.any (fun p => match p with | .scalar _ _ => true | .list _ _ => false) then
    if e.name = "normal" then { c with normals := some (c.normals.getD []) }
    else if e.name = "color" then { c with colors := some (c.colors.getD []) }
    else c
  else c

def size : Ty → Nat
  | .f64 => 8
  | .f32 => 4
  | .u8 => 1
  | .i32 => 4

def decode (k : Codec) (ty : Ty) (b : List Nat) : ℝ :=
  match ty with
  | .f64 => k.dec64 b
  | .f32 => k.dec32 b
  | .u8 => (b.headD 0 : ℝ)
  | .i32 => (decInt b : ℝ)

/-- read a number; `none` if there are not enough bytes -/
def readScalar (k : Codec) (ty : Ty) (b : List Nat) : Option (ℝ × List Nat) := if b.length < size ty then none else some (decode k ty (b.take (size ty)), b.drop (size ty))

def setT (t : Tri) (i : Nat) (x : Int) : Tri := if i = 0 then (x, t.2) else if i = 1 then (t.1, x, t.2.2) else if i = 2 then (t.1, t.2.1, x) else t

/-- list_property_element_callback l.80-95 -/
def elementCallback (x : ℝ) (s : State) : State := { s with tri := setT s.tri s.triIdx ⌊x⌋, triIdx := s.triIdx + 1 }

/-- list_property_end_callback l.97-101 -/
def endCallback (s : State) : State := { s with cloud := { s.cloud with faces := s.cloud.faces.map fun f => f ++ [s.tri] } }

def readItems (k : Codec) (ty : Ty) (use : Bool) : Nat → State × List Nat → Option (State × List Nat)
  | 0, sb => some sb
  | n + 1, sb => (readScalar k ty sb.2).bind fun r => readItems k ty use n (if use then elementCallback r.1 sb.1 else sb.1, r.2)

/-- a property of an item; lists other than those of a face of a mesh are ignored, l.108-128 -/
def readProperty (k : Codec) (element : String) (p : Property) (sb : State × List Nat) : Option (State × List Nat) :=
  match p with
  | .scalar ty name => (readScalar k ty sb.2).map fun r => (scalarCallback element name r.1 sb.1, r.2)
  | .list ty name =>
    let use : Bool := element = "face" ∧ name = "vertex_index" ∧ sb.1.cloud.faces.isSome
    match sb.2 with
    | [] => none
    | n :: b => (readItems k ty use n (if use then { sb.1 with triIdx := 0 } else sb.1, b)).map fun r => (if use then endCallback r.1 else r.1, r.2)

def readProperties (k : Codec) (element : String) : List Property → State × List Nat → Option (State × List Nat)
  | [], sb => some sb
  | p :: l, sb => (readProperty k element p sb).bind (readProperties k element l)

def readElement (k : Codec) (e : Element) : Nat → State × List Nat → Option (State × List Nat)
  | 0, sb => some sb
  | n + 1, sb => (readProperties k e.name e.props sb).bind (readElement k e n)

def readBody (k : Codec) : List Element → State × List Nat → Option (State × List Nat)
  | [], sb => some sb
  | e :: l, sb => (readElement k e e.count sb).bind (readBody k l)

/-- unserialize l.315-383 -/
def unserialize (k : Codec) (s : State) (f : File) : Res State :=
  match readBody k f.1 ({ s with cloud := f.1.foldl define s.cloud }, f.2) with
  | some r => .ok r.1
  | none => .throws

end

end Envire.Ply
