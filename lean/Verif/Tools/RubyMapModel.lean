import Mathlib.Data.Rat.Floor

/-!
Model of the Ruby access to raster files and of the Ruby widget that shows them.

Source modelled: /repo/ruby/envire/gdal.rb l.18-43 (data types), l.157-174 (unpack), l.221-239 (pack), l.241-250 (Band), l.293-312 (Dataset);
/repo/ruby/envire/raster_map_view.rb l.13-59.

Simplifications: exact arithmetic for Float; GDAL keeps the bytes that are written to a band and returns them unchanged (a
rectangle is its list of values); the machine is little endian; integers of more than 64 bits (RangeError in pack) and the
floating point types of pack are not modelled.
-/
namespace Envire.RubyMap

/-- the types of GDAL, gdal.rb l.20-31 -/
inductive Gdt
  | unknown | byte | uint16 | int16 | uint32 | int32 | float32 | float64 | cint16 | cint32 | cfloat32 | cfloat64
deriving DecidableEq

inductive RubyType
  | string | integer | float
deriving DecidableEq

/-- data_type_from_gdal, gdal.rb l.18-34; `none`: an exception (`null` is no name in Ruby) -/
def fromGdal : Gdt → Option RubyType
  | .unknown => none
  | .byte => some .string
  | .uint16 => some .integer
  | .int16 => some .integer
  | .uint32 => some .integer
  | .int32 => some .integer
  | .float32 => some .float
  | .float64 => some .float
  | .cint16 => some .integer
  | .cint32 => some .float
  | .cfloat32 => some .float
  | .cfloat64 => some .float

/-- data_type_to_gdal, gdal.rb l.38-43 -/
def toGdal : RubyType → Gdt
  | .string => .byte
  | .integer => .int16
  | .float => .float32

/-- the number of bytes of a template character and whether it is signed; the characters c, C, s, S, i, I -/
structure Template where
  bytes : Nat
  signed : Bool

/-- the templates of unpack, gdal.rb l.158-171, for the integer types -/
def unpackTemplate : Gdt → Option Template
  | .byte => some ⟨1, false⟩
  | .uint16 => some ⟨2, false⟩
  | .int16 => some ⟨2, true⟩
  | .uint32 => some ⟨4, false⟩
  | .int32 => some ⟨4, true⟩
  | _ => none

/-- the templates of pack, gdal.rb l.222-235, for the integer types -/
def packTemplate : Gdt → Option Template
  | .byte => some ⟨1, true⟩
  | .uint16 => some ⟨2, false⟩
  | .int16 => some ⟨2, true⟩
  | .uint32 => some ⟨4, false⟩
  | .int32 => some ⟨4, true⟩
  | _ => none

/-- the lowest `n` bytes of a number, the lowest first: Array#pack -/
def bytesOf : Nat → Int → List Nat
  | 0, _ => []
  | n + 1, v => (v % 256).toNat :: bytesOf n (v / 256)

/-- the number with the given bytes -/
def valueOf : List Nat → Nat
  | [] => 0
  | b :: l => b + 256 * valueOf l

/-- the value of a piece of String#unpack -/
def decode (t : Template) (l : List Nat) : Int :=
  if t.signed ∧ 2 * valueOf l ≥ 256 ^ t.bytes then (valueOf l : Int) - 256 ^ t.bytes else valueOf l

/-- Array#pack( "#{template}*" ) -/
def pack (t : Template) (l : List Int) : List Nat := l.flatMap (bytesOf t.bytes)

/-- String#unpack( "#{template}*" ): complete pieces, at most `n` -/
def unpackN (t : Template) : Nat → List Nat → List Int
  | 0, _ => []
  | n + 1, l => if l.length < t.bytes ∨ l = [] then [] else decode t (l.take t.bytes) :: unpackN t n (l.drop t.bytes)

def unpack (t : Template) (l : List Nat) : List Int := unpackN t l.length l

/-- Gdal.pack, gdal.rb l.221-239 -/
def gdalPack (d : Gdt) (l : List Int) : Option (List Nat) := (packTemplate d).map fun t => pack t l

/-- Gdal.unpack, gdal.rb l.157-174 -/
def gdalUnpack (d : Gdt) (l : List Nat) : Option (List Int) := (unpackTemplate d).map fun t => unpack t l

/-- write_band and then read_band, gdal.rb l.243-250, l.298-306 -/
def writeRead (d : Gdt) (l : List Int) : Option (List Int) := (gdalPack d l).bind (gdalUnpack d)

/-- a map that GDAL has opened: size, the values of each band row by row (bands are counted from 1), geo transform -/
structure Map where
  xsize : Nat
  ysize : Nat
  values : Nat → List ℚ
  geo : Fin 6 → ℚ

/-- read_band, gdal.rb l.298-301 -/
def readBand (m : Map) (i : Nat) : List ℚ := m.values i

/-- apply_geo_transform, gdal.rb l.308-312 -/
def applyGeo (m : Map) (x y : ℚ) : ℚ × ℚ := (m.geo 0 + x * m.geo 1 + y * m.geo 2, m.geo 3 + x * m.geo 4 + y * m.geo 5)

/-- viewToMap, raster_map_view.rb l.29-33 -/
def viewToMap (m : Map) (x y : ℚ) : ℚ × ℚ := applyGeo m x (m.ysize - y)

/-- Integer( f ): towards zero -/
def trunc (q : ℚ) : Int := if 0 ≤ q then ⌊q⌋ else ⌈q⌉

/-- Array#pack( "C*" ) of one number -/
def packC (n : Int) : Nat := (n % 256).toNat

/-- the three bytes of a value, raster_map_view.rb l.47-52; for max = 0 the quotient is NaN or infinite and Integer raises FloatDomainError (`none`) -/
def pixel (mx d : ℚ) : Option (Nat × Nat × Nat) :=
  if mx = 0 then none
  else
    let v := trunc (255 * d / mx)
    if v = 0 then some (0, 0, 0) else some (packC (255 - v), packC v, packC 125)

/-- a line of pixels, l.45-54 -/
def line (mx : ℚ) (l : List ℚ) : Option (List (Nat × Nat × Nat)) := l.mapM (pixel mx)

/-- the lines of the data, l.44-55: `data.shift` takes the values in order -/
def lines (mx : ℚ) (w : Nat) : Nat → List ℚ → Option (List (List (Nat × Nat × Nat)))
  | 0, _ => some []
  | n + 1, data => (line mx (data.take w)).bind fun l => (lines mx w n (data.drop w)).map fun r => l :: r

/-- Array#max -/
def listMax : List ℚ → Option ℚ
  | [] => none
  | a :: l => some (l.foldl max a)

/-- update, raster_map_view.rb l.35-59: the rows of the picture from the top on. The member `band` is not used. -/
def update (m : Map) (_band : Nat) : Option (List (List (Nat × Nat × Nat))) :=
  let data := readBand m 1
  match listMax data with
  | none => some (List.replicate m.ysize [])
  | some mx => (lines mx m.xsize m.ysize data).map List.reverse

end Envire.RubyMap
