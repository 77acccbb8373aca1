import Mathlib.Data.List.Basic

/-!
Model of reading and writing scan files: LaserScan::parseScan, readScan and writeScan, src/maps/LaserScan.cpp l.116-230.

Simplifications: the number format of the standard library is a parameter (`Codec`) for `float` and `double`: how a number is printed, and what is read from a text that does not begin with whitespace. `float` and `double` have their own format. The keys "orientation"
and "origin", which change a transform that readScan does not use, are ignored. The input stream is a text that can be read; the output stream does not fail. Integers are read with base 10.
-/

namespace Envire.ScanFile

inductive Out (A : Type) where
  | ok (a : A)
  | throws
  /-- use of a value that was not initialised, or a conversion out of range -/
  | undefined
deriving DecidableEq, Repr

def Out.bind {A B : Type} (o : Out A) (f : A → Out B) : Out B := match o with
  | .ok a => f a
  | .throws => .throws
  | .undefined => .undefined

structure Codec (F : Type) where
  print : F → List Char
  /-- the value read, if any, and the rest of the text -/
  extract : List Char → Option F × List Char
  zero : F
  /-- the conversion to `unsigned int`; `none` is undefined behaviour -/
  toUnsigned : F → Option Nat

/-- LaserScan::scanline_t, LaserScan.hpp l.19-24 -/
structure Line (F : Type) where
  deltaPhi : F
  ranges : List Nat
  remissions : List Nat
deriving DecidableEq, Repr

/-- LaserScan, LaserScan.hpp l.26-51 -/
structure Scan (F G : Type) where
  deltaPsi : F
  originPsi : F
  originPhi : F
  offset : G × G × G
  pointsPerLine : Nat
  lines : List (Line F)
  xForward : Bool
deriving DecidableEq, Repr

/-! ### writing -/

/-- l.212-215, l.221-224 -/
def writeNumbers (l : List Nat) : List Char := l.flatMap fun n => ' ' :: Nat.toDigits 10 n

/-- l.211-226 -/
def writeLine {F : Type} (c : Codec F) (l : Line F) : List Char :=
  "line ".toList ++ c.print l.deltaPhi ++ writeNumbers l.ranges ++ ['\n'] ++
    if l.ranges.length = l.remissions.length then "remission ".toList ++ c.print l.deltaPhi ++ writeNumbers l.remissions ++ ['\n'] else []

/-- writeScan, l.199-230 -/
def write {F G : Type} (c : Codec F) (g : Codec G) (s : Scan F G) : List Char :=
  "delta_psi ".toList ++ c.print s.deltaPsi ++ ['\n'] ++ ("origin_psi ".toList ++ c.print s.originPsi ++ ['\n']) ++ ("origin_phi ".toList ++ c.print s.originPhi ++ ['\n']) ++
    ("center_offset ".toList ++ g.print s.offset.1 ++ [' '] ++ g.print s.offset.2.1 ++ [' '] ++ g.print s.offset.2.2 ++ ['\n']) ++ s.lines.flatMap (writeLine c)

/-! ### reading -/

/-- std::istringstream -/
structure In where
  rest : List Char
  eof : Bool
  fail : Bool
deriving DecidableEq, Repr

def isSpace (c : Char) : Bool := c = ' ' || c = '\t' || c = '\n' || c = '\r' || c = Char.ofNat 11 || c = Char.ofNat 12

/-- the beginning of `operator>>`: skips whitespace; false if the stream has no characters or is not good -/
def sentry (i : In) : In × Bool :=
  if i.eof || i.fail then ({ i with fail := true }, false)
  else match i.rest.dropWhile isSpace with
    | [] => (⟨[], true, true⟩, false)
    | r => (⟨r, false, false⟩, true)

/-- `>>` for floating point numbers; `none`: the variable keeps its value. A number that can not be read is 0. -/
def readF {F : Type} (c : Codec F) (i : In) : In × Option F :=
  match sentry i with
  | (j, false) => (j, none)
  | (j, true) => match c.extract j.rest with
    | (some x, r) => (⟨r, r.isEmpty, false⟩, some x)
    | (none, r) => (⟨r, r.isEmpty, true⟩, some c.zero)

/-- an optional sign: whether it is negative, and the text after it -/
def sign : List Char → Bool × List Char
  | [] => (false, [])
  | d :: t => if d = '-' then (true, t) else if d = '+' then (false, t) else (false, d :: t)

/-- `>>` for `int`; a number that is too large is the largest one -/
def readInt (i : In) : In × Option Int :=
  match sentry i with
  | (j, false) => (j, none)
  | (j, true) =>
    let d := (sign j.rest).2.takeWhile Char.isDigit
    let r := (sign j.rest).2.dropWhile Char.isDigit
    if d = [] then (⟨r, r.isEmpty, true⟩, some 0)
    else
      let n := Nat.ofDigitChars 10 d 0
      if (sign j.rest).1 then if n ≤ 2 ^ 31 then (⟨r, r.isEmpty, false⟩, some (-(n : Int))) else (⟨r, r.isEmpty, true⟩, some (-2 ^ 31))
      else if n < 2 ^ 31 then (⟨r, r.isEmpty, false⟩, some (n : Int)) else (⟨r, r.isEmpty, true⟩, some (2 ^ 31 - 1))

/-- `>>` for std::string -/
def readWord (i : In) : In × List Char :=
  match sentry i with
  | (j, false) => (j, [])
  | (j, true) =>
    let r := j.rest.dropWhile fun c => !isSpace c
    (⟨r, r.isEmpty, false⟩, j.rest.takeWhile fun c => !isSpace c)

/-- l.157-161. The number of iterations is not bounded in the code; each one that reads a number takes at least one character. -/
def readRanges : Nat → In → List Nat → Out (List Nat)
  | 0, _, _ => .undefined
  | fuel + 1, i, acc =>
    if i.eof then .ok acc
    else match readInt i with
      | (_, none) => .undefined
      | (j, some d) => readRanges fuel j (acc ++ [(d % 2 ^ 32).toNat])

/-- l.179-183 -/
def readRemissions {F : Type} (c : Codec F) : Nat → In → List Nat → Out (List Nat)
  | 0, _, _ => .undefined
  | fuel + 1, i, acc =>
    if i.eof then .ok acc
    else match readF c i with
      | (_, none) => .undefined
      | (j, some x) => match c.toUnsigned x with
        | none => .undefined
        | some n => readRemissions c fuel j (acc ++ [n])

/-- the body of the loop, l.120-186 -/
def parseLine {F G : Type} [DecidableEq F] (c : Codec F) (g : Codec G) (s : Scan F G) (line : List Char) : Out (Scan F G) :=
  let (i, key) := readWord ⟨line, false, false⟩
  if key = "delta_psi".toList then .ok { s with deltaPsi := (readF c i).2.getD s.deltaPsi }
  else if key = "origin_psi".toList then .ok { s with originPsi := (readF c i).2.getD s.originPsi }
  else if key = "origin_phi".toList then .ok { s with originPhi := (readF c i).2.getD s.originPhi }
  else if key = "center_offset".toList then
    let x := readF g i
    let y := readF g x.1
    let z := readF g y.1
    .ok { s with offset := (x.2.getD s.offset.1, y.2.getD s.offset.2.1, z.2.getD s.offset.2.2) }
  else if key = "line".toList then
    match readF c i with
    | (_, none) => .undefined
    | (i, some phi) => (readRanges (line.length + 1) i []).bind fun r => .ok { s with pointsPerLine := r.length, lines := s.lines ++ [⟨phi, r, []⟩] }
  else if key = "remission".toList then
    match s.lines.getLast? with
    | none => .throws
    | some l => match readF c i with
      | (_, none) => .undefined
      | (i, some phi) =>
        if phi ≠ l.deltaPhi then .throws
        else (readRemissions c (line.length + 1) i l.remissions).bind fun r => .ok { s with pointsPerLine := r.length, lines := s.lines.dropLast ++ [{ l with remissions := r }] }
  else .ok s

/-- std::getline until the end of the stream: the texts between the ends of lines -/
def splitLines : List Char → List (List Char)
  | [] => [[]]
  | c :: t => if c = '\n' then [] :: splitLines t else match splitLines t with
    | [] => [[c]]
    | l :: ls => (c :: l) :: ls

def parseLines {F G : Type} [DecidableEq F] (c : Codec F) (g : Codec G) : Scan F G → List (List Char) → Out (Scan F G)
  | s, [] => .ok s
  | s, l :: ls => (parseLine c g s l).bind fun s => parseLines c g s ls

/-- readScan l.116-197 -/
def read {F G : Type} [DecidableEq F] (c : Codec F) (g : Codec G) (s : Scan F G) (text : List Char) : Out (Scan F G) := parseLines c g s (splitLines text)

end Envire.ScanFile
