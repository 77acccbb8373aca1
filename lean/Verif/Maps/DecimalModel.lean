import Mathlib.Data.Int.Log
import Mathlib.Algebra.Order.Floor.Ring
import Mathlib.Tactic.Ring

/-!
Model of numbers as text in streams: `os << x` with the six digits of a new stream and `is >> x`, as in the C++ standard
(the conversion `%.6g` of printf and that of strtod), for the texts of /repo/src/core/Features.hpp l.30-50 (KeyPoint) and
/repo/src/maps/Pointcloud.cpp l.73-111 (writeText, readText).

Simplifications: numbers are exact, elements of an ordered field; the nearest binary number is not taken after reading, and a zero
has no sign. A number beyond 10^999, or below 10^-999, which no variable of type double has, is printed as 0.
-/
namespace Envire.Decimal

/-! ### digits -/

def digitChar (d : ℕ) : Char := Char.ofNat (48 + d)

def digitVal (c : Char) : Option ℕ := if 48 ≤ c.toNat ∧ c.toNat < 58 then some (c.toNat - 48) else none

/-- the number with the given digits -/
def ofDigits (l : List ℕ) : ℕ := l.foldl (fun n d => 10 * n + d) 0

/-- without the zeros at the end -/
def strip : List ℕ → List ℕ
  | [] => []
  | d :: l => if d = 0 ∧ strip l = [] then [] else d :: strip l

/-- the six digits of a number below 10^6 -/
def sixDigits (m : ℕ) : List ℕ := [m / 100000 % 10, m / 10000 % 10, m / 1000 % 10, m / 100 % 10, m / 10 % 10, m % 10]

/-- an exponent has two digits, or three -/
def expDigits (n : ℕ) : List ℕ := if n < 100 then [n / 10, n % 10] else [n / 100 % 10, n / 10 % 10, n % 10]

/-! ### texts -/

/-- a number as text: sign, digits before and behind the point, exponent -/
structure Num where
  neg : Bool
  whole : List ℕ
  frac : List ℕ
  exp : Option ℤ

def chars (l : List ℕ) : List Char := l.map digitChar

def expText : Option ℤ → List Char
  | none => []
  | some e => 'e' :: (if e < 0 then '-' else '+') :: chars (expDigits e.natAbs)

def Num.text (n : Num) : List Char :=
  (if n.neg then ['-'] else []) ++ chars n.whole ++ (if n.frac = [] then [] else '.' :: chars n.frac) ++ expText n.exp

section
variable {K : Type} [Field K]

/-- the value of a text -/
def value (neg : Bool) (whole frac : List ℕ) (exp : ℤ) : K :=
  (if neg then -1 else 1) * (ofDigits (whole ++ frac) : K) * 10 ^ (exp - frac.length)

/-! ### reading -/

def takeDigits : List Char → List ℕ × List Char
  | [] => ([], [])
  | c :: t =>
    match digitVal c with
    | none => ([], c :: t)
    | some d => (d :: (takeDigits t).1, (takeDigits t).2)

def takeSign : List Char → Bool × List Char
  | [] => (false, [])
  | c :: t => if c = '-' then (true, t) else if c = '+' then (false, t) else (false, c :: t)

def takeFrac : List Char → List ℕ × List Char
  | [] => ([], [])
  | c :: t => if c = '.' then takeDigits t else ([], c :: t)

/-- `is >> x`, when whitespace has been skipped: the number and what is left -/
def read (t : List Char) : Option K × List Char :=
  let s := takeSign t
  let i := takeDigits s.2
  let f := takeFrac i.2
  if i.1 ++ f.1 = [] then (none, f.2)
  else
    match f.2 with
    | [] => (some (value s.1 i.1 f.1 0), [])
    | c :: t =>
      if c = 'e' ∨ c = 'E' then
        let g := takeSign t
        let e := takeDigits g.2
        if e.1 = [] then (none, e.2)
        else (some (value s.1 i.1 f.1 (if g.1 then -(ofDigits e.1 : ℤ) else ofDigits e.1)), e.2)
      else (some (value s.1 i.1 f.1 0), c :: t)

/-! ### printing -/

variable [LinearOrder K] [FloorRing K]

/-- the nearest integer, the even one of two -/
def nearest (q : K) : ℤ :=
  if q - ⌊q⌋ < 1 / 2 then ⌊q⌋
  else if 1 / 2 < q - ⌊q⌋ then ⌊q⌋ + 1
  else if ⌊q⌋ % 2 = 0 then ⌊q⌋ else ⌊q⌋ + 1

/-- exponent and six digits of a positive number -/
def sci (a : K) : ℤ × ℕ :=
  let e := Int.log 10 a
  let m := (nearest (a * 10 ^ (5 - e))).toNat
  if m = 1000000 then (e + 1, 100000) else (e, m)

/-- the conversion %.6g: with an exponent if this is less than -4 or more than 5, without zeros at the end -/
def format (neg : Bool) (e : ℤ) (m : ℕ) : Num :=
  let D := sixDigits m
  if e < -4 ∨ 5 < e then ⟨neg, D.take 1, strip (D.drop 1), some e⟩
  else if 0 ≤ e then ⟨neg, D.take (e.toNat + 1), strip (D.drop (e.toNat + 1)), none⟩
  else ⟨neg, [0], strip (List.replicate (-e - 1).toNat 0 ++ D), none⟩

/-- `os << x` -/
def print (x : K) : List Char :=
  if x = 0 ∨ 999 < (sci |x|).1.natAbs then ['0']
  else (format (x < 0) (sci |x|).1 (sci |x|).2).text

end
end Envire.Decimal
