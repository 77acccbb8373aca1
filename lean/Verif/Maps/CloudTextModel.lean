import Mathlib.Data.Real.Basic
import Mathlib.Data.List.Basic

/-!
Model of writeText and readText of src/maps/Pointcloud.cpp l.73-111 (also used by importCsv l.113-129): point clouds as text.

The stream is modelled with its characters and the two bits of its state, as in the C++ standard. Simplifications: real numbers for `double`; how a number is printed (with `<<`, six digits) and read (by `>>`) is given by `Numbers`.
A variable without a value is `none`; if it is used the outcome is `undefined`. If the stream fails without its end being reached, the loop goes on with variables that never get a value, so this is also the outcome of what may never end.
-/

namespace Envire.CloudText

abbrev V3 : Type := ℝ × ℝ × ℝ

/-- std::isspace -/
def isSpace (c : Char) : Bool := c = ' ' || c = '\n' || c = '\t' || c = '\r'

/-- numbers as text -/
structure Numbers where
  print : ℝ → List Char
  /-- rounding to six digits -/
  round : ℝ → ℝ
  /-- the number at the beginning of a text, if there is one, and what is left -/
  read : List Char → Option ℝ × List Char
  print_ne : ∀ x, print x ≠ []
  print_space : ∀ x, ∀ c ∈ print x, isSpace c = false
  print_length : ∀ x, (print x).length ≤ 24
  read_print : ∀ x rest, (∀ c ∈ rest.head?, isSpace c = true) → read (print x ++ rest) = (some (round x), rest)
  /-- no number begins with one of these -/
  read_other : ∀ c rest, c = ',' ∨ c = ';' ∨ c = '#' → read (c :: rest) = (none, c :: rest)
  /-- and a number ends there -/
  read_before : ∀ x c rest, c = ',' ∨ c = ';' ∨ c = '#' → read (print x ++ c :: rest) = (some (round x), c :: rest)

structure Stream where
  text : List Char
  eof : Bool
  fail : Bool

def Stream.good (s : Stream) : Bool := !s.eof && !s.fail

/-- the stream of a text, before anything is read -/
def Stream.of (text : List Char) : Stream := { text := text, eof := false, fail := false }

noncomputable section

/-- `is >> x`: the value of x afterwards, if it is changed -/
def Stream.number (N : Numbers) (s : Stream) : Option ℝ × Stream :=
  if s.good then
    let t := s.text.dropWhile isSpace
    if t = [] then (none, { text := [], eof := true, fail := true })
    else
      let r := N.read t
      (some (r.1.getD 0), { text := r.2, eof := r.2 = [], fail := r.1.isNone })
  else (none, { s with fail := true })

/-- up to n characters, to the end of the line -/
def skip : Nat → List Char → List Char × Bool
  | 0, t => (t, false)
  | _ + 1, [] => ([], true)
  | n + 1, c :: t => if c = '\n' then (t, false) else skip n t

/-- `is.ignore( 255, '\n' )` -/
def Stream.ignore (s : Stream) : Stream :=
  if s.good then
    let r := skip 255 s.text
    { text := r.1, eof := r.2, fail := false }
  else { s with fail := true }

/-- `is.peek()` -/
def Stream.peek (s : Stream) : Stream := if s.good then { s with eof := s.text = [] } else { s with fail := true }

structure Data where
  vertices : List V3
  colors : Option (List V3)

inductive Out where
  | ok (d : Data)
  | undefined
  /-- not finished -/
  | running

/-- l.89, for the given result of rand(); `none` for a division by zero -/
def chosen (sample : Int) (r : Nat) : Option Bool :=
  if sample = 1 then some true
  else if sample = 0 then none
  else some ((r : Int).tmod sample = 0)

/-- the turn for a line that is used, l.91-100 -/
def take (N : Numbers) (remission : Bool) (s : Stream) (d : Data) : Option (Stream × Data) :=
  let x := s.number N
  let y := x.2.number N
  let z := y.2.number N
  let c := if remission then z.2.number N else (some 0, z.2)
  match x.1, y.1, z.1, c.1 with
  | some a, some b, some e, some f => some (c.2.ignore, { vertices := d.vertices ++ [(a, b, e)], colors := if remission then d.colors.map (· ++ [(f / 255, 0, 0)]) else d.colors })
  | _, _, _, _ => none

/-- the loop l.87-107, at most n turns; `r` are the results of rand() -/
def loop (N : Numbers) (remission : Bool) (sample : Int) (r : Nat → Nat) : Nat → Stream → Data → Out
  | 0, _, _ => .running
  | n + 1, s, d =>
    if s.eof then .ok d
    else
      match chosen sample (r 0) with
      | none => .undefined
      | some true =>
        match take N remission s d with
        | none => .undefined
        | some q => loop N remission sample (fun i => r (i + 1)) n q.1.peek q.2
      | some false => loop N remission sample (fun i => r (i + 1)) n s.ignore.peek d

/-- readText l.83-111. In the format XYZR (remission) there is data of colors from then on; `Eigen::Vector3d::Identity()` is (1, 0, 0). -/
def readText (N : Numbers) (remission : Bool) (sample : Int) (r : Nat → Nat) (n : Nat) (text : List Char) (d : Data) : Out :=
  loop N remission sample r n (Stream.of text) (if remission then { d with colors := some (d.colors.getD []) } else d)

/-- a line, l.77 -/
def writeLine (N : Numbers) (p : V3) : List Char := N.print p.1 ++ ' ' :: (N.print p.2.1 ++ ' ' :: (N.print p.2.2 ++ ['\n']))

/-- writeText l.73-81 -/
def writeText (N : Numbers) (l : List V3) : List Char := l.flatMap (writeLine N)

end

end Envire.CloudText
