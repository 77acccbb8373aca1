import Mathlib.Algebra.Order.Ring.Rat

/-!
Model of the command lines of tools/env_mls.cpp l.15-63, tools/asc2ply.cpp l.22-37, tools/env_simplify.cpp l.16-26, tools/env_traversability.cpp l.11-52, and of the tool
tools/env_mls_trajectory.cpp l.15-61.

Simplifications: exact rational numbers for `double` and `float`. `argv` is the list of words of the command line (with the name of the program), `argc` its length. `boost::lexical_cast` is an arbitrary
function, `none` if it throws; for the NULL pointer at argv[argc], and behind it, the behaviour is undefined. The loading of the environment between the arguments is left out. A file is the list of its words, which are numbers
or not; a word that is not a number does not end at the end of the file. For std::cout the numbers themselves are printed.
-/

namespace Envire.ToolArgs

/-- outcome of the reading of the command line -/
inductive Res (A : Type) where
  | ok (a : A)
  | usage
  | throws
  | undefined
deriving DecidableEq

def Res.bind {A B : Type} (r : Res A) (f : A → Res B) : Res B :=
  match r with
  | .ok a => f a
  | .usage => .usage
  | .throws => .throws
  | .undefined => .undefined

/-- boost::lexical_cast of an element of `argv` -/
def cast {A : Type} (parse : String → Option A) (o : Option String) : Res A :=
  match o with
  | none => .undefined
  | some s =>
    match parse s with
    | none => .throws
    | some a => .ok a

/-- `std::string( argv[i] )` -/
def word (o : Option String) : Res String :=
  match o with
  | none => .undefined
  | some s => .ok s

/-- a variable with a default, and `if( given ) x = lexical_cast( argv[i] )` -/
def opt {A : Type} (given : Bool) (parse : String → Option A) (o : Option String) (default : A) : Res A :=
  if given then cast parse o else .ok default

structure MlsArgs where
  input : String
  output : String
  res : ℚ
  var : ℚ
  gap : ℚ
  thickness : ℚ
  area : Option String

/-- env_mls.cpp l.15-63 -/
def mlsArgs (num : String → Option ℚ) (argv : List String) : Res MlsArgs :=
  let argc := argv.length
  if argc < 3 then .usage
  else (word argv[1]?).bind fun input =>
    (opt (decide (argc ≥ 4)) num argv[3]? (1 / 20)).bind fun res =>
    (opt (decide (argc ≥ 5)) num argv[4]? res).bind fun var =>
    (opt (decide (argc ≥ 6)) num argv[5]? (1 / 2)).bind fun gap =>
    (opt (decide (argc ≥ 7)) num argv[6]? res).bind fun thickness =>
    (opt (decide (argc ≥ 8)) (fun s => some (some s)) argv[7]? none).bind fun area =>
    (word argv[2]?).bind fun output =>
    .ok ⟨input, output, res, var, gap, thickness, area⟩

structure AscArgs where
  input : String
  output : String
  sampling : Int
  cellSize : ℚ

/-- asc2ply.cpp l.22-37 -/
def ascArgs (num : String → Option ℚ) (int : String → Option Int) (argv : List String) : Res AscArgs :=
  let argc := argv.length
  if argc < 3 then .usage
  else (word argv[1]?).bind fun input =>
    (word argv[2]?).bind fun output =>
    (opt (decide (argc ≥ 4)) int argv[3]? 1).bind fun sampling =>
    (opt (decide (argc ≥ 5)) num argv[4]? 0).bind fun cellSize =>
    .ok ⟨input, output, sampling, cellSize⟩

structure SimplifyArgs where
  input : String
  output : String
  cellSize : ℚ

/-- env_simplify.cpp l.16-28, l.79 -/
def simplifyArgs (num : String → Option ℚ) (argv : List String) : Res SimplifyArgs :=
  let argc := argv.length
  if argc < 3 then .usage
  else (opt (decide (argc ≥ 3)) num argv[3]? (1 / 20)).bind fun cellSize =>
    (word argv[1]?).bind fun input =>
    (word argv[2]?).bind fun output =>
    .ok ⟨input, output, cellSize⟩

structure TravArgs where
  input : String
  slope : ℚ
  classes : Int
  width : ℚ
  clearance : ℚ

/-- env_traversability.cpp l.11-52 -/
def travArgs (num : String → Option ℚ) (int : String → Option Int) (argv : List String) : Res TravArgs :=
  let argc := argv.length
  if argc < 2 ∨ argc > 8 then .usage
  else (word argv[1]?).bind fun input =>
    (cast num argv[2]?).bind fun slope =>
    (opt (decide (argc > 2)) int argv[3]? 10).bind fun classes =>
    (opt (decide (argc > 3)) num argv[4]? (1 / 2)).bind fun width =>
    (opt (decide (argc > 4)) num argv[5]? 0).bind fun clearance =>
    .ok ⟨input, slope, classes, width, clearance⟩

/-- env_mls_trajectory.cpp l.15-28: the environment and the trajectory -/
def trajectoryArgs (argv : List String) : Res (String × String) :=
  let argc := argv.length
  if argc < 2 then .usage
  else (word argv[1]?).bind fun input => (word argv[2]?).bind fun trajectory => .ok (input, trajectory)

/-! ### env_mls_trajectory -/

/-- std::ifstream: the words that are left, whether there is white space behind the last one, and the state bits -/
structure Stream where
  words : List (Option ℚ)
  space : Bool
  fail : Bool
  eof : Bool
deriving DecidableEq

/-- `std::ifstream file( name )`; `none` if the file cannot be opened -/
def openFile (f : Option (List (Option ℚ) × Bool)) : Stream :=
  match f with
  | none => { words := [], space := false, fail := true, eof := false }
  | some (ws, space) => { words := ws, space := space, fail := false, eof := false }

/-- `file >> x` of a variable with the value `x`, `none` if it has none -/
def Stream.read (s : Stream) (x : Option ℚ) : Option ℚ × Stream :=
  if s.fail || s.eof then (x, { s with fail := true })
  else match s.words with
    | [] => (x, { s with fail := true, eof := true })
    | none :: ws => (some 0, { s with words := ws, fail := true })
    | [some y] => (some y, { s with words := [], eof := !s.space })
    | some y :: ws => (some y, { s with words := ws })

/-- the point that is read, l.32-34 -/
abbrev Read : Type := Option ℚ × Option ℚ × Option ℚ

def readPoint (s : Stream) : Read × Stream :=
  let (x, s) := s.read none
  let (y, s) := s.read none
  let (z, s) := s.read none
  ((x, y, z), s)

/-- the loop l.30-60: the points for which a line is printed; `none` if it has not ended after `fuel` rounds -/
def loop : Nat → Stream → Option (List Read)
  | 0, _ => none
  | fuel + 1, s => if s.eof then some [] else (loop fuel (readPoint s).2).map ((readPoint s).1 :: ·)

/-- the height that is printed for a map: `cell` has the means of the patches in the cell of the point, `none` if it is not in the grid; l.39-57 -/
def height (cell : Option (List ℚ)) : ℚ :=
  match cell with
  | none => -10 ^ 9
  | some means => means.foldl (fun top mean => if mean > top then mean else top) (-10 ^ 9)

end Envire.ToolArgs
