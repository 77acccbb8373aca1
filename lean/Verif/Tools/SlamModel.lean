import Verif.Core.ListLemmas
/-! Model of the exchange with slam6d: /repo/tools/env_slam6d.cpp l.59-175.

Numbers are rational and printed and read exactly. A file of poses is a list of lines, a line a list of words, where a word
that is no number is `none`. Not modelled: the choice and the order of the clouds (l.75-101, an input), the place the links
point to, the angles of the pose file (an input, `euler`), and loading and saving the environment. -/
namespace Envire
namespace Slam

abbrev Text := List Char
abbrev M3 := Fin 3 → Fin 3 → Rat
abbrev V3 := Fin 3 → Rat

/-- a transform of a frame: `linear()` and `translation()` -/
structure Pose where
  rot : M3
  pos : V3

/-- l.60-61 -/
def S : M3 := fun i j => if (i = 0 ∧ j = 1) ∨ (i = 1 ∧ j = 2) ∨ (i = 2 ∧ j = 0) then 1 else 0

def mul (a b : M3) : M3 := fun i j => a i 0 * b 0 j + a i 1 * b 1 j + a i 2 * b 2 j
def app (a : M3) (v : V3) : V3 := fun i => a i 0 * v 0 + a i 1 * v 1 + a i 2 * v 2
def tr (a : M3) : M3 := fun i j => a j i

/-- `format("scan%03d")`, l.108 and l.142 -/
def scan (k : Nat) : Text :=
  "scan".toList ++ List.replicate (3 - (Nat.toDigits 10 k).length) '0' ++ Nat.toDigits 10 k

/-- what a file of the directory holds -/
inductive File
  | link
  | pose (pos angles : V3)
  | id (t : Text)
  | frames (lines : List (List (Option Rat)))

abbrev Dir := List (Text × File)

/-- a point cloud: its id, and the frame it is attached to -/
structure Cloud where
  id : Text
  frame : Option Nat

inductive Out (α : Type)
  | ok (a : α)
  | throw
  | crash

def Out.bind {α β : Type} : Out α → (α → Out β) → Out β
  | .ok a, k => k a
  | .throw, _ => .throw
  | .crash, _ => .crash

/-- an `ofstream` replaces the file -/
def put (n : Text) (f : File) (d : Dir) : Dir := (n, f) :: eraseKey n d

/-- the body of the loop l.103-125; `create_symlink` throws if the name exists, and the frame is not checked -/
def writeScan (euler : M3 → V3) (T : Nat → Pose) (k : Nat) (c : Cloud) (d : Dir) : Out Dir :=
  if (look (scan k ++ ".ply".toList) d).isSome then .throw
  else
    let d := put (scan k ++ ".ply".toList) .link d
    match c.frame with
    | none => .crash
    | some f =>
      let d := put (scan k ++ ".pose".toList) (.pose (app S (T f).pos) (euler (mul (mul S (T f).rot) (tr S)))) d
      .ok (put (scan k ++ ".id".toList) (.id (c.id ++ ['\n'])) d)

/-- l.102-125 -/
def generate (euler : M3 → V3) (T : Nat → Pose) : Nat → List Cloud → Dir → Out Dir
  | _, [], d => .ok d
  | k, c :: cs, d => (writeScan euler T k c d).bind (generate euler T (k + 1) cs)

/-! ### update -/

/-- does the text start with characters like these -/
def starts : List (Char → Bool) → Text → Bool
  | [], _ => true
  | _ :: _, [] => false
  | p :: ps, c :: t => p c && starts ps t

/-- the regular expression `scan(\d{3})\.frames`, l.133 -/
def rx : List (Char → Bool) :=
  "scan".toList.map (fun c d => d == c) ++ [Char.isDigit, Char.isDigit, Char.isDigit] ++
    ".frames".toList.map (fun c d => d == c)

/-- `regex_search` and the number of the first match, l.138-141 -/
def search : Text → Option Nat
  | [] => none
  | c :: t => if starts rx (c :: t) then some (Nat.ofDigitChars 10 (((c :: t).drop 4).take 3) 0) else search t

/-- `ss >> trans.matrix()(i)` for i, i+1, .., 15 (l.151-152): what is no number sets the entry to zero and stops, the end of
the line leaves the rest as it was -/
def readLine (m : Nat → Rat) (i : Nat) : List (Option Rat) → Nat → Rat
  | [] => m
  | w :: ws =>
    if 16 ≤ i then m
    else match w with
      | none => fun j => if j = i then 0 else m j
      | some v => readLine (fun j => if j = i then v else m j) (i + 1) ws

/-- the loop over the lines, l.146-153; `m` is the uninitialized matrix -/
def readFrames (m : Nat → Rat) (lines : List (List (Option Rat))) : Nat → Rat :=
  lines.foldl (fun m l => readLine m 0 l) m

/-- the linear and the translational part; the entries are stored by columns -/
def parts (m : Nat → Rat) : Pose := ⟨fun r c => m (4 * c.val + r.val), fun r => m (12 + r.val)⟩

/-- l.156-157 -/
def back (p : Pose) : Pose := ⟨mul (mul (tr S) p.rot) S, app (tr S) p.pos⟩

def isBlank (c : Char) : Bool := c == ' ' || c == '\n' || c == '\t' || c == '\r'

/-- `id_stream >> unique_id`, l.162 -/
def firstWord (t : Text) : Text := (t.dropWhile isBlank).takeWhile (fun c => !isBlank c)

/-- the lines of the frames file, l.145-149; none if it cannot be opened -/
def linesOf (d : Dir) (k : Nat) : List (List (Option Rat)) :=
  match look (scan k ++ ".frames".toList) d with
  | some (.frames l) => l
  | _ => []

/-- the id of the cloud, l.160-162 -/
def idOf (d : Dir) (k : Nat) : Text :=
  match look (scan k ++ ".id".toList) d with
  | some (.id t) => firstWord t
  | _ => []

/-- one entry of the directory, l.135-171; `junk` is what is found in the uninitialized matrix, `find` is
`getItem<Pointcloud>` -/
def updateOne (find : Text → Option Cloud) (d : Dir) (junk : Nat → Rat) (path : Text) (T : Nat → Pose) : Out (Nat → Pose) :=
  match search path with
  | none => .ok T
  | some k =>
    match find (idOf d k) with
    | none => .crash
    | some c =>
      match c.frame with
      | none => .crash
      | some f => .ok (fun g => if g = f then back (parts (readFrames junk (linesOf d k))) else T g)

/-- l.135-171, with the entries in the order of the `directory_iterator` -/
def update (find : Text → Option Cloud) (d : Dir) (junk : Nat → Rat) : List Text → (Nat → Pose) → Out (Nat → Pose)
  | [], T => .ok T
  | p :: ps, T => (updateOne find d junk p T).bind (update find d junk ps)

end Slam
end Envire
