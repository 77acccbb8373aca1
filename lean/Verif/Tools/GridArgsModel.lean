/-! Model of the command lines of two tools: /repo/tools/env_create_grid.cpp l.27-120 and /repo/tools/env_add_grid.cpp
l.27-112.

`a` is the argument vector with the name of the program first, so that `argc` is its length; the pointer behind the last
word is null, and reading it or anything behind it is a crash. `boost::lexical_cast` is an input (`Reader`), and so are the
items of the loaded environment (`World`). Not modelled: loading and saving the environment, reading the raster file, and
the creation of the grid from the request. -/
namespace Envire
namespace GridArgs

/-- `boost::lexical_cast<int>` and `<double>`; none where it throws -/
structure Reader (R : Type) where
  int : String → Option Int
  dbl : String → Option R

/-- a grid of the environment; `frame` is what `getFrameNode()` returns -/
structure MapInfo (R : Type) where
  width : Int
  height : Int
  sx : R
  sy : R
  ox : R
  oy : R
  frame : Option String

/-- the loaded environment: `getItem<GridBase>`, `getItem<FrameNode>`, and the id of the root -/
structure World (R : Type) where
  maps : String → Option (MapInfo R)
  frames : String → Bool
  root : String

/-- what is handed to `GridBase::create`, to `setFrameNode` and to `createBand` -/
structure Request (R : Type) where
  type : String
  width : Int
  height : Int
  sx : R
  sy : R
  ox : R
  oy : R
  frame : String
  bands : List String
  deriving DecidableEq

inductive Outcome (R : Type)
  | usage
  | notFound (id : String)
  | badNumber
  | crash
  | make (r : Request R)
  deriving DecidableEq

variable {R : Type}

/-- reading `argv[i]` -/
def word (a : List String) (i : Nat) (k : String → Outcome R) : Outcome R :=
  match a[i]? with
  | none => .crash
  | some w => k w

/-- a number or the exception -/
def num {N : Type} (o : Option N) (k : N → Outcome R) : Outcome R :=
  match o with
  | none => .badNumber
  | some n => k n

/-- env_create_grid.cpp l.92-118, where `argi` is `i` -/
def framePart (W : World R) (a : List String) (i : Nat) (mk : String → List String → Request R) : Outcome R :=
  word a i fun w =>
  if w ≠ "-frame" then .usage
  else if a.length < 11 then .usage
  else word a (i + 1) fun f =>
  if W.frames f = false then .notFound f
  else .make (mk f (if i + 2 < a.length ∧ a[i + 2]? = some "-bands" then a.drop (i + 3) else []))

/-- env_create_grid.cpp l.27-120; l.126 reads the id of the frame -/
def createGrid [OfNat R 0] (D : Reader R) (W : World R) (a : List String) : Outcome R :=
  if a.length < 4 then .usage
  else word a 2 fun type => word a 3 fun w3 =>
  if w3 = "-map" then
    if a.length ≠ 5 then .usage
    else word a 4 fun id =>
      match W.maps id with
      | none => .notFound id
      | some m =>
        match m.frame with
        | none => .crash
        | some f => .make ⟨type, m.width, m.height, m.sx, m.sy, m.ox, m.oy, f, []⟩
  else if a.length < 7 then .usage
  else num (D.int w3) fun width =>
    word a 4 fun w4 => num (D.int w4) fun height =>
    word a 5 fun w5 => num (D.dbl w5) fun sx =>
    word a 6 fun w6 => num (D.dbl w6) fun sy =>
    if 7 < a.length then
      if a.length < 9 then .usage
      else word a 7 fun w7 =>
        if w7 ≠ "-frame" then
          num (D.dbl w7) fun ox => word a 8 fun w8 => num (D.dbl w8) fun oy =>
            framePart W a 9 (fun f bs => ⟨type, width, height, sx, sy, ox, oy, f, bs⟩)
        else framePart W a 7 (fun f bs => ⟨type, width, height, sx, sy, 0, 0, f, bs⟩)
    else .make ⟨type, width, height, sx, sy, 0, 0, W.root, []⟩

/-! ### env_add_grid.cpp -/

/-- where the new data ends up -/
inductive Place
  /-- in a map at the root node, l.69-70 -/
  | root
  /-- in a map at a new child of the root with the transform of the file, l.71-77 -/
  | ownFrame
  /-- in a map at the given frame -/
  | frame (id : String)
  deriving DecidableEq

inductive Added
  | usage
  | crash
  /-- the map read from the file is attached, l.101-107 -/
  | direct (p : Place)
  /-- a new map of the given type is attached and the band copied into it, l.80-99 and l.108-112 -/
  | typed (t : String) (p : Place)
  /-- the band is copied into the given map, l.108-112 -/
  | band (map : String)
  deriving DecidableEq

/-- the options after l.41-65: the frame id, the map id and the map type; `none` where the usage is printed -/
def options (a : List String) : Option (String × String × String) :=
  match a[4]? with
  | none => some ("", "", "")
  | some mode =>
    let typed : Bool := mode ≠ "-frame" ∧ mode ≠ "-map"
    let next := if typed then 6 else 5
    let type := if typed then mode else ""
    if next < a.length then
      if a.length ≠ next + 2 then none
      else
        match a[next]?, a[next + 1]? with
        | some m, some v =>
          if m = "-frame" then some (v, "", type) else if m = "-map" then some ("", v, type) else some ("", "", type)
        | _, _ => none
    else some ("", "", type)

/-- env_add_grid.cpp l.27-112; `ident` says whether the transform of the file is approximately the identity -/
def addGrid (ident : Bool) (a : List String) : Added :=
  if a.length < 4 ∨ 6 < a.length then .usage
  else
    match options a with
    | none => .usage
    | some (frame, map, type) =>
      let place : Option Place :=
        if frame = "" ∧ map = "" then some (if ident then .root else .ownFrame)
        else if frame = "" then none else some (.frame frame)
      if type ≠ "" then
        match place with
        | none => .usage
        | some p => .typed type p
      else
        match place with
        | some p => .direct p
        | none => .band map

end GridArgs
end Envire
