import Verif.Core.EnvModel
/-!
Model of saving and loading an environment.

Source modelled: /repo/src/core/Serialization.cpp l.347-479 (FileSerialization::writeToFile), l.481-492 (getMap), l.494-648
(readFromFile); /repo/src/core/SerializationFactory.cpp l.23-48 (createObject); /repo/src/core/Environment.cpp l.112-126
(EnvironmentItem::serialize, unserialize), l.71-103 (id prefix and suffix).

Simplifications:
* the YAML document is the list of its records; that libyaml writes and reads scalars and sequences back unchanged is trusted;
* of an object only class and id are stored here; the other fields are the subject of C25, C36 and others;
* the address of the object created for the n-th record is a parameter (`addr n`);
* opening and closing files and their failures are left out.
-/
namespace Envire

/-- std::string::rfind( '/' ): everything in front of the last slash and everything behind it -/
def splitLast : Uid → Option (Uid × Uid)
  | [] => none
  | c :: t =>
    match splitLast t with
    | some (p, q) => some (c :: p, q)
    | none => if c = '/' then some ([], t) else none

/-- EnvironmentItem::getUniqueIdPrefix, Environment.cpp l.71-80 -/
def idPrefix (id : Uid) : Uid :=
  match splitLast id with
  | some (p, _) => p
  | none => []

/-- EnvironmentItem::getUniqueIdSuffix, Environment.cpp l.82-96 -/
def idSuffix (id : Uid) : Uid :=
  match splitLast id with
  | some (_, q) => q
  | none => id

/-- value of a non-empty string of decimal digits -/
def parseNat (l : List Char) : Option Nat :=
  if l ≠ [] ∧ l.all Char.isDigit = true then some (Nat.ofDigitChars 10 l 0) else none

/-- boost::lexical_cast<long>: an optional sign and decimal digits, in the range of a 64 bit integer -/
def parseLong (l : List Char) : Option Int :=
  match l with
  | '-' :: t => (parseNat t).bind fun n => if n ≤ 2 ^ 63 then some (-(n : Int)) else none
  | '+' :: t => (parseNat t).bind fun n => if n < 2 ^ 63 then some (n : Int) else none
  | t => (parseNat t).bind fun n => if n < 2 ^ 63 then some (n : Int) else none

/-- a class name -/
abbrev Cls := List Char

/-- what the constructor of a registered class makes -/
structure ClassInfo where
  kind : Kind
  inArity : Nat
  outArity : Nat

/-- behind the last "::" (std::string::rfind( "::" ) + 2); without one the first character is dropped (npos + 2 = 1) -/
def unqualified (c : Cls) : Option Cls :=
  match c with
  | [] => none
  | x :: t => some ((go (x :: t)).getD t)
where
  go : Cls → Option Cls
    | [] => none
    | x :: t => match go t with
      | some r => some r
      | none => match x, t with
        | ':', ':' :: r => some r
        | _, _ => none

/-- SerializationFactory::createObject l.23-45, the class that is found; `none`: an exception -/
def findClass (reg : Cls → Option ClassInfo) (c : Cls) : Option ClassInfo :=
  match reg c with
  | some i => some i
  | none => (unqualified c).bind reg

inductive LinkTy | frameTree | layerTree | opIn | opOut | mapGraph
  deriving DecidableEq, Repr

/-- an element of the sequence "objects" -/
structure ObjRec where
  cls : Cls
  id : Uid
  deriving DecidableEq, Repr

/-- an element of the sequence "links": child and parent, operator and layer, map and node -/
structure LinkRec where
  ty : LinkTy
  a : Uid
  b : Uid
  deriving DecidableEq, Repr

structure Doc where
  objects : List ObjRec
  links : List LinkRec

namespace Env

/-- the links of one relation -/
def linkRecs (s : Env) (ty : LinkTy) (l : List (Obj × Obj)) : List LinkRec := l.map fun e => ⟨ty, s.uid e.1, s.uid e.2⟩

/-- FileSerialization::writeToFile l.347-479; `none`: a link leads to a deleted object. `cls` is getClassName() -/
def writeToFile (s : Env) (cls : Obj → Cls) : Option Doc :=
  let all := s.ftree ++ s.ltree ++ s.opIn ++ s.opOut ++ s.cmap
  if ∃ e ∈ all, s.owner e.1 = .dead ∨ s.owner e.2 = .dead then none
  else some {
    objects := s.items.map fun e => ⟨cls e.2, s.uid e.2⟩
    links := s.linkRecs .frameTree s.ftree ++ s.linkRecs .layerTree s.ltree ++ s.linkRecs .opIn s.opIn ++
      s.linkRecs .opOut s.opOut ++ s.linkRecs .mapGraph s.cmap }

end Env

/-- variables of readFromFile: env, number of objects made, lastID -/
structure Load where
  env : Env
  made : Nat
  last : Int

/-- a call on the environment inside readFromFile -/
def Res.onEnv (r : Res Env) (L : Load) : Res Load :=
  match r with
  | .ok s => .ok { L with env := s }
  | .throw s => .throw { L with env := s }
  | .fault f => .fault f

/-- ids without leading slash are prefixed (Environment.cpp l.118-126, Serialization.cpp l.485-487); reading the first character
of an empty string is undefined -/
def slashed (id : Uid) : Option Uid :=
  match id with
  | [] => none
  | c :: t => if c = '/' then some (c :: t) else some ('/' :: c :: t)

/-- readFromFile l.546-551: constructor and unserialize; the object has no references yet -/
def createItem (s : Env) (o : Obj) (i : ClassInfo) (id : Uid) : Env :=
  { s with kind := upd s.kind o i.kind, uid := upd s.uid o id, owner := upd s.owner o .free, held := upd s.held o false,
           inArity := upd s.inArity o i.inArity, outArity := upd s.outArity o i.outArity }

/-- l.555-559: the item "/0" is the root node; the cast of anything but a frame node gives NULL, which is asserted against -/
def keepRoot (s : Env) (o : Obj) : Res Env :=
  if s.uid o = ['/', '0'] then
    if s.kind o = .frame then .ok { s with rootNode := o } else .fault .assertion
  else .ok s

/-- l.561-573 -/
def noteId (last : Int) (id : Uid) : Int :=
  match parseLong (idSuffix id) with
  | some n => if n > last then n else last
  | none => last

/-- l.540-574: one element of "objects" -/
def loadObject (reg : Cls → Option ClassInfo) (addr : Nat → Obj) (L : Load) (x : ObjRec) : Res Load :=
  match findClass reg x.cls with
  | none => .throw L
  | some i =>
    match slashed x.id with
    | none => .fault .emptyString
    | some id =>
      let o := addr L.made
      (((createItem L.env o i id).attachItem o).onEnv { L with made := L.made + 1 }).bind fun L =>
      ((keepRoot L.env o).onEnv L).bind fun L => .ok { L with last := noteId L.last (L.env.uid o) }

/-- getMap l.481-492; the outer `none` is undefined behaviour, the inner one an exception -/
def getMap (s : Env) (want : Kind → Bool) (id : Uid) : Option (Option Obj) :=
  match slashed id with
  | none => none
  | some id => some ((s.getItem id).filter fun o => want (s.kind o))

/-- std::map::insert( make_pair ) keeps an existing entry -/
def insNew (k v : Obj) (l : List (Obj × Obj)) : List (Obj × Obj) :=
  if k ∈ l.map (·.1) then l else ins k v l

/-- static types of the two ends -/
def LinkTy.wantA : LinkTy → Kind → Bool
  | .frameTree, k => k = .frame
  | .layerTree, k => k.isLayer
  | .opIn, k => k = .op
  | .opOut, k => k = .op
  | .mapGraph, k => k = .cmap

def LinkTy.wantB : LinkTy → Kind → Bool
  | .frameTree, k => k = .frame
  | .layerTree, k => k.isLayer
  | .opIn, k => k.isLayer
  | .opOut, k => k.isLayer
  | .mapGraph, k => k = .frame

/-- the insertion into the container of the environment -/
def LinkTy.store (s : Env) (a b : Obj) : LinkTy → Env
  | .frameTree => { s with ftree := insNew a b s.ftree }
  | .layerTree => { s with ltree := ins a b s.ltree }
  | .opIn => { s with opIn := ins a b s.opIn }
  | .opOut => { s with opOut := ins a b s.opOut }
  | .mapGraph => { s with cmap := insNew a b s.cmap }

/-- l.576-614: one element of "links" -/
def loadLink (L : Load) (x : LinkRec) : Res Load :=
  match getMap L.env x.ty.wantA x.a, getMap L.env x.ty.wantB x.b with
  | some (some a), some (some b) => .ok { L with env := x.ty.store L.env a b }
  | none, _ => .fault .emptyString
  | _, none => .fault .emptyString
  | _, _ => .throw L

/-- FileSerialization::readFromFile l.494-648 -/
def readFromFile (reg : Cls → Option ClassInfo) (addr : Nat → Obj) (r : Obj) (d : Doc) : Res Load :=
  (((Env.init r).detachShallow r).onEnv ⟨Env.init r, 0, 0⟩).bind fun L =>
  (foldRes (loadObject reg addr) d.objects L).bind fun L =>
  (foldRes loadLink d.links L).bind fun L =>
    if L.last = 2 ^ 63 - 1 then .fault .overflow else .ok { L with env := { L.env with lastId := (L.last + 1).toNat } }

end Envire
