/-
Model of the environment core of slam-envire: items, ids, relations, events.

Source modelled: /repo/src/core/Environment.cpp (whole file except relativeTransform, serialization and
synchronisation, which have their own modules), /repo/src/core/Environment.hpp l.36-57 (containers),
/repo/src/core/Operator.cpp l.20-66 (arity checks), /repo/src/core/Layer.cpp l.101-118
(detachFromOperator), /repo/src/core/Event.cpp l.55-58.

Simplifications (global):
* one environment is modelled in full; other environments act on items only through `Op.extAttach` and
  `Op.extDetach`;
* `held o` says whether some intrusive_ptr outside of the environment refers to `o`; the reference count
  itself is not modelled, only "is there an outside reference";
* no integer overflow of `last_id` (long) and `numeric_id` (int);
* NULL arguments (undefined behaviour in the code) are not expressible;
* listeners do not call back into the environment while they handle an event.
-/
namespace Envire

/-- address of a C++ object -/
abbrev Obj := Nat
/-- unique id (std::string) -/
abbrev Uid := List Char

/-- dynamic type of an EnvironmentItem, as far as the environment distinguishes it -/
inductive Kind | frame | layer | cmap | op | other
  deriving DecidableEq, Repr

/-- CartesianMap derives from Layer (Layer.hpp) -/
def Kind.isLayer : Kind → Bool
  | .layer => true
  | .cmap => true
  | _ => false

/-- state of the object at an address: not allocated (deleted), alive and not attached
(`env == NULL`), attached to this environment, attached to another environment -/
inductive Owner | dead | free | here | elsewhere
  deriving DecidableEq, Repr

/-- EventTypes.hpp l.12-19 -/
inductive EvType | item | frameTree | frameNode | layerTree | root
  deriving DecidableEq, Repr

/-- EventTypes.hpp l.21-26 -/
inductive EvOp | add | remove | update
  deriving DecidableEq, Repr

/-- Event.hpp l.20-54; the ids are those `Event::ref` (Event.cpp l.80-84) reads when the event is received -/
structure Ev where
  ty : EvType
  op : EvOp
  a : Obj
  b : Option Obj
  ida : Uid
  idb : Uid
  deriving DecidableEq, Repr

/-- why a call has no defined result -/
inductive Fault | assertion | useAfterFree | illTyped | emptyString | diverge | overflow
  deriving DecidableEq, Repr

/-- outcome of a call: normal return, C++ exception (with the state at the throw), undefined -/
inductive Res (σ : Type) where
  | ok (s : σ)
  | throw (s : σ)
  | fault (f : Fault)

/-- sequencing: exceptions propagate with the state reached -/
def Res.bind {σ : Type} : Res σ → (σ → Res σ) → Res σ
  | .ok s, f => f s
  | .throw s, _ => .throw s
  | .fault e, _ => .fault e

/-- a loop over a fixed list, stopping at the first exception or fault -/
def foldRes {σ α : Type} (f : σ → α → Res σ) : List α → σ → Res σ
  | [], s => .ok s
  | x :: xs, s => (f s x).bind (foldRes f xs)

/-- insertion into a std::multimap (after equal keys); for a std::map used only when the key is absent -/
def ins {κ ν : Type} [LT κ] [DecidableLT κ] (k : κ) (v : ν) : List (κ × ν) → List (κ × ν)
  | [] => [(k, v)]
  | p :: t => if k < p.1 then (k, v) :: p :: t else p :: ins k v t

/-- std::map::find / std::multimap::find (libstdc++: first entry with the key) -/
def look {κ ν : Type} [DecidableEq κ] (k : κ) : List (κ × ν) → Option ν
  | [] => none
  | p :: t => if p.1 = k then some p.2 else look k t

/-- std::map::erase(key) / std::multimap::erase(key) -/
def eraseKey {κ ν : Type} [DecidableEq κ] (k : κ) (l : List (κ × ν)) : List (κ × ν) :=
  l.filter (fun p => decide (p.1 ≠ k))

/-- update of a total function at one address -/
def upd {β : Type} (f : Obj → β) (o : Obj) (v : β) : Obj → β := fun x => if x = o then v else f x

/-- Environment.hpp l.33-57 together with the item fields the environment reads
(EnvironmentItem: unique_id, env; Operator: arities) -/
structure Env where
  kind : Obj → Kind
  uid : Obj → Uid
  owner : Obj → Owner
  held : Obj → Bool
  inArity : Obj → Nat
  outArity : Obj → Nat
  /-- std::map<std::string, EnvironmentItem::Ptr> items -/
  items : List (Uid × Obj)
  /-- std::map<FrameNode*, FrameNode*> child → parent -/
  ftree : List (Obj × Obj)
  /-- std::multimap<Layer*, Layer*> child → parent -/
  ltree : List (Obj × Obj)
  /-- std::multimap<Operator*, Layer*> -/
  opIn : List (Obj × Obj)
  opOut : List (Obj × Obj)
  /-- std::map<CartesianMap*, FrameNode*> -/
  cmap : List (Obj × Obj)
  lastId : Nat
  pfx : Uid
  rootNode : Obj
  /-- every event passed to `Environment::handle`, oldest first -/
  log : List Ev

namespace Env

/-! ### queries -/

/-- Environment.hpp l.96-103 -/
def getItem (s : Env) (id : Uid) : Option Obj := look id s.items
/-- Environment.cpp l.480-487 -/
def getParent (s : Env) (o : Obj) : Option Obj := look o s.ftree
/-- Environment.cpp l.514-524 -/
def getChildren (s : Env) (p : Obj) : List Obj := (s.ftree.filter (fun e => decide (e.2 = p))).map (·.1)
/-- Environment.cpp l.489-498 -/
def getLayerParents (s : Env) (o : Obj) : List Obj := (s.ltree.filter (fun e => decide (e.1 = o))).map (·.2)
/-- Environment.cpp l.526-548 -/
def getLayerChildren (s : Env) (p : Obj) : List Obj := (s.ltree.filter (fun e => decide (e.2 = p))).map (·.1)
/-- Environment.cpp l.590-596 -/
def getFrameNode (s : Env) (m : Obj) : Option Obj := look m s.cmap
/-- Environment.cpp l.598-607 -/
def getMaps (s : Env) (f : Obj) : List Obj := (s.cmap.filter (fun e => decide (e.2 = f))).map (·.1)
/-- Environment.cpp l.681-690 -/
def getInputs (s : Env) (op : Obj) : List Obj := (s.opIn.filter (fun e => decide (e.1 = op))).map (·.2)
/-- Environment.cpp l.692-701 -/
def getOutputs (s : Env) (op : Obj) : List Obj := (s.opOut.filter (fun e => decide (e.1 = op))).map (·.2)
/-- Environment.cpp l.703-716 -/
def getLayersGeneratedFrom (s : Env) (l : Obj) : List Obj :=
  (s.opIn.filter (fun e => decide (e.2 = l))).flatMap (fun e => s.getOutputs e.1)
/-- Environment.cpp l.718-727 -/
def getGenerator (s : Env) (l : Obj) : Option Obj :=
  (s.opOut.find? (fun e => decide (e.2 = l))).map (·.1)

/-- EnvironmentItem::isAttached, Environment.cpp l.53-56: `env != NULL` -/
def isAttached (s : Env) (o : Obj) : Bool :=
  match s.owner o with
  | .here => true
  | .elsewhere => true
  | _ => false

/-! ### events -/

/-- destruction of the temporary intrusive_ptr inside an Event: an object nobody else refers to is deleted
(Environment.cpp l.24-25, Event.cpp l.55-58) -/
def dropTmp (s : Env) (o : Obj) : Env :=
  if s.owner o = .free ∧ s.held o = false then { s with owner := upd s.owner o .dead } else s

/-- Environment::handle( Event(...) ) l.172-175; constructing the Event takes a reference of `a` and `b`,
which is undefined for deleted objects -/
def emit (s : Env) (ty : EvType) (op : EvOp) (a : Obj) (b : Option Obj) : Res Env :=
  match b with
  | none =>
    if s.owner a = .dead then .fault .useAfterFree
    else .ok (dropTmp { s with log := s.log ++ [⟨ty, op, a, none, s.uid a, []⟩] } a)
  | some b =>
    if s.owner a = .dead ∨ s.owner b = .dead then .fault .useAfterFree
    else .ok (dropTmp (dropTmp
      { s with log := s.log ++ [⟨ty, op, a, some b, s.uid a, s.uid b⟩] } b) a)

/-! ### attaching -/

/-- the loop of l.279-283: first number ≥ n whose candidate id is not taken. `fuel` bounds the number of
iterations; `Verif.Core.EnvLemmas.freshNum_spec` shows that `items.length` iterations always suffice -/
def freshNum (keys : List Uid) (base : Uid) : Nat → Nat → Nat
  | 0, n => n
  | fuel + 1, n => if base ++ Nat.toDigits 10 n ∈ keys then freshNum keys base fuel (n + 1) else n

/-- l.269-273: empty id becomes the prefix, relative ids are prefixed -/
def absId (s : Env) (o : Obj) : Uid :=
  let id1 := if s.uid o = [] then s.pfx else s.uid o
  if id1.head? = some '/' then id1 else s.pfx ++ id1

/-- l.267-288: id of an unattached item -/
def assignId (s : Env) (o : Obj) : Env :=
  let id2 := s.absId o
  if id2.getLast? = some '/' then
    let n := freshNum (s.items.map (·.1)) id2 s.items.length (s.lastId + 1)
    { s with lastId := n, uid := upd s.uid o (id2 ++ Nat.toDigits 10 n) }
  else { s with uid := upd s.uid o id2 }

/-- l.296-306 -/
def attachCore (s : Env) (o : Obj) : Res Env :=
  if s.uid o ∈ s.items.map (·.1) then .throw s
  else emit { s with items := ins (s.uid o) o s.items, owner := upd s.owner o .here } .item .add o none

/-- Environment::attachItem(EnvironmentItem*) l.263-307. An item of another environment is detached there
(l.293); the temporary Ptr returned by detach() is the last reference if nobody else holds one, the item
is then deleted and used afterwards. -/
def attachItem (s : Env) (o : Obj) : Res Env :=
  match s.owner o with
  | .dead => .fault .useAfterFree
  | .free => attachCore (s.assignId o) o
  | .here => attachCore s o
  | .elsewhere =>
    if s.held o then attachCore { s with owner := upd s.owner o .free } o else .fault .useAfterFree

/-- `if( !x->isAttached() ) attachItem( x );` -/
def ensureAttached (s : Env) (o : Obj) : Res Env :=
  match s.owner o with
  | .dead => .fault .useAfterFree
  | .free => attachItem s o
  | _ => .ok s

/-! ### frame tree -/

/-- l.450-458 -/
def removeChildF (s : Env) (p c : Obj) : Res Env :=
  if s.getParent c = some p then
    (emit s .frameTree .remove p (some c)).bind fun s => .ok { s with ftree := eraseKey c s.ftree }
  else .ok s

/-- l.416-419 -/
def dropParent (s : Env) (c : Obj) : Res Env :=
  match s.getParent c with
  | some q => removeChildF s q c
  | none => .ok s

/-- l.404-424; std::map::insert does nothing if the key is present, which is excluded by the preceding
removal -/
def addChildF (s : Env) (p c : Obj) : Res Env :=
  if p = c then .fault .assertion
  else if s.getParent c = some p then .ok s
  else (ensureAttached s c).bind fun s =>
    (dropParent s c).bind fun s =>
      emit { s with ftree := ins c p s.ftree } .frameTree .add p (some c)

/-! ### layer tree -/

/-- l.464-473: erases the first entry (child, parent) -/
def removeChildL (s : Env) (p c : Obj) : Res Env :=
  (emit s .layerTree .remove p (some c)).bind fun s => .ok { s with ltree := s.ltree.erase (c, p) }

/-- l.426-448 -/
def addChildL (s : Env) (p c : Obj) : Res Env :=
  if p = c then .fault .assertion
  else if look c s.ltree = some p then .ok s
  else (ensureAttached s c).bind fun s =>
    emit { s with ltree := ins c p s.ltree } .layerTree .add p (some c)

/-! ### maps and frames -/

/-- l.580-588 -/
def detachFrame (s : Env) (m f : Obj) : Res Env :=
  if s.getFrameNode m = some f then
    (emit s .frameNode .remove m (some f)).bind fun s => .ok { s with cmap := eraseKey m s.cmap }
  else .ok s

/-- l.558-572, old link different from the new one -/
def dropFrame (s : Env) (m : Obj) : Res Env :=
  match s.getFrameNode m with
  | some g => detachFrame s m g
  | none => .ok s

/-- l.558-577 -/
def linkFrame (s : Env) (m f : Obj) : Res Env :=
  if s.getFrameNode m = some f then .ok s
  else (dropFrame s m).bind fun s =>
      emit { s with cmap := ins m f s.cmap } .frameNode .add m (some f)

/-- Environment::setFrameNode l.550-578 for an attached map -/
def setFrameAttached (s : Env) (m f : Obj) : Res Env :=
  (ensureAttached s f).bind fun s => linkFrame s m f

/-- Environment::attachItem(CartesianMap*, FrameNode*) l.251-261 -/
def attachMap (s : Env) (m : Obj) (node : Option Obj) : Res Env :=
  (attachItem s m).bind fun s =>
    match s.getFrameNode m with
    | some _ => .ok s
    | none => setFrameAttached s m (node.getD s.rootNode)

/-- l.555-556 -/
def ensureMapAttached (s : Env) (m : Obj) : Res Env :=
  match s.owner m with
  | .dead => .fault .useAfterFree
  | .free => attachMap s m none
  | _ => .ok s

/-- Environment::setFrameNode l.550-578; `attachItem(map)` resolves to the CartesianMap overload, which
first links an unattached map to the root node -/
def setFrameNode (s : Env) (m f : Obj) : Res Env :=
  (ensureAttached s f).bind fun s =>
    (ensureMapAttached s m).bind fun s => linkFrame s m f

/-! ### operators -/

/-- l.609-625 -/
def addInput (s : Env) (op l : Obj) : Res Env :=
  if look op s.opIn = some l then .ok s
  else (ensureAttached s op).bind fun s => (ensureAttached s l).bind fun s =>
    .ok { s with opIn := ins op l s.opIn }

/-- l.627-643 -/
def addOutput (s : Env) (op l : Obj) : Res Env :=
  if look op s.opOut = some l then .ok s
  else (ensureAttached s op).bind fun s => (ensureAttached s l).bind fun s =>
    .ok { s with opOut := ins op l s.opOut }

/-- l.645-648 -/
def removeInputs (s : Env) (op : Obj) : Env := { s with opIn := eraseKey op s.opIn }
/-- l.663-666 -/
def removeOutputs (s : Env) (op : Obj) : Env := { s with opOut := eraseKey op s.opOut }
/-- l.650-661 -/
def removeInput (s : Env) (op l : Obj) : Env :=
  { s with opIn := s.opIn.filter (fun e => decide (e ≠ (op, l))) }
/-- l.668-679 -/
def removeOutput (s : Env) (op l : Obj) : Env :=
  { s with opOut := s.opOut.filter (fun e => decide (e ≠ (op, l))) }

/-- Operator.cpp l.26-32. `env->` is dereferenced first: an unattached operator is a NULL dereference -/
def opAddInput (s : Env) (op l : Obj) : Res Env :=
  if s.owner op ≠ .here then .fault .assertion
  else if s.inArity op ≠ 0 ∧ s.inArity op ≤ (s.getInputs op).length then .throw s
  else s.addInput op l

/-- Operator.cpp l.20-24 -/
def opSetInput (s : Env) (op l : Obj) : Res Env :=
  if s.owner op ≠ .here then .fault .assertion
  else opAddInput (s.removeInputs op) op l

/-- Operator.cpp l.40-46 -/
def opAddOutput (s : Env) (op l : Obj) : Res Env :=
  if s.owner op ≠ .here then .fault .assertion
  else if s.outArity op ≠ 0 ∧ s.outArity op ≤ (s.getOutputs op).length then .throw s
  else s.addOutput op l

/-- Operator.cpp l.34-38 -/
def opSetOutput (s : Env) (op l : Obj) : Res Env :=
  if s.owner op ≠ .here then .fault .assertion
  else opAddOutput (s.removeOutputs op) op l

/-- Layer.cpp l.101-118; removes an *input* link -/
def detachFromOperator (s : Env) (l : Obj) : Res Env :=
  if s.owner l ≠ .here then .fault .assertion
  else match s.getGenerator l with
    | some op => .ok (s.removeInput op l)
    | none => .ok s

/-! ### detaching -/

/-- the entry joins `o` with something, findMapItem l.309-317 -/
def mentions (o : Obj) (e : Obj × Obj) : Bool := decide (e.1 = o ∨ e.2 = o)

/-- l.357-388: the removal calls are collected from all five relations first and run afterwards -/
def unlinkAll (s : Env) (o : Obj) : Res Env :=
  (foldRes (fun s (e : Obj × Obj) => removeChildF s e.2 e.1) (s.ftree.filter (mentions o)) s).bind fun s1 =>
  (foldRes (fun s (e : Obj × Obj) => removeChildL s e.2 e.1) (s.ltree.filter (mentions o)) s1).bind fun s2 =>
  (foldRes (fun s (e : Obj × Obj) => .ok (removeInput s e.1 e.2)) (s.opIn.filter (mentions o)) s2).bind fun s3 =>
  (foldRes (fun s (e : Obj × Obj) => .ok (removeOutput s e.1 e.2)) (s.opOut.filter (mentions o)) s3).bind fun s4 =>
  foldRes (fun s (e : Obj × Obj) => detachFrame s e.1 e.2) (s.cmap.filter (mentions o)) s4

/-- what becomes of an object when the environment drops its reference -/
def afterRelease (s : Env) (o : Obj) : Owner := if s.held o then .free else .dead

/-- l.390-396. The entry erased is the one stored under the item's id; if that is another object (the
item was not attached here) the other object keeps its `env` pointer, and is deleted while "attached" if
nobody holds it (assertion in ~EnvironmentItem) -/
def dropItem (s : Env) (o : Obj) : Res Env :=
  (emit s .item .remove o none).bind fun s =>
    match look (s.uid o) s.items with
    | none => .fault .assertion
    | some q =>
      if q = o then
        .ok { s with items := eraseKey (s.uid o) s.items, owner := upd s.owner o (s.afterRelease o) }
      else if s.held q then .ok { s with items := eraseKey (s.uid o) s.items }
      else .fault .assertion

/-- Environment::detachItem(item, false) l.319-397 -/
def detachShallow (s : Env) (o : Obj) : Res Env :=
  if s.owner o = .dead then .fault .useAfterFree
  else if s.uid o ∉ s.items.map (·.1) then .fault .assertion
  else (s.unlinkAll o).bind fun s => s.dropItem o

/-- Environment::detachItem(item, true) l.319-397. The recursion of the code is unbounded; `fuel` bounds its
depth and running out of fuel is the outcome "diverges" -/
def detachDeep : Nat → Env → Obj → Res Env
  | 0, _, _ => .fault .diverge
  | fuel + 1, s, o =>
    if s.owner o = .dead then .fault .useAfterFree
    else if s.uid o ∉ s.items.map (·.1) then .fault .assertion
    else
      (if s.kind o = .frame then
        (foldRes (detachDeep fuel) (s.getChildren o) s).bind fun s =>
          foldRes (detachDeep fuel) (s.getMaps o) s
       else .ok s).bind fun s => s.detachShallow o

end Env

/-! ### histories -/

/-- calls of the public API, plus what the owners of references and other environments may do -/
inductive Op
  /-- `new` at an unused address -/
  | alloc (o : Obj) (k : Kind) (id : Uid) (held : Bool) (inA outA : Nat)
  /-- somebody stores / drops the last outside Ptr -/
  | hold (o : Obj)
  | release (o : Obj)
  /-- EnvironmentItem::setUniqueId -/
  | setUid (o : Obj) (id : Uid)
  | setPrefix (p : Uid)
  /-- another environment attaches / detaches the item -/
  | extAttach (o : Obj) (id : Uid)
  | extDetach (o : Obj)
  | attach (o : Obj)
  | attachMap (m : Obj) (node : Option Obj)
  | detach (o : Obj) (deep : Bool)
  | modified (o : Obj)
  | addChildF (p c : Obj)
  | removeChildF (p c : Obj)
  | addChildL (p c : Obj)
  | removeChildL (p c : Obj)
  | setFrame (m f : Obj)
  | detachFrame (m f : Obj)
  | addInput (op l : Obj)
  | addOutput (op l : Obj)
  | removeInput (op l : Obj)
  | removeOutput (op l : Obj)
  | removeInputs (op : Obj)
  | removeOutputs (op : Obj)
  | opAddInput (op l : Obj)
  | opSetInput (op l : Obj)
  | opAddOutput (op l : Obj)
  | opSetOutput (op l : Obj)
  | detachFromOperator (l : Obj)
  deriving DecidableEq, Repr

namespace Env

/-- l.242-249; `*envPrefix.begin()` of an empty string is undefined -/
def setPrefix (s : Env) (p : Uid) : Res Env :=
  if p = [] then .fault .emptyString
  else
    let p1 := if p.head? = some '/' then p else '/' :: p
    let p2 := if p1.getLast? = some '/' then p1 else p1 ++ ['/']
    .ok { s with pfx := p2 }

/-- shape of an id of an attached item -/
def goodId (id : Uid) : Bool := id.head? = some '/' && id.getLast? != some '/'

/-- static types of the arguments (the C++ compiler rejects anything else) -/
def typed (s : Env) : Op → Bool
  | .attachMap m f => s.kind m = .cmap && (match f with | some f => s.kind f = .frame | none => true)
  | .addChildF p c | .removeChildF p c => s.kind p = .frame && s.kind c = .frame
  | .addChildL p c | .removeChildL p c => (s.kind p).isLayer && (s.kind c).isLayer
  | .setFrame m f | .detachFrame m f => s.kind m = .cmap && s.kind f = .frame
  | .addInput op l | .addOutput op l | .removeInput op l | .removeOutput op l
  | .opAddInput op l | .opSetInput op l | .opAddOutput op l | .opSetOutput op l =>
    s.kind op = .op && (s.kind l).isLayer
  | .removeInputs op | .removeOutputs op => s.kind op = .op
  | .detachFromOperator l => (s.kind l).isLayer
  | _ => true

/-- the objects a call gets pointers to -/
def args : Op → List Obj
  | .alloc .. => []
  | .setPrefix _ => []
  | .hold o | .release o | .setUid o _ | .extAttach o _ | .extDetach o | .attach o | .detach o _
  | .modified o | .removeInputs o | .removeOutputs o | .detachFromOperator o => [o]
  | .attachMap m f => m :: f.toList
  | .addChildF p c | .removeChildF p c | .addChildL p c | .removeChildL p c => [p, c]
  | .setFrame m f | .detachFrame m f => [m, f]
  | .addInput op l | .addOutput op l | .removeInput op l | .removeOutput op l
  | .opAddInput op l | .opSetInput op l | .opAddOutput op l | .opSetOutput op l => [op, l]

/-- the effect of one call -/
def exec (s : Env) : Op → Res Env
  | .alloc o k id h ia oa =>
    if s.owner o = .dead then
      .ok { s with kind := upd s.kind o k, uid := upd s.uid o id, owner := upd s.owner o .free,
                   held := upd s.held o h, inArity := upd s.inArity o ia, outArity := upd s.outArity o oa }
    else .fault .illTyped
  | .hold o => .ok { s with held := upd s.held o true }
  | .release o =>
    .ok { s with held := upd s.held o false,
                 owner := if s.owner o = .free then upd s.owner o .dead else s.owner }
  | .setUid o id =>
    -- l.58-64
    if s.isAttached o then .throw s else .ok { s with uid := upd s.uid o id }
  | .setPrefix p => s.setPrefix p
  | .extAttach o id =>
    if s.owner o = .free ∧ goodId id then
      .ok { s with uid := upd s.uid o id, owner := upd s.owner o .elsewhere }
    else .fault .illTyped
  | .extDetach o =>
    if s.owner o = .elsewhere then .ok { s with owner := upd s.owner o (s.afterRelease o) }
    else .fault .illTyped
  | .attach o => s.attachItem o
  | .attachMap m f => s.attachMap m f
  | .detach o deep => if deep then detachDeep (s.items.length + 1) s o else s.detachShallow o
  | .modified o => s.emit .item .update o none
  | .addChildF p c => s.addChildF p c
  | .removeChildF p c => s.removeChildF p c
  | .addChildL p c => s.addChildL p c
  | .removeChildL p c => s.removeChildL p c
  | .setFrame m f => s.setFrameNode m f
  | .detachFrame m f => s.detachFrame m f
  | .addInput op l => s.addInput op l
  | .addOutput op l => s.addOutput op l
  | .removeInput op l => .ok (s.removeInput op l)
  | .removeOutput op l => .ok (s.removeOutput op l)
  | .removeInputs op => .ok (s.removeInputs op)
  | .removeOutputs op => .ok (s.removeOutputs op)
  | .opAddInput op l => s.opAddInput op l
  | .opSetInput op l => s.opSetInput op l
  | .opAddOutput op l => s.opAddOutput op l
  | .opSetOutput op l => s.opSetOutput op l
  | .detachFromOperator l => s.detachFromOperator l

/-- one call: pointers to deleted objects and ill-typed calls have no defined result -/
def step (s : Env) (o : Op) : Res Env :=
  if ∃ x ∈ args o, s.owner x = .dead then .fault .useAfterFree
  else if s.typed o = false then .fault .illTyped
  else s.exec o

/-- a fresh environment, Environment::Environment() l.139-147, whose root node lies at address `r` -/
def init (r : Obj) : Env where
  kind := fun _ => .frame
  uid := fun o => if o = r then ['/', '0'] else []
  owner := fun o => if o = r then .here else .dead
  held := fun _ => false
  inArity := fun _ => 0
  outArity := fun _ => 0
  items := [(['/', '0'], r)]
  ftree := []
  ltree := []
  opIn := []
  opOut := []
  cmap := []
  lastId := 1
  pfx := ['/']
  rootNode := r
  log := [⟨.item, .add, r, none, ['/', '0'], []⟩]

/-- the caller may catch exceptions and go on; after a fault there is no defined state -/
def Res.state? : Res Env → Option Env
  | .ok s => some s
  | .throw s => some s
  | .fault _ => none

/-- run a history -/
def run (s : Env) : List Op → Option Env
  | [] => some s
  | o :: os => match Res.state? (s.step o) with
    | some s' => run s' os
    | none => none

end Env
end Envire
