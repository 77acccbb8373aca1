import Verif.Core.EnvModel
/-! Model of event distribution: `EventSource`, `Environment::addEventHandler` / `removeEventHandler`,
`EventQueue`, `Event::merge` and `Event::apply`.
Not modelled: handlers that call the environment from inside `handle` (re-entrance), and threads. -/
namespace Envire
namespace Env

/-- `handler->receive( Event(...) )`: constructing the Event takes references, undefined for deleted objects -/
def tell (s : Env) (ty : EvType) (op : EvOp) (a : Obj) (b : Option Obj) : Option (List Ev) :=
  if s.owner a = .dead ∨ (match b with | some b => decide (s.owner b = .dead) | none => false) = true then none
  else some [⟨ty, op, a, b, s.uid a, match b with | some b => s.uid b | none => []⟩]

end Env

/-- a loop that sends events; undefined if one iteration is -/
def collect {α : Type} (f : α → Option (List Ev)) : List α → Option (List Ev)
  | [] => some []
  | x :: xs => match f x, collect f xs with
    | some a, some b => some (a ++ b)
    | _, _ => none

def seqEv : Option (List Ev) → Option (List Ev) → Option (List Ev)
  | some a, some b => some (a ++ b)
  | _, _ => none

namespace Env

/-- Environment::publishChilds l.160-169; `fuel` bounds the recursion depth, `none` when it does not suffice -/
def publish (s : Env) : Nat → Obj → Option (List Ev)
  | 0, _ => none
  | n + 1, p => collect (fun c => seqEv (s.tell .frameTree .add p (some c)) (s.publish n c)) (s.getChildren p)

/-- the events of Environment::addEventHandler l.177-199 -/
def announce (s : Env) : Option (List Ev) :=
  seqEv (collect (fun e => s.tell .item .add e.2 none) s.items)
    (seqEv (s.tell .root .add s.rootNode none)
      (seqEv (s.publish (s.ftree.length + 1) s.rootNode)
        (collect (fun e => s.tell .frameNode .add e.1 (some e.2)) s.cmap)))

/-- Environment::detachChilds l.201-223 -/
def unpublish (s : Env) : Nat → Obj → Option (List Ev)
  | 0, _ => none
  | n + 1, p => collect (fun c =>
      seqEv (if (s.getChildren c).length > 0 then s.unpublish n c else some [])
        (seqEv (collect (fun m => s.tell .frameNode .remove m (some c)) (s.getMaps c))
          (s.tell .frameTree .remove p (some c)))) (s.getChildren p)

/-- the events of Environment::removeEventHandler l.225-240 -/
def retract (s : Env) : Option (List Ev) :=
  seqEv (s.unpublish (s.ftree.length + 1) s.rootNode)
    (seqEv (s.tell .root .remove s.rootNode none)
      (collect (fun e => s.tell .item .remove e.2 none) s.items))

end Env

/-! ### event source -/

/-- EventHandler::receive, EventHandler.cpp l.14-22, of all handlers, EventSource::handle, EventSource.cpp
l.10-17; `pass h` is the filter of handler `h`, `got h` what its `handle` received -/
def deliver (pass : Nat → Ev → Bool) (hs : List Nat) (got : Nat → List Ev) (e : Ev) : Nat → List Ev :=
  hs.foldl (fun g h => if pass h e then (fun x => if x = h then g x ++ [e] else g x) else g) got

/-- an environment with its handlers -/
structure Hub where
  env : Env
  /-- EventSource::eventHandlers -/
  hs : List Nat
  got : Nat → List Ev

inductive HOp
  | call (op : Op)
  | sub (h : Nat)
  | unsub (h : Nat)
  deriving DecidableEq, Repr

/-- one step: a call on the environment (the events it emits go to the handlers), registration and removal
of a handler (EventSource.cpp l.19-29, Environment.cpp l.177-199, 225-240) -/
def Hub.step (pass : Nat → Ev → Bool) (H : Hub) : HOp → Option Hub
  | .call op => match Env.Res.state? (H.env.step op) with
    | none => none
    | some s' => some { env := s', hs := H.hs,
                        got := (s'.log.drop H.env.log.length).foldl (deliver pass H.hs) H.got }
  | .sub h => match H.env.announce with
    | none => none
    | some es => some { H with hs := H.hs ++ [h], got := es.foldl (deliver pass [h]) H.got }
  | .unsub h => match H.env.retract with
    | none => none
    | some es => some { H with hs := H.hs.filter (fun x => decide (x ≠ h)), got := es.foldl (deliver pass [h]) H.got }

def Hub.run (pass : Nat → Ev → Bool) (H : Hub) : List HOp → Option Hub
  | [] => some H
  | o :: os => match H.step pass o with
    | none => none
    | some H' => H'.run pass os

/-! ### event queue -/

inductive Merge | ignore | invalidate | cancel
  deriving DecidableEq, Repr

/-- same type and ids -/
def Ev.sameKey (e o : Ev) : Bool := decide (e.ty = o.ty ∧ e.ida = o.ida ∧ e.idb = o.idb)

/-- Event::merge, Event.cpp l.60-78; `e` is the new event, `o` a queued one -/
def Ev.merge (e o : Ev) : Merge :=
  if e.ty = o.ty ∧ e.op = o.op ∧ e.ida = o.ida ∧ e.idb = o.idb then .invalidate
  else if ((e.op = .remove ∧ o.op = .add) ∨ (e.op = .add ∧ o.op = .remove)) ∧ e.ty = o.ty ∧ e.ida = o.ida ∧ e.idb = o.idb
    then .cancel
  else if (e.op = .remove ∧ o.op = .update) ∧ e.ty = o.ty ∧ e.ida = o.ida ∧ e.idb = o.idb then .invalidate
  else .ignore

/-- EventQueue::handle, EventHandler.cpp l.75-107 -/
def enqueue (q : List Ev) (e : Ev) : List Ev :=
  let rest := q.filter (fun o => decide (e.merge o = .ignore))
  if q.any (fun o => decide (e.merge o = .cancel)) then rest else rest ++ [e]

/-- the messages EventQueue::flush hands out after the events `es` arrived at an empty queue -/
def compress (es : List Ev) : List Ev := es.foldl enqueue []

/-! ### applying events to another environment -/

/-- EventDispatcher::dispatch l.47-73 with ApplyEventHelper, Event.cpp l.103-262, for an event whose item is a
clone or was read from a stream (`o`, of kind `k`, is the fresh object). `none` stands for a fault. Content
transfer (`item->set`) is not part of this model. -/
def applyEv (R : Env) (e : Ev) (o : Obj) (k : Kind) : Res Env :=
  let a := R.getItem e.ida
  let b := R.getItem e.idb
  match e.ty, e.op with
  | .item, .add => match a with
    | some x => R.emit .item .update x none
    | none => (R.exec (.alloc o k e.ida true 0 0)).bind fun R => (R.attachItem o).bind fun R => R.exec (.release o)
  | .item, .update => match a with
    | some x => R.emit .item .update x none
    | none => (R.exec (.alloc o k e.ida true 0 0)).bind fun R => (R.attachItem o).bind fun R => R.exec (.release o)
  | .item, .remove => match a with
    | some x => if x = R.rootNode then .ok R else R.detachShallow x
    | none => .ok R
  | .frameTree, .add => match a, b with
    | some p, some c => R.addChildF p c
    | _, _ => .ok R
  | .frameTree, .remove => match a, b with
    | some p, some c => R.removeChildF p c
    | _, _ => .ok R
  | .layerTree, .add => match a, b with
    | some p, some c => R.addChildL p c
    | _, _ => .ok R
  | .layerTree, .remove => match a, b with
    | some p, some c => R.removeChildL p c
    | _, _ => .ok R
  | .frameNode, .add => match a, b with
    | some m, some f => R.setFrameNode m f
    | _, _ => .ok R
  | .frameNode, .remove => match a, b with
    | some m, some f => R.detachFrame m f
    | _, _ => .ok R
  | .root, .add => .ok R
  | .root, .remove => .ok R
  -- `throw std::runtime_error("Event message not handled")`
  | _, .update => .throw R

end Envire
