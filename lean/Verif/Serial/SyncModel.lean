import Verif.Core.EventModel
/-!
Model of the synchronisation handlers, /repo/src/core/Serialization.hpp l.262-341 and
/repo/src/core/Serialization.cpp l.823-935 (`SynchronizationEventHandler`, `SynchronizationEventQueue`), and of
`Environment::pullEvents`, /repo/src/core/Environment.cpp l.833-846.

Simplifications: a binary event is the event itself, with the ids it carries (its content is the subject of
`Verif.Serial.BinaryModel`); serialisation of an item does not throw; one thread.
-/
namespace Envire.Sync

/-- the two classes: a user class that passes the binary events on in its callback, and
`SynchronizationEventQueue`, whose callback does nothing (Serialization.hpp l.340) -/
inductive Cls | callback | pull
  deriving DecidableEq, Repr

/-- SynchronizationEventHandler, l.314-318 -/
structure Handler where
  /-- EventQueue::msgQueue -/
  queue : List Ev
  /-- m_useEventQueue -/
  useQueue : Bool
  /-- msg_buffer -/
  buf : List Ev
  /-- what the user got so far: one list for every callback or popEvents -/
  out : List (List Ev)
  deriving DecidableEq, Repr

inductive SOp
  /-- the environment reports an event -/
  | event (e : Ev)
  | useEventQueue (b : Bool)
  | flush
  | popEvents
  deriving DecidableEq, Repr

/-- `handle( msg_buffer ); msg_buffer.clear();` l.841-842, l.901-902 -/
def Handler.give (cls : Cls) (h : Handler) : Handler :=
  match cls with
  | .callback => { h with out := h.out ++ [h.buf], buf := [] }
  | .pull => { h with buf := [] }

/-- EventQueue::flush, EventHandler.cpp l.109-117; `proc` is SynchronizationEventHandler::process l.846-893: the
binary events made of one event -/
def Handler.drain (proc : Ev → List Ev) (h : Handler) : Handler :=
  { h with buf := h.buf ++ h.queue.flatMap proc, queue := [] }

/-- SynchronizationEventHandler::flush l.896-903 -/
def Handler.flush (proc : Ev → List Ev) (cls : Cls) (h : Handler) : Handler := (h.drain proc).give cls

/-- l.835-836 -/
def Handler.flushRest (proc : Ev → List Ev) (cls : Cls) (h : Handler) : Handler :=
  if h.queue.length ≠ 0 then h.flush proc cls else h

/-- process, then the callback, l.838-842 -/
def Handler.pass (proc : Ev → List Ev) (cls : Cls) (h : Handler) (e : Ev) : Handler :=
  ({ h with buf := h.buf ++ proc e } : Handler).give cls

/-- SynchronizationEventHandler::handle l.825-844 -/
def Handler.onEvent (proc : Ev → List Ev) (cls : Cls) (h : Handler) (e : Ev) : Handler :=
  if h.useQueue then { h with queue := enqueue h.queue e } else (h.flushRest proc cls).pass proc cls e

/-- handle, flush l.896-903, useEventQueue l.915-918, SynchronizationEventQueue::popEvents l.930-935 -/
def Handler.step (proc : Ev → List Ev) (cls : Cls) (h : Handler) : SOp → Handler
  | .event e => h.onEvent proc cls e
  | .useEventQueue b => { h with useQueue := b }
  | .flush => h.flush proc cls
  | .popEvents => let h := h.drain proc
    { h with out := h.out ++ [h.buf], buf := [] }

/-- SynchronizationEventHandler() l.283, SynchronizationEventQueue() l.925-928 -/
def Handler.new : Cls → Handler
  | .callback => ⟨[], false, [], []⟩
  | .pull => ⟨[], true, [], []⟩

def Handler.run (proc : Ev → List Ev) (cls : Cls) (h : Handler) (ops : List SOp) : Handler := ops.foldl (Handler.step proc cls) h

/-- addBinaryEvent only, context updates are off (the default) -/
def plain (e : Ev) : List Ev := [e]

/-! ### context updates -/

/-- l.879-887: the frames above the map; `none` if the walk does not end within the fuel (the loop of the code has no
bound) or meets a deleted object -/
def chainEvs (s : Env) : Nat → Option Obj → Option Obj → Option (List Ev)
  | _, none, _ => some []
  | 0, some _, _ => none
  | n + 1, some f, child =>
    seqEv (s.tell .item .update f none)
      (seqEv (match child with | some c => s.tell .frameTree .add f (some c) | none => some [])
        (chainEvs s n (s.getParent f) (some f)))

/-- process l.846-893 with context updates, in state `s` of the environment. `async` = m_async of the queue: the event
then holds a clone that is in no environment, and CartesianMap::getFrameNode asserts (Layer.cpp l.188-191). -/
def process (s : Env) (async : Bool) (e : Ev) : Option (List Ev) :=
  if e.ty = .item ∧ (e.op = .add ∨ e.op = .update) ∧ s.kind e.a = .cmap then
    if async then none
    else seqEv (some [e])
      (seqEv (chainEvs s (s.ftree.length + 1) (s.getFrameNode e.a) none)
        (s.tell .frameNode .add e.a (s.getFrameNode e.a)))
  else some [e]

/-! ### pullEvents -/

/-- Environment::pullEvents, Environment.cpp l.833-846; `q`: the queue of the environment if there is one. Result: the
events handed out (all queues are empty afterwards) -/
def pullEvents (s : Env) (q : Option (List Ev)) (all : Bool) : Option (List Ev) :=
  match q with
  | some q => if all then (s.announce).map (fun es => es.foldl enqueue q) else some q
  | none => (s.announce).map compress

/-! ### events about items that are not there -/

/-- ApplyEventHelper::itemModified, Event.cpp l.129-151: for an unknown item `env.itemModified( NULL )` is called, that
is, all handlers of the receiver get an event without item -/
def tellsNull (R : Env) (e : Ev) : Bool := decide (e.ty = .item ∧ e.op = .update) && (R.getItem e.ida).isNone

/-- Event::apply on an environment with an event queue among its handlers: Event::ref, Event.cpp l.80-102, which the
queue calls first, dereferences the item of an ITEM UPDATE -/
def applyWatched (R : Env) (e : Ev) (o : Obj) (k : Kind) : Res Env :=
  if tellsNull R e then .fault .useAfterFree else applyEv R e o k

end Envire.Sync
