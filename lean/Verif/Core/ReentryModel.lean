import Verif.Core.EventModel

/-!
Model of what happens while events are handed out: EventSource::handle, addEventHandler and removeEventHandler, /repo/src/core/EventSource.cpp l.10-30, with handlers that
register and remove handlers while they receive an event, and EventQueue::handle and flush, /repo/src/core/EventHandler.cpp l.75-117, with messages whose processing throws or
calls the queue again.

Simplifications: a handler is an address; what it does on an event is given as the list of its calls. The vector of the handlers has a capacity; push_back beyond it moves the
elements and every iterator is invalid then. One thread; `boost::mutex` cannot be locked twice.
-/
namespace Envire.Reentry

/-! ### handing out one event -/

/-- what a handler calls while it receives an event -/
inductive Act
  | add (h : Nat)
  | remove (h : Nat)
  deriving DecidableEq

/-- the vector of handlers during EventSource::handle; `valid`: the iterator of the loop may still be used -/
structure Vec where
  hs : List Nat
  cap : Nat
  valid : Bool
  deriving DecidableEq

/-- addEventHandler l.19-22, removeEventHandler l.24-29 while the iterator is at position i. erase invalidates the iterators from the new end on. -/
def Vec.act (i : Nat) (v : Vec) : Act → Vec
  | .add h => if v.hs.length < v.cap then { v with hs := v.hs ++ [h] } else ⟨v.hs ++ [h], 2 * v.cap + 1, false⟩
  | .remove h =>
    let hs := v.hs.filter (fun x => decide (x ≠ h))
    { v with hs := hs, valid := v.valid && (decide (hs.length = v.hs.length) || decide (i < hs.length)) }

inductive Out
  /-- the handlers afterwards, and who received the event in which order -/
  | done (hs : List Nat) (log : List Nat)
  /-- use of an invalid iterator -/
  | undefined
  deriving DecidableEq

/-- the loop l.13-16 at position i; acts: what a handler does when it receives the event -/
def deliver (acts : Nat → List Act) : Nat → Vec → Nat → List Nat → Out
  | 0, v, _, log => .done v.hs log
  | fuel + 1, v, i, log =>
    match v.hs[i]? with
    | none => .done v.hs log
    | some h =>
      let v := (acts h).foldl (Vec.act i) v
      if v.valid then deliver acts fuel v (i + 1) (log ++ [h]) else .undefined

/-- EventSource::handle l.10-17. The position grows in each round and stays below the capacity, so the fuel is not used up -/
def handle (acts : Nat → List Act) (hs : List Nat) (cap : Nat) : Out :=
  deliver acts (cap + 1) ⟨hs, cap, true⟩ 0 []

/-! ### the queue -/

/-- a call of `process` -/
inductive Proc
  | fine
  /-- an exception -/
  | throws
  /-- it leads to a call of handle or flush of the queue -/
  | reenters
  deriving DecidableEq

inductive Flushed
  /-- the queue afterwards, and the messages that were processed -/
  | ok (queue done : List Ev)
  | throw (queue done : List Ev)
  /-- the mutex is locked by the same thread -/
  | blocked (done : List Ev)
  deriving DecidableEq

/-- the loop l.112-115; `queue`: the whole list -/
def flushFrom (proc : Ev → Proc) (queue : List Ev) : List Ev → List Ev → Flushed
  | [], done => .ok [] done
  | e :: l, done =>
    match proc e with
    | .fine => flushFrom proc queue l (done ++ [e])
    | .throws => .throw queue (done ++ [e])
    | .reenters => .blocked (done ++ [e])

/-- EventQueue::flush l.109-117: the list is cleared after the loop only; an exception gives the mutex back -/
def flush (proc : Ev → Proc) (queue : List Ev) : Flushed := flushFrom proc queue queue []

/-- calls of a queue, by the user -/
inductive Call
  | handle (e : Ev)
  | flush (proc : Ev → Proc)

/-- the queue and all messages processed so far; none: blocked -/
def step (s : List Ev × List Ev) : Call → Option (List Ev × List Ev)
  | .handle e => some (enqueue s.1 e, s.2)
  | .flush proc =>
    match flush proc s.1 with
    | .ok q d => some (q, s.2 ++ d)
    | .throw q d => some (q, s.2 ++ d)
    | .blocked _ => none

def run (s : List Ev × List Ev) : List Call → Option (List Ev × List Ev)
  | [] => some s
  | c :: l => match step s c with
    | some s => run s l
    | none => none

end Envire.Reentry
