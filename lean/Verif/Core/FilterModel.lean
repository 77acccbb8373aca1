/-!
Model of the filters of event handlers: /repo/src/core/EventHandler.cpp l.9-28, EventHandler.hpp l.20-69.

Simplifications: handlers, filters and messages are numbers. `handle` of a handler is the user's callback; the model notes its calls. A filter is a user's class: its callback gets the message, may hand
messages to its handler (EventFilter::handle) and then lets the message pass or not; it may depend on all messages it has been asked about before. A filter may also hand on messages at any other time
(`direct`, for instance messages it has kept back). setHandler is called by setFilter only. Handlers and filters live as long as they are used; callbacks raise no exceptions and set no filters.
-/
namespace Envire.Filter

/-- the callback of each filter: the messages it was asked about before, the new message; the messages it hands on itself, and whether the new one may pass (EventHandler.hpp l.26-29) -/
abbrev Behaviour := Nat → List Nat → Nat → List Nat × Bool

structure State where
  /-- EventHandler::filter, EventHandler.hpp l.68 -/
  filter : Nat → Option Nat
  /-- EventFilter::handler, EventHandler.hpp l.41 -/
  handler : Nat → Option Nat
  /-- what each filter has been asked about -/
  asked : Nat → List Nat
  /-- the calls of `handle`: the handler and the message -/
  log : List (Nat × Nat)

/-- EventHandler.hpp l.23, l.52 -/
def State.start : State := ⟨fun _ => none, fun _ => none, fun _ => [], []⟩

def State.deliver (s : State) (h m : Nat) : State := { s with log := s.log ++ [(h, m)] }

def set {α : Type} (f : Nat → α) (i : Nat) (v : α) : Nat → α := fun j => if j = i then v else f j

/-- EventFilter::handle, l.9-12; `none`: undefined behaviour (call through a null pointer) -/
def direct (s : State) (f m : Nat) : Option State :=
  match s.handler f with
  | none => none
  | some h => some (s.deliver h m)

def directs (s : State) (f : Nat) : List Nat → Option State
  | [] => some s
  | m :: r =>
    match direct s f m with
    | none => none
    | some s' => directs s' f r

/-- EventHandler::receive, l.14-22 -/
def receive (B : Behaviour) (s : State) (h m : Nat) : Option State :=
  match s.filter h with
  | none => some (s.deliver h m)
  | some f =>
    match directs { s with asked := set s.asked f (s.asked f ++ [m]) } f (B f (s.asked f) m).1 with
    | none => none
    | some s' => some (if (B f (s.asked f) m).2 then s'.deliver h m else s')

/-- EventHandler::setFilter, l.24-28 -/
def setFilter (s : State) (h : Nat) : Option Nat → Option State
  | none => none
  | some f => some { s with filter := set s.filter h (some f), handler := set s.handler f (some h) }

inductive Op
  | setFilter (h : Nat) (f : Option Nat)
  | receive (h m : Nat)
  | direct (f m : Nat)

def step (B : Behaviour) (s : State) : Op → Option State
  | .setFilter h f => setFilter s h f
  | .receive h m => receive B s h m
  | .direct f m => direct s f m

def run (B : Behaviour) (s : State) : List Op → Option State
  | [] => some s
  | o :: r =>
    match step B s o with
    | none => none
    | some s' => run B s' r

end Envire.Filter
