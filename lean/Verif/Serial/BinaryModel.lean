/-!
Model of binary events, /repo/src/core/Serialization.cpp l.652-828 (`BinarySerialization`) and l.904-913
(`SynchronizationEventHandler::addBinaryEvent`).

Simplifications:
* `serialize` of an item is the list of its writes (a property or a binary stream), `unserialize` is a function of the
  properties and streams it can read; property values are strings (nested sequences are part of the value);
* libyaml is a pair of functions with parse ∘ emit = id; its string output stops when the buffer is full;
* the map of streams is an association list (the order of its entries plays no role);
* memory of the streams is not modelled.
-/
namespace Envire.Binary

abbrev Name := List Char
abbrev Bytes := List UInt8
/-- the map node of an item, in the order of writing -/
abbrev Doc := List (Name × Name)
/-- `stringstreams` -/
abbrev Streams := List (Name × Bytes)

/-- one step of the `serialize` of an item -/
inductive Wr
  /-- `so.write( key, value )` -/
  | prop (k v : Name)
  /-- everything written to `so.getBinaryOutputStream( name )` -/
  | bin (name : Name) (content : Bytes)
  /-- an exception -/
  | fail
  deriving DecidableEq, Repr

/-- libyaml -/
structure Codec where
  emit : Doc → Bytes
  parse : Bytes → Option Doc
  back : ∀ d, parse (emit d) = some d

/-- `EnvireBinaryEvent`, BinaryEvent.hpp; type, operation and ids travel unchanged -/
structure BinEv where
  className : Name
  yaml : Bytes
  names : List Name
  streams : List Bytes
  deriving DecidableEq, Repr

def classKey : Name := ['c', 'l', 'a', 's', 's']

/-- findNodeInMap l.119-142: the last value of the key -/
def find (d : Doc) (k : Name) : Option Name := (d.reverse.find? (fun e => decide (e.1 = k))).map (·.2)

/-- `stringstreams[filename] = ...` l.668-673, l.737 -/
def put (m : Streams) (n : Name) (b : Bytes) : Streams := (n, b) :: m.filter (fun e => decide (e.1 ≠ n))

/-- `stringstreams[filename]` -/
def get (m : Streams) (n : Name) : Option Bytes := (m.find? (fun e => decide (e.1 = n))).map (·.2)

/-- `item->serialize( *this )`: document, streams, and whether it ended normally -/
def writes : List Wr → Doc → Streams → Doc × Streams × Bool
  | [], d, m => (d, m, true)
  | .prop k v :: ws, d, m => writes ws (d ++ [(k, v)]) m
  | .bin n b :: ws, d, m => writes ws d (put m n b)
  | .fail :: _, d, m => (d, m, false)

/-- size of the yaml buffer, l.767 -/
def bufferSize : Nat := 10000

/-- serializeBinaryEvent l.753-817; `m` are the streams of earlier items that were not cleaned up. After an exception
the event, which is in the buffer already, keeps an empty document of the size of the buffer, and the streams stay. -/
def serializeEvent (c : Codec) (m : Streams) (cls : Name) (ws : List Wr) : Streams × BinEv × Bool :=
  match writes ws [(classKey, cls)] m with
  | (d, m, true) => ([], ⟨cls, (c.emit d).take bufferSize, m.map (·.1), m.map (·.2)⟩, true)
  | (_, m, false) => (m, ⟨cls, List.replicate bufferSize 0, [], []⟩, false)

/-- l.728-739 -/
def putAll (m : Streams) : List Name → List Bytes → Streams
  | n :: ns, b :: bs => putAll (put m n b) ns bs
  | _, _ => m

/-- unserializeBinaryEvent l.698-751. `create` is SerializationFactory::createObject, `none` an exception. Result: the
streams that are left, and the item. -/
def unserializeEvent {I : Type} (c : Codec) (create : Name → (Name → Option Name) → (Name → Option Bytes) → Option I) (m : Streams) (e : BinEv) :
    Streams × Option I :=
  match c.parse e.yaml with
  | none => (m, none)
  | some d =>
    if find d classKey = some e.className then
      let m := putAll m e.names e.streams
      match create e.className (find d) (get m) with
      | some x => ([], some x)
      | none => (m, none)
    else (m, none)

/-- the events one handler makes of a list of items (class and writes), each serialized when it is reported; an
exception reaches the caller of the reporting function, who carries on -/
def send (c : Codec) : Streams → List (Name × List Wr) → List BinEv
  | _, [] => []
  | m, (cls, ws) :: l => let r := serializeEvent c m cls ws
    r.2.1 :: send c r.1 l

/-- applyEvents l.675-681: the items that are applied, in order; the first exception ends it -/
def receive {I : Type} (c : Codec) (create : Name → (Name → Option Name) → (Name → Option Bytes) → Option I) : Streams → List BinEv → List I × Bool
  | _, [] => ([], true)
  | m, e :: es => match unserializeEvent c create m e with
    | (m, some x) => let r := receive c create m es
      (x :: r.1, r.2)
    | (_, none) => ([], false)

end Envire.Binary
