import Verif.Core.EnvModel
/-! Model of the graph writer: /repo/src/tools/GraphViz.cpp (whole file).

The text is a list of characters. Not modelled: a file that cannot be opened or written (the stream is not checked), and
the digits of the pose of a frame, which are an input (`Info.pose`; `boost::format` with `%.1f`). -/
namespace Envire
namespace Dot

abbrev Text := List Char

/-- what the items say about themselves: getClassName, getLabel, and the pose of a frame as text (l.43-44) -/
structure Info where
  className : Obj → Text
  label : Obj → Text
  pose : Obj → Text

/-- dot_id l.9-14 -/
def dotId (id : Uid) : Text := id.map (fun c => if c = '/' then '_' else c)

/-- what follows the last `::`, l.29-30 (`find`, `rfind`, `substr`) -/
def afterLast : Text → Option Text
  | ':' :: ':' :: t => some ((afterLast (':' :: t)).getD t)
  | _ :: t => afterLast t
  | [] => none

/-- l.27-30 -/
def shortName (c : Text) : Text := (afterLast c).getD c

/-- l.33-35; `%i` with a string prints the string -/
def caption (s : Env) (I : Info) (o : Obj) : Text :=
  let name := shortName (I.className o) ++ " [".toList ++ s.uid o ++ "]".toList
  if I.label o = [] then name else I.label o ++ "\\n".toList ++ name

/-- one item, l.22-60 -/
def itemLine (s : Env) (I : Info) (o : Obj) : Text :=
  "g".toList ++ dotId (s.uid o) ++ " ".toList ++
  (if s.kind o = .frame then "[label=\"".toList ++ caption s I o ++ I.pose o ++ "\",shape=ellipse,style=filled,fillcolor=lightblue".toList
   else []) ++
  (if s.kind o = .op then "[label=\"".toList ++ caption s I o ++ "\",shape=octagon,style=filled,fillcolor=lightcoral".toList else []) ++
  (if (s.kind o).isLayer then "[label=\"".toList ++ caption s I o ++ "\",shape=box,style=filled,fillcolor=palegreen".toList else []) ++
  "]\n".toList

/-- `g.. -> g..` with attributes -/
def edgeLine (s : Env) (a b : Obj) (attrs : Text) : Text :=
  "g".toList ++ dotId (s.uid a) ++ " -> g".toList ++ dotId (s.uid b) ++ attrs ++ "\n".toList

/-- writeToFile l.16-111 -/
def write (s : Env) (I : Info) : Text :=
  "digraph G {\n".toList ++
  s.items.flatMap (fun e => itemLine s I e.2) ++
  "# framenodetree\n".toList ++
  s.ftree.flatMap (fun e => edgeLine s e.1 e.2 []) ++
  "# layertree\n".toList ++
  s.ltree.flatMap (fun e => edgeLine s e.2 e.1 " [style=dotted]".toList) ++
  "# operatorGraphInput\n".toList ++
  s.opIn.flatMap (fun e => edgeLine s e.2 e.1 []) ++
  "# operatorGraphOutput\n".toList ++
  s.opOut.flatMap (fun e => edgeLine s e.1 e.2 []) ++
  "# cartesianMapGraph\n".toList ++
  s.cmap.flatMap (fun e => edgeLine s e.2 e.1 " [shape=dot]".toList) ++
  "}\n".toList

end Dot
end Envire
