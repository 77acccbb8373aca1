import Verif.Tools.DotModel
import Verif.Core.Closed
import Verif.Core.Witness
/-! Property C149: the graph written for an environment is the graph of the environment. -/
namespace Envire
namespace Dot
open Env

/-! ## What a program reading the DOT language sees

A reader for the part of the language that consists of directed edges, nodes, attribute lists, quoted strings and lines
beginning with `#` (comments), written after the grammar of the language and without looking at the writer. -/

inductive Tok
  | name (t : Text)
  | str (t : Text)
  | sym (c : Char)
  | arrow
  deriving DecidableEq

/-- letters, digits, underscore -/
def nameChar (c : Char) : Bool := c.isAlphanum || c = '_'

inductive Mode
  /-- at the beginning of a line -/
  | line
  | mid
  | inName (acc : Text)
  | inStr (acc : Text)
  /-- in a string after a backslash -/
  | esc (acc : Text)
  | dash
  | comment
  deriving DecidableEq

/-- a character outside of names and strings -/
def plain (c : Char) : Option (List Tok × Mode) :=
  if nameChar c then some ([], .inName [c])
  else if c = '"' then some ([], .inStr [])
  else if c = '\n' then some ([], .line)
  else if c = ' ' || c = '\t' then some ([], .mid)
  else if c = '{' || c = '}' || c = '[' || c = ']' || c = '=' || c = ',' || c = ';' then some ([.sym c], .mid)
  else if c = '-' then some ([], .dash)
  else none

def lexStep : Mode → Char → Option (List Tok × Mode)
  | .line, c => if c = '#' then some ([], .comment) else plain c
  | .mid, c => plain c
  | .inName acc, c => if nameChar c then some ([], .inName (c :: acc))
      else (plain c).map (fun r => (.name acc.reverse :: r.1, r.2))
  | .inStr acc, c => if c = '"' then some ([.str acc.reverse], .mid) else if c = '\\' then some ([], .esc acc)
      else some ([], .inStr (c :: acc))
  -- `\"` is a quote, `\` with the end of the line continues the string, everything else is kept
  | .esc acc, c => if c = '"' then some ([], .inStr ('"' :: acc)) else if c = '\n' then some ([], .inStr acc)
      else some ([], .inStr (c :: '\\' :: acc))
  | .dash, c => if c = '>' then some ([.arrow], .mid) else none
  | .comment, c => some ([], if c = '\n' then .line else .comment)

def lex : Mode → Text → Option (List Tok × Mode)
  | m, [] => some ([], m)
  | m, c :: t => (lexStep m c).bind (fun r => (lex r.2 t).map (fun q => (r.1 ++ q.1, q.2)))

/-- nodes and edges with their attributes -/
structure Graph where
  nodes : List (Text × List (Text × Text))
  edges : List (Text × Text × List (Text × Text))
  deriving DecidableEq

/-- what an attribute list belongs to -/
inductive Target
  | node (n : Text)
  | edge (a b : Text)
  deriving DecidableEq

def Graph.add (G : Graph) (as : List (Text × Text)) : Target → Graph
  | .node n => { G with nodes := G.nodes ++ [(n, as)] }
  | .edge a b => { G with edges := G.edges ++ [(a, b, as)] }

inductive Parse
  | start
  | digraph
  | named
  /-- between statements -/
  | idle (G : Graph)
  /-- a statement that may be complete -/
  | open (G : Graph) (x : Target)
  | arrow (G : Graph) (x : Target) (a : Text)
  /-- attributes -/
  | attrs (G : Graph) (x : Target) (as : List (Text × Text))
  | key (G : Graph) (x : Target) (as : List (Text × Text)) (k : Text)
  | value (G : Graph) (x : Target) (as : List (Text × Text)) (k : Text)
  | valued (G : Graph) (x : Target) (as : List (Text × Text))
  | done (G : Graph)
  deriving DecidableEq

def parseStep : Parse → Tok → Option Parse
  | .start, .name t => if t = "digraph".toList then some .digraph else none
  | .digraph, .name _ => some .named
  | .named, .sym c => if c = '{' then some (.idle ⟨[], []⟩) else none
  | .idle G, .name n => some (.open G (.node n))
  | .idle G, .sym c => if c = '}' then some (.done G) else if c = ';' then some (.idle G) else none
  | .open G x, .name n => some (.open (G.add [] x) (.node n))
  | .open G x, .sym c => if c = '}' then some (.done (G.add [] x)) else if c = ';' then some (.idle (G.add [] x))
      else if c = '[' then some (.attrs G x []) else none
  | .open G (.node a), .arrow => some (.arrow G (.node a) a)
  | .open G (.edge a b), .arrow => some (.arrow (G.add [] (.edge a b)) (.edge a b) b)
  | .arrow G _ a, .name b => some (.open G (.edge a b))
  | .attrs G x as, .name k => some (.key G x as k)
  | .attrs G x as, .sym c => if c = ']' then some (.idle (G.add as x)) else none
  | .key G x as k, .sym c => if c = '=' then some (.value G x as k) else none
  | .value G x as k, .name v => some (.valued G x (as ++ [(k, v)]))
  | .value G x as k, .str v => some (.valued G x (as ++ [(k, v)]))
  | .valued G x as, .sym c => if c = ',' || c = ';' then some (.attrs G x as) else if c = ']' then some (.idle (G.add as x)) else none
  | .valued G x as, .name k => some (.key G x as k)
  | _, _ => none

def parse : Parse → List Tok → Option Parse
  | p, [] => some p
  | p, t :: ts => (parseStep p t).bind (fun p => parse p ts)

/-- the graph in a text, if the text is a graph -/
def readDot (t : Text) : Option Graph :=
  match lex .line t with
  | some (ts, m) => match m with
    | .line => match parse .start ts with
      | some (.done G) => some G
      | _ => none
    | .mid => match parse .start ts with
      | some (.done G) => some G
      | _ => none
    | _ => none
  | none => none

/-! ## Reading, piece by piece -/

theorem lex_cons (m : Mode) (c : Char) (t : Text) :
    lex m (c :: t) = (lexStep m c).bind (fun r => (lex r.2 t).map (fun q => (r.1 ++ q.1, q.2))) := rfl

theorem lex_append (m : Mode) (a b : Text) :
    lex m (a ++ b) = (lex m a).bind (fun r => (lex r.2 b).map (fun q => (r.1 ++ q.1, q.2))) := by
  induction a generalizing m with
  | nil => simp [lex]
  | cons c a ih =>
    rw [List.cons_append, lex_cons, lex_cons]
    cases h : lexStep m c with
    | none => rfl
    | some r =>
      simp only [Option.bind_some]
      rw [ih]
      cases h2 : lex r.2 a with
      | none => rfl
      | some q =>
        simp only [Option.bind_some, Option.map_some]
        cases h3 : lex q.2 b with
        | none => rfl
        | some u => simp

theorem lex_seq {m m' m'' : Mode} {a b : Text} {ts us : List Tok} (h1 : lex m a = some (ts, m')) (h2 : lex m' b = some (us, m'')) :
    lex m (a ++ b) = some (ts ++ us, m'') := by
  rw [lex_append, h1]
  simp [h2]

theorem parse_cons (p : Parse) (t : Tok) (ts : List Tok) : parse p (t :: ts) = (parseStep p t).bind (fun p => parse p ts) := rfl

theorem parse_append (p : Parse) (a b : List Tok) : parse p (a ++ b) = (parse p a).bind (fun p => parse p b) := by
  induction a generalizing p with
  | nil => rfl
  | cons t a ih =>
    rw [List.cons_append, parse_cons, parse_cons]
    cases h : parseStep p t with
    | none => rfl
    | some r => simp only [Option.bind_some]; exact ih r

theorem lex_name {t : Text} (ht : t.all nameChar = true) (acc : Text) : lex (.inName acc) t = some ([], .inName (t.reverse ++ acc)) := by
  induction t generalizing acc with
  | nil => rfl
  | cons c t ih =>
    rw [List.all_cons, Bool.and_eq_true] at ht
    rw [lex_cons, show lexStep (.inName acc) c = some ([], .inName (c :: acc)) from if_pos ht.1]
    simp only [Option.bind_some]
    rw [ih ht.2]
    simp

/-- neither a quote nor a backslash -/
def quiet (t : Text) : Bool := t.all (fun c => decide (c ≠ '"') && decide (c ≠ '\\'))

theorem lex_str {t : Text} (ht : quiet t = true) (acc : Text) : lex (.inStr acc) t = some ([], .inStr (t.reverse ++ acc)) := by
  induction t generalizing acc with
  | nil => rfl
  | cons c t ih =>
    rw [quiet, List.all_cons, Bool.and_eq_true, Bool.and_eq_true, decide_eq_true_eq, decide_eq_true_eq] at ht
    rw [lex_cons, show lexStep (.inStr acc) c = some ([], .inStr (c :: acc)) from by
      unfold lexStep; dsimp only; rw [if_neg ht.1.1, if_neg ht.1.2]]
    simp only [Option.bind_some]
    rw [ih ht.2]
    simp

theorem quiet_append {a b : Text} : quiet (a ++ b) = (quiet a && quiet b) := by unfold quiet; rw [List.all_append]

/-! ## The lines of the writer -/

/-- the name of an item in the graph -/
def nodeName (id : Uid) : Text := 'g' :: dotId id

/-- letters, digits and slashes -/
def simpleId (id : Uid) : Bool := id.all (fun c => c.isAlphanum || c = '/')

theorem dotId_names {id : Uid} (h : simpleId id = true) : (dotId id).all nameChar = true := by
  unfold dotId
  rw [List.all_map, List.all_eq_true]
  intro c hc
  have := List.all_eq_true.1 h c hc
  dsimp only [Function.comp_apply]
  split
  · rfl
  · next hne =>
    unfold nameChar
    rw [Bool.or_eq_true] at this ⊢
    rcases this with h | h
    · exact Or.inl h
    · exact absurd (of_decide_eq_true h) hne

/-- ids without underscores keep apart -/
theorem nodeName_inj {a b : Uid} (ha : simpleId a = true) (hb : simpleId b = true) (h : nodeName a = nodeName b) : a = b := by
  have h : dotId a = dotId b := (List.cons.inj h).2
  induction a generalizing b with
  | nil =>
    cases b with
    | nil => rfl
    | cons d b => cases h
  | cons c a ih =>
    cases b with
    | nil => cases h
    | cons d b =>
      obtain ⟨h1, h2⟩ := List.cons.inj h
      unfold simpleId at ha hb
      rw [List.all_cons, Bool.and_eq_true] at ha hb
      rw [ih ha.2 hb.2 (by show nodeName a = nodeName b; unfold nodeName; rw [show dotId a = dotId b from h2]) h2]
      have hus : ∀ x : Char, (x.isAlphanum || decide (x = '/')) = true → x ≠ '_' := by
        intro x hx hh
        subst hh
        exact absurd hx (by decide)
      congr 1
      dsimp only at h1
      by_cases hc : c = '/'
      · by_cases hd : d = '/'
        · rw [hc, hd]
        · rw [if_pos hc, if_neg hd] at h1
          exact absurd h1.symm (hus d hb.1)
      · by_cases hd : d = '/'
        · rw [if_neg hc, if_pos hd] at h1
          exact absurd h1 (hus c ha.1)
        · rw [if_neg hc, if_neg hd] at h1
          exact h1

theorem lex_node {id : Uid} (h : simpleId id = true) : lex .line ("g".toList ++ dotId id) = some ([], .inName ((dotId id).reverse ++ ['g'])) :=
  lex_seq (ts := []) (us := []) (m' := .inName ['g']) rfl (lex_name (dotId_names h) _)

theorem name_rev (id : Uid) : ((dotId id).reverse ++ ['g']).reverse = nodeName id := by simp [nodeName]

theorem lex_edge {s : Env} {a b : Obj} (ha : simpleId (s.uid a) = true) (hb : simpleId (s.uid b) = true) :
    lex .line (edgeLine s a b []) = some ([.name (nodeName (s.uid a)), .arrow, .name (nodeName (s.uid b))], .line) := by
  unfold edgeLine
  have h1 := lex_node ha
  have h2 : lex (.inName ((dotId (s.uid a)).reverse ++ ['g'])) " -> g".toList =
      some ([.name (((dotId (s.uid a)).reverse ++ ['g']).reverse), .arrow], .inName ['g']) := rfl
  have h3 := lex_name (dotId_names hb) ['g']
  have h4 : lex (.inName ((dotId (s.uid b)).reverse ++ ['g'])) "\n".toList =
      some ([.name (((dotId (s.uid b)).reverse ++ ['g']).reverse)], .line) := rfl
  rw [name_rev] at h2 h4
  have := lex_seq (lex_seq (lex_seq h1 h2) h3) h4
  simpa using this

theorem lex_edge_attr {s : Env} {a b : Obj} (ha : simpleId (s.uid a) = true) (hb : simpleId (s.uid b) = true) {t : Text}
    {ts : List Tok} (ht : ∀ acc, lex (.inName acc) (t ++ "\n".toList) = some (.name acc.reverse :: ts, .line)) :
    lex .line (edgeLine s a b t) = some ([.name (nodeName (s.uid a)), .arrow, .name (nodeName (s.uid b))] ++ ts, .line) := by
  unfold edgeLine
  have h1 := lex_node ha
  have h2 : lex (.inName ((dotId (s.uid a)).reverse ++ ['g'])) " -> g".toList =
      some ([.name (((dotId (s.uid a)).reverse ++ ['g']).reverse), .arrow], .inName ['g']) := rfl
  have h3 := lex_name (dotId_names hb) ['g']
  have h4 := ht ((dotId (s.uid b)).reverse ++ ['g'])
  rw [name_rev] at h2 h4
  have := lex_seq (lex_seq (lex_seq h1 h2) h3) h4
  simpa using this

theorem lex_dotted (acc : Text) : lex (.inName acc) (" [style=dotted]".toList ++ "\n".toList) =
    some (.name acc.reverse :: [.sym '[', .name "style".toList, .sym '=', .name "dotted".toList, .sym ']'], .line) := rfl

theorem lex_shape (acc : Text) : lex (.inName acc) (" [shape=dot]".toList ++ "\n".toList) =
    some (.name acc.reverse :: [.sym '[', .name "shape".toList, .sym '=', .name "dot".toList, .sym ']'], .line) := rfl

/-- what an item is called and where it lies: `label\nClass [id]`, and the pose for frames -/
def captionOf (s : Env) (I : Info) (o : Obj) : Text :=
  (if I.label o = [] then [] else I.label o ++ ['\\', 'n']) ++ shortName (I.className o) ++ [' ', '['] ++ s.uid o ++ [']'] ++
    (if s.kind o = .frame then I.pose o else [])

/-- shape and colour of the kinds of items -/
def look3 : Kind → Text × Text
  | .frame => ("ellipse".toList, "lightblue".toList)
  | .op => ("octagon".toList, "lightcoral".toList)
  | _ => ("box".toList, "palegreen".toList)

def nodeAttrs (s : Env) (I : Info) (o : Obj) : List (Text × Text) :=
  [("label".toList, captionOf s I o), ("shape".toList, (look3 (s.kind o)).1), ("style".toList, "filled".toList),
   ("fillcolor".toList, (look3 (s.kind o)).2)]

def nodeToks (s : Env) (I : Info) (o : Obj) : List Tok :=
  [.name (nodeName (s.uid o)), .sym '[', .name "label".toList, .sym '=', .str (captionOf s I o), .sym ',',
   .name "shape".toList, .sym '=', .name (look3 (s.kind o)).1, .sym ',', .name "style".toList, .sym '=', .name "filled".toList,
   .sym ',', .name "fillcolor".toList, .sym '=', .name (look3 (s.kind o)).2, .sym ']']

/-- nothing in the texts of an item disturbs the language: the id is simple, no quote or backslash in its label and its
class name; the pose is written in digits and `\n` -/
structure Plain (s : Env) (I : Info) (o : Obj) : Prop where
  id : simpleId (s.uid o) = true
  label : quiet (I.label o) = true
  className : quiet (I.className o) = true
  pose : ∀ acc, lex (.inStr acc) (I.pose o) = some ([], .inStr ((I.pose o).reverse ++ acc))
  kind : s.kind o ≠ .other

theorem afterLast_mem : ∀ (t u : Text), afterLast t = some u → ∀ c ∈ u, c ∈ t := by
  intro t
  induction t with
  | nil => intro u h; cases h
  | cons a t ih =>
    intro u h c hc
    by_cases ha : ∃ t', a = ':' ∧ t = ':' :: t'
    · obtain ⟨t', rfl, rfl⟩ := ha
      rw [show afterLast (':' :: ':' :: t') = some ((afterLast (':' :: t')).getD t') from by simp [afterLast]] at h
      cases h
      cases hx : afterLast (':' :: t') with
      | none => rw [hx] at hc; exact List.mem_cons_of_mem _ (List.mem_cons_of_mem _ hc)
      | some v => rw [hx] at hc; exact List.mem_cons_of_mem _ (ih v hx c hc)
    · rw [show afterLast (a :: t) = afterLast t from by
        rw [afterLast]
        intro t' h1 h2
        exact ha ⟨t', h1, h2⟩] at h
      exact List.mem_cons_of_mem _ (ih u h c hc)

theorem quiet_short {c : Text} (h : quiet c = true) : quiet (shortName c) = true := by
  unfold shortName
  cases hx : afterLast c with
  | none => exact h
  | some u =>
    unfold quiet
    rw [List.all_eq_true]
    intro x hx'
    exact List.all_eq_true.1 h x (afterLast_mem c u hx x hx')

theorem quiet_id {id : Uid} (h : simpleId id = true) : quiet id = true := by
  unfold quiet
  rw [List.all_eq_true]
  intro c hc
  have := List.all_eq_true.1 h c hc
  rw [Bool.and_eq_true, decide_eq_true_eq, decide_eq_true_eq]
  refine ⟨fun hh => ?_, fun hh => ?_⟩ <;> (subst hh; exact absurd this (by decide))

theorem lex_caption {s : Env} {I : Info} {o : Obj} (h : Plain s I o) (acc : Text) :
    lex (.inStr acc) (caption s I o) = some ([], .inStr ((caption s I o).reverse ++ acc)) := by
  have hq : quiet (shortName (I.className o) ++ " [".toList ++ s.uid o ++ "]".toList) = true := by
    rw [quiet_append, quiet_append, quiet_append, quiet_short h.className, quiet_id h.id]; rfl
  unfold caption
  dsimp only
  split
  · exact lex_str hq acc
  · have h1 := lex_str h.label acc
    have h2 : lex (.inStr ((I.label o).reverse ++ acc)) "\\n".toList = some ([], .inStr ('n' :: '\\' :: ((I.label o).reverse ++ acc))) := rfl
    have h3 := lex_str hq ('n' :: '\\' :: ((I.label o).reverse ++ acc))
    have := lex_seq (lex_seq h1 h2) h3
    rw [this]
    simp

theorem captionOf_eq {s : Env} {I : Info} {o : Obj} : captionOf s I o = caption s I o ++ (if s.kind o = .frame then I.pose o else []) := by
  unfold captionOf caption
  split <;> simp

theorem lex_item {s : Env} {I : Info} {o : Obj} (h : Plain s I o) : lex .line (itemLine s I o) = some (nodeToks s I o, .line) := by
  have h1 := lex_node h.id
  have h2 : lex (.inName ((dotId (s.uid o)).reverse ++ ['g'])) (" ".toList ++ "[label=\"".toList) =
      some ([.name (((dotId (s.uid o)).reverse ++ ['g']).reverse), .sym '[', .name "label".toList, .sym '='], .inStr []) := rfl
  rw [name_rev] at h2
  have h3 := lex_caption h []
  unfold itemLine nodeToks
  rw [captionOf_eq]
  have hk := h.kind
  cases hkind : s.kind o with
  | other => exact absurd hkind hk
  | frame =>
    have h4 := lex_seq h3 (h.pose _)
    have h5 : lex (.inStr ((I.pose o).reverse ++ ((caption s I o).reverse ++ []))) ("\",shape=ellipse,style=filled,fillcolor=lightblue".toList ++ "]\n".toList) =
      some ([.str (((I.pose o).reverse ++ ((caption s I o).reverse ++ [])).reverse), .sym ',',
        .name "shape".toList, .sym '=', .name "ellipse".toList, .sym ',', .name "style".toList, .sym '=', .name "filled".toList,
        .sym ',', .name "fillcolor".toList, .sym '=', .name "lightblue".toList, .sym ']'], .line) := rfl
    have := lex_seq (lex_seq (lex_seq h1 h2) h4) h5
    simpa [Kind.isLayer, look3] using this
  | op =>
    have h5 : lex (.inStr ((caption s I o).reverse ++ [])) ("\",shape=octagon,style=filled,fillcolor=lightcoral".toList ++ "]\n".toList) =
      some ([.str (((caption s I o).reverse ++ []).reverse), .sym ',',
        .name "shape".toList, .sym '=', .name "octagon".toList, .sym ',', .name "style".toList, .sym '=', .name "filled".toList,
        .sym ',', .name "fillcolor".toList, .sym '=', .name "lightcoral".toList, .sym ']'], .line) := rfl
    have := lex_seq (lex_seq (lex_seq h1 h2) h3) h5
    simpa [Kind.isLayer, look3] using this
  | layer =>
    have h5 : lex (.inStr ((caption s I o).reverse ++ [])) ("\",shape=box,style=filled,fillcolor=palegreen".toList ++ "]\n".toList) =
      some ([.str (((caption s I o).reverse ++ []).reverse), .sym ',',
        .name "shape".toList, .sym '=', .name "box".toList, .sym ',', .name "style".toList, .sym '=', .name "filled".toList,
        .sym ',', .name "fillcolor".toList, .sym '=', .name "palegreen".toList, .sym ']'], .line) := rfl
    have := lex_seq (lex_seq (lex_seq h1 h2) h3) h5
    simpa [Kind.isLayer, look3] using this
  | cmap =>
    have h5 : lex (.inStr ((caption s I o).reverse ++ [])) ("\",shape=box,style=filled,fillcolor=palegreen".toList ++ "]\n".toList) =
      some ([.str (((caption s I o).reverse ++ []).reverse), .sym ',',
        .name "shape".toList, .sym '=', .name "box".toList, .sym ',', .name "style".toList, .sym '=', .name "filled".toList,
        .sym ',', .name "fillcolor".toList, .sym '=', .name "palegreen".toList, .sym ']'], .line) := rfl
    have := lex_seq (lex_seq (lex_seq h1 h2) h3) h5
    simpa [Kind.isLayer, look3] using this

theorem lex_flat {α : Type} {f : α → Text} {g : α → List Tok} {l : List α} (h : ∀ x ∈ l, lex .line (f x) = some (g x, .line)) :
    lex .line (l.flatMap f) = some (l.flatMap g, .line) := by
  induction l with
  | nil => rfl
  | cons x l ih =>
    rw [List.flatMap_cons, List.flatMap_cons]
    exact lex_seq (h x (by simp)) (ih (fun y hy => h y (by simp [hy])))

/-- the graph read so far -/
def Parse.graph? : Parse → Option Graph
  | .idle G => some G
  | .open G x => some (G.add [] x)
  | _ => none

theorem step_name {p : Parse} {G : Graph} (h : p.graph? = some G) (n : Text) : parseStep p (.name n) = some (.open G (.node n)) := by
  cases p with
  | idle G' => cases h; rfl
  | «open» G' x => cases h; cases x <;> rfl
  | _ => cases h

theorem step_close {p : Parse} {G : Graph} (h : p.graph? = some G) : parseStep p (.sym '}') = some (.done G) := by
  cases p with
  | idle G' => cases h; rfl
  | «open» G' x => cases h; cases x <;> rfl
  | _ => cases h

theorem parse_flat {α : Type} {g : α → List Tok} {add : Graph → α → Graph} {l : List α}
    (h : ∀ x ∈ l, ∀ p G, Parse.graph? p = some G → ∃ p', parse p (g x) = some p' ∧ p'.graph? = some (add G x)) :
    ∀ p G, Parse.graph? p = some G → ∃ p', parse p (l.flatMap g) = some p' ∧ p'.graph? = some (l.foldl add G) := by
  induction l with
  | nil => intro p G hp; exact ⟨p, rfl, hp⟩
  | cons x l ih =>
    intro p G hp
    obtain ⟨p1, h1, h2⟩ := h x (by simp) p G hp
    obtain ⟨p2, h3, h4⟩ := ih (fun y hy => h y (by simp [hy])) p1 _ h2
    refine ⟨p2, ?_, h4⟩
    rw [List.flatMap_cons, parse_append, h1]
    exact h3

theorem parse_item (s : Env) (I : Info) (o : Obj) (p : Parse) (G : Graph) (hp : p.graph? = some G) :
    ∃ p', parse p (nodeToks s I o) = some p' ∧ p'.graph? = some (G.add (nodeAttrs s I o) (.node (nodeName (s.uid o)))) := by
  refine ⟨.idle (G.add (nodeAttrs s I o) (.node (nodeName (s.uid o)))), ?_, rfl⟩
  unfold nodeToks
  rw [parse_cons, step_name hp]
  rfl

theorem parse_edge (a b : Text) (p : Parse) (G : Graph) (hp : p.graph? = some G) :
    ∃ p', parse p [.name a, .arrow, .name b] = some p' ∧ p'.graph? = some (G.add [] (.edge a b)) := by
  refine ⟨.open G (.edge a b), ?_, rfl⟩
  rw [parse_cons, step_name hp]
  rfl

theorem parse_edge_attr (a b k v : Text) (p : Parse) (G : Graph) (hp : p.graph? = some G) :
    ∃ p', parse p ([.name a, .arrow, .name b] ++ [.sym '[', .name k, .sym '=', .name v, .sym ']']) = some p' ∧
      p'.graph? = some (G.add [(k, v)] (.edge a b)) := by
  refine ⟨.idle (G.add [(k, v)] (.edge a b)), ?_, rfl⟩
  rw [List.cons_append, parse_cons, step_name hp]
  rfl

/-! ## C149 -/

abbrev Attrs := List (Text × Text)

/-- the arrows of an environment: children point to the frames they are relative to; layers to the layers below them, dotted;
inputs to operators, operators to outputs; frames to the maps that lie in them -/
def arrows (s : Env) : List (Obj × Obj × Attrs) :=
  s.ftree.map (fun e => (e.1, e.2, [])) ++
  s.ltree.map (fun e => (e.2, e.1, [("style".toList, "dotted".toList)])) ++
  s.opIn.map (fun e => (e.2, e.1, [])) ++
  s.opOut.map (fun e => (e.1, e.2, [])) ++
  s.cmap.map (fun e => (e.2, e.1, [("shape".toList, "dot".toList)]))

/-- the graph of an environment, under the names of the writer -/
def graphOf (s : Env) (I : Info) : Graph :=
  ⟨s.items.map (fun e => (nodeName (s.uid e.2), nodeAttrs s I e.2)),
   (arrows s).map (fun e => (nodeName (s.uid e.1), nodeName (s.uid e.2.1), e.2.2))⟩

theorem fold_nodes {α : Type} (n : α → Text) (as : α → Attrs) (l : List α) (G : Graph) :
    l.foldl (fun G x => G.add (as x) (.node (n x))) G = ⟨G.nodes ++ l.map (fun x => (n x, as x)), G.edges⟩ := by
  induction l generalizing G with
  | nil => simp
  | cons x l ih => rw [List.foldl_cons, ih]; simp [Graph.add]

theorem fold_edges {α : Type} (a b : α → Text) (as : Attrs) (l : List α) (G : Graph) :
    l.foldl (fun G x => G.add as (.edge (a x) (b x))) G = ⟨G.nodes, G.edges ++ l.map (fun x => (a x, b x, as))⟩ := by
  induction l generalizing G with
  | nil => simp
  | cons x l ih => rw [List.foldl_cons, ih]; simp [Graph.add]

theorem read_write {s : Env} {I : Info} (hi : ∀ e ∈ s.items, Plain s I e.2)
    (hl : ∀ e ∈ arrows s, simpleId (s.uid e.1) = true ∧ simpleId (s.uid e.2.1) = true) :
    readDot (write s I) = some (graphOf s I) := by
  have hf : ∀ e ∈ s.ftree, simpleId (s.uid e.1) = true ∧ simpleId (s.uid e.2) = true := fun e he =>
    hl (e.1, e.2, []) (by simp only [arrows, List.mem_append]; exact Or.inl (Or.inl (Or.inl (Or.inl (List.mem_map.2 ⟨e, he, rfl⟩)))))
  have hly : ∀ e ∈ s.ltree, simpleId (s.uid e.2) = true ∧ simpleId (s.uid e.1) = true := fun e he =>
    hl (e.2, e.1, _) (by simp only [arrows, List.mem_append]; exact Or.inl (Or.inl (Or.inl (Or.inr (List.mem_map.2 ⟨e, he, rfl⟩)))))
  have hin : ∀ e ∈ s.opIn, simpleId (s.uid e.2) = true ∧ simpleId (s.uid e.1) = true := fun e he =>
    hl (e.2, e.1, []) (by simp only [arrows, List.mem_append]; exact Or.inl (Or.inl (Or.inr (List.mem_map.2 ⟨e, he, rfl⟩))))
  have hout : ∀ e ∈ s.opOut, simpleId (s.uid e.1) = true ∧ simpleId (s.uid e.2) = true := fun e he =>
    hl (e.1, e.2, []) (by simp only [arrows, List.mem_append]; exact Or.inl (Or.inr (List.mem_map.2 ⟨e, he, rfl⟩)))
  have hc : ∀ e ∈ s.cmap, simpleId (s.uid e.2) = true ∧ simpleId (s.uid e.1) = true := fun e he =>
    hl (e.2, e.1, _) (by simp only [arrows, List.mem_append]; exact Or.inr (List.mem_map.2 ⟨e, he, rfl⟩))
  have x0 : lex .line "digraph G {\n".toList = some ([.name "digraph".toList, .name "G".toList, .sym '{'], .line) := rfl
  have x1 := lex_flat (f := fun e : Uid × Obj => itemLine s I e.2) (g := fun e => nodeToks s I e.2) (l := s.items)
    (fun e he => lex_item (hi e he))
  have x2 : lex .line "# framenodetree\n".toList = some ([], .line) := rfl
  have x3 := lex_flat (f := fun e : Obj × Obj => edgeLine s e.1 e.2 []) (l := s.ftree) (fun e he => lex_edge (hf e he).1 (hf e he).2)
  have x4 : lex .line "# layertree\n".toList = some ([], .line) := rfl
  have x5 := lex_flat (f := fun e : Obj × Obj => edgeLine s e.2 e.1 " [style=dotted]".toList) (l := s.ltree)
    (fun e he => lex_edge_attr (hly e he).1 (hly e he).2 lex_dotted)
  have x6 : lex .line "# operatorGraphInput\n".toList = some ([], .line) := rfl
  have x7 := lex_flat (f := fun e : Obj × Obj => edgeLine s e.2 e.1 []) (l := s.opIn) (fun e he => lex_edge (hin e he).1 (hin e he).2)
  have x8 : lex .line "# operatorGraphOutput\n".toList = some ([], .line) := rfl
  have x9 := lex_flat (f := fun e : Obj × Obj => edgeLine s e.1 e.2 []) (l := s.opOut) (fun e he => lex_edge (hout e he).1 (hout e he).2)
  have x10 : lex .line "# cartesianMapGraph\n".toList = some ([], .line) := rfl
  have x11 := lex_flat (f := fun e : Obj × Obj => edgeLine s e.2 e.1 " [shape=dot]".toList) (l := s.cmap)
    (fun e he => lex_edge_attr (hc e he).1 (hc e he).2 lex_shape)
  have x12 : lex .line "}\n".toList = some ([.sym '}'], .line) := rfl
  have hlex := lex_seq (lex_seq (lex_seq (lex_seq (lex_seq (lex_seq (lex_seq (lex_seq (lex_seq (lex_seq (lex_seq (lex_seq x0 x1) x2)
    x3) x4) x5) x6) x7) x8) x9) x10) x11) x12
  obtain ⟨p1, q1, r1⟩ := parse_flat (l := s.items) (fun e _ p G hp => parse_item s I e.2 p G hp) (.idle ⟨[], []⟩) _ rfl
  obtain ⟨p2, q2, r2⟩ := parse_flat (l := s.ftree) (fun e _ p G hp => parse_edge (nodeName (s.uid e.1)) (nodeName (s.uid e.2)) p G hp) p1 _ r1
  obtain ⟨p3, q3, r3⟩ := parse_flat (l := s.ltree) (fun e _ p G hp => parse_edge_attr (nodeName (s.uid e.2)) (nodeName (s.uid e.1))
    "style".toList "dotted".toList p G hp) p2 _ r2
  obtain ⟨p4, q4, r4⟩ := parse_flat (l := s.opIn) (fun e _ p G hp => parse_edge (nodeName (s.uid e.2)) (nodeName (s.uid e.1)) p G hp) p3 _ r3
  obtain ⟨p5, q5, r5⟩ := parse_flat (l := s.opOut) (fun e _ p G hp => parse_edge (nodeName (s.uid e.1)) (nodeName (s.uid e.2)) p G hp) p4 _ r4
  obtain ⟨p6, q6, r6⟩ := parse_flat (l := s.cmap) (fun e _ p G hp => parse_edge_attr (nodeName (s.uid e.2)) (nodeName (s.uid e.1))
    "shape".toList "dot".toList p G hp) p5 _ r5
  have hhead : parse .start [.name "digraph".toList, .name "G".toList, .sym '{'] = some (.idle ⟨[], []⟩) := rfl
  have hend : parse p6 [.sym '}'] = some (.done (graphOf s I)) := by
    rw [parse_cons, step_close r6]
    simp only [Option.bind_some, parse]
    rw [fold_nodes, fold_edges, fold_edges, fold_edges, fold_edges, fold_edges]
    simp [graphOf, arrows, List.map_append, List.map_map, Function.comp_def]
  unfold readDot
  unfold write
  rw [hlex]
  dsimp only
  simp only [List.append_nil, parse_append, hhead, q1, q2, q3, q4, q5, q6, hend, Option.bind_some]

theorem arrows_here {s : Env} (hc : Closed s) : ∀ e ∈ arrows s, s.owner e.1 = .here ∧ s.owner e.2.1 = .here := by
  intro e he
  simp only [arrows, List.mem_append, List.mem_map] at he
  rcases he with (((⟨x, hx, rfl⟩ | ⟨x, hx, rfl⟩) | ⟨x, hx, rfl⟩) | ⟨x, hx, rfl⟩) | ⟨x, hx, rfl⟩
  · exact (hc.ftree x hx).1
  · exact (hc.ltree x hx).1.symm
  · exact (hc.opIn x hx).1.symm
  · exact (hc.opOut x hx).1
  · exact (hc.cmap x hx).1.symm

/-- **C149, the part that holds.** In an environment whose items have ids of letters, digits and slashes, and whose labels and
class names have neither quotes nor backslashes, the text is a graph; it has exactly one node for every attached item,
with its label, class, id and pose, no two items share a node, and the arrows are exactly the links of the environment. -/
theorem C149_graph_partial {r : Obj} {s : Env} (h : Reach Good r s) {I : Info}
    (hi : ∀ o, s.owner o = .here → Plain s I o) :
    ∃ G, readDot (write s I) = some G ∧
      (∀ o o', s.owner o = .here → s.owner o' = .here → nodeName (s.uid o) = nodeName (s.uid o') → o = o') ∧
      G.nodes = s.items.map (fun e => (nodeName e.1, nodeAttrs s I e.2)) ∧ (G.nodes.map (·.1)).Nodup ∧
      (∀ o as, s.owner o = .here → ((nodeName (s.uid o), as) ∈ G.nodes ↔ as = nodeAttrs s I o)) ∧
      G.edges.length = s.ftree.length + s.ltree.length + s.opIn.length + s.opOut.length + s.cmap.length ∧
      (∀ c p, s.owner c = .here → s.owner p = .here → s.kind c = .frame → s.kind p = .frame →
        ((nodeName (s.uid c), nodeName (s.uid p), []) ∈ G.edges ↔ s.getParent c = some p)) ∧
      (∀ p c, s.owner p = .here → s.owner c = .here →
        ((nodeName (s.uid p), nodeName (s.uid c), [("style".toList, "dotted".toList)]) ∈ G.edges ↔ p ∈ s.getLayerParents c)) ∧
      (∀ l op, s.owner l = .here → s.owner op = .here → s.kind op = .op → (s.kind l).isLayer = true →
        ((nodeName (s.uid l), nodeName (s.uid op), []) ∈ G.edges ↔ l ∈ s.getInputs op) ∧
        ((nodeName (s.uid op), nodeName (s.uid l), []) ∈ G.edges ↔ l ∈ s.getOutputs op)) ∧
      (∀ f m, s.owner f = .here → s.owner m = .here →
        ((nodeName (s.uid f), nodeName (s.uid m), [("shape".toList, "dot".toList)]) ∈ G.edges ↔ s.getFrameNode m = some f)) := by
  obtain ⟨hw, hc⟩ := h.wf_closed
  have hinj : ∀ o o', s.owner o = .here → s.owner o' = .here → nodeName (s.uid o) = nodeName (s.uid o') → o = o' := by
    intro o o' ho ho' hn
    have hu := nodeName_inj (hi o ho).id (hi o' ho').id hn
    have m1 := (hw.items_iff (s.uid o) o).2 ⟨ho, rfl⟩
    have m2 := (hw.items_iff (s.uid o) o').2 ⟨ho', hu.symm⟩
    have l1 := (look_eq_some_iff hw.items_nodup).2 m1
    have l2 := (look_eq_some_iff hw.items_nodup).2 m2
    rw [l1] at l2
    exact Option.some.inj l2
  have hnodes : (graphOf s I).nodes = s.items.map (fun e => (nodeName e.1, nodeAttrs s I e.2)) := by
    unfold graphOf
    apply List.map_congr_left
    intro e he
    rw [((hw.items_iff e.1 e.2).1 he).2]
  have hedge : ∀ a b as, s.owner a = .here → s.owner b = .here →
      ((nodeName (s.uid a), nodeName (s.uid b), as) ∈ (graphOf s I).edges ↔ (a, b, as) ∈ arrows s) := by
    intro a b as ha hb
    show _ ∈ (arrows s).map _ ↔ _
    rw [List.mem_map]
    constructor
    · rintro ⟨e, he, hee⟩
      obtain ⟨h1, h2⟩ := arrows_here hc e he
      obtain ⟨n1, n2⟩ := Prod.mk.inj hee
      obtain ⟨n2, n3⟩ := Prod.mk.inj n2
      have := hinj e.1 a h1 ha n1
      have := hinj e.2.1 b h2 hb n2
      obtain ⟨e1, e2, e3⟩ := e
      dsimp only at *
      subst_vars
      exact he
    · intro he
      exact ⟨_, he, rfl⟩
  refine ⟨graphOf s I, read_write (fun e he => hi _ ((hw.items_iff e.1 e.2).1 he).1)
    (fun e he => ⟨(hi _ (arrows_here hc e he).1).id, (hi _ (arrows_here hc e he).2).id⟩), hinj, hnodes, ?_, ?_, ?_, ?_, ?_, ?_, ?_⟩
  · rw [hnodes, List.map_map]
    have : (fun x : Text × Attrs => x.1) ∘ (fun e : Uid × Obj => (nodeName e.1, nodeAttrs s I e.2)) = fun e => nodeName e.1 := rfl
    rw [this]
    have hnd := hw.items_nodup
    have hid : ∀ e ∈ s.items, simpleId e.1 = true := fun e he => by
      have := (hw.items_iff e.1 e.2).1 he
      rw [← this.2]; exact (hi _ this.1).id
    clear hnodes this hedge
    revert hnd hid
    induction s.items with
    | nil => intros; exact List.nodup_nil
    | cons x l ih =>
      intro hnd hid
      rw [List.map_cons, List.nodup_cons] at hnd ⊢
      refine ⟨fun hm => hnd.1 ?_, ih hnd.2 (fun e he => hid e (List.mem_cons_of_mem _ he))⟩
      obtain ⟨y, hy, hxy⟩ := List.mem_map.1 hm
      rw [← nodeName_inj (hid y (List.mem_cons_of_mem _ hy)) (hid x (List.mem_cons_self ..)) hxy]
      exact List.mem_map_of_mem hy
  · intro o as ho
    show _ ∈ s.items.map _ ↔ _
    rw [List.mem_map]
    constructor
    · rintro ⟨e, he, hee⟩
      obtain ⟨n1, n2⟩ := Prod.mk.inj hee
      have := hinj e.2 o ((hw.items_iff e.1 e.2).1 he).1 ho n1
      rw [← n2, this]
    · intro has
      exact ⟨(s.uid o, o), (hw.items_iff _ _).2 ⟨ho, rfl⟩, by rw [has]⟩
  · show ((arrows s).map _).length = _
    simp [arrows, Nat.add_assoc]
  · intro c p hc1 hp1 kc kp
    rw [hedge c p [] hc1 hp1]
    show _ ↔ look c s.ftree = some p
    rw [look_eq_some_iff hw.ftree_nodup]
    simp only [arrows, List.mem_append, List.mem_map, Prod.mk.injEq]
    constructor
    · rintro ((((⟨x, hx, rfl, rfl, _⟩ | ⟨x, hx, _, _, hh⟩) | ⟨x, hx, rfl, rfl, _⟩) | ⟨x, hx, rfl, rfl, _⟩) | ⟨x, hx, _, _, hh⟩)
      · exact hx
      · cases hh
      · have := (hc.opIn x hx).2.1; rw [kp] at this; cases this
      · have := (hc.opOut x hx).2.1; rw [kc] at this; cases this
      · cases hh
    · intro hx
      exact Or.inl (Or.inl (Or.inl (Or.inl ⟨(c, p), hx, rfl, rfl, trivial⟩)))
  · intro p c hp1 hc1
    rw [hedge p c _ hp1 hc1]
    simp only [arrows, List.mem_append, List.mem_map, Prod.mk.injEq, getLayerParents, List.mem_filter, decide_eq_true_eq]
    constructor
    · rintro ((((⟨x, hx, _, _, hh⟩ | ⟨x, hx, h1, h2, _⟩) | ⟨x, hx, _, _, hh⟩) | ⟨x, hx, _, _, hh⟩) | ⟨x, hx, _, _, hh⟩)
      · cases hh
      · exact ⟨x, ⟨hx, h2⟩, h1⟩
      · cases hh
      · cases hh
      · exact absurd hh (by decide)
    · rintro ⟨x, ⟨hx, h2⟩, h1⟩
      exact Or.inl (Or.inl (Or.inl (Or.inr ⟨x, hx, h1, h2, trivial⟩)))
  · intro l op hl1 ho1 ko kl
    rw [hedge l op _ hl1 ho1, hedge op l _ ho1 hl1]
    simp only [arrows, List.mem_append, List.mem_map, Prod.mk.injEq, getInputs, getOutputs, List.mem_filter, decide_eq_true_eq]
    refine ⟨⟨?_, ?_⟩, ⟨?_, ?_⟩⟩
    · rintro ((((⟨x, hx, h1, h2, _⟩ | ⟨x, hx, _, _, hh⟩) | ⟨x, hx, h1, h2, _⟩) | ⟨x, hx, h1, h2, _⟩) | ⟨x, hx, _, _, hh⟩)
      · have := (hc.ftree x hx).2.2; rw [h2, ko] at this; cases this
      · cases hh
      · exact ⟨x, ⟨hx, h2⟩, h1⟩
      · have := (hc.opOut x hx).2.1; rw [h1] at this; rw [this] at kl; cases kl
      · cases hh
    · rintro ⟨x, ⟨hx, h2⟩, h1⟩
      exact Or.inl (Or.inl (Or.inr ⟨x, hx, h1, h2, trivial⟩))
    · rintro ((((⟨x, hx, h1, h2, _⟩ | ⟨x, hx, _, _, hh⟩) | ⟨x, hx, h1, h2, _⟩) | ⟨x, hx, h1, h2, _⟩) | ⟨x, hx, _, _, hh⟩)
      · have := (hc.ftree x hx).2.1; rw [h1, ko] at this; cases this
      · cases hh
      · have := (hc.opIn x hx).2.1; rw [h2] at this; rw [this] at kl; cases kl
      · exact ⟨x, ⟨hx, h1⟩, h2⟩
      · cases hh
    · rintro ⟨x, ⟨hx, h1⟩, h2⟩
      exact Or.inl (Or.inr ⟨x, hx, h1, h2, trivial⟩)
  · intro f m hf1 hm1
    rw [hedge f m _ hf1 hm1]
    show _ ↔ look m s.cmap = some f
    rw [look_eq_some_iff hw.cmap_nodup]
    simp only [arrows, List.mem_append, List.mem_map, Prod.mk.injEq]
    constructor
    · rintro ((((⟨x, hx, _, _, hh⟩ | ⟨x, hx, _, _, hh⟩) | ⟨x, hx, _, _, hh⟩) | ⟨x, hx, _, _, hh⟩) | ⟨x, hx, rfl, rfl, _⟩)
      · cases hh
      · exact absurd hh (by decide)
      · cases hh
      · cases hh
      · exact hx
    · intro hx
      exact Or.inr ⟨(m, f), hx, rfl, rfl, trivial⟩

/-! ## Examples and faults -/

def info : Info where
  className := fun o => if o = 0 then "envire::FrameNode".toList else "envire::maps::Grid".toList
  label := fun o => if o = 2 then "the ground".toList else []
  pose := fun _ => "\\nt: (0.0 0.0 0.0)\\nr: (0.0 0.0 0.0)".toList

def reads (s : Env) (I : Info) : Option (List Text × List (Text × Text)) :=
  (readDot (write s I)).map (fun G => (G.nodes.map (·.1), G.edges.map (fun e => (e.1, e.2.1))))

/-- the hypotheses of C149 are met by an environment with frames, maps and an operator -/
example : ∃ s, run (init 0) [.alloc 1 .frame [] true 0 0, .alloc 2 .cmap [] true 0 0, .alloc 3 .cmap [] true 0 0, .alloc 4 .op [] true 1 1,
      .addChildF 0 1, .attachMap 2 (some 1), .attachMap 3 (some 0), .attach 4, .addInput 4 2, .addOutput 4 3, .addChildL 2 3] = some s ∧
    ((reads s info).isSome = true ∧ (s.items.all (fun e => simpleId e.1)) = true ∧
     (readDot (write s info)).map (fun G => G.edges.length) = some 6) :=
  ex_of_any (by decide +kernel)

example (s : Env) (h : simpleId (s.uid 2) = true) (k : s.kind 2 ≠ .other) : Plain s info 2 :=
  ⟨h, by decide, by decide, fun acc => rfl, k⟩

/-- **C149, the code violates the property**: two items whose ids differ in a slash against an underscore are one node. -/
theorem C149_same_node :
    ∃ s, run (init 0) [.alloc 1 .frame "a/b".toList true 0 0, .alloc 2 .frame "a_b".toList true 0 0, .addChildF 0 1, .addChildF 1 2] = some s ∧
      (s.owner 1 = .here ∧ s.owner 2 = .here ∧ (reads s info).map (·.2) = some [("g_a_b".toList, "g_0".toList), ("g_a_b".toList, "g_a_b".toList)]) :=
  ex_of_any (by decide +kernel)

/-- **C149, the code violates the property**: a dash in an id (uuids are such ids), a quote in a label, or an item that is neither
frame nor layer nor operator, and the text is no graph; a blank in an id makes up nodes. -/
theorem C149_no_graph :
    (∃ s, run (init 0) [.alloc 1 .frame "a-b".toList true 0 0, .addChildF 0 1] = some s ∧ reads s info = none) ∧
    (∃ s, run (init 0) [.alloc 1 .frame "a b".toList true 0 0, .addChildF 0 1] = some s ∧
      (s.items.length = 2 ∧ (reads s info).map (fun r => r.1.length) = some 4)) ∧
    (∃ s, run (init 0) [.alloc 2 .frame [] true 0 0, .addChildF 0 2] = some s ∧
      reads s { info with label := fun _ => "a \"b\" c".toList } = none) ∧
    (∃ s, run (init 0) [.alloc 1 .other [] true 0 0, .attach 1] = some s ∧ reads s info = none) :=
  ⟨ex_of_any (by decide +kernel), ex_of_any (by decide +kernel), ex_of_any (by decide +kernel), ex_of_any (by decide +kernel)⟩

/-- the class name without namespaces -/
theorem C149_class_name (ns base : Text) (hb : afterLast base = none) (hh : base.head? ≠ some ':') :
    shortName (ns ++ "::".toList ++ base) = base ∧ shortName base = base := by
  have hcol : afterLast (':' :: base) = none := by
    cases base with
    | nil => rfl
    | cons c t =>
      have hc : c ≠ ':' := fun hc => hh (by rw [hc]; rfl)
      rw [afterLast]
      · exact hb
      · intro t' h1 h2
        exact hc (List.cons.inj h2).1
  have h0 : afterLast (':' :: ':' :: base) = some base := by
    rw [afterLast, hcol]; rfl
  have hns : ∀ ns : Text, afterLast (ns ++ ':' :: ':' :: base) = some base := by
    intro ns
    induction ns with
    | nil => exact h0
    | cons c t ih =>
      by_cases hx : ∃ t', c = ':' ∧ t ++ ':' :: ':' :: base = ':' :: t'
      · obtain ⟨t', rfl, ht⟩ := hx
        rw [List.cons_append, ht, afterLast, ← ht, ih]
        rfl
      · rw [List.cons_append, afterLast]
        · exact ih
        · intro t' h1 h2
          exact hx ⟨t', h1, h2⟩
  refine ⟨?_, ?_⟩
  · unfold shortName
    rw [List.append_assoc, show "::".toList ++ base = ':' :: ':' :: base from rfl, hns]
    rfl
  · unfold shortName
    rw [hb]; rfl

example : shortName "envire::Grid".toList = "Grid".toList := by decide

#print axioms C149_graph_partial
#print axioms C149_same_node
#print axioms C149_no_graph
#print axioms C149_class_name

end Dot
end Envire
