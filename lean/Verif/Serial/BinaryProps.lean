import Verif.Serial.BinaryModel
import Mathlib.Data.Set.Finite.List
import Mathlib.Data.Fintype.EquivFin
import Mathlib.Data.Fintype.Pigeonhole
/-! Property C73: binary events carry items to a receiver unchanged. -/
namespace Envire.Binary

/-- specification: the value that was last written for a key -/
def lastProp (ws : List Wr) (k : Name) : Option Name :=
  ws.foldl (fun r w => match w with | .prop k' v => if k' = k then some v else r | _ => r) none

/-- specification: the content that was last written to a stream -/
def lastBin (ws : List Wr) (n : Name) : Option Bytes :=
  ws.foldl (fun r w => match w with | .bin n' b => if n' = n then some b else r | _ => r) none

/-- the properties of an item in a file or event -/
def props (cls : Name) (ws : List Wr) (k : Name) : Option Name := if k = classKey then some cls else lastProp ws k

theorem find_snoc (d : Doc) (k v k' : Name) : find (d ++ [(k, v)]) k' = if k = k' then some v else find d k' := by
  unfold find
  rw [List.reverse_append, List.reverse_singleton, List.singleton_append, List.find?_cons]
  by_cases h : k = k' <;> simp [h]

theorem get_put (m : Streams) (n n' : Name) (b : Bytes) : get (put m n b) n' = if n = n' then some b else get m n' := by
  unfold get put
  rw [List.find?_cons]
  by_cases h : n = n'
  · simp [h]
  · have : ∀ l : Streams, (l.filter (fun e => decide (e.1 ≠ n))).find? (fun e => decide (e.1 = n')) = l.find? (fun e => decide (e.1 = n')) := by
      intro l
      induction l with
      | nil => rfl
      | cons x l ih =>
        by_cases hx : x.1 = n
        · rw [List.filter_cons_of_neg (by simp [hx]), List.find?_cons, ih]
          have : x.1 ≠ n' := by rw [hx]; exact h
          simp [this]
        · rw [List.filter_cons_of_pos (by simp [hx]), List.find?_cons, List.find?_cons, ih]
    simp only [decide_eq_true_eq, h, decide_false, Bool.false_eq_true, if_false]
    rw [this]

/-- at most one entry per name -/
def Keyed (m : Streams) : Prop := (m.map (·.1)).Nodup

theorem keyed_put {m : Streams} (h : Keyed m) (n : Name) (b : Bytes) : Keyed (put m n b) := by
  unfold Keyed put
  rw [List.map_cons, List.nodup_cons]
  refine ⟨?_, h.sublist (List.filter_sublist.map _)⟩
  intro hm
  obtain ⟨x, hx, rfl⟩ := List.mem_map.1 hm
  have := (List.mem_filter.1 hx).2
  simp at this

theorem get_putAll (l : Streams) : ∀ (m : Streams) (n : Name), Keyed l →
    get (putAll m (l.map (·.1)) (l.map (·.2))) n = (get l n).or (get m n) := by
  induction l with
  | nil => intro m n _; rfl
  | cons x l ih =>
    intro m n h
    unfold Keyed at h
    rw [List.map_cons, List.nodup_cons] at h
    show get (putAll (put m x.1 x.2) (l.map (·.1)) (l.map (·.2))) n = _
    rw [ih _ _ h.2, get_put]
    have hc : get (x :: l) n = if x.1 = n then some x.2 else get l n := by
      unfold get
      rw [List.find?_cons]
      by_cases hx : x.1 = n <;> simp [hx]
    rw [hc]
    by_cases hx : x.1 = n
    · rw [if_pos hx, if_pos hx]
      have : get l n = none := by
        unfold get
        rw [Option.map_eq_none_iff, List.find?_eq_none]
        intro y hy
        rw [decide_eq_true_eq]
        intro e
        exact h.1 (List.mem_map.2 ⟨y, hy, by rw [e, hx]⟩)
      rw [this]; rfl
    · rw [if_neg hx, if_neg hx]

/-- a serializer that does not throw -/
def NoFail (ws : List Wr) : Prop := Wr.fail ∉ ws

theorem writes_spec (ws : List Wr) : ∀ (d : Doc) (m : Streams), NoFail ws → Keyed m →
    ∃ d' m', writes ws d m = (d', m', true) ∧ Keyed m' ∧
      (∀ k, find d' k = ws.foldl (fun r w => match w with | .prop k' v => if k' = k then some v else r | _ => r) (find d k)) ∧
      (∀ n, get m' n = ws.foldl (fun r w => match w with | .bin n' b => if n' = n then some b else r | _ => r) (get m n)) := by
  induction ws with
  | nil => intro d m _ hm; exact ⟨d, m, rfl, hm, fun _ => rfl, fun _ => rfl⟩
  | cons w ws ih =>
    intro d m hf hm
    have hf' : NoFail ws := fun h => hf (List.mem_cons_of_mem _ h)
    cases w with
    | prop k v =>
      obtain ⟨d', m', h1, h2, h3, h4⟩ := ih (d ++ [(k, v)]) m hf' hm
      refine ⟨d', m', h1, h2, fun k' => ?_, h4⟩
      rw [h3, find_snoc, List.foldl_cons]
    | bin n b =>
      obtain ⟨d', m', h1, h2, h3, h4⟩ := ih d (put m n b) hf' (keyed_put hm n b)
      refine ⟨d', m', h1, h2, h3, fun n' => ?_⟩
      rw [h4, get_put, List.foldl_cons]
    | fail => exact absurd (List.mem_cons_self ..) hf

theorem foldl_prop_of (ws : List Wr) (k : Name) : ∀ (r : Option Name), (∀ v, Wr.prop k v ∉ ws) →
    ws.foldl (fun r w => match w with | .prop k' v => if k' = k then some v else r | _ => r) r = r := by
  induction ws with
  | nil => intro r _; rfl
  | cons w ws ih =>
    intro r h
    rw [List.foldl_cons]
    have h' := ih r (fun v hv => h v (List.mem_cons_of_mem _ hv))
    cases w with
    | prop k' v =>
      have : k' ≠ k := by rintro rfl; exact h v (List.mem_cons_self ..)
      dsimp only
      rw [if_neg this]
      exact h'
    | bin n b => exact h'
    | fail => exact h'

/-- the property that is written -/
def asProp : Wr → Option (Name × Name)
  | .prop k v => some (k, v)
  | _ => none

/-- the document of an item: its class and its properties in the order of writing -/
def docOf (cls : Name) (ws : List Wr) : Doc := (['c', 'l', 'a', 's', 's'], cls) :: ws.filterMap asProp

theorem writes_doc (ws : List Wr) (d : Doc) (m : Streams) (h : NoFail ws) : (writes ws d m).1 = d ++ ws.filterMap asProp := by
  induction ws generalizing d m with
  | nil => exact (List.append_nil d).symm
  | cons w ws ih =>
    have h' : NoFail ws := fun hm => h (List.mem_cons_of_mem _ hm)
    cases w with
    | prop k v => exact (ih (d ++ [(k, v)]) m h').trans (by rw [List.append_assoc]; rfl)
    | bin n b => exact ih d (put m n b) h'
    | fail => exact absurd List.mem_cons_self h

/-- an item that can be sent: its serializer does not throw and does not use the key "class", and its document fits
into the buffer -/
structure Sendable (c : Codec) (cls : Name) (ws : List Wr) : Prop where
  noFail : NoFail ws
  noClass : ∀ v, Wr.prop classKey v ∉ ws
  small : (c.emit (docOf cls ws)).length ≤ 10000

theorem transport_one {I : Type} {c : Codec} {create : Name → (Name → Option Name) → (Name → Option Bytes) → Option I} {cls : Name} {ws : List Wr}
    (h : Sendable c cls ws) : (serializeEvent c [] cls ws).1 = [] ∧
      (unserializeEvent c create [] (serializeEvent c [] cls ws).2.1).2 = create cls (props cls ws) (lastBin ws) ∧
      ∀ x, (unserializeEvent c create [] (serializeEvent c [] cls ws).2.1).2 = some x →
        (unserializeEvent c create [] (serializeEvent c [] cls ws).2.1).1 = [] := by
  obtain ⟨d, m, h1, h2, h3, h4⟩ := writes_spec ws [(classKey, cls)] [] h.noFail List.nodup_nil
  have hs : serializeEvent c [] cls ws = ([], ⟨cls, c.emit d, m.map (·.1), m.map (·.2)⟩, true) := by
    unfold serializeEvent
    have hd := writes_doc ws [(classKey, cls)] [] h.noFail
    rw [h1] at hd ⊢
    have hsm : (c.emit d).length ≤ bufferSize := by
      rw [show d = docOf cls ws from hd]
      exact h.small
    dsimp only
    rw [List.take_of_length_le hsm]
  have hclass : find d classKey = some cls := by
    rw [h3, foldl_prop_of ws classKey _ h.noClass]
    rfl
  have hfind : find d = props cls ws := by
    funext k
    unfold props
    by_cases hk : k = classKey
    · rw [if_pos hk, hk, hclass]
    · rw [if_neg hk, h3]
      have : find [(classKey, cls)] k = none := by
        unfold find
        rw [List.reverse_singleton, List.find?_cons, decide_eq_false (fun e : classKey = k => hk e.symm)]
        rfl
      rw [this]
      rfl
  have hget : get (putAll [] (m.map (·.1)) (m.map (·.2))) = lastBin ws := by
    funext n
    rw [get_putAll m [] n h2, h4]
    show Option.or _ none = _
    rw [Option.or_none]
    rfl
  rw [hs]
  unfold unserializeEvent
  dsimp only
  rw [c.back]
  dsimp only
  rw [if_pos hclass, hfind, hget]
  refine ⟨rfl, ?_, ?_⟩
  · cases create cls (props cls ws) (lastBin ws) <;> rfl
  · intro x hx
    cases hc : create cls (props cls ws) (lastBin ws) with
    | some y => rfl
    | none => rw [hc] at hx; cases hx

/-- **C73** The unserialize function of every item of a batch sees exactly what the serialize function of that item wrote:
under every key and in every stream the value written last, and nothing of the other items of the batch. Missing for the
full claim: items with documents of more than 10000 bytes (`C73_truncation`) and exceptions (`C73_stale_stream`,
`C73_batch_lost`). -/
theorem C73_transport_partial {I : Type} (c : Codec) (create : Name → (Name → Option Name) → (Name → Option Bytes) → Option I)
    (items : List (Name × List Wr)) (h : ∀ i ∈ items, Sendable c i.1 i.2) (xs : List I)
    (hx : items.map (fun i => create i.1 (props i.1 i.2) (lastBin i.2)) = xs.map some) :
    receive c create [] (send c [] items) = (xs, true) := by
  induction items generalizing xs with
  | nil =>
    cases xs with
    | nil => rfl
    | cons x xs => cases hx
  | cons i items ih =>
    cases xs with
    | nil => cases hx
    | cons x xs =>
      rw [List.map_cons, List.map_cons, List.cons.injEq] at hx
      obtain ⟨t1, t2, t3⟩ := transport_one (create := create) (h i (List.mem_cons_self ..))
      rw [hx.1] at t2
      have ih' := ih (fun j hj => h j (List.mem_cons_of_mem _ hj)) xs hx.2
      show receive c create [] ((serializeEvent c [] i.1 i.2).2.1 :: send c (serializeEvent c [] i.1 i.2).1 items) = _
      rw [t1]
      unfold receive
      have he : unserializeEvent c create [] (serializeEvent c [] i.1 i.2).2.1 = ([], some x) := Prod.ext (t3 x t2) t2
      rw [he]
      dsimp only
      rw [ih']

/-- **C73** If the classes read back what they write (C25, C36, C62, C71 are about that), the receiver gets the items of
the sender, all of them and in order. -/
theorem C73_items_partial {I : Type} (c : Codec) (create : Name → (Name → Option Name) → (Name → Option Bytes) → Option I)
    (cls : I → Name) (ser : I → List Wr) (hrt : ∀ x, create (cls x) (props (cls x) (ser x)) (lastBin (ser x)) = some x)
    (xs : List I) (h : ∀ x ∈ xs, Sendable c (cls x) (ser x)) :
    receive c create [] (send c [] (xs.map (fun x => (cls x, ser x)))) = (xs, true) := by
  refine C73_transport_partial c create _ ?_ xs ?_
  · intro i hi
    obtain ⟨x, hx, rfl⟩ := List.mem_map.1 hi
    exact h x hx
  · rw [List.map_map]
    exact List.map_congr_left (fun x _ => hrt x)

/-- **C73, the code violates the property**: whatever the text format is, there are two items of the same class with
different property values for which the same bytes are sent. (The buffer has 10000 bytes, the failure of the emitter is
ignored.) -/
theorem C73_truncation (c : Codec) (cls : Name) (k : Name) : ∃ v v' : Name, v ≠ v' ∧
    serializeEvent c [] cls [.prop k v] = serializeEvent c [] cls [.prop k v'] := by
  have : Finite UInt8 := Finite.of_injective UInt8.toFin (fun a b h => UInt8.toFin_inj.1 h)
  have hfin : Finite {l : Bytes // l.length ≤ bufferSize} := (List.finite_length_le UInt8 bufferSize).to_subtype
  let f : Name → {l : Bytes // l.length ≤ bufferSize} := fun v =>
    ⟨(c.emit [(classKey, cls), (k, v)]).take bufferSize, by rw [List.length_take]; exact Nat.min_le_left ..⟩
  obtain ⟨v, v', hne, he⟩ := Finite.exists_ne_map_eq_of_infinite f
  refine ⟨v, v', hne, ?_⟩
  have he' : (c.emit [(classKey, cls), (k, v)]).take bufferSize = (c.emit [(classKey, cls), (k, v')]).take bufferSize := congrArg Subtype.val he
  unfold serializeEvent
  show ([], (⟨cls, (c.emit [(classKey, cls), (k, v)]).take bufferSize, [], []⟩ : BinEv), true) =
    ([], (⟨cls, (c.emit [(classKey, cls), (k, v')]).take bufferSize, [], []⟩ : BinEv), true)
  rw [he']

/-! ### a small text format for the examples: characters as four bytes, strings end with a zero -/

def emitChar (c : Char) : Bytes := [1, UInt8.ofNat (c.toNat / 65536), UInt8.ofNat (c.toNat / 256), UInt8.ofNat c.toNat]
def emitStr (s : Name) : Bytes := s.flatMap emitChar ++ [0]
def emitDoc (d : Doc) : Bytes := d.flatMap (fun e => emitStr e.1 ++ emitStr e.2)

def parseGo : Bytes → Name → Option (List Name)
  | [], [] => some []
  | 0 :: t, acc => (parseGo t []).map (acc.reverse :: ·)
  | 1 :: a :: b :: c :: t, acc => parseGo t (Char.ofNat (a.toNat * 65536 + b.toNat * 256 + c.toNat) :: acc)
  | _, _ => none

def pairUp : List Name → Option Doc
  | [] => some []
  | a :: b :: t => (pairUp t).map ((a, b) :: ·)
  | _ => none

theorem parse_char (c : Char) (t : Bytes) (acc : Name) : parseGo (emitChar c ++ t) acc = parseGo t (c :: acc) := by
  show parseGo t (Char.ofNat ((UInt8.ofNat (c.toNat / 65536)).toNat * 65536 + (UInt8.ofNat (c.toNat / 256)).toNat * 256 + (UInt8.ofNat c.toNat).toNat) :: acc) = _
  have hc : c.toNat < 1114112 := by
    have := c.valid
    unfold UInt32.isValidChar Nat.isValidChar at this
    show c.val.toNat < _
    omega
  have : (UInt8.ofNat (c.toNat / 65536)).toNat * 65536 + (UInt8.ofNat (c.toNat / 256)).toNat * 256 + (UInt8.ofNat c.toNat).toNat = c.toNat := by
    rw [UInt8.toNat_ofNat', UInt8.toNat_ofNat', UInt8.toNat_ofNat']
    omega
  rw [this, Char.ofNat_toNat]

theorem parse_str (s : Name) : ∀ (t : Bytes) (acc : Name), parseGo (emitStr s ++ t) acc = (parseGo t []).map ((acc.reverse ++ s) :: ·) := by
  induction s with
  | nil => intro t acc; rw [List.append_nil]; exact parseGo.eq_2 acc t
  | cons c s ih =>
    intro t acc
    have : emitStr (c :: s) ++ t = emitChar c ++ (emitStr s ++ t) := by
      unfold emitStr
      rw [List.flatMap_cons]
      simp only [List.append_assoc]
    rw [this, parse_char, ih]
    simp

theorem parse_doc (d : Doc) : (parseGo (emitDoc d) []).bind pairUp = some d := by
  have : ∃ l, parseGo (emitDoc d) [] = some l ∧ pairUp l = some d := by
    induction d with
    | nil => exact ⟨[], rfl, rfl⟩
    | cons e d ih =>
      obtain ⟨l, h1, h2⟩ := ih
      refine ⟨e.1 :: e.2 :: l, ?_, ?_⟩
      · have : emitDoc (e :: d) = emitStr e.1 ++ (emitStr e.2 ++ emitDoc d) := by
          unfold emitDoc
          rw [List.flatMap_cons, List.append_assoc]
        rw [this, parse_str, parse_str, h1]
        rfl
      · show (pairUp l).map _ = _
        rw [h2]
        rfl
  obtain ⟨l, h1, h2⟩ := this
  rw [h1]
  exact h2

/-- the hypotheses on the text format can be met -/
def demoCodec : Codec := ⟨emitDoc, fun b => (parseGo b []).bind pairUp, parse_doc⟩

/-- a class that keeps one property and, if there is one, the stream "x" -/
def demoCreate (cls : Name) (p : Name → Option Name) (b : Name → Option Bytes) : Option (Name × Option Bytes) :=
  if cls = ['A'] then (p ['k']).map (fun v => (v, b ['x'])) else none

/-- an item whose serializer throws after it wrote the stream "x" -/
def throwing : Name × List Wr := (['A'], [.prop ['k'] ['1'], .bin ['x'] [7, 8], .fail])
def plainItem (v : Name) : Name × List Wr := (['A'], [.prop ['k'] v])
def unknownItem : Name × List Wr := (['B'], [.prop ['k'] ['2']])

/-- **C73, the code violates the property**: after an exception in the serializer of one item its streams stay behind and
are sent with the next item, which has none. -/
theorem C73_stale_stream (c : Codec) : (send c [] [throwing, plainItem ['3']]).map (fun e => (e.names, e.streams)) =
    [([], []), ([['x']], [[7, 8]])] ∧ lastBin (plainItem ['3']).2 ['x'] = none := ⟨rfl, by decide⟩

/-- **C73, the code violates the property**: one item of a class that the receiver does not know (or whose serializer
threw an exception) makes it lose all following items of the batch. -/
theorem C73_batch_lost (c : Codec) (h : ∀ v : Name, v.length ≤ 1 → ∀ cls : Name, cls.length ≤ 1 → (c.emit [(classKey, cls), (['k'], v)]).length ≤ 10000) :
    receive c demoCreate [] (send c [] [plainItem ['1'], unknownItem, plainItem ['3']]) = ([(['1'], none)], false) ∧
    receive c demoCreate [] (send c [] [plainItem ['1'], plainItem ['3']]) = ([(['1'], none), (['3'], none)], true) := by
  have hs : ∀ cls v : Name, cls.length ≤ 1 → v.length ≤ 1 → Sendable c cls [.prop ['k'] v] := fun cls v h1 h2 =>
    ⟨by simp [NoFail], by simp [classKey], h v h2 cls h1⟩
  refine ⟨?_, C73_transport_partial c demoCreate _ (by
    intro i hi
    simp [plainItem] at hi
    rcases hi with rfl | rfl <;> exact hs _ _ (by decide) (by decide)) _ (by decide)⟩
  obtain ⟨a1, a2, a3⟩ := transport_one (create := demoCreate) (hs ['A'] ['1'] (by decide) (by decide))
  obtain ⟨b1, b2, b3⟩ := transport_one (create := demoCreate) (hs ['B'] ['2'] (by decide) (by decide))
  have e1 : demoCreate ['A'] (props ['A'] [.prop ['k'] ['1']]) (lastBin [.prop ['k'] ['1']]) = some (['1'], none) := by decide
  have e2 : demoCreate ['B'] (props ['B'] [.prop ['k'] ['2']]) (lastBin [.prop ['k'] ['2']]) = none := by decide
  rw [e1] at a2
  rw [e2] at b2
  have hA : unserializeEvent c demoCreate [] (serializeEvent c [] ['A'] [.prop ['k'] ['1']]).2.1 = ([], some (['1'], none)) := Prod.ext (a3 _ a2) a2
  show receive c demoCreate [] ((serializeEvent c [] ['A'] [.prop ['k'] ['1']]).2.1 :: send c (serializeEvent c [] ['A'] [.prop ['k'] ['1']]).1 _) = _
  rw [a1]
  unfold receive
  rw [hA]
  have hB : ∃ m, unserializeEvent c demoCreate [] (serializeEvent c [] ['B'] [.prop ['k'] ['2']]).2.1 = (m, none) := ⟨_, Prod.ext rfl b2⟩
  obtain ⟨m, hB⟩ := hB
  have hr : receive c demoCreate [] (send c [] [unknownItem, plainItem ['3']]) = ([], false) := by
    show receive c demoCreate [] ((serializeEvent c [] ['B'] [.prop ['k'] ['2']]).2.1 :: _) = _
    unfold receive
    rw [hB]
  dsimp only
  rw [hr]

/-- an item with a property and a stream, one with a property only, and one that writes twice -/
example : receive demoCodec demoCreate [] (send demoCodec [] [(['A'], [.prop ['k'] ['1'], .bin ['x'] [7, 8]]), plainItem ['3'],
    (['A'], [.prop ['k'] ['4'], .bin ['x'] [1], .prop ['k'] ['5'], .bin ['x'] [2]])]) =
    ([(['1'], some [7, 8]), (['3'], none), (['5'], some [2])], true) := by decide +kernel

example : Sendable demoCodec ['A'] [.prop ['k'] ['1'], .bin ['x'] [7, 8]] :=
  ⟨by simp [NoFail], by simp [classKey], by decide +kernel⟩

/-- the hypothesis of C73_batch_lost for the small format -/
example : ∀ v : Name, v.length ≤ 1 → ∀ cls : Name, cls.length ≤ 1 → (demoCodec.emit [(classKey, cls), (['k'], v)]).length ≤ 10000 := by
  intro v hv cls hc
  have hs : ∀ s : Name, (emitStr s).length = 4 * s.length + 1 := by
    intro s
    unfold emitStr
    rw [List.length_append, List.length_flatMap]
    have : (s.map (fun c => (emitChar c).length)).sum = 4 * s.length := by
      induction s with
      | nil => rfl
      | cons c s ih => rw [List.map_cons, List.sum_cons, ih, List.length_cons]; simp [emitChar]; omega
    rw [this]
    rfl
  show (emitDoc _).length ≤ _
  unfold emitDoc
  simp only [List.flatMap_cons, List.flatMap_nil, List.length_append, hs, List.length_nil]
  simp only [classKey, List.length_cons, List.length_nil]
  omega

end Envire.Binary

#print axioms Envire.Binary.C73_transport_partial
#print axioms Envire.Binary.C73_items_partial
#print axioms Envire.Binary.C73_truncation
#print axioms Envire.Binary.C73_stale_stream
#print axioms Envire.Binary.C73_batch_lost
