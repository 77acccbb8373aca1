import Verif.Serial.LenientLemmas
/-! Properties C72 (delivery by the synchronisation handlers) and C76 (updates for unknown items). -/
namespace Envire.Sync
open Env Replica

/-! ## C72 -/

/-- what the environment reported, in order -/
def reported : List SOp → List Ev
  | [] => []
  | .event e :: ops => e :: reported ops
  | _ :: ops => reported ops

/-- histories of a handler whose callback takes the events -/
def Allowed : Cls → List SOp → Prop
  | .callback, _ => True
  -- SynchronizationEventQueue as the environment uses it
  | .pull, ops => ∀ o ∈ ops, o ≠ .flush ∧ o ≠ .useEventQueue false

/-- the call that hands out what is pending -/
def finish : Cls → SOp
  | .callback => .flush
  | .pull => .popEvents

theorem flatMap_plain (l : List Ev) : l.flatMap plain = l := by
  induction l with
  | nil => rfl
  | cons x l ih => rw [List.flatMap_cons, ih]; rfl

theorem compress_snoc (l : List Ev) (e : Ev) : compress (l ++ [e]) = enqueue (compress l) e := by
  unfold compress; rw [List.foldl_append]; rfl

/-- the state of a handler after the events `evs` -/
structure Inv (h : Handler) (evs : List Ev) (batches : List (List Ev)) (cur : List Ev) : Prop where
  all : batches.flatten ++ cur = evs
  out : h.out.flatten = (batches.map compress).flatten
  queue : h.queue = compress cur
  buf : h.buf = []

theorem Inv.closed {h : Handler} {evs : List Ev} {bs : List (List Ev)} {cur : List Ev} (hi : Inv h evs bs cur) :
    Inv { h with out := h.out ++ [h.buf ++ h.queue.flatMap plain], buf := [], queue := [] } evs (bs ++ [cur]) [] where
  all := by rw [List.flatten_append, List.append_nil]; simpa using hi.all
  out := by
    rw [List.flatten_append, List.map_append, List.flatten_append, hi.out, hi.buf, flatMap_plain, hi.queue]
    rfl
  queue := rfl
  buf := rfl

theorem Inv.single {h : Handler} {evs : List Ev} {bs : List (List Ev)} (hi : Inv h evs bs []) (e : Ev) :
    Inv { h with out := h.out ++ [h.buf ++ plain e], buf := [] } (evs ++ [e]) (bs ++ [[e]]) [] where
  all := by
    have := hi.all
    rw [List.append_nil] at this
    rw [List.flatten_append, List.append_nil, this]
    rfl
  out := by
    rw [List.flatten_append, List.map_append, List.flatten_append, hi.out, hi.buf]
    rfl
  queue := hi.queue
  buf := rfl

theorem inv_step {cls : Cls} {h : Handler} {evs : List Ev} {bs : List (List Ev)} {cur : List Ev} (hi : Inv h evs bs cur) (o : SOp)
    (ha : Allowed cls [o]) (hq : cls = .pull → h.useQueue = true) :
    (∃ bs' cur', Inv (h.step plain cls o) (evs ++ reported [o]) bs' cur' ∧ ((o = .flush ∨ o = .popEvents) → cur' = [])) ∧
      (cls = .pull → (h.step plain cls o).useQueue = true) := by
  cases o with
  | event e =>
    show (∃ bs' cur', Inv _ (evs ++ [e]) bs' cur' ∧ _) ∧ _
    cases hu : h.useQueue with
    | true =>
      have he : h.step plain cls (.event e) = { h with queue := enqueue h.queue e } := by
        show h.onEvent plain cls e = _
        unfold Handler.onEvent; rw [if_pos hu]
      rw [he]
      refine ⟨⟨bs, cur ++ [e], ⟨by rw [← List.append_assoc, hi.all], hi.out, ?_, hi.buf⟩, fun hh => ?_⟩, fun _ => hu⟩
      · show enqueue h.queue e = _
        rw [compress_snoc, hi.queue]
      · rcases hh with hh | hh <;> cases hh
    | false =>
      have hc : cls = .callback := by
        cases cls with
        | callback => rfl
        | pull => have := hq rfl; rw [hu] at this; cases this
      subst hc
      have hno : ¬ (SOp.event e = .flush ∨ SOp.event e = .popEvents) := by rintro (h | h) <;> cases h
      by_cases hl : h.queue.length ≠ 0
      · have he : h.step plain .callback (.event e) =
            (let g : Handler := { h with out := h.out ++ [h.buf ++ h.queue.flatMap plain], buf := [], queue := [] }
             { g with out := g.out ++ [g.buf ++ plain e], buf := [] }) := by
          show h.onEvent plain .callback e = _
          unfold Handler.onEvent Handler.flushRest
          rw [if_neg (by rw [hu]; decide), if_pos hl]
          rfl
        rw [he]
        exact ⟨⟨_, _, (hi.closed).single e, fun h => (hno h).elim⟩, fun h => by cases h⟩
      · have hz : h.queue = [] := List.length_eq_zero_iff.1 (by omega)
        have he : h.step plain .callback (.event e) = { h with out := h.out ++ [h.buf ++ plain e], buf := [] } := by
          show h.onEvent plain .callback e = _
          unfold Handler.onEvent Handler.flushRest
          rw [if_neg (by rw [hu]; decide), if_neg hl]
          rfl
        rw [he]
        have hi' : Inv h evs (bs ++ [cur]) [] := by
          refine ⟨by rw [List.flatten_append, List.append_nil]; simpa using hi.all, ?_, hz, hi.buf⟩
          rw [List.map_append, List.flatten_append, hi.out]
          have : compress cur = [] := hi.queue.symm.trans hz
          simp [this]
        exact ⟨⟨_, _, hi'.single e, fun h => (hno h).elim⟩, fun h => by cases h⟩
  | useEventQueue b =>
    show (∃ bs' cur', Inv _ (evs ++ []) bs' cur' ∧ _) ∧ _
    rw [List.append_nil]
    refine ⟨⟨bs, cur, ⟨hi.all, hi.out, hi.queue, hi.buf⟩, fun hh => by rcases hh with hh | hh <;> cases hh⟩, fun hc => ?_⟩
    subst hc
    show b = true
    cases b with
    | true => rfl
    | false => exact absurd rfl (ha _ (List.mem_singleton.2 rfl)).2
  | flush =>
    show (∃ bs' cur', Inv _ (evs ++ []) bs' cur' ∧ _) ∧ _
    rw [List.append_nil]
    cases cls with
    | pull => exact absurd rfl (ha _ (List.mem_singleton.2 rfl)).1
    | callback => exact ⟨⟨_, _, hi.closed, fun _ => rfl⟩, fun h => by cases h⟩
  | popEvents =>
    show (∃ bs' cur', Inv _ (evs ++ []) bs' cur' ∧ _) ∧ _
    rw [List.append_nil]
    exact ⟨⟨_, _, hi.closed, fun _ => rfl⟩, hq⟩

theorem reported_append (a b : List SOp) : reported (a ++ b) = reported a ++ reported b := by
  induction a with
  | nil => rfl
  | cons o a ih =>
    cases o with
    | event e => show e :: reported (a ++ b) = _; rw [ih]; rfl
    | _ => exact ih

theorem inv_run {cls : Cls} (ops : List SOp) : ∀ {h : Handler} {evs : List Ev} {bs : List (List Ev)} {cur : List Ev}, Inv h evs bs cur →
    Allowed cls ops → (cls = .pull → h.useQueue = true) → (∃ bs' cur', Inv (h.run plain cls ops) (evs ++ reported ops) bs' cur') ∧
      (cls = .pull → (h.run plain cls ops).useQueue = true) := by
  induction ops with
  | nil => intro h evs bs cur hi _ hq; exact ⟨⟨bs, cur, by show Inv h (evs ++ []) _ _; rw [List.append_nil]; exact hi⟩, hq⟩
  | cons o ops ih =>
    intro h evs bs cur hi ha hq
    have ha1 : Allowed cls [o] := by
      cases cls with
      | callback => trivial
      | pull => intro x hx; rw [List.mem_singleton] at hx; subst hx; exact ha _ (List.mem_cons_self ..)
    have ha2 : Allowed cls ops := by
      cases cls with
      | callback => trivial
      | pull => exact fun x hx => ha x (List.mem_cons_of_mem _ hx)
    obtain ⟨⟨bs1, cur1, h1, _⟩, h2⟩ := inv_step hi o ha1 hq
    have := ih h1 ha2 h2
    have e : evs ++ reported [o] ++ reported ops = evs ++ reported (o :: ops) := by
      rw [List.append_assoc, ← reported_append]; rfl
    rw [e] at this
    exact this

theorem inv_new (cls : Cls) : Inv (Handler.new cls) [] [] [] := by
  cases cls <;> exact ⟨rfl, rfl, rfl, rfl⟩

/-- **C72** Every event is delivered exactly once and in order, up to the compression of what was queued together: after
any sequence of events, changes of the queueing mode and flushes that ends with a flush (popEvents for
`SynchronizationEventQueue`), the delivered binary events are those of some cutting of the reported events into batches,
each batch compressed like `EventQueue` does. Missing for the full claim: `SynchronizationEventQueue` with flush() or
useEventQueue(false), see `C72_flush_drops_events`. -/
theorem C72_delivery_partial (cls : Cls) (ops : List SOp) (h : Allowed cls ops) :
    ∃ batches : List (List Ev), batches.flatten = reported ops ∧
      ((Handler.new cls).run plain cls (ops ++ [finish cls])).out.flatten =
        (batches.map compress).flatten := by
  obtain ⟨⟨bs, cur, hi⟩, hq⟩ := inv_run ops (inv_new cls) h (fun h => by subst h; rfl)
  have hr : ∀ o, ((Handler.new cls).run plain cls (ops ++ [o])) = ((Handler.new cls).run plain cls ops).step plain cls o := by
    intro o; unfold Handler.run; rw [List.foldl_append]; rfl
  rw [hr]
  refine ⟨bs ++ [cur], ?_, ?_⟩
  · rw [List.flatten_append]; simpa using hi.all
  · cases cls <;> exact (hi.closed).out

/-- without queueing every event is passed on at once, unchanged -/
theorem C72_unqueued (ops : List SOp) (h : SOp.useEventQueue true ∉ ops) (hp : SOp.popEvents ∉ ops) :
    ((Handler.new .callback).run plain .callback ops).out.flatten = reported ops := by
  have gen : ∀ (ops : List SOp) (g : Handler), SOp.useEventQueue true ∉ ops → SOp.popEvents ∉ ops → g.useQueue = false → g.queue = [] →
      g.buf = [] → (g.run plain .callback ops).out.flatten = g.out.flatten ++ reported ops := by
    intro ops
    induction ops with
    | nil => intro g _ _ _ _ _; show g.out.flatten = _ ++ []; rw [List.append_nil]
    | cons o ops ih =>
      intro g h1 h2 hu hq hb
      have h1' : SOp.useEventQueue true ∉ ops := fun h => h1 (List.mem_cons_of_mem _ h)
      have h2' : SOp.popEvents ∉ ops := fun h => h2 (List.mem_cons_of_mem _ h)
      show ((g.step plain .callback o).run plain .callback ops).out.flatten = _
      cases o with
      | event e =>
        have he : g.step plain .callback (.event e) = { g with out := g.out ++ [[e]] } := by
          show g.onEvent plain .callback e = _
          unfold Handler.onEvent Handler.flushRest
          rw [if_neg (by rw [hu]; decide), if_neg (by simp [hq])]
          unfold Handler.pass Handler.give
          dsimp only
          rw [hb]
          rfl
        rw [he]
        refine (ih { g with out := g.out ++ [[e]] } h1' h2' hu hq hb).trans ?_
        simp [reported]
      | useEventQueue b =>
        cases b with
        | true => exact absurd (List.mem_cons_self ..) h1
        | false => exact ih _ h1' h2' rfl hq hb
      | flush =>
        have he : g.step plain .callback .flush = { g with out := g.out ++ [[]] } := by
          show (g.drain plain).give .callback = _
          unfold Handler.drain Handler.give
          dsimp only
          rw [hb, hq]
          rfl
        rw [he]
        refine (ih { g with out := g.out ++ [[]] } h1' h2' hu hq hb).trans ?_
        simp [reported]
      | popEvents => exact absurd (List.mem_cons_self ..) h2
  exact (gen ops _ h hp rfl rfl rfl).trans (List.nil_append _)

/-- **C72 with C22** a fresh environment fed with what the handler delivered shows what the source shows -/
theorem C72_replica_partial {r : Obj} {s : Env} (h : Reach QueueUse r s) :
    ∃ first es, (Env.init r).announce = some first ∧ s.log = (Env.init r).log ++ es ∧
      ∀ (cls : Cls) (ops : List SOp), Allowed cls ops → reported ops = first ++ es → ∀ (r' : Obj) (ms : List Msg),
        ms.map Msg.ev = ((Handler.new cls).run plain cls (ops ++ [finish cls])).out.flatten →
        Fresh (Env.init r') ms →
        ∃ R, applyAll (Env.init r') ms = some R ∧ R.facts (.item ['/', '0']) = true ∧
          ∀ k, (∀ i, k ≠ .root i) → k ≠ .item ['/', '0'] → R.facts k = s.facts k := by
  obtain ⟨first, es, h1, h2, h3⟩ := C22_replica_converges_partial h
  refine ⟨first, es, h1, h2, fun cls ops ha he r' ms hm hf => ?_⟩
  obtain ⟨bs, hb, ho⟩ := C72_delivery_partial cls ops ha
  exact h3 bs (hb.trans he) r' ms (hm.trans ho) hf

def evA : Ev := ⟨.item, .add, 1, none, ['/', '1'], []⟩
def evR : Ev := ⟨.item, .remove, 1, none, ['/', '1'], []⟩
def evB : Ev := ⟨.item, .add, 2, none, ['/', '2'], []⟩

/-- a history with both modes: two events at once, then an add and a remove that meet in the queue, then direct mode
again, which first flushes the queue -/
example : ((Handler.new .callback).run plain .callback
      ([.event evA, .useEventQueue true, .event evB, .event evR, .useEventQueue false, .event evA] ++ [.flush])).out =
    [[evA], [evB, evR], [evA], []] := by decide

example : ((Handler.new .pull).run plain .pull [.event evA, .event evB, .event evR, .popEvents, .event evA, .popEvents]).out =
    [[evB], [evA]] := by decide

/-- **C72, the code violates the property**: `SynchronizationEventQueue` inherits the public flush(), which hands the
events to a callback that does nothing. They are gone, popEvents returns nothing. The same happens with
useEventQueue(false). -/
theorem C72_flush_drops_events :
    ((Handler.new .pull).run plain .pull [.event evA, .flush, .popEvents]).out = [[]] ∧
    ((Handler.new .pull).run plain .pull [.useEventQueue false, .event evA, .popEvents]).out = [[]] := by decide

/-! ## C76 -/

/-- the receiver has an event queue of its own -/
def applyAllWatched (R : Env) : List Msg → Option Env
  | [] => some R
  | m :: ms => match applyWatched R m.ev m.obj m.kind with
    | .ok R' => applyAllWatched R' ms
    | _ => none

theorem not_null {R : Env} {S : Facts} (h : Mirror R S) {e : Ev} (he : e.Fits S) : tellsNull R e = false := by
  unfold tellsNull
  rw [Bool.and_eq_false_iff]
  by_cases hu : e.ty = .item ∧ e.op = .update
  · right
    obtain ⟨_, hf⟩ := he
    rw [hu.2] at hf
    have hk : S (.item e.ida) = true := by
      have := hf.2
      unfold Ev.key at this
      rw [hu.1] at this
      exact this
    obtain ⟨x, g, _⟩ := h.item hk
    rw [g]
    rfl
  · left; exact decide_eq_false hu

theorem watched_run {ms : List Msg} : ∀ {R : Env} {S : Facts}, Mirror R S → S.Valid → FitsAll S (ms.map Msg.ev) → Fresh R ms →
    applyAllWatched R ms = applyAll R ms := by
  induction ms with
  | nil => intro R S _ _ _ _; rfl
  | cons m ms ih =>
    intro R S h hv hf hfr
    obtain ⟨R1, e1, h1⟩ := Replica.step h hv hf.1 m.kind hfr.1
    unfold applyAllWatched applyAll applyWatched
    rw [not_null h hf.1, if_neg (by decide), e1]
    exact ih h1 (hf.1.valid hv) hf.2 (hfr.2 R1 e1)

/-- **C76** A receiver with event handlers of its own (which queue events, for a chain of replicas) gets no event without
item, and so stays defined, as long as it applies a complete stream: everything since the source was fresh, cut into
batches at will. Missing for the full claim: partial streams, see `C76_null_event`. -/
theorem C76_watched_partial {r : Obj} {s : Env} (h : Reach QueueUse r s) :
    ∃ first es, (Env.init r).announce = some first ∧ s.log = (Env.init r).log ++ es ∧
      ∀ (batches : List (List Ev)), batches.flatten = first ++ es → ∀ (r' : Obj) (ms : List Msg),
        ms.map Msg.ev = (batches.map compress).flatten → Fresh (Env.init r') ms →
        ∃ R, applyAllWatched (Env.init r') ms = some R ∧ applyAll (Env.init r') ms = some R := by
  obtain ⟨first, es, h1, h2, h3⟩ := C20_queue_partial h
  refine ⟨first, es, h1, h2, fun bs hb r' ms hms hfr => ?_⟩
  obtain ⟨c1, c2, _⟩ := h3 bs hb
  have hv : Facts.Valid (fun _ => false) := by constructor <;> intros <;> simp_all
  rw [← hms] at c1
  obtain ⟨R, e, _⟩ := Replica.run (Replica.init r') hv c1 hfr
  exact ⟨R, (watched_run (Replica.init r') hv c1 hfr).trans e, e⟩

/-- **C76, the code violates the property**: an update of an item the receiver does not know (documented as "just add
the map", and what context updates send for every frame) is applied, but the receiver then tells its handlers that the
item NULL was modified; a queue dereferences it. -/
theorem C76_null_event :
    let e : Ev := ⟨.item, .update, 1, none, ['/', '7'], []⟩
    ((applyAll (Env.init 50) [⟨e, 100, .frame⟩]).any (fun R => R.facts (.item ['/', '7']))) = true ∧
    tellsNull (Env.init 50) e = true ∧ (applyAllWatched (Env.init 50) [⟨e, 100, .frame⟩]).isNone = true := by
  decide +kernel

end Envire.Sync

#print axioms Envire.Sync.C72_delivery_partial
#print axioms Envire.Sync.C72_unqueued
#print axioms Envire.Sync.C72_replica_partial
#print axioms Envire.Sync.C72_flush_drops_events
#print axioms Envire.Sync.C76_watched_partial
#print axioms Envire.Sync.C76_null_event
