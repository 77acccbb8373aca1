import Verif.Core.EventModel
/-! What events say about ids only (this is what travels to other environments), and the compression of the
event queue seen on that level. Specification and main argument of C20. -/
namespace Envire

/-- one fact about the structure of an environment, on the level of ids -/
inductive Key
  | item (i : Uid)
  | root (i : Uid)
  /-- child, parent -/
  | frame (c p : Uid)
  /-- child, parent -/
  | layer (c p : Uid)
  /-- map, frame -/
  | map (m f : Uid)
  deriving DecidableEq, Repr

/-- which facts hold -/
abbrev Facts := Key → Bool

def Facts.set (S : Facts) (k : Key) (v : Bool) : Facts := fun x => if x = k then v else S x

/-- the fact an event is about -/
def Ev.key (e : Ev) : Key :=
  match e.ty with
  | .item => .item e.ida
  | .root => .root e.ida
  | .frameTree => .frame e.idb e.ida
  | .layerTree => .layer e.idb e.ida
  | .frameNode => .map e.ida e.idb

def Facts.apply (S : Facts) (e : Ev) : Facts :=
  match e.op with
  | .add => S.set e.key true
  | .remove => S.set e.key false
  | .update => S

/-- the facts after a list of events -/
def Facts.follow (S : Facts) (es : List Ev) : Facts := es.foldl Facts.apply S

/-- links join two different items that are there; a frame has at most one parent, a map at most one frame -/
structure Facts.Valid (S : Facts) : Prop where
  frame : ∀ c p, S (.frame c p) = true → S (.item c) = true ∧ S (.item p) = true ∧ c ≠ p
  layer : ∀ c p, S (.layer c p) = true → S (.item c) = true ∧ S (.item p) = true ∧ c ≠ p
  map : ∀ m f, S (.map m f) = true → S (.item m) = true ∧ S (.item f) = true
  parent : ∀ c p p', S (.frame c p) = true → S (.frame c p') = true → p = p'
  place : ∀ m f f', S (.map m f) = true → S (.map m f') = true → f = f'

/-- item and root events carry one id; items are attached under absolute ids that do not end in '/' -/
def Ev.shape (e : Ev) : Prop :=
  ((e.ty = .item ∨ e.ty = .root) → e.idb = []) ∧ (e.ty = .item → e.op = .add → Env.goodId e.ida = true)

/-- an event that makes sense: it adds what is not there, removes what is there, updates an item that is there,
and leaves a valid structure -/
def Ev.Fits (S : Facts) (e : Ev) : Prop :=
  e.shape ∧ match e.op with
  | .add => S e.key = false ∧ (S.set e.key true).Valid
  | .remove => S e.key = true ∧ (S.set e.key false).Valid
  | .update => e.ty = .item ∧ S e.key = true

/-- every event of the list makes sense when it comes -/
def FitsAll : Facts → List Ev → Prop
  | _, [] => True
  | S, e :: es => e.Fits S ∧ FitsAll (S.apply e) es

theorem Facts.set_self (S : Facts) (k : Key) (v : Bool) : S.set k v k = v := by simp [Facts.set]
theorem Facts.set_ne (S : Facts) {k x : Key} (v : Bool) (h : x ≠ k) : S.set k v x = S x := by simp [Facts.set, h]

theorem Facts.set_set (S : Facts) (k : Key) (v w : Bool) : (S.set k v).set k w = S.set k w := by
  funext x; unfold Facts.set; split <;> rfl

theorem Facts.set_comm (S : Facts) {k k' : Key} (h : k ≠ k') (v w : Bool) :
    (S.set k v).set k' w = (S.set k' w).set k v := by
  funext x; unfold Facts.set
  by_cases h1 : x = k
  · rw [if_pos h1, if_neg (fun e => h (h1 ▸ e))]
    simp [h1]
  · simp [h1]

theorem Facts.set_eq_self (S : Facts) {k : Key} {v : Bool} (h : S k = v) : S.set k v = S := by
  funext x; unfold Facts.set; split
  · rename_i e; rw [e, h]
  · rfl

theorem Facts.follow_append (S : Facts) (es es' : List Ev) : S.follow (es ++ es') = (S.follow es).follow es' := by
  unfold Facts.follow; exact List.foldl_append ..

theorem Facts.follow_cons (S : Facts) (e : Ev) (es : List Ev) : S.follow (e :: es) = (S.apply e).follow es := rfl

theorem fitsAll_append {S : Facts} {es es' : List Ev} : FitsAll S (es ++ es') ↔ FitsAll S es ∧ FitsAll (S.follow es) es' := by
  induction es generalizing S with
  | nil => simp [FitsAll, Facts.follow]
  | cons e es ih => simp only [List.cons_append, FitsAll, ih, and_assoc, Facts.follow_cons]

theorem Ev.Fits.valid {S : Facts} {e : Ev} (hv : S.Valid) (h : e.Fits S) : (S.apply e).Valid := by
  unfold Ev.Fits at h
  unfold Facts.apply
  cases ho : e.op <;> rw [ho] at h
  · exact h.2.2
  · exact h.2.2
  · exact hv

theorem FitsAll.valid {S : Facts} {es : List Ev} (hv : S.Valid) (h : FitsAll S es) : (S.follow es).Valid := by
  induction es generalizing S with
  | nil => exact hv
  | cons e es ih => exact ih (h.1.valid hv) h.2

/-! ### the majority of three valid structures is valid -/

def maj (S T U : Facts) : Facts := fun k => (S k && T k) || (S k && U k) || (T k && U k)

theorem maj_true {S T U : Facts} {k : Key} : maj S T U k = true ↔
    (S k = true ∧ T k = true) ∨ (S k = true ∧ U k = true) ∨ (T k = true ∧ U k = true) := by
  simp [maj, or_assoc]

theorem Facts.Valid.maj {S T U : Facts} (hS : S.Valid) (hT : T.Valid) (hU : U.Valid) : (maj S T U).Valid where
  frame := fun c p h => by
    rcases maj_true.1 h with ⟨a, b⟩ | ⟨a, b⟩ | ⟨a, b⟩
    · exact ⟨maj_true.2 (.inl ⟨(hS.frame _ _ a).1, (hT.frame _ _ b).1⟩), maj_true.2 (.inl ⟨(hS.frame _ _ a).2.1, (hT.frame _ _ b).2.1⟩), (hS.frame _ _ a).2.2⟩
    · exact ⟨maj_true.2 (.inr (.inl ⟨(hS.frame _ _ a).1, (hU.frame _ _ b).1⟩)), maj_true.2 (.inr (.inl ⟨(hS.frame _ _ a).2.1, (hU.frame _ _ b).2.1⟩)), (hS.frame _ _ a).2.2⟩
    · exact ⟨maj_true.2 (.inr (.inr ⟨(hT.frame _ _ a).1, (hU.frame _ _ b).1⟩)), maj_true.2 (.inr (.inr ⟨(hT.frame _ _ a).2.1, (hU.frame _ _ b).2.1⟩)), (hT.frame _ _ a).2.2⟩
  layer := fun c p h => by
    rcases maj_true.1 h with ⟨a, b⟩ | ⟨a, b⟩ | ⟨a, b⟩
    · exact ⟨maj_true.2 (.inl ⟨(hS.layer _ _ a).1, (hT.layer _ _ b).1⟩), maj_true.2 (.inl ⟨(hS.layer _ _ a).2.1, (hT.layer _ _ b).2.1⟩), (hS.layer _ _ a).2.2⟩
    · exact ⟨maj_true.2 (.inr (.inl ⟨(hS.layer _ _ a).1, (hU.layer _ _ b).1⟩)), maj_true.2 (.inr (.inl ⟨(hS.layer _ _ a).2.1, (hU.layer _ _ b).2.1⟩)), (hS.layer _ _ a).2.2⟩
    · exact ⟨maj_true.2 (.inr (.inr ⟨(hT.layer _ _ a).1, (hU.layer _ _ b).1⟩)), maj_true.2 (.inr (.inr ⟨(hT.layer _ _ a).2.1, (hU.layer _ _ b).2.1⟩)), (hT.layer _ _ a).2.2⟩
  map := fun c p h => by
    rcases maj_true.1 h with ⟨a, b⟩ | ⟨a, b⟩ | ⟨a, b⟩
    · exact ⟨maj_true.2 (.inl ⟨(hS.map _ _ a).1, (hT.map _ _ b).1⟩), maj_true.2 (.inl ⟨(hS.map _ _ a).2, (hT.map _ _ b).2⟩)⟩
    · exact ⟨maj_true.2 (.inr (.inl ⟨(hS.map _ _ a).1, (hU.map _ _ b).1⟩)), maj_true.2 (.inr (.inl ⟨(hS.map _ _ a).2, (hU.map _ _ b).2⟩))⟩
    · exact ⟨maj_true.2 (.inr (.inr ⟨(hT.map _ _ a).1, (hU.map _ _ b).1⟩)), maj_true.2 (.inr (.inr ⟨(hT.map _ _ a).2, (hU.map _ _ b).2⟩))⟩
  parent := fun c p p' h h' => by
    rcases maj_true.1 h with ⟨a, b⟩ | ⟨a, b⟩ | ⟨a, b⟩ <;> rcases maj_true.1 h' with ⟨a', b'⟩ | ⟨a', b'⟩ | ⟨a', b'⟩ <;>
    first | exact hS.parent c p p' ‹_› ‹_› | exact hT.parent c p p' ‹_› ‹_› | exact hU.parent c p p' ‹_› ‹_›
  place := fun c p p' h h' => by
    rcases maj_true.1 h with ⟨a, b⟩ | ⟨a, b⟩ | ⟨a, b⟩ <;> rcases maj_true.1 h' with ⟨a', b'⟩ | ⟨a', b'⟩ | ⟨a', b'⟩ <;>
    first | exact hS.place c p p' ‹_› ‹_› | exact hT.place c p p' ‹_› ‹_› | exact hU.place c p p' ‹_› ‹_›

theorem maj_eq {T U F : Facts} {k : Key} {v : Bool} (hT : T k = !v) (hU : U k = v)
    (h : ∀ x, x ≠ k → T x = U x ∨ T x = F x) : T.set k v = maj T U (F.set k v) := by
  funext x
  unfold maj
  by_cases hx : x = k
  · subst hx
    rw [Facts.set_self, hT, hU, Facts.set_self]
    cases v <;> rfl
  · rw [Facts.set_ne _ _ hx, Facts.set_ne _ _ hx]
    rcases h x hx with h | h <;> rw [← h]
    · cases T x <;> cases F x <;> rfl
    · cases T x <;> cases U x <;> rfl

/-! ### merging -/

theorem same_key {e o : Ev} (he : e.shape) (ho : o.shape) :
    (e.ty = o.ty ∧ e.ida = o.ida ∧ e.idb = o.idb) ↔ e.key = o.key := by
  replace he := he.1
  replace ho := ho.1
  unfold Ev.key
  cases h1 : e.ty <;> cases h2 : o.ty <;> simp [h1, h2] at he ho ⊢
  · rw [he, ho]; simp
  · exact and_comm
  · exact and_comm
  · rw [he, ho]; simp

theorem merge_eq {e o : Ev} (he : e.shape) (ho : o.shape) : e.merge o =
    if e.key = o.key then
      (if e.op = o.op ∨ (e.op = .remove ∧ o.op = .update) then .invalidate
       else if e.op ≠ .update ∧ o.op ≠ .update then .cancel else .ignore)
    else .ignore := by
  have h := same_key he ho
  by_cases hk : e.key = o.key
  · rw [if_pos hk]
    obtain ⟨a, b, c⟩ := h.2 hk
    unfold Ev.merge
    simp only [a, b, c, true_and, and_true]
    cases e.op <;> cases o.op <;> simp
  · rw [if_neg hk]
    have hn := fun x => hk (h.1 x)
    unfold Ev.merge
    rw [if_neg (fun x => hn ⟨x.1, x.2.2.1, x.2.2.2⟩), if_neg (fun x => hn x.2), if_neg (fun x => hn x.2)]

/-! ### lists of events with at most one addition or removal per key -/

def Once (q : List Ev) : Prop := q.Pairwise (fun x y => x.op ≠ .update → y.op ≠ .update → x.key ≠ y.key)

theorem FitsAll.shape {S : Facts} {q : List Ev} (h : FitsAll S q) : ∀ o ∈ q, o.shape := by
  induction q generalizing S with
  | nil => simp
  | cons x q ih =>
    intro o ho
    rcases List.mem_cons.1 ho with rfl | ho
    · exact h.1.1
    · exact ih h.2 o ho

/-- events that do not add or remove a key leave it -/
theorem follow_other {q : List Ev} {k : Key} : ∀ {S : Facts}, (∀ o ∈ q, o.op ≠ .update → o.key ≠ k) → S.follow q k = S k := by
  induction q with
  | nil => intro S _; rfl
  | cons x q ih =>
    intro S h
    rw [Facts.follow_cons, ih (fun o ho => h o (by simp [ho]))]
    have := h x (by simp)
    unfold Facts.apply
    cases hx : x.op
    · exact Facts.set_ne _ _ (fun e => this (by simp [hx]) e.symm)
    · exact Facts.set_ne _ _ (fun e => this (by simp [hx]) e.symm)
    · rfl

/-- the last word about a key -/
theorem follow_at {S : Facts} {q1 q2 : List Ev} {x : Ev} (h2 : ∀ o ∈ q2, o.op ≠ .update → o.key ≠ x.key) :
    S.follow (q1 ++ x :: q2) x.key = (match x.op with | .add => true | .remove => false | .update => S.follow q1 x.key) := by
  rw [Facts.follow_append, Facts.follow_cons, follow_other h2]
  unfold Facts.apply
  cases x.op
  · exact Facts.set_self ..
  · exact Facts.set_self ..
  · rfl

theorem once_split {q1 q2 : List Ev} {x : Ev} (h : Once (q1 ++ x :: q2)) (hx : x.op ≠ .update) :
    (∀ o ∈ q1, o.op ≠ .update → o.key ≠ x.key) ∧ (∀ o ∈ q2, o.op ≠ .update → o.key ≠ x.key) ∧ Once (q1 ++ q2) := by
  unfold Once at *
  rw [List.pairwise_append, List.pairwise_cons] at h
  refine ⟨fun o ho hu => h.2.2 o ho x (by simp) hu hx, fun o ho hu e => h.2.1.1 o ho hx hu e.symm, ?_⟩
  rw [List.pairwise_append]
  exact ⟨h.1, h.2.1.2, fun a ha b hb => h.2.2 a ha b (by simp [hb])⟩

theorem drop_updates {p : Ev → Bool} (hp : ∀ o, p o = false → o.op = .update) {q : List Ev} : ∀ {S : Facts}, FitsAll S q →
    FitsAll S (q.filter p) ∧ S.follow (q.filter p) = S.follow q := by
  induction q with
  | nil => intro S h; exact ⟨h, rfl⟩
  | cons x q ih =>
    intro S h
    cases hx : p x
    · rw [List.filter_cons_of_neg (by simp [hx]), Facts.follow_cons]
      have : S.apply x = S := by unfold Facts.apply; rw [hp x hx]
      have h2 := h.2
      rw [this] at h2 ⊢
      exact ih h2
    · rw [List.filter_cons_of_pos hx, Facts.follow_cons, Facts.follow_cons]
      exact ⟨⟨h.1, (ih h.2).1⟩, (ih h.2).2⟩

/-- without the key no update of it fits -/
theorem no_update {q : List Ev} {k : Key} : ∀ {S : Facts}, FitsAll S q → S k = false →
    (∀ o ∈ q, o.op ≠ .update → o.key ≠ k) → ∀ o ∈ q, o.key ≠ k := by
  induction q with
  | nil => intro S _ _ _; simp
  | cons x q ih =>
    intro S h hk ht
    have hx : x.key ≠ k := by
      intro e
      by_cases hu : x.op = .update
      · have := h.1.2
        rw [hu] at this
        rw [e, hk] at this
        exact absurd this.2 (by simp)
      · exact ht x (by simp) hu e
    intro o ho
    rcases List.mem_cons.1 ho with rfl | ho
    · exact hx
    · refine ih h.2 ?_ (fun o ho => ht o (by simp [ho])) o ho
      unfold Facts.apply
      cases x.op
      · show S.set x.key true k = false
        rw [Facts.set_ne _ _ hx.symm, hk]
      · show S.set x.key false k = false
        rw [Facts.set_ne _ _ hx.symm, hk]
      · exact hk

theorem apply_other {S : Facts} {x : Ev} {k : Key} (h : x.key ≠ k) (v : Bool) :
    (S.set k v).apply x = (S.apply x).set k v := by
  unfold Facts.apply
  cases x.op
  · exact Facts.set_comm _ (fun e => h e.symm) _ _
  · exact Facts.set_comm _ (fun e => h e.symm) _ _
  · rfl

/-- the heart of the compression: taking an addition and the later removal (or the other way round) of a key
out of a list leaves the events in between sensible -/
theorem without_key {U : Facts} {k : Key} {v : Bool} (hUv : U.Valid) (hUk : U k = v) {q : List Ev} :
    ∀ {T : Facts}, FitsAll T q → Once q → (∀ o ∈ q, o.key ≠ k) → T k = (!v) →
      (∀ x, x ≠ k → T x = U x ∨ T x = T.follow q x) → T.Valid → ((T.follow q).set k v).Valid →
      FitsAll (T.set k v) q ∧ (T.set k v).follow q = (T.follow q).set k v := by
  induction q with
  | nil => intro T _ _ _ _ _ _ _; exact ⟨trivial, rfl⟩
  | cons x q ih =>
    intro T hf ho hk hT hb hTv hF
    have hxk : x.key ≠ k := hk x (by simp)
    have ho' := List.pairwise_cons.1 ho
    have hT' : (T.apply x) k = !v := by
      unfold Facts.apply
      cases x.op
      · exact (Facts.set_ne _ _ hxk.symm).trans hT
      · exact (Facts.set_ne _ _ hxk.symm).trans hT
      · exact hT
    have hb' : ∀ y, y ≠ k → (T.apply x) y = U y ∨ (T.apply x) y = (T.apply x).follow q y := by
      intro y hy
      by_cases hu : x.op = .update
      · have : T.apply x = T := by unfold Facts.apply; rw [hu]
        rw [this]
        have := hb y hy
        rwa [Facts.follow_cons, ‹T.apply x = T›] at this
      · by_cases hyx : y = x.key
        · subst hyx
          exact .inr (follow_other (fun o ho hou => fun e => ho'.1 o ho hu hou e.symm)).symm
        · have e : (T.apply x) y = T y := by
            unfold Facts.apply
            cases x.op
            · exact Facts.set_ne _ _ hyx
            · exact Facts.set_ne _ _ hyx
            · rfl
          rw [e]
          exact hb y hy
    have hTv' := hf.1.valid hTv
    obtain ⟨i1, i2⟩ := ih hf.2 ho'.2 (fun o ho => hk o (by simp [ho])) hT' hb' hTv' hF
    have hv' : ((T.apply x).set k v).Valid := by
      rw [maj_eq hT' hUk hb']
      exact hTv'.maj hUv hF
    rw [← apply_other hxk] at i1 i2 hv'
    refine ⟨⟨⟨hf.1.1, ?_⟩, i1⟩, i2⟩
    have hfx := hf.1.2
    unfold Facts.apply at hv'
    cases hop : x.op <;> rw [hop] at hfx hv' <;> dsimp only at *
    · exact ⟨by rw [Facts.set_ne _ _ hxk]; exact hfx.1, hv'⟩
    · exact ⟨by rw [Facts.set_ne _ _ hxk]; exact hfx.1, hv'⟩
    · exact ⟨hfx.1, by rw [Facts.set_ne _ _ hxk]; exact hfx.2⟩

/-! ### the queue -/

/-- what the queue guarantees: its messages make sense, have the net effect `T`, and mention each key at most once
(besides updates) -/
structure QueueInv (S : Facts) (q : List Ev) (T : Facts) : Prop where
  fits : FitsAll S q
  net : S.follow q = T
  once : Once q

theorem QueueInv.snoc {S T : Facts} {q : List Ev} {e : Ev} (h : QueueInv S q T) (he : e.Fits T)
    (hk : ∀ o ∈ q, o.op ≠ .update → e.op ≠ .update → o.key ≠ e.key) : QueueInv S (q ++ [e]) (T.apply e) where
  fits := fitsAll_append.2 ⟨h.fits, by rw [h.net]; exact ⟨he, trivial⟩⟩
  net := by rw [Facts.follow_append, h.net]; rfl
  once := by
    unfold Once
    rw [List.pairwise_append]
    refine ⟨h.once, List.pairwise_singleton _ _, fun a ha b hb => ?_⟩
    rw [List.mem_singleton] at hb
    subst hb
    exact hk a ha

theorem QueueInv.filter {S T : Facts} {q : List Ev} (h : QueueInv S q T) {p : Ev → Bool} (hp : ∀ o, p o = false → o.op = .update) :
    QueueInv S (q.filter p) T where
  fits := (drop_updates hp h.fits).1
  net := (drop_updates hp h.fits).2.trans h.net
  once := h.once.sublist List.filter_sublist

theorem QueueInv.cancel {S T : Facts} {q1 q2 : List Ev} {x : Ev} {v : Bool} (hS : S.Valid)
    (h : QueueInv S (q1 ++ x :: q2) T) (hx : x.op = if v then .remove else .add) (h2 : ∀ o ∈ q2, o.key ≠ x.key)
    (hv : (T.set x.key v).Valid) : QueueInv S (q1 ++ q2) (T.set x.key v) := by
  obtain ⟨hf, hn, ho⟩ := h
  have hxu : x.op ≠ .update := by rw [hx]; cases v <;> simp
  obtain ⟨o1, o2, o3⟩ := once_split ho hxu
  rw [fitsAll_append] at hf
  obtain ⟨f1, fx, f2⟩ := hf
  rw [Facts.follow_append, Facts.follow_cons] at hn
  have hUv := f1.valid hS
  have hxa : (S.follow q1).apply x = (S.follow q1).set x.key (!v) := by
    unfold Facts.apply; rw [hx]; cases v <;> rfl
  have hUk : S.follow q1 x.key = v := by
    have := fx.2
    rw [hx] at this
    cases v
    · exact this.1
    · exact this.1
  have hTv := fx.valid hUv
  rw [hxa] at f2 hn hTv
  have hback : ((S.follow q1).set x.key (!v)).set x.key v = S.follow q1 := by
    rw [Facts.set_set, Facts.set_eq_self _ hUk]
  have := without_key hUv hUk f2 (ho.sublist (by simp) : Once q2) h2 (Facts.set_self ..)
    (fun y hy => .inl (Facts.set_ne _ _ hy)) hTv (by rw [hn]; exact hv)
  rw [hback, hn] at this
  exact ⟨fitsAll_append.2 ⟨f1, this.1⟩, by rw [Facts.follow_append, this.2], o3⟩

theorem any_congr_mem {α : Type} {p p' : α → Bool} {l : List α} (h : ∀ x ∈ l, p x = p' x) : l.any p = l.any p' := by
  induction l with
  | nil => rfl
  | cons x l ih => rw [List.any_cons, List.any_cons, h x (by simp), ih (fun y hy => h y (by simp [hy]))]

theorem enqueue_inv {S T : Facts} {q : List Ev} {e : Ev} (hS : S.Valid) (h : QueueInv S q T) (he : e.Fits T) :
    QueueInv S (enqueue q e) (T.apply e) := by
  have hsh := h.fits.shape
  have hm : ∀ o ∈ q, e.merge o = _ := fun o ho => merge_eq he.1 (hsh o ho)
  have word : ∀ x ∈ q, x.op ≠ .update → T x.key = (match x.op with | .add => true | .remove => false | .update => T x.key) := by
    intro x hx hu
    obtain ⟨q1, q2, rfl⟩ := List.append_of_mem hx
    have := follow_at (S := S) (q1 := q1) (once_split h.once hu).2.1
    rw [h.net] at this
    rw [this]
    cases hxo : x.op
    · rfl
    · rfl
    · exact absurd hxo hu
  cases hop : e.op with
  | update =>
    have hc : q.any (fun o => decide (e.merge o = .cancel)) = false := by
      rw [List.any_eq_false]
      intro o ho
      rw [hm o ho, hop]
      split <;> simp
      split <;> simp
    have hr : q.filter (fun o => decide (e.merge o = .ignore)) = q.filter (fun o => decide (¬ (o.key = e.key ∧ o.op = .update))) := by
      apply List.filter_congr
      intro o ho
      rw [hm o ho, hop]
      by_cases hk : e.key = o.key
      · rw [if_pos hk]; cases o.op <;> simp [hk]
      · rw [if_neg hk]; simp [show o.key ≠ e.key from fun x => hk x.symm]
    unfold enqueue
    dsimp only
    rw [hc, hr]
    exact (h.filter (p := fun o => decide (¬ (o.key = e.key ∧ o.op = .update))) (by
      intro o ho; simp at ho; exact ho.2)).snoc he (fun o ho _ hu => absurd hop hu)
  | add =>
    have hf := he.2
    rw [hop] at hf
    obtain ⟨hTk, hTv⟩ := hf
    have hno : ∀ o ∈ q, o.key = e.key → o.op ≠ .add := by
      intro o ho hk hadd
      have := word o ho (by rw [hadd]; simp)
      rw [hadd, hk, hTk] at this
      cases this
    have hc : q.any (fun o => decide (e.merge o = .cancel)) = q.any (fun o => decide (o.key = e.key ∧ o.op = .remove)) := by
      apply any_congr_mem
      intro o ho
      rw [hm o ho, hop]
      by_cases hk : e.key = o.key
      · rw [if_pos hk]
        have := hno o ho hk.symm
        cases hoo : o.op <;> simp [hk] at this ⊢

      · rw [if_neg hk]; simp [show o.key ≠ e.key from fun x => hk x.symm]
    have hr : q.filter (fun o => decide (e.merge o = .ignore)) = q.filter (fun o => decide (¬ (o.key = e.key ∧ o.op = .remove))) := by
      apply List.filter_congr
      intro o ho
      rw [hm o ho, hop]
      by_cases hk : e.key = o.key
      · rw [if_pos hk]
        have := hno o ho hk.symm
        cases hoo : o.op <;> simp [hk] at this ⊢
        exact absurd hoo this
      · rw [if_neg hk]; simp [show o.key ≠ e.key from fun x => hk x.symm]
    unfold enqueue
    dsimp only
    rw [hc, hr]
    by_cases hex : ∃ x ∈ q, x.key = e.key ∧ x.op = .remove
    · rw [if_pos (by rw [List.any_eq_true]; obtain ⟨x, a, b⟩ := hex; exact ⟨x, a, by simpa using b⟩)]
      obtain ⟨x, hx, hk, hxo⟩ := hex
      obtain ⟨q1, q2, rfl⟩ := List.append_of_mem hx
      have hsp := once_split h.once (by rw [hxo]; simp)
      have hfit := (fitsAll_append.1 h.fits).2
      have h2 : ∀ o ∈ q2, o.key ≠ x.key := by
        refine no_update hfit.2 ?_ hsp.2.1
        unfold Facts.apply; rw [hxo]; exact Facts.set_self ..
      have : (q1 ++ x :: q2).filter (fun o => decide (¬ (o.key = e.key ∧ o.op = .remove))) = q1 ++ q2 := by
        rw [List.filter_append, List.filter_cons_of_neg (by simp [hk, hxo]), List.filter_eq_self.2, List.filter_eq_self.2]
        · intro o ho; simp [show o.key ≠ e.key from fun e' => h2 o ho (e'.trans hk.symm)]
        · intro o ho
          by_cases hou : o.op = .remove
          · have := hsp.1 o ho (by rw [hou]; simp)
            simp [show o.key ≠ e.key from fun e' => this (e'.trans hk.symm)]
          · simp [hou]
      rw [this]
      have hT : T.apply e = T.set x.key true := by unfold Facts.apply; rw [hop, hk]
      rw [hT]
      exact QueueInv.cancel (v := true) hS h hxo h2 (by rw [hk]; exact hTv)
    · rw [if_neg (by
        rw [List.any_eq_true]; rintro ⟨x, a, b⟩; exact hex ⟨x, a, by simpa using b⟩)]
      rw [List.filter_eq_self.2 (by
        intro o ho
        have : ¬ (o.key = e.key ∧ o.op = .remove) := fun b => hex ⟨o, ho, b⟩
        simp only [decide_eq_true_eq]; exact this)]
      refine h.snoc he (fun o ho hu _ hk => ?_)
      cases hoo : o.op
      · exact hno o ho hk hoo
      · exact hex ⟨o, ho, hk, hoo⟩
      · exact hu hoo
  | remove =>
    have hf := he.2
    rw [hop] at hf
    obtain ⟨hTk, hTv⟩ := hf
    have hno : ∀ o ∈ q, o.key = e.key → o.op ≠ .remove := by
      intro o ho hk hadd
      have := word o ho (by rw [hadd]; simp)
      rw [hadd, hk, hTk] at this
      cases this
    have hc : q.any (fun o => decide (e.merge o = .cancel)) = q.any (fun o => decide (o.key = e.key ∧ o.op = .add)) := by
      apply any_congr_mem
      intro o ho
      rw [hm o ho, hop]
      by_cases hk : e.key = o.key
      · rw [if_pos hk]
        have := hno o ho hk.symm
        cases hoo : o.op <;> simp [hk] at this ⊢

      · rw [if_neg hk]; simp [show o.key ≠ e.key from fun x => hk x.symm]
    let p : Ev → Bool := fun o => decide (¬ (o.key = e.key ∧ o.op = .update))
    have h' := h.filter (p := p) (by intro o ho; simp [p] at ho; exact ho.2)
    have hr : q.filter (fun o => decide (e.merge o = .ignore)) =
        (q.filter p).filter (fun o => decide (¬ (o.key = e.key ∧ o.op = .add))) := by
      rw [List.filter_filter]
      apply List.filter_congr
      intro o ho
      rw [hm o ho, hop]
      by_cases hk : e.key = o.key
      · rw [if_pos hk]
        have := hno o ho hk.symm
        cases hoo : o.op <;> simp [hk, p, hoo] at this ⊢
      · rw [if_neg hk]; simp [p, show o.key ≠ e.key from fun x => hk x.symm]
    unfold enqueue
    dsimp only
    rw [hc, hr]
    by_cases hex : ∃ x ∈ q, x.key = e.key ∧ x.op = .add
    · rw [if_pos (by rw [List.any_eq_true]; obtain ⟨x, a, b⟩ := hex; exact ⟨x, a, by simpa using b⟩)]
      obtain ⟨x, hx, hk, hxo⟩ := hex
      have hx' : x ∈ q.filter p := List.mem_filter.2 ⟨hx, by simp [p, hxo]⟩
      have hpu : ∀ o ∈ q.filter p, o.key = e.key → o.op ≠ .update := by
        intro o ho hk hu
        have := (List.mem_filter.1 ho).2
        simp [p, hk, hu] at this
      generalize q.filter p = q' at h' hx' hpu
      obtain ⟨q1, q2, rfl⟩ := List.append_of_mem hx'
      have hsp := once_split h'.once (by rw [hxo]; simp)
      have h2 : ∀ o ∈ q2, o.key ≠ x.key := by
        intro o ho e'
        exact hsp.2.1 o ho (hpu o (by simp [ho]) (e'.trans hk)) e'
      have : (q1 ++ x :: q2).filter (fun o => decide (¬ (o.key = e.key ∧ o.op = .add))) = q1 ++ q2 := by
        rw [List.filter_append, List.filter_cons_of_neg (by simp [hk, hxo]), List.filter_eq_self.2, List.filter_eq_self.2]
        · intro o ho; simp [show o.key ≠ e.key from fun e' => h2 o ho (e'.trans hk.symm)]
        · intro o ho
          by_cases hou : o.op = .add
          · have := hsp.1 o ho (by rw [hou]; simp)
            simp [show o.key ≠ e.key from fun e' => this (e'.trans hk.symm)]
          · simp [hou]
      rw [this]
      have hT : T.apply e = T.set x.key false := by unfold Facts.apply; rw [hop, hk]
      rw [hT]
      exact QueueInv.cancel (v := false) hS h' hxo h2 (by rw [hk]; exact hTv)
    · rw [if_neg (by
        rw [List.any_eq_true]; rintro ⟨x, a, b⟩; exact hex ⟨x, a, by simpa using b⟩)]
      rw [List.filter_eq_self.2 (by
        intro o ho
        have : ¬ (o.key = e.key ∧ o.op = .add) := fun b => hex ⟨o, (List.mem_filter.1 ho).1, b⟩
        simp only [decide_eq_true_eq]; exact this)]
      refine h'.snoc he (fun o ho hu _ hk => ?_)
      have ho' := (List.mem_filter.1 ho).1
      cases hoo : o.op
      · exact hex ⟨o, ho', hk, hoo⟩
      · exact hno o ho' hk hoo
      · exact hu hoo

theorem compress_inv {S : Facts} (hS : S.Valid) {es : List Ev} (h : FitsAll S es) :
    QueueInv S (compress es) (S.follow es) := by
  have gen : ∀ (es : List Ev) (q : List Ev) (T : Facts), QueueInv S q T → FitsAll T es →
      QueueInv S (es.foldl enqueue q) (T.follow es) := by
    intro es
    induction es with
    | nil => intro q T hq _; exact hq
    | cons e es ih => intro q T hq hf; exact ih _ _ (enqueue_inv hS hq hf.1) hf.2
  exact gen es [] S ⟨trivial, rfl, List.Pairwise.nil⟩ h

theorem enqueue_length (q : List Ev) (e : Ev) : (enqueue q e).length ≤ q.length + 1 := by
  unfold enqueue
  dsimp only
  have := List.length_filter_le (fun o => decide (e.merge o = .ignore)) q
  split
  · omega
  · rw [List.length_append, List.length_singleton]; omega

theorem compress_length (es : List Ev) : (compress es).length ≤ es.length := by
  have gen : ∀ (es q : List Ev), (es.foldl enqueue q).length ≤ q.length + es.length := by
    intro es
    induction es with
    | nil => intro q; simp
    | cons e es ih =>
      intro q
      have := ih (enqueue q e)
      have := enqueue_length q e
      rw [List.foldl_cons, List.length_cons]
      omega
  have := gen es []
  rw [List.length_nil, Nat.zero_add] at this
  exact this

end Envire
