import Verif.Viz.ViewModel
import Verif.Core.EventProps
/-! Properties C145 - C147: the visualization follows the environment. -/
namespace Envire
namespace View
open Env

variable {C : Type}

/-! ## Specification -/

/-- what a visualization should know of an item: the visualizer chosen when it was attached, what it looked like
when it was last attached, modified or redrawn, and whether its visualizer is enabled -/
structure Seen (C : Type) where
  viz : Nat
  face : C
  enabled : Bool

structure Sight (C : Type) where
  vizs : List Nat
  seen : Obj → Option (Seen C)

/-- the visualizer added last that handles the item -/
def newest (handles : Nat → Bool) : List Nat → Option Nat
  | [] => none
  | z :: zs => match newest handles zs with
    | some y => some y
    | none => if handles z then some z else none

/-- the look of an item that changed -/
def Seen.redraw (x : Seen C) (c : C) : Seen C := { x with face := c }

/-- a property of visualizer `z` changed -/
def Seen.prop (x : Seen C) (z : Nat) (en : Option Bool) (c : C) : Seen C :=
  if x.viz = z then { x with face := c, enabled := en.getD x.enabled } else x

/-- an item that was just attached -/
def first (vizs : List Nat) (handles : Nat → Obj → Bool) (o : Obj) (c : C) : Option (Seen C) :=
  (newest (fun z => handles z o) vizs).map (fun z => ⟨z, c, true⟩)

def Sight.step (S : Sight C) : Act C → Sight C
  | .ev e handles now => match e.ty, e.op with
    | .item, .add => { S with seen := upd S.seen e.a (first S.vizs handles e.a (now e.a)) }
    | .item, .remove => { S with seen := upd S.seen e.a none }
    | .item, .update => { S with seen := upd S.seen e.a ((S.seen e.a).map (fun x => x.redraw (now e.a))) }
    | _, _ => S
  | .apply _ => S
  | .prop z en now => { S with seen := fun o => (S.seen o).map (fun x => x.prop z en (now o)) }
  | .addViz z => { S with vizs := S.vizs ++ [z] }
  | .removeViz z => { S with vizs := S.vizs.erase z }

def Sight.run (S : Sight C) (as : List (Act C)) : Sight C := as.foldl Sight.step S

/-- the events among the actions -/
def events (as : List (Act C)) : List Ev := as.filterMap (fun a => match a with | .ev e _ _ => some e | _ => none)

/-- the events make sense when they arrive, and only visualizers that are there are removed -/
def Fits : Pic → List Nat → List (Act C) → Prop
  | _, _, [] => True
  | A, vs, .ev e _ _ :: as => Adm True True A e ∧ Fits (A.apply e) vs as
  | A, vs, .addViz z :: as => Fits A (vs ++ [z]) as
  | A, vs, .removeViz z :: as => z ∈ vs ∧ Fits A (vs.erase z) as
  | A, vs, .apply _ :: as => Fits A vs as
  | A, vs, .prop _ _ _ :: as => Fits A vs as

/-- how many links make `c` a child of `p`: frame links, layer links, and maps in frames -/
def links (A : Pic) (c p : Obj) : Nat := A.f.count (c, p) + A.l.count (c, p) + A.c.count (c, p)

/-- what a node contributes to the picture: the looks of the groups below it, and how often its children
hang below each of them -/
def Node.drawn (N : Node C) : List (Option C × Nat) := N.own.map (fun b => (N.shows b, N.carries b))

/-- the picture is up to date: exactly the items seen have nodes, each with its own one; a node of an enabled
item draws its last look once and its children once below it, a node of a disabled item draws nothing; the
children drawn below a node are exactly the items linked to it, as often as they are linked -/
structure Shown (V : View C) (S : Sight C) (A : Pic) : Prop where
  entries : ∀ o, (look o V.map).isSome = (S.seen o).isSome
  apart : ∀ o o' n, look o V.map = some (some n) → look o' V.map = some (some n) → o = o'
  drawn : ∀ o x, S.seen o = some x → ∃ n N, look o V.map = some (some n) ∧ V.nodes n = some N ∧
    N.drawn = (if x.enabled then [(some x.face, 1)] else []) ∧
    (∀ m ∈ N.kidsFront, ∃ c, look c V.map = some (some m)) ∧
    ∀ c m, look c V.map = some (some m) → N.kidsFront.count m = links A c o

/-! ## Nodes -/

structure NodeOk (N : Node C) (x : Seen C) : Prop where
  viz : N.viz = x.viz
  en : N.enabled = x.enabled
  lastBack : N.nodeDirty = true → N.shows (!N.front) = some x.face
  lastFront : N.nodeDirty = false → N.shows N.front = some x.face
  own : N.own = [] ∨ N.own = [N.front]
  settled : N.nodeDirty = false → N.own = if N.enabled then [N.front] else []
  free : N.carries (!N.front) = 0
  hung : N.carries N.front ≤ 1
  kids : N.kidsDirty = false → N.kidsFront = N.kidsBack

theorem NodeOk.make (o : Obj) (z : Nat) (c : C) : NodeOk (Node.make o z c) ⟨z, c, true⟩ := by
  constructor <;> simp [Node.make, Node.update, Node.back]

theorem NodeOk.update {N : Node C} {x : Seen C} (h : NodeOk N x) (c : C) : NodeOk (N.update c) (x.redraw c) := by
  obtain ⟨h1, h2, h3, h4, h5, h6, h7, h8, h9⟩ := h
  constructor <;> simp_all [Node.update, Node.back, Seen.redraw]

theorem NodeOk.addKid {N : Node C} {x : Seen C} (h : NodeOk N x) (m : Option Nat) : NodeOk (N.addKid m) x := by
  obtain ⟨h1, h2, h3, h4, h5, h6, h7, h8, h9⟩ := h
  constructor <;> simp_all [Node.addKid]

theorem NodeOk.removeKid {N : Node C} {x : Seen C} (h : NodeOk N x) (m : Option Nat) : NodeOk (N.removeKid m) x := by
  obtain ⟨h1, h2, h3, h4, h5, h6, h7, h8, h9⟩ := h
  constructor <;> simp_all [Node.removeKid]

theorem NodeOk.prop {N : Node C} {x : Seen C} (h : NodeOk N x) (z : Nat) (en : Option Bool) (c : C) :
    NodeOk (if N.viz = z then (match en with | some b => N.setEnable b | none => N).update c else N)
      (x.prop z en c) := by
  obtain ⟨h1, h2, h3, h4, h5, h6, h7, h8, h9⟩ := h
  unfold Seen.prop
  rw [h1]
  split
  · cases en <;> constructor <;> simp_all [Node.update, Node.back, Node.setEnable]
  · exact ⟨h1, h2, h3, h4, h5, h6, h7, h8, h9⟩

theorem apply_fields (N : Node C) : N.apply.item = N.item ∧ N.apply.viz = N.viz ∧ N.apply.kidsBack = N.kidsBack ∧
    N.apply.shows = N.shows ∧ N.apply.enabled = N.enabled := by
  unfold Node.apply Node.hangKids Node.hide Node.swapNode Node.syncKids Node.dropKids
  dsimp only
  split <;> split <;> split <;> simp

/-- after `apply` a node is settled -/
theorem NodeOk.apply {N : Node C} {x : Seen C} (h : NodeOk N x) : NodeOk N.apply x ∧ N.apply.nodeDirty = false ∧
    N.apply.kidsDirty = false ∧ N.apply.carries N.apply.front = 1 := by
  obtain ⟨h1, h2, h3, h4, h5, h6, h7, h8, h9⟩ := h
  obtain ⟨item, viz, front, shows', carries, own, kf, kb, nd, kd, en⟩ := N
  dsimp only at *
  have hc : carries front - 1 = 0 := by omega
  cases nd <;> cases kd <;> cases en <;> cases front <;>
    (simp only [Bool.not_true, Bool.not_false, reduceIte, Bool.false_eq_true, forall_const, false_implies] at *) <;>
    refine ⟨⟨?_, ?_, ?_, ?_, ?_, ?_, ?_, ?_, ?_⟩, ?_, ?_, ?_⟩ <;>
    simp_all [Node.apply, Node.hangKids, Node.hide, Node.swapNode, Node.syncKids, Node.dropKids, Node.back] <;>
    rcases h5 with rfl | rfl <;> simp

/-! ## The listener -/

theorem newest_eq (h : Nat → Bool) (l : List Nat) : l.reverse.find? h = newest h l := by
  induction l with
  | nil => rfl
  | cons z zs ih =>
    rw [List.reverse_cons, List.find?_append, ih]
    show _ = (match newest h zs with | some y => some y | none => if h z then some z else none)
    cases hn : newest h zs with
    | some y => rfl
    | none =>
      show (List.find? h [z]) = _
      rw [List.find?_cons]
      cases h z <;> rfl

structure Follows (V : View C) (S : Sight C) (A : Pic) : Prop where
  vizs : V.vizs = S.vizs
  keys : (V.map.map (·.1)).Nodup
  unseen : ∀ o, S.seen o = none → look o V.map = none
  seen : ∀ o x, S.seen o = some x → ∃ n N, look o V.map = some (some n) ∧ V.nodes n = some N ∧ n < V.next ∧
    N.item = o ∧ NodeOk N x
  inj : ∀ o o' n, look o V.map = some (some n) → look o' V.map = some (some n) → o = o'
  kidsIn : ∀ o n N m, look o V.map = some (some n) → V.nodes n = some N → m ∈ N.kidsBack →
    ∃ c, look c V.map = some (some m)
  kids : ∀ o n N c m, look o V.map = some (some n) → V.nodes n = some N → look c V.map = some (some m) →
    N.kidsBack.count m = links A c o
  items : ∀ o x, S.seen o = some x → o ∈ A.items.map (·.2)
  closed : ∀ c p, links A c p ≠ 0 → c ∈ A.items.map (·.2) ∧ p ∈ A.items.map (·.2)

namespace Follows
variable {V : View C} {S : Sight C} {A : Pic}

theorem here (h : Follows V S A) {o : Obj} {p : Option Nat} (ho : look o V.map = some p) :
    ∃ x n N, S.seen o = some x ∧ p = some n ∧ V.nodes n = some N ∧ n < V.next ∧ N.item = o ∧ NodeOk N x := by
  cases hs : S.seen o with
  | none => rw [h.unseen o hs] at ho; cases ho
  | some x =>
    obtain ⟨n, N, h1, h2⟩ := h.seen o x hs
    rw [h1] at ho
    cases ho
    exact ⟨x, n, N, rfl, rfl, h2⟩

/-- only the nodes change, none of them in its children -/
theorem nodewise (h : Follows V S A) {V' : View C} {S' : Sight C} (hm : V'.map = V.map) (hn : V'.next = V.next)
    (hv : V'.vizs = S'.vizs) (hno : ∀ o, S.seen o = none → S'.seen o = none)
    (hso : ∀ o x n N, S.seen o = some x → look o V.map = some (some n) → V.nodes n = some N → NodeOk N x → N.item = o →
      ∃ x' N', S'.seen o = some x' ∧ V'.nodes n = some N' ∧ NodeOk N' x' ∧ N'.item = o ∧ N'.kidsBack = N.kidsBack) :
    Follows V' S' A where
  vizs := hv
  keys := by rw [hm]; exact h.keys
  unseen := fun o ho => by
    rw [hm]
    cases hs : S.seen o with
    | none => exact h.unseen o hs
    | some x =>
      obtain ⟨n, N, h1, h2, _, h4, h5⟩ := h.seen o x hs
      obtain ⟨x', N', h6, _⟩ := hso o x n N hs h1 h2 h5 h4
      rw [h6] at ho; cases ho
  seen := fun o x' ho => by
    rw [hm]
    cases hs : S.seen o with
    | none => rw [hno o hs] at ho; cases ho
    | some x =>
      obtain ⟨n, N, h1, h2, h3, h4, h5⟩ := h.seen o x hs
      obtain ⟨x'', N', h6, h7, h8, h9, _⟩ := hso o x n N hs h1 h2 h5 h4
      rw [h6] at ho; cases ho
      exact ⟨n, N', h1, h7, by rw [hn]; exact h3, h9, h8⟩
  inj := by rw [hm]; exact h.inj
  kidsIn := fun o n N' m ho hN' hk => by
    rw [hm] at ho ⊢
    obtain ⟨x, n', N, h1, h2, h3, _, h5, h6⟩ := h.here ho
    cases h2
    obtain ⟨_, N'', _, h7, _, _, h8⟩ := hso o x n N h1 ho h3 h6 h5
    rw [hN'] at h7; cases h7
    exact h.kidsIn o n N m ho h3 (h8 ▸ hk)
  kids := fun o n N' c m ho hN' hc => by
    rw [hm] at ho hc
    obtain ⟨x, n', N, h1, h2, h3, _, h5, h6⟩ := h.here ho
    cases h2
    obtain ⟨_, N'', _, h7, _, _, h8⟩ := hso o x n N h1 ho h3 h6 h5
    rw [hN'] at h7; cases h7
    rw [h8]
    exact h.kids o n N c m ho h3 hc
  items := fun o x' ho => by
    cases hs : S.seen o with
    | none => rw [hno o hs] at ho; cases ho
    | some x => exact h.items o x hs
  closed := h.closed

end Follows

/-- a loop over the entries changes each node once -/
theorem loop_spec (g : Option Nat → Node C → Node C) : ∀ (ps : List (Option Nat)) (V : View C), ps.Nodup →
    (∀ p ∈ ps, ∃ n N, p = some n ∧ V.nodes n = some N) →
    ∃ V', View.loop (fun V p => V.onNode p (g p)) ps V = .ok V' ∧ V'.map = V.map ∧ V'.next = V.next ∧
      V'.scene = V.scene ∧ V'.vizs = V.vizs ∧
      ∀ n, V'.nodes n = if some n ∈ ps then (V.nodes n).map (g (some n)) else V.nodes n := by
  intro ps
  induction ps with
  | nil => intro V _ _; exact ⟨V, rfl, rfl, rfl, rfl, rfl, fun n => by simp⟩
  | cons p ps ih =>
    intro V hnd hp
    obtain ⟨n, N, rfl, hN⟩ := hp p (by simp)
    obtain ⟨hn, hnd⟩ := List.nodup_cons.1 hnd
    have h1 : V.onNode (some n) (g (some n)) =
        .ok { V with nodes := fun m => if m = n then some (g (some n) N) else V.nodes m } := by
      simp only [View.onNode, hN]
    obtain ⟨V', h2, h3, h4, h5, h6, h7⟩ := ih { V with nodes := fun m => if m = n then some (g (some n) N) else V.nodes m } hnd
      (fun q hq => by
        obtain ⟨k, K, rfl, hK⟩ := hp q (List.mem_cons_of_mem _ hq)
        refine ⟨k, ?_⟩
        dsimp only
        by_cases hk : k = n
        · subst hk; exact absurd hq hn
        · rw [if_neg hk]; exact ⟨K, rfl, hK⟩)
    refine ⟨V', ?_, h3, h4, h5, h6, fun k => ?_⟩
    · unfold View.loop
      rw [h1]
      exact h2
    · rw [h7 k]
      dsimp only
      by_cases hk : k = n
      · subst hk
        rw [if_neg hn, if_pos rfl, if_pos (by simp), hN]; rfl
      · rw [if_neg hk]
        have : (some k ∈ some n :: ps) ↔ some k ∈ ps := by
          rw [List.mem_cons]
          exact ⟨fun h => h.elim (fun h => absurd (Option.some.inj h) hk) id, Or.inr⟩
        by_cases hm : some k ∈ ps
        · rw [if_pos hm, if_pos (this.2 hm)]
        · rw [if_neg hm, if_neg (fun h => hm (this.1 h))]

theorem look_of_mem {l : List (Obj × Option Nat)} (h : (l.map (·.1)).Nodup) {o : Obj} {p : Option Nat} (hm : (o, p) ∈ l) :
    look o l = some p := (look_eq_some_iff h).2 hm

theorem Follows.values {V : View C} {S : Sight C} {A : Pic} (h : Follows V S A) : (V.map.map (·.2)).Nodup ∧
    (∀ p ∈ V.map.map (·.2), ∃ n N, p = some n ∧ V.nodes n = some N) ∧
    ∀ o n, look o V.map = some (some n) → some n ∈ V.map.map (·.2) := by
  refine ⟨?_, ?_, ?_⟩
  · have hk := h.keys
    have hi : ∀ a ∈ V.map, ∀ b ∈ V.map, a.2 = b.2 → a.1 = b.1 := by
      intro a ha b hb hab
      have h1 := look_of_mem hk (show (a.1, a.2) ∈ V.map from ha)
      have h2 := look_of_mem hk (show (b.1, b.2) ∈ V.map from hb)
      obtain ⟨_, n, _, _, h3, _⟩ := h.here h1
      rw [h3] at h1
      rw [← hab, h3] at h2
      exact h.inj _ _ _ h1 h2
    rw [List.Nodup, List.pairwise_map] at hk ⊢
    refine List.Pairwise.imp_of_mem ?_ hk
    intro a b ha hb hne hab
    exact hne (hi a ha b hb hab)
  · intro p hp
    obtain ⟨e, he, rfl⟩ := List.mem_map.1 hp
    obtain ⟨_, n, N, _, h2, h3, _⟩ := h.here (look_of_mem h.keys (show (e.1, e.2) ∈ V.map from he))
    exact ⟨n, N, h2, h3⟩
  · intro o n ho
    exact List.mem_map.2 ⟨(o, some n), (look_eq_some_iff h.keys).1 ho, rfl⟩

/-- `apply` keeps the picture right, and settles the nodes it could lock -/
theorem applyAll_spec {V : View C} {S : Sight C} {A : Pic} (h : Follows V S A) (busy : List Nat) :
    ∃ V', V.applyAll busy = .ok V' ∧ Follows V' S A ∧ V'.scene = V.scene ∧ V'.map = V.map ∧
      ∀ o n N, n ∉ busy → look o V'.map = some (some n) → V'.nodes n = some N →
        N.nodeDirty = false ∧ N.kidsDirty = false ∧ N.carries N.front = 1 := by
  obtain ⟨h1, h2, h3⟩ := h.values
  obtain ⟨V', e1, e2, e3, e4, e5, e6⟩ := loop_spec (C := C)
    (fun p N => if (match p with | some n => busy.contains n | none => false) then N else N.apply) _ V h1 h2
  refine ⟨V', e1, ?_, e4, e2, ?_⟩
  · refine h.nodewise e2 e3 (e5.trans h.vizs) (fun o ho => ho) ?_
    intro o x n N hs ho hN hok hit
    refine ⟨x, if busy.contains n then N else N.apply, hs, ?_, ?_, ?_, ?_⟩
    · rw [e6, if_pos (h3 o n ho), hN]; rfl
    · split
      · exact hok
      · exact hok.apply.1
    · split
      · exact hit
      · rw [(apply_fields N).1]; exact hit
    · split
      · rfl
      · exact (apply_fields N).2.2.1
  · intro o n N hb ho hN
    rw [e2] at ho
    obtain ⟨x, n', N0, g1, g2, g3, _, _, g6⟩ := h.here ho
    cases g2
    rw [e6, if_pos (h3 o n ho), g3] at hN
    have hb' : busy.contains n = false := by simpa using hb
    simp only [Option.map_some, hb', Bool.false_eq_true, if_false, Option.some.injEq] at hN
    subst hN
    exact g6.apply.2

theorem propertyChanged_spec {V : View C} {S : Sight C} {A : Pic} (h : Follows V S A) (z : Nat) (en : Option Bool)
    (now : Obj → C) : ∃ V', V.propertyChanged z en now = .ok V' ∧ Follows V' (S.step (.prop z en now)) A ∧
      V'.scene = V.scene ∧ V'.map = V.map := by
  obtain ⟨h1, h2, h3⟩ := h.values
  obtain ⟨V', e1, e2, e3, e4, e5, e6⟩ := loop_spec (C := C)
    (fun _ N => if N.viz = z then (match en with | some b => N.setEnable b | none => N).update (now N.item) else N) _ V h1 h2
  refine ⟨V', e1, ?_, e4, e2⟩
  refine h.nodewise e2 e3 (e5.trans h.vizs) (fun o ho => by show (S.seen o).map _ = none; rw [ho]; rfl) ?_
  intro o x n N hs ho hN hok hit
  refine ⟨x.prop z en (now o), _, ?_, ?_, hok.prop z en (now o), ?_, ?_⟩
  · show (S.seen o).map _ = _; rw [hs]; rfl
  · rw [e6, if_pos (h3 o n ho), hN, ← hit]; rfl
  · split
    · cases en <;> exact hit
    · exact hit
  · split
    · cases en <;> rfl
    · rfl

/-- one node changes, with its children; the links change accordingly -/
theorem Follows.oneNode {V : View C} {S : Sight C} {A A' : Pic} (h : Follows V S A) {a : Obj} {n : Nat} {N N' : Node C}
    (ha : look a V.map = some (some n)) (hN : V.nodes n = some N) (hi : A'.items = A.items)
    (hcl : ∀ c p, links A' c p ≠ 0 → c ∈ A.items.map (·.2) ∧ p ∈ A.items.map (·.2))
    (hit : N'.item = N.item) (hok : ∀ x, NodeOk N x → NodeOk N' x)
    (hother : ∀ c p, p ≠ a → links A' c p = links A c p)
    (hin : ∀ m ∈ N'.kidsBack, ∃ c, look c V.map = some (some m))
    (hct : ∀ c m, look c V.map = some (some m) → N'.kidsBack.count m = links A' c a) :
    Follows { V with nodes := fun m => if m = n then some N' else V.nodes m } S A' where
  vizs := h.vizs
  keys := h.keys
  unseen := h.unseen
  seen := fun o x ho => by
    obtain ⟨k, K, h1, h2, h3, h4, h5⟩ := h.seen o x ho
    dsimp only
    by_cases hk : k = n
    · subst hk
      rw [hN] at h2; cases h2
      exact ⟨k, N', h1, by rw [if_pos rfl], h3, hit.trans h4, hok x h5⟩
    · exact ⟨k, K, h1, by rw [if_neg hk]; exact h2, h3, h4, h5⟩
  inj := h.inj
  kidsIn := fun o k K m ho hK hm => by
    dsimp only at ho hK ⊢
    by_cases hk : k = n
    · rw [if_pos hk] at hK; cases hK
      exact hin m hm
    · rw [if_neg hk] at hK
      exact h.kidsIn o k K m ho hK hm
  kids := fun o k K c m ho hK hc => by
    dsimp only at ho hK hc
    by_cases hk : k = n
    · rw [if_pos hk] at hK; cases hK
      subst hk
      rw [h.inj o a k ho ha]
      exact hct c m hc
    · rw [if_neg hk] at hK
      rw [hother c o (fun hoa => hk (by rw [hoa, ha] at ho; cases ho; rfl))]
      exact h.kids o k K c m ho hK hc
  items := by rw [hi]; exact h.items
  closed := by rw [hi]; exact hcl

/-- nothing changes for the items seen -/
theorem Follows.sameNodes {V : View C} {S : Sight C} {A A' : Pic} (h : Follows V S A) (hi : A'.items = A.items)
    (hcl : ∀ c p, links A' c p ≠ 0 → c ∈ A.items.map (·.2) ∧ p ∈ A.items.map (·.2))
    (hl : ∀ c p, look c V.map ≠ none → look p V.map ≠ none → links A' c p = links A c p) : Follows V S A' where
  vizs := h.vizs
  keys := h.keys
  unseen := h.unseen
  seen := h.seen
  inj := h.inj
  kidsIn := h.kidsIn
  kids := fun o n N c m ho hN hc => by
    rw [hl c o (by rw [hc]; simp) (by rw [ho]; simp)]
    exact h.kids o n N c m ho hN hc
  items := by rw [hi]; exact h.items
  closed := by rw [hi]; exact hcl

theorem onNode_some {V : View C} {n : Nat} {N : Node C} (hN : V.nodes n = some N) (f : Node C → Node C) :
    V.onNode (some n) f = .ok { V with nodes := fun m => if m = n then some (f N) else V.nodes m } := by
  simp only [View.onNode, hN]

theorem addChild_spec {V : View C} {S : Sight C} {A A' : Pic} (h : Follows V S A) (a b : Obj)
    (hi : A'.items = A.items) (ha : a ∈ A.items.map (·.2)) (hb : b ∈ A.items.map (·.2))
    (hl : ∀ c p, links A' c p = links A c p + if c = b ∧ p = a then 1 else 0) :
    ∃ V', V.addChild a b = .ok V' ∧ Follows V' S A' ∧ V'.scene = V.scene ∧ V'.map = V.map := by
  have hcl : ∀ c p, links A' c p ≠ 0 → c ∈ A.items.map (·.2) ∧ p ∈ A.items.map (·.2) := by
    intro c p hcp
    by_cases hx : c = b ∧ p = a
    · rw [hx.1, hx.2]; exact ⟨hb, ha⟩
    · rw [hl, if_neg hx] at hcp
      exact h.closed c p hcp
  by_cases hk : (∃ x, look a V.map = some x) ∧ ∃ y, look b V.map = some y
  · obtain ⟨⟨x, hx⟩, ⟨y, hy⟩⟩ := hk
    obtain ⟨_, n, N, _, rfl, hN, _⟩ := h.here hx
    obtain ⟨_, m, _, _, rfl, _⟩ := h.here hy
    have he : V.addChild a b = V.onNode (some n) (fun N => N.addKid (some m)) := by
      rw [View.addChild, hx, hy]
    refine ⟨{ V with nodes := fun k => if k = n then some (N.addKid (some m)) else V.nodes k },
      he.trans (onNode_some hN _), ?_, rfl, rfl⟩
    refine h.oneNode hx hN hi hcl rfl (fun x hx => hx.addKid _) (fun c p hp => ?_) ?_ ?_
    · rw [hl, if_neg (fun h => hp h.2)]; rfl
    · intro k hk
      rcases List.mem_append.1 (show k ∈ N.kidsBack ++ [m] from hk) with hk | hk
      · exact h.kidsIn a n N k hx hN hk
      · rw [List.mem_singleton.1 hk]; exact ⟨b, hy⟩
    · intro c k hc
      show (N.kidsBack ++ [m]).count k = _
      rw [List.count_append, h.kids a n N c k hx hN hc, hl]
      by_cases hcb : c = b
      · subst hcb
        rw [hy] at hc; cases hc
        simp
      · have : m ≠ k := fun hmk => hcb (h.inj c b m (hmk ▸ hc) hy)
        simp [hcb, this]
  · have he : V.addChild a b = .ok V := by
      unfold View.addChild
      cases hx : look a V.map with
      | none => simp
      | some x =>
        cases hy : look b V.map with
        | none => simp
        | some y => exact absurd ⟨⟨x, hx⟩, ⟨y, hy⟩⟩ hk
    refine ⟨V, he, h.sameNodes hi hcl (fun c p hc hp => ?_), rfl, rfl⟩
    rw [hl, if_neg ?_]; · rfl
    rintro ⟨rfl, rfl⟩
    exact hk ⟨Option.ne_none_iff_exists'.1 hp, Option.ne_none_iff_exists'.1 hc⟩

theorem removeChild_spec {V : View C} {S : Sight C} {A A' : Pic} (h : Follows V S A) (a b : Obj)
    (hi : A'.items = A.items) (hl : ∀ c p, links A c p = links A' c p + if c = b ∧ p = a then 1 else 0) :
    ∃ V', V.removeChild a b = .ok V' ∧ Follows V' S A' ∧ V'.scene = V.scene ∧ V'.map = V.map := by
  have hcl : ∀ c p, links A' c p ≠ 0 → c ∈ A.items.map (·.2) ∧ p ∈ A.items.map (·.2) := by
    intro c p hcp
    exact h.closed c p (by rw [hl]; omega)
  by_cases hk : (∃ x, look a V.map = some x) ∧ ∃ y, look b V.map = some y
  · obtain ⟨⟨x, hx⟩, ⟨y, hy⟩⟩ := hk
    obtain ⟨_, n, N, _, rfl, hN, _⟩ := h.here hx
    obtain ⟨_, m, _, _, rfl, _⟩ := h.here hy
    have he : V.removeChild a b = V.onNode (some n) (fun N => N.removeKid (some m)) := by
      rw [View.removeChild, hx, hy]
    refine ⟨{ V with nodes := fun k => if k = n then some (N.removeKid (some m)) else V.nodes k },
      he.trans (onNode_some hN _), ?_, rfl, rfl⟩
    refine h.oneNode hx hN hi hcl rfl (fun x hx => hx.removeKid _) (fun c p hp => ?_) ?_ ?_
    · have := hl c p
      rw [if_neg (fun h => hp h.2)] at this
      exact this.symm
    · intro k hk
      exact h.kidsIn a n N k hx hN (List.mem_of_mem_erase (show k ∈ N.kidsBack.erase m from hk))
    · intro c k hc
      show (N.kidsBack.erase m).count k = _
      have h0 := h.kids a n N c k hx hN hc
      have h1 := hl c a
      by_cases hcb : c = b
      · subst hcb
        rw [hy] at hc; cases hc
        rw [if_pos ⟨rfl, rfl⟩] at h1
        rw [List.count_erase_self, h0, h1]; rfl
      · have hmk : k ≠ m := fun hmk => hcb (h.inj c b m (hmk ▸ hc) hy)
        rw [if_neg (fun h => hcb h.1)] at h1
        rw [List.count_erase_of_ne hmk, h0, h1]; rfl
  · have he : V.removeChild a b = .ok V := by
      unfold View.removeChild
      cases hx : look a V.map with
      | none => simp
      | some x =>
        cases hy : look b V.map with
        | none => simp
        | some y => exact absurd ⟨⟨x, hx⟩, ⟨y, hy⟩⟩ hk
    refine ⟨V, he, h.sameNodes hi hcl (fun c p hc hp => ?_), rfl, rfl⟩
    rw [hl, if_neg ?_]; · rfl
    rintro ⟨rfl, rfl⟩
    exact hk ⟨Option.ne_none_iff_exists'.1 hp, Option.ne_none_iff_exists'.1 hc⟩

theorem count_cons_pair (l : List (Obj × Obj)) (x y c p : Obj) :
    ((x, y) :: l).count (c, p) = l.count (c, p) + if c = x ∧ p = y then 1 else 0 := by
  rw [List.count_cons]
  by_cases h : c = x ∧ p = y
  · rw [if_pos h, h.1, h.2]; simp
  · rw [if_neg h, if_neg]
    simp only [beq_iff_eq, Prod.mk.injEq]
    exact fun hh => h ⟨hh.1.symm, hh.2.symm⟩

theorem count_erase_pair {l : List (Obj × Obj)} {x y : Obj} (hm : (x, y) ∈ l) (c p : Obj) :
    l.count (c, p) = (l.erase (x, y)).count (c, p) + if c = x ∧ p = y then 1 else 0 := by
  by_cases h : c = x ∧ p = y
  · rw [if_pos h, h.1, h.2, List.count_erase_self]
    have := List.count_pos_iff.2 hm
    omega
  · rw [if_neg h, List.count_erase_of_ne]; · rfl
    intro hh
    cases hh
    exact h ⟨rfl, rfl⟩

theorem itemModified_spec {V : View C} {S : Sight C} {A : Pic} (h : Follows V S A) (a : Obj) (c : C) :
    ∃ V', V.itemModified a c = .ok V' ∧
      Follows V' { S with seen := upd S.seen a ((S.seen a).map (fun x => x.redraw c)) } A ∧
      V'.scene = V.scene ∧ V'.map = V.map := by
  cases hx : look a V.map with
  | none =>
    refine ⟨V, by rw [View.itemModified, hx], ?_, rfl, rfl⟩
    have hs : S.seen a = none := by
      cases hs : S.seen a with
      | none => rfl
      | some x => obtain ⟨n, N, h1, _⟩ := h.seen a x hs; rw [hx] at h1; cases h1
    have : (fun o => upd S.seen a ((S.seen a).map (fun x => x.redraw c)) o) = S.seen := by
      funext o
      unfold upd
      split
      · next ho => rw [ho, hs]; rfl
      · rfl
    have e : ({ S with seen := upd S.seen a ((S.seen a).map (fun x => x.redraw c)) } : Sight C) = S := by
      cases S; simp only [Sight.mk.injEq, true_and]; exact this
    rw [e]; exact h
  | some p =>
    obtain ⟨x, n, N, h1, rfl, hN, _, hit, hok⟩ := h.here hx
    have he : V.itemModified a c = V.onNode (some n) (fun N => N.update c) := by rw [View.itemModified, hx]
    refine ⟨{ V with nodes := fun k => if k = n then some (N.update c) else V.nodes k },
      he.trans (onNode_some hN _), ?_, rfl, rfl⟩
    refine h.nodewise rfl rfl h.vizs (fun o ho => ?_) ?_
    · dsimp only [upd]
      split
      · next hoa => rw [hoa] at ho; rw [ho]; rfl
      · exact ho
    · intro o y k K hs ho hK hKok hKit
      dsimp only [upd]
      by_cases hoa : o = a
      · subst hoa
        rw [hx] at ho; cases ho
        rw [hN] at hK; cases hK
        refine ⟨x.redraw c, N.update c, by rw [if_pos rfl, h1]; rfl, by rw [if_pos rfl], hok.update c, hit, rfl⟩
      · have hkn : k ≠ n := fun hkn => hoa (h.inj o a n (hkn ▸ ho) hx)
        exact ⟨y, K, by rw [if_neg hoa]; exact hs, by rw [if_neg hkn]; exact hK, hKok, hKit, rfl⟩

theorem look_cons (o k : Obj) (p : Option Nat) (l : List (Obj × Option Nat)) :
    look o ((k, p) :: l) = if k = o then some p else look o l := rfl

theorem Follows.notIn {V : View C} {S : Sight C} {A : Pic} (h : Follows V S A) {a : Obj} (ha : a ∉ A.items.map (·.2)) :
    S.seen a = none ∧ look a V.map = none := by
  have : S.seen a = none := by
    cases hs : S.seen a with
    | none => rfl
    | some x => exact absurd (h.items a x hs) ha
  exact ⟨this, h.unseen a this⟩

theorem itemAttached_spec {V : View C} {S : Sight C} {A : Pic} (h : Follows V S A) {a : Obj} {id : Uid} (v : Option Nat)
    (c : C) (ha : a ∉ A.items.map (·.2)) :
    ∃ V', V.itemAttached false v a c = .ok V' ∧
      Follows V' { S with seen := upd S.seen a (v.map (fun z => ⟨z, c, true⟩)) } { A with items := (id, a) :: A.items } ∧
      V'.scene = V.scene ∧ ∀ o, o ≠ a → look o V'.map = look o V.map := by
  obtain ⟨hsa, hla⟩ := h.notIn ha
  have hcl : ∀ c' p, links A c' p ≠ 0 → c' ∈ ((id, a) :: A.items).map (·.2) ∧ p ∈ ((id, a) :: A.items).map (·.2) := by
    intro c' p hcp
    obtain ⟨h1, h2⟩ := h.closed c' p hcp
    exact ⟨List.mem_cons_of_mem _ h1, List.mem_cons_of_mem _ h2⟩
  have hlk : ∀ c' p, (c' = a ∨ p = a) → links A c' p = 0 := by
    intro c' p hcp
    refine Decidable.byContradiction (fun hne => ?_)
    obtain ⟨h1, h2⟩ := h.closed c' p hne
    rcases hcp with rfl | rfl
    · exact ha h1
    · exact ha h2
  cases v with
  | none =>
    refine ⟨V, by rw [View.itemAttached, hla]; rfl, ?_, rfl, fun _ _ => rfl⟩
    have e : ({ S with seen := upd S.seen a ((none : Option Nat).map (fun z => (⟨z, c, true⟩ : Seen C))) } : Sight C) = S := by
      cases S
      simp only [Sight.mk.injEq, true_and]
      funext o
      unfold upd
      split
      · next ho => rw [ho]; exact hsa.symm
      · rfl
    rw [e]
    exact ⟨h.vizs, h.keys, h.unseen, h.seen, h.inj, h.kidsIn, h.kids,
      fun o x ho => List.mem_cons_of_mem _ (h.items o x ho), hcl⟩
  | some z =>
    refine ⟨{ V with map := (a, some V.next) :: V.map
                     nodes := fun m => if m = V.next then some (Node.make a z c) else V.nodes m
                     next := V.next + 1 }, by rw [View.itemAttached, hla]; rfl, ?_, rfl,
        fun o ho => by rw [look_cons, if_neg (fun h => ho h.symm)]⟩
    have hlt : ∀ o n, look o V.map = some (some n) → n < V.next := by
      intro o n ho
      obtain ⟨_, n', _, _, h2, _, h4, _⟩ := h.here ho
      cases h2; exact h4
    exact {
      vizs := h.vizs
      keys := List.nodup_cons.2 ⟨fun hm => by
        obtain ⟨w, hw⟩ := look_isSome_iff.2 hm
        exact absurd (hla.symm.trans hw) (by simp), h.keys⟩
      unseen := fun o ho => by
        dsimp only [upd] at ho
        by_cases hoa : o = a
        · rw [if_pos hoa] at ho; cases ho
        · rw [if_neg hoa] at ho
          rw [look_cons, if_neg (fun h => hoa h.symm)]
          exact h.unseen o ho
      seen := fun o x ho => by
        dsimp only [upd] at ho
        by_cases hoa : o = a
        · rw [if_pos hoa] at ho; cases ho
          subst hoa
          exact ⟨V.next, Node.make o z c, by rw [look_cons, if_pos rfl], by dsimp only; rw [if_pos rfl], Nat.lt_succ_self _, rfl,
            NodeOk.make o z c⟩
        · rw [if_neg hoa] at ho
          obtain ⟨n, N, h1, h2, h3, h4, h5⟩ := h.seen o x ho
          exact ⟨n, N, by rw [look_cons, if_neg (fun h => hoa h.symm)]; exact h1,
            by dsimp only; rw [if_neg (Nat.ne_of_lt h3)]; exact h2, Nat.lt_succ_of_lt h3, h4, h5⟩
      inj := fun o o' n ho ho' => by
        rw [look_cons] at ho ho'
        by_cases hoa : a = o
        · rw [if_pos hoa] at ho; cases ho
          by_cases hoa' : a = o'
          · exact hoa.symm.trans hoa'
          · rw [if_neg hoa'] at ho'; exact absurd (hlt _ _ ho') (Nat.lt_irrefl _)
        · rw [if_neg hoa] at ho
          by_cases hoa' : a = o'
          · rw [if_pos hoa'] at ho'; cases ho'; exact absurd (hlt _ _ ho) (Nat.lt_irrefl _)
          · rw [if_neg hoa'] at ho'; exact h.inj o o' n ho ho'
      kidsIn := fun o n N m ho hN hm => by
        dsimp only at ho hN
        rw [look_cons] at ho
        by_cases hoa : a = o
        · rw [if_pos hoa] at ho; cases ho
          rw [if_pos rfl] at hN; cases hN
          exact absurd hm (by simp [Node.make, Node.update])
        · rw [if_neg hoa] at ho
          rw [if_neg (Nat.ne_of_lt (hlt _ _ ho))] at hN
          obtain ⟨c', hc'⟩ := h.kidsIn o n N m ho hN hm
          exact ⟨c', by rw [look_cons, if_neg (fun h => by rw [← h, hla] at hc'; cases hc')]; exact hc'⟩
      kids := fun o n N c' m ho hN hc => by
        dsimp only at ho hN hc
        rw [look_cons] at ho hc
        show _ = links A c' o
        by_cases hoa : a = o
        · rw [if_pos hoa] at ho; cases ho
          rw [if_pos rfl] at hN; cases hN
          rw [hlk c' o (Or.inr hoa.symm)]
          simp [Node.make, Node.update]
        · rw [if_neg hoa] at ho
          rw [if_neg (Nat.ne_of_lt (hlt _ _ ho))] at hN
          by_cases hca : a = c'
          · rw [if_pos hca] at hc; cases hc
            rw [hlk c' o (Or.inl hca.symm), List.count_eq_zero]
            intro hm
            obtain ⟨q, hq⟩ := h.kidsIn o n N V.next ho hN hm
            exact absurd (hlt _ _ hq) (Nat.lt_irrefl _)
          · rw [if_neg hca] at hc
            exact h.kids o n N c' m ho hN hc
      items := fun o x ho => by
        dsimp only [upd] at ho
        by_cases hoa : o = a
        · rw [hoa]; exact List.mem_cons_self
        · rw [if_neg hoa] at ho
          exact List.mem_cons_of_mem _ (h.items o x ho)
      closed := hcl }

theorem look_erase (o k : Obj) (l : List (Obj × Option Nat)) :
    look o (eraseKey k l) = if o = k then none else look o l := by
  induction l with
  | nil => simp [eraseKey, look]
  | cons e t ih =>
    unfold eraseKey at *
    rw [List.filter_cons]
    by_cases he : e.1 = k
    · rw [if_neg (by simpa using he), ih]
      by_cases hk : o = k
      · rw [if_pos hk, if_pos hk]
      · rw [if_neg hk, if_neg hk]
        show _ = if e.1 = o then some e.2 else look o t
        rw [if_neg (fun h => hk (h.symm.trans he))]
    · rw [if_pos (by simpa using he)]
      show (if e.1 = o then some e.2 else look o (t.filter _)) = if o = k then none else if e.1 = o then some e.2 else look o t
      rw [ih]
      by_cases ho : e.1 = o
      · rw [if_pos ho, if_pos ho, if_neg (fun h => he (ho.trans h))]
      · rw [if_neg ho, if_neg ho]

theorem itemDetached_spec {V : View C} {S : Sight C} {A : Pic} (h : Follows V S A) {a : Obj} {id : Uid}
    (hb : A.bare a) :
    Follows (V.itemDetached a) { S with seen := upd S.seen a none } { A with items := A.items.erase (id, a) } ∧
      (V.itemDetached a).scene = V.scene ∧ ∀ o, o ≠ a → look o (V.itemDetached a).map = look o V.map := by
  have hlk : ∀ c' p, (c' = a ∨ p = a) → links A c' p = 0 := by
    intro c' p hcp
    obtain ⟨b1, b2, b3⟩ := hb
    have key : ∀ l : List (Obj × Obj), (∀ x ∈ l, x.1 ≠ a ∧ x.2 ≠ a) → l.count (c', p) = 0 := by
      intro l hl
      rw [List.count_eq_zero]
      intro hm
      rcases hcp with h | h
      · exact (hl _ hm).1 h
      · exact (hl _ hm).2 h
    unfold links
    rw [key _ b1, key _ b2, key _ b3]
  have hstay : ∀ o, o ≠ a → o ∈ A.items.map (·.2) → o ∈ (A.items.erase (id, a)).map (·.2) := by
    intro o ho hm
    obtain ⟨e, he, rfl⟩ := List.mem_map.1 hm
    exact List.mem_map.2 ⟨e, (List.mem_erase_of_ne (fun h => ho (by rw [h]))).2 he, rfl⟩
  have hlook : ∀ o p, look o (eraseKey a V.map) = some p → o ≠ a ∧ look o V.map = some p := by
    intro o p ho
    rw [look_erase] at ho
    by_cases hoa : o = a
    · rw [if_pos hoa] at ho; cases ho
    · rw [if_neg hoa] at ho; exact ⟨hoa, ho⟩
  refine ⟨?_, rfl, fun o ho => by show look o (eraseKey a V.map) = _; rw [look_erase, if_neg ho]⟩
  exact {
    vizs := h.vizs
    keys := h.keys.sublist ((eraseKey_sublist a V.map).map _)
    unseen := fun o ho => by
      show look o (eraseKey a V.map) = none
      rw [look_erase]
      dsimp only [upd] at ho
      by_cases hoa : o = a
      · rw [if_pos hoa]
      · rw [if_neg hoa] at ho ⊢; exact h.unseen o ho
    seen := fun o x ho => by
      show ∃ n N, look o (eraseKey a V.map) = some (some n) ∧ _
      dsimp only [upd] at ho
      by_cases hoa : o = a
      · rw [if_pos hoa] at ho; cases ho
      · rw [if_neg hoa] at ho
        rw [look_erase, if_neg hoa]
        exact h.seen o x ho
    inj := fun o o' n ho ho' => h.inj o o' n (hlook _ _ ho).2 (hlook _ _ ho').2
    kidsIn := fun o n N m ho hN hm => by
      show ∃ c, look c (eraseKey a V.map) = some (some m)
      obtain ⟨hoa, ho⟩ := hlook _ _ ho
      obtain ⟨c', hc'⟩ := h.kidsIn o n N m ho hN hm
      refine ⟨c', ?_⟩
      rw [look_erase, if_neg ?_]; · exact hc'
      intro hca
      have := h.kids o n N c' m ho hN hc'
      rw [hlk c' o (Or.inl hca), List.count_eq_zero] at this
      exact this hm
    kids := fun o n N c' m ho hN hc => h.kids o n N c' m (hlook _ _ ho).2 hN (hlook _ _ hc).2
    items := fun o x ho => by
      dsimp only [upd] at ho
      by_cases hoa : o = a
      · rw [if_pos hoa] at ho; cases ho
      · rw [if_neg hoa] at ho
        exact hstay o hoa (h.items o x ho)
    closed := fun c' p hcp => by
      have h1 : c' ≠ a := fun h => hcp (hlk c' p (Or.inl h))
      have h2 : p ≠ a := fun h => hcp (hlk c' p (Or.inr h))
      obtain ⟨g1, g2⟩ := h.closed c' p hcp
      exact ⟨hstay _ h1 g1, hstay _ h2 g2⟩ }

theorem upd_same {S : Sight C} : ({ vizs := S.vizs, seen := S.seen } : Sight C) = S := rfl

theorem vizFor_eq {V : View C} {S : Sight C} {A : Pic} (h : Follows V S A) (handles : Nat → Obj → Bool) (o : Obj) :
    V.vizFor handles o = newest (fun z => handles z o) S.vizs := by
  unfold View.vizFor
  rw [newest_eq, h.vizs]

theorem links_f {A : Pic} (l : List (Obj × Obj)) (c p : Obj) :
    links { A with f := l } c p = l.count (c, p) + A.l.count (c, p) + A.c.count (c, p) := rfl
theorem links_l {A : Pic} (l : List (Obj × Obj)) (c p : Obj) :
    links { A with l := l } c p = A.f.count (c, p) + l.count (c, p) + A.c.count (c, p) := rfl
theorem links_c {A : Pic} (l : List (Obj × Obj)) (c p : Obj) :
    links { A with c := l } c p = A.f.count (c, p) + A.l.count (c, p) + l.count (c, p) := rfl

theorem knows_items {A : Pic} {e : Ev} {b : Obj} (h : A.knows e b) :
    e.a ∈ A.items.map (·.2) ∧ b ∈ A.items.map (·.2) :=
  ⟨List.mem_map.2 ⟨_, h.1, rfl⟩, List.mem_map.2 ⟨_, h.2, rfl⟩⟩

/-- an event that makes sense is followed -/
theorem handle_spec {V : View C} {S : Sight C} {A : Pic} (h : Follows V S A) (e : Ev) (handles : Nat → Obj → Bool)
    (now : Obj → C) (ha : Adm True True A e) :
    ∃ V', V.handle handles now e = .ok V' ∧ Follows V' (S.step (.ev e handles now)) (A.apply e) ∧ V'.scene = V.scene ∧
      ∀ o, (e.ty ≠ .item ∨ e.op ≠ .remove ∨ e.a ≠ o) → (e.ty = .item → e.op = .add → e.a ≠ o) →
        look o V'.map = look o V.map := by
  obtain ⟨ty, op, a, b, ida, idb⟩ := e
  cases ty <;> cases op <;> cases b <;> try exact ha.elim
  · obtain ⟨V', h1, h2, h3, h4⟩ := itemAttached_spec h (id := ida) (V.vizFor handles a) (now a) ha.2.1
    refine ⟨V', h1, ?_, h3, fun o _ ho => h4 o (fun hh => ho rfl rfl hh.symm)⟩
    rw [vizFor_eq h] at h2
    exact h2
  · obtain ⟨h2, h3, h4⟩ := itemDetached_spec h (id := ida) ha.2.1
    exact ⟨_, rfl, h2, h3, fun o ho _ => h4 o (fun hh => (ho.resolve_left (by simp)).elim (fun h => h rfl) (fun h => h hh.symm))⟩
  · obtain ⟨V', h1, h2, h3, h4⟩ := itemModified_spec h a (now a)
    exact ⟨V', h1, h2, h3, fun o _ _ => by rw [h4]⟩
  all_goals rename_i b
  · obtain ⟨k1, k2⟩ := knows_items (ha.2.2 trivial)
    obtain ⟨V', h1, h2, h3, h4⟩ := addChild_spec (A' := { A with f := (b, a) :: A.f }) h a b rfl k1 k2 (fun c p => by
      rw [links_f, count_cons_pair]; unfold links; omega)
    exact ⟨V', h1, h2, h3, fun o _ _ => by rw [h4]⟩
  · obtain ⟨V', h1, h2, h3, h4⟩ := removeChild_spec (A' := { A with f := A.f.erase (b, a) }) h a b rfl (fun c p => by
      unfold links
      have := count_erase_pair ha.1 c p
      dsimp only at this ⊢
      omega)
    exact ⟨V', h1, h2, h3, fun o _ _ => by rw [h4]⟩
  · obtain ⟨k1, k2⟩ := knows_items (ha.2 trivial)
    obtain ⟨V', h1, h2, h3, h4⟩ := addChild_spec (A' := { A with c := (a, b) :: A.c }) h b a rfl k2 k1 (fun c p => by
      rw [links_c, count_cons_pair]; unfold links; omega)
    exact ⟨V', h1, h2, h3, fun o _ _ => by rw [h4]⟩
  · obtain ⟨V', h1, h2, h3, h4⟩ := removeChild_spec (A' := { A with c := A.c.erase (a, b) }) h b a rfl (fun c p => by
      unfold links
      have := count_erase_pair ha.1 c p
      dsimp only at this ⊢
      omega)
    exact ⟨V', h1, h2, h3, fun o _ _ => by rw [h4]⟩
  · obtain ⟨k1, k2⟩ := knows_items (ha.2.2.1 trivial)
    obtain ⟨V', h1, h2, h3, h4⟩ := addChild_spec (A' := { A with l := A.l ++ [(b, a)] }) h a b rfl k1 k2 (fun c p => by
      rw [links_l, List.count_append, count_cons_pair, List.count_nil]; unfold links; omega)
    exact ⟨V', h1, h2, h3, fun o _ _ => by rw [h4]⟩
  · obtain ⟨V', h1, h2, h3, h4⟩ := removeChild_spec (A' := { A with l := A.l.erase (b, a) }) h a b rfl (fun c p => by
      unfold links
      have := count_erase_pair (ha.2 trivial) c p
      dsimp only at this ⊢
      omega)
    exact ⟨V', h1, h2, h3, fun o _ _ => by rw [h4]⟩

/-- whatever happens, the listener follows -/
theorem run_spec : ∀ (as : List (Act C)) {V : View C} {S : Sight C} {A : Pic}, Follows V S A → Fits A V.vizs as →
    ∃ V', V.run as = .ok V' ∧ Follows V' (S.run as) (A.follow (events as)) ∧ V'.scene = V.scene ∧
      ∀ o, (∀ e ∈ events as, ¬ (e.ty = .item ∧ (e.op = .add ∨ e.op = .remove) ∧ e.a = o)) →
        look o V'.map = look o V.map := by
  intro as
  induction as with
  | nil => intro V S A h _; exact ⟨V, rfl, h, rfl, fun _ _ => rfl⟩
  | cons x xs ih =>
    intro V S A h hf
    have go : ∀ (V1 : View C) (A1 : Pic), V.step x = .ok V1 → Follows V1 (S.step x) A1 → Fits A1 V1.vizs xs →
        A1.follow (events xs) = A.follow (events (x :: xs)) → V1.scene = V.scene →
        (∀ o, (∀ e ∈ events (x :: xs), ¬ (e.ty = .item ∧ (e.op = .add ∨ e.op = .remove) ∧ e.a = o)) →
          look o V1.map = look o V.map ∧
          ∀ e ∈ events xs, ¬ (e.ty = .item ∧ (e.op = .add ∨ e.op = .remove) ∧ e.a = o)) →
        ∃ V', V.run (x :: xs) = .ok V' ∧ Follows V' (S.run (x :: xs)) (A.follow (events (x :: xs))) ∧ V'.scene = V.scene ∧
          ∀ o, (∀ e ∈ events (x :: xs), ¬ (e.ty = .item ∧ (e.op = .add ∨ e.op = .remove) ∧ e.a = o)) →
            look o V'.map = look o V.map := by
      intro V1 A1 h1 h2 h3 h4 h5 h6
      obtain ⟨V', g1, g2, g3, g4⟩ := ih h2 h3
      refine ⟨V', ?_, ?_, g3.trans h5, fun o ho => ?_⟩
      · rw [View.run, h1]; exact g1
      · rw [← h4]; exact g2
      · rw [g4 o (h6 o ho).2, (h6 o ho).1]
    cases x with
    | ev e handles now =>
      obtain ⟨V1, h1, h2, h3, h4⟩ := handle_spec h e handles now hf.1
      refine go V1 (A.apply e) h1 h2 ?_ rfl h3 (fun o ho => ⟨?_, fun e' he' => ho e' (List.mem_cons_of_mem _ he')⟩)
      · have hv : V1.vizs = V.vizs := by
          rw [h2.vizs, h.vizs]
          unfold Sight.step
          dsimp only
          split <;> rfl
        rw [hv]; exact hf.2
      · have h0 := ho e (by simp [events])
        refine h4 o ?_ (fun ht hop hea => h0 ⟨ht, Or.inl hop, hea⟩)
        by_cases h1 : e.ty = .item
        · by_cases h2 : e.op = .remove
          · exact Or.inr (Or.inr (fun h3 => h0 ⟨h1, Or.inr h2, h3⟩))
          · exact Or.inr (Or.inl h2)
        · exact Or.inl h1
    | apply busy =>
      obtain ⟨V1, h1, h2, h3, h4, _⟩ := applyAll_spec h busy
      refine go V1 A h1 h2 ?_ rfl h3 (fun o ho => ⟨by rw [h4], ho⟩)
      rw [h2.vizs, ← h.vizs]; exact hf
    | prop z en now =>
      obtain ⟨V1, h1, h2, h3, h4⟩ := propertyChanged_spec h z en now
      refine go V1 A h1 h2 ?_ rfl h3 (fun o ho => ⟨by rw [h4], ho⟩)
      rw [show V1.vizs = V.vizs from h2.vizs.trans h.vizs.symm]; exact hf
    | addViz z =>
      refine go (V.addViz z) A rfl ?_ hf rfl rfl (fun o ho => ⟨rfl, ho⟩)
      exact ⟨by show V.vizs ++ [z] = S.vizs ++ [z]; rw [h.vizs], h.keys, h.unseen, h.seen, h.inj, h.kidsIn, h.kids, h.items, h.closed⟩
    | removeViz z =>
      refine go { V with vizs := V.vizs.erase z } A ?_ ?_ hf.2 rfl rfl (fun o ho => ⟨rfl, ho⟩)
      · show V.removeViz z = _
        rw [View.removeViz, if_pos hf.1]
      · exact ⟨by show V.vizs.erase z = S.vizs.erase z; rw [h.vizs], h.keys, h.unseen, h.seen, h.inj, h.kidsIn, h.kids, h.items, h.closed⟩

/-! ## C145 -/

/-- a listener with visualizers, before the first event -/
def View.start (vs : List Nat) : View C := ⟨[], fun _ => none, 0, [], vs⟩

/-- what a fresh environment tells a new handler, `announce_init` -/
def welcome (r : Obj) (handles : Nat → Obj → Bool) (now : Obj → C) : List (Act C) :=
  [.ev ⟨.item, .add, r, none, ['/', '0'], []⟩ handles now, .ev ⟨.root, .add, r, none, ['/', '0'], []⟩ handles now]

theorem run_append (V : View C) (as bs : List (Act C)) : V.run (as ++ bs) = (V.run as).bind (fun V => V.run bs) := by
  induction as generalizing V with
  | nil => rfl
  | cons a as ih =>
    show (V.step a).bind (fun V => V.run (as ++ bs)) = ((V.step a).bind (fun V => V.run as)).bind _
    cases V.step a with
    | ok V' => exact ih V'
    | throw => rfl
    | deadlock => rfl
    | ub => rfl

theorem newest_some {h : Nat → Bool} {l : List Nat} : (newest h l).isSome = true ↔ ∃ z ∈ l, h z = true := by
  induction l with
  | nil => simp [newest]
  | cons z zs ih =>
    rw [newest]
    cases hn : newest h zs with
    | some y =>
      rw [hn] at ih
      obtain ⟨w, hw, hw'⟩ := ih.1 rfl
      simp only [Option.isSome_some, true_iff]
      exact ⟨w, List.mem_cons_of_mem _ hw, hw'⟩
    | none =>
      rw [hn] at ih
      simp only [Option.isSome_none, Bool.false_eq_true, false_iff, not_exists, not_and] at ih
      dsimp only
      by_cases hz : h z = true
      · rw [if_pos hz]; simp [hz]
      · rw [if_neg hz]
        simp only [Option.isSome_none, Bool.false_eq_true, List.mem_cons, false_iff, not_exists, not_and]
        rintro w (rfl | hw)
        · exact hz
        · exact ih w hw

theorem welcome_spec {r : Obj} {handles : Nat → Obj → Bool} (now : Obj → C) {vs : List Nat} {z : Nat}
    (hz : newest (fun z => handles z r) vs = some z) :
    ∃ V, (View.start vs).run (welcome r handles now) = .ok V ∧
      Follows V (Sight.run ⟨vs, fun _ => none⟩ (welcome r handles now)) (startPic r) ∧ V.vizs = vs ∧
      V.scene = [some 0] ∧ look r V.map = some (some 0) := by
  have h0 : Follows (View.start vs : View C) ⟨vs, fun _ => none⟩ Pic.empty := by
    constructor <;> simp [View.start, Pic.empty, look, links]
  obtain ⟨V, h1, h2, h3, h4⟩ := itemAttached_spec h0 (a := r) (id := ['/', '0']) (some z) (now r) (by simp [Pic.empty])
  have hv : (View.start vs : View C).vizFor handles r = some z := by rw [vizFor_eq h0]; exact hz
  have hV : V = ⟨[(r, some 0)], fun m => if m = 0 then some (Node.make r z (now r)) else none, 1, [], vs⟩ := by
    have : (View.start vs : View C).itemAttached false (some z) r (now r) =
      .ok ⟨[(r, some 0)], fun m => if m = 0 then some (Node.make r z (now r)) else none, 1, [], vs⟩ := rfl
    rw [h1] at this
    exact Out.ok.inj this
  refine ⟨V.addScene r, ?_, ?_, ?_, ?_, ?_⟩
  · have e1 : (View.start vs : View C).step (.ev ⟨.item, .add, r, none, ['/', '0'], []⟩ handles now) = .ok V := by
      show (View.start vs : View C).itemAttached false ((View.start vs : View C).vizFor handles r) r (now r) = _
      rw [hv]; exact h1
    have e2 : V.step (.ev ⟨.root, .add, r, none, ['/', '0'], []⟩ handles now) = .ok (V.addScene r) := by
      show V.setRootNode _ r (now r) = _
      unfold View.setRootNode
      rw [if_pos]; · rfl
      rw [hV]; simp [look]
    unfold welcome View.run View.run View.run
    rw [e1]
    show (V.step _).bind _ = _
    rw [e2]; rfl
  · have hs : Sight.run ⟨vs, fun _ => none⟩ (welcome r handles now) =
        ({ vizs := vs, seen := upd (fun _ => none) r ((some z).map (fun z => ⟨z, now r, true⟩)) } : Sight C) := by
      show ({ vizs := vs, seen := upd (fun _ => none) r (first vs handles r (now r)) } : Sight C) = _
      unfold first
      rw [hz]
    rw [hs]
    have hm : (V.addScene r).map = V.map ∧ (V.addScene r).nodes = V.nodes ∧ (V.addScene r).next = V.next ∧
        (V.addScene r).vizs = V.vizs := by
      unfold View.addScene
      rw [show look r V.map = some (some 0) by rw [hV]; simp [look]]
      exact ⟨rfl, rfl, rfl, rfl⟩
    obtain ⟨k1, k2, k3, k4, k5, k6, k7, k8, k9⟩ := h2
    exact ⟨by rw [hm.2.2.2]; exact k1, by rw [hm.1]; exact k2, by rw [hm.1]; exact k3,
      by rw [hm.1, hm.2.1, hm.2.2.1]; exact k4, by rw [hm.1]; exact k5, by rw [hm.1, hm.2.1]; exact k6,
      by rw [hm.1, hm.2.1]; exact k7, k8, k9⟩
  · rw [hV]; simp [View.addScene, look, View.start]
  · rw [hV]; simp [View.addScene, look, View.start]
  · rw [hV]; simp [View.addScene, look, View.start]

/-- **C145** For every stream of events that makes sense (links join attached items, layer links are not doubled),
interleaved in any way with redraws, with changed properties of visualizers and with visualizers coming and going:
no event is refused, nothing crashes or blocks, and after the next redraw the picture is up to date. The scene
contains the node of the root frame. -/
theorem C145_view_partial {r : Obj} {handles : Nat → Obj → Bool} (now : Obj → C) {vs : List Nat}
    (hr : ∃ z ∈ vs, handles z r = true) (as : List (Act C)) (hf : Fits (startPic r) vs as) :
    ∃ V, (View.start vs).run (welcome r handles now ++ as ++ [.apply []]) = .ok V ∧
      Shown V (Sight.run ⟨vs, fun _ => none⟩ (welcome r handles now ++ as)) ((startPic r).follow (events as)) ∧
      V.scene = [some 0] ∧
      ((∀ e ∈ events as, ¬ (e.ty = .item ∧ (e.op = .add ∨ e.op = .remove) ∧ e.a = r)) → look r V.map = some (some 0)) := by
  obtain ⟨z, hz⟩ := Option.isSome_iff_exists.1 (newest_some.2 hr)
  obtain ⟨V0, h1, h2, h3, h4, h5⟩ := welcome_spec now hz
  obtain ⟨V1, g1, g2, g3, g4⟩ := run_spec as h2 (by rw [h3]; exact hf)
  obtain ⟨V2, k1, k2, k3, k4, k5⟩ := applyAll_spec g2 []
  refine ⟨V2, ?_, ?_, ?_, fun hx => ?_⟩
  · rw [run_append, run_append, h1]
    show (V0.run as).bind _ = _
    rw [g1]
    show (V1.applyAll []).bind _ = _
    rw [k1]; rfl
  · have hs : Sight.run ⟨vs, fun _ => none⟩ (welcome r handles now ++ as) =
        (Sight.run (Sight.run ⟨vs, fun _ => none⟩ (welcome r handles now)) as : Sight C) := List.foldl_append
    rw [hs]
    refine ⟨fun o => ?_, k2.inj, fun o x ho => ?_⟩
    · cases hs : ((Sight.run ⟨vs, fun _ => none⟩ (welcome r handles now)).run as).seen o with
      | none => rw [k2.unseen o hs]; rfl
      | some x => obtain ⟨n, N, h1, _⟩ := k2.seen o x hs; rw [h1]; rfl
    · obtain ⟨n, N, c1, c2, c3, c4, c5⟩ := k2.seen o x ho
      obtain ⟨d1, d2, d3⟩ := k5 o n N (by simp) c1 c2
      refine ⟨n, N, c1, c2, ?_, ?_, ?_⟩
      · unfold Node.drawn
        rw [c5.settled d1, c5.en]
        by_cases he : x.enabled = true
        · rw [if_pos he, if_pos he]
          simp [c5.lastFront d1, d3]
        · rw [if_neg he, if_neg he]; rfl
      · rw [c5.kids d2]; exact fun m hm => k2.kidsIn o n N m c1 c2 hm
      · rw [c5.kids d2]; exact fun c m hc => k2.kids o n N c m c1 c2 hc
  · rw [k3, g3, h4]
  · rw [k4, g4 r hx, h5]

/-- the calls of a history whose events make sense -/
def Tidy (s : Env) (op : Op) : Prop := Good s op ∧ EvGood s op ∧ LayerDisc s op

/-- the visualizers neither change nor change their mind -/
def Steady (handles : Nat → Obj → Bool) (a : Act C) : Prop :=
  match a with
  | .ev _ hs _ => hs = handles
  | .apply _ => True
  | .prop _ _ _ => True
  | _ => False

theorem fits_of_adms {handles : Nat → Obj → Bool} {vs : List Nat} : ∀ (as : List (Act C)) (A : Pic),
    (∀ a ∈ as, Steady handles a) → Adms True True A (events as) → Fits A vs as := by
  intro as
  induction as with
  | nil => intros; trivial
  | cons a as ih =>
    intro A hs ha
    have h1 := hs a (by simp)
    have h2 : ∀ a ∈ as, Steady handles a := fun x hx => hs x (List.mem_cons_of_mem _ hx)
    cases a with
    | ev e h now => exact ⟨ha.1, ih _ h2 ha.2⟩
    | apply busy => exact ih _ h2 ha
    | prop z en now => exact ih _ h2 ha
    | addViz z => exact h1.elim
    | removeViz z => exact h1.elim

/-- with steady visualizers exactly the attached items that are handled are seen -/
theorem seen_iff {handles : Nat → Obj → Bool} : ∀ (as : List (Act C)) (S : Sight C) (A : Pic),
    (∀ a ∈ as, Steady handles a) → Fits A S.vizs as → (A.items.map (·.2)).Nodup →
    (∀ o, (S.seen o).isSome = true ↔ o ∈ A.items.map (·.2) ∧ ∃ z ∈ S.vizs, handles z o = true) →
    (S.run as).vizs = S.vizs ∧
    ∀ o, ((S.run as).seen o).isSome = true ↔
      o ∈ (A.follow (events as)).items.map (·.2) ∧ ∃ z ∈ S.vizs, handles z o = true := by
  intro as
  induction as with
  | nil => intro S A _ _ _ h; exact ⟨rfl, h⟩
  | cons a as ih =>
    intro S A hs hf hn h
    have h1 := hs a (by simp)
    have h2 : ∀ a ∈ as, Steady handles a := fun x hx => hs x (List.mem_cons_of_mem _ hx)
    have go : ∀ A1 : Pic, (S.step a).vizs = S.vizs → Fits A1 S.vizs as → (A1.items.map (·.2)).Nodup →
        (∀ o, ((S.step a).seen o).isSome = true ↔ o ∈ A1.items.map (·.2) ∧ ∃ z ∈ S.vizs, handles z o = true) →
        A1.follow (events as) = A.follow (events (a :: as)) →
        (S.run (a :: as)).vizs = S.vizs ∧
        ∀ o, ((S.run (a :: as)).seen o).isSome = true ↔
          o ∈ (A.follow (events (a :: as))).items.map (·.2) ∧ ∃ z ∈ S.vizs, handles z o = true := by
      intro A1 k1 k2 k3 k4 k5
      have := ih (S.step a) A1 h2 (by rw [k1]; exact k2) k3 (by rw [k1]; exact k4)
      rw [k1, k5] at this
      exact this
    cases a with
    | apply busy => exact go A rfl hf hn h rfl
    | prop z en now =>
      refine go A rfl hf hn (fun o => ?_) rfl
      rw [← h o]
      show ((S.seen o).map _).isSome = true ↔ _
      rw [Option.isSome_map]
    | addViz z => exact h1.elim
    | removeViz z => exact h1.elim
    | ev e hs' now =>
      have hh : hs' = handles := h1
      subst hh
      obtain ⟨ha, hf⟩ := hf
      obtain ⟨ty, op, x, b, ida, idb⟩ := e
      have same : ∀ A1 : Pic, A1.items = A.items → Fits A1 S.vizs as →
          (S.step (.ev ⟨ty, op, x, b, ida, idb⟩ hs' now)) = S → A1.follow (events as) = A.follow (events (.ev ⟨ty, op, x, b, ida, idb⟩ hs' now :: as)) →
          (S.run (.ev ⟨ty, op, x, b, ida, idb⟩ hs' now :: as)).vizs = S.vizs ∧ ∀ o, ((S.run (.ev ⟨ty, op, x, b, ida, idb⟩ hs' now :: as)).seen o).isSome = true ↔
          o ∈ (A.follow (events (.ev ⟨ty, op, x, b, ida, idb⟩ hs' now :: as))).items.map (·.2) ∧ ∃ z ∈ S.vizs, hs' z o = true := by
        intro A1 k1 k2 k3 k4
        refine go A1 (by rw [k3]) k2 (by rw [k1]; exact hn) (fun o => by rw [k3, k1]; exact h o) k4
      cases ty <;> cases op <;> cases b <;> try exact ha.elim
      · refine go { A with items := (ida, x) :: A.items } rfl hf (List.nodup_cons.2 ⟨ha.2.1, hn⟩) (fun o => ?_) rfl
        show (upd S.seen x (first S.vizs hs' x (now x)) o).isSome = true ↔ o ∈ x :: A.items.map (·.2) ∧ _
        unfold upd
        by_cases ho : o = x
        · rw [if_pos ho, ho]
          unfold first
          rw [Option.isSome_map, newest_some]
          simp
        · rw [if_neg ho, h o, List.mem_cons]
          simp [ho]
      · have hx := ha.1
        have he : ∀ o, o ∈ (A.items.erase (ida, x)).map (·.2) ↔ o ∈ A.items.map (·.2) ∧ o ≠ x := by
          intro o
          have hp := List.perm_cons_erase hx
          have hp2 := hp.map (·.2)
          have hn2 := (hp2.nodup_iff).1 hn
          rw [hp2.mem_iff]
          simp only [List.map_cons, List.nodup_cons] at hn2
          simp only [List.map_cons, List.mem_cons]
          constructor
          · intro ho
            exact ⟨Or.inr ho, fun hh => hn2.1 (hh ▸ ho)⟩
          · rintro ⟨ho | ho, hne⟩
            · exact absurd ho hne
            · exact ho
        refine go { A with items := A.items.erase (ida, x) } rfl hf (hn.sublist ((List.erase_sublist).map _)) (fun o => ?_) rfl
        show (upd S.seen x none o).isSome = true ↔ o ∈ (A.items.erase (ida, x)).map (·.2) ∧ _
        rw [he]
        unfold upd
        by_cases ho : o = x
        · rw [if_pos ho]; simp [ho]
        · rw [if_neg ho, h o]; simp [ho]
      · refine go A rfl hf hn (fun o => ?_) rfl
        rw [← h o]
        show (upd S.seen x ((S.seen x).map _) o).isSome = true ↔ _
        unfold upd
        by_cases ho : o = x
        · rw [if_pos ho, ho, Option.isSome_map]
        · rw [if_neg ho]
      all_goals exact same (A.apply _) rfl hf rfl rfl

theorem count_keyed {l : List (Obj × Obj)} (h : (l.map (·.1)).Nodup) (c p : Obj) :
    l.count (c, p) = if look c l = some p then 1 else 0 := by
  by_cases hm : (c, p) ∈ l
  · rw [if_pos ((look_eq_some_iff h).2 hm)]
    have h1 := List.nodup_iff_count.1 (nodup_of_keys h) (c, p)
    have h2 := List.count_pos_iff.2 hm
    omega
  · rw [if_neg (fun hx => hm ((look_eq_some_iff h).1 hx)), List.count_eq_zero]
    exact hm

theorem count_filter_pair (l : List (Obj × Obj)) (c p : Obj) :
    l.count (c, p) = ((l.filter (fun e => decide (e.1 = c))).map (·.2)).count p := by
  induction l with
  | nil => rfl
  | cons e t ih =>
    obtain ⟨x, y⟩ := e
    rw [count_cons_pair, ih]
    by_cases hx : x = c
    · rw [List.filter_cons_of_pos (by simpa using hx), List.map_cons, List.count_cons]
      by_cases hy : p = y
      · simp [hx, hy]
      · have : ¬ y = p := fun h => hy h.symm
        simp [hy, this]
    · rw [List.filter_cons_of_neg (by simpa using hx), if_neg (fun h => hx h.1.symm)]; rfl

/-- **C145** The same in terms of the environment: when the events of any orderly history of calls have arrived (with
any redraws and property changes between them) and the picture is redrawn, exactly the attached items that some
visualizer handles have a node, and below the node of `p` hang exactly the nodes of the items that the environment
calls children of `p`: its child frames and its maps once, its child layers as often as they are linked. -/
theorem C145_environment_partial {r : Obj} {s : Env} (h : Reach Tidy r s) {vs : List Nat} {handles : Nat → Obj → Bool}
    (hr : ∃ z ∈ vs, handles z r = true) (now : Obj → C) :
    ∃ es, s.log = (init r).log ++ es ∧ ∀ as : List (Act C), events as = es → (∀ a ∈ as, Steady handles a) →
      ∃ V, (View.start vs).run (welcome r handles now ++ as ++ [.apply []]) = .ok V ∧
        (∀ o, (look o V.map).isSome = true ↔ (∃ id, s.getItem id = some o) ∧ ∃ z ∈ vs, handles z o = true) ∧
        (∀ o o' n, look o V.map = some (some n) → look o' V.map = some (some n) → o = o') ∧
        ∀ p, (look p V.map).isSome = true → ∃ n N, look p V.map = some (some n) ∧ V.nodes n = some N ∧
          (∀ m ∈ N.kidsFront, ∃ c, look c V.map = some (some m)) ∧
          ∀ c m, look c V.map = some (some m) → N.kidsFront.count m =
            (if s.getParent c = some p then 1 else 0) + (s.getLayerParents c).count p +
              (if s.getFrameNode c = some p then 1 else 0) := by
  have hgood : Reach Good r s := h.mono (fun _ _ h => h.1)
  obtain ⟨es, e1, e2, e3⟩ := reach_stream (G := Tidy) (g := True) (d := True) (fun s op hc hg => Good.legal hc hg.1)
    (fun {r s} hh => (hh.mono (fun _ _ h => h.1) : Reach Good r s).wf_closed)
    (fun _ s op hg => ⟨hg.1, hg.2.1⟩) (fun _ s op hg => hg.2.2) h
  refine ⟨es, e1, fun as has hst => ?_⟩
  subst has
  have hw : WF s := hgood.wf_closed.1
  have hfits : Fits (startPic r) vs as := fits_of_adms as _ hst e2
  obtain ⟨V, v1, v2, _, _⟩ := C145_view_partial now hr as hfits
  have hseen := (seen_iff (C := C) as (Sight.run ⟨vs, fun _ => none⟩ (welcome r handles now)) (startPic r) hst hfits
    (by simp [startPic]) (fun o => by
      show (upd (fun _ => none) r (first vs handles r (now r)) o).isSome = true ↔ o ∈ [r] ∧ ∃ z ∈ vs, handles z o = true
      unfold upd
      by_cases ho : o = r
      · rw [if_pos ho, ho]
        unfold first
        rw [Option.isSome_map, newest_some]
        simp
      · rw [if_neg ho]; simp [ho])).2
  have hrun : Sight.run ⟨vs, fun _ => none⟩ (welcome r handles now ++ as) =
        (Sight.run (Sight.run ⟨vs, fun _ => none⟩ (welcome r handles now)) as : Sight C) := List.foldl_append
  rw [hrun] at v2
  have hitems : ∀ o, o ∈ ((startPic r).follow (events as)).items.map (·.2) ↔ ∃ id, s.getItem id = some o := by
    intro o
    rw [(e3.items.map (·.2)).mem_iff, List.mem_map]
    constructor
    · rintro ⟨e, he, rfl⟩; exact ⟨e.1, (look_eq_some_iff hw.items_nodup).2 he⟩
    · rintro ⟨id, hid⟩; exact ⟨(id, o), (look_eq_some_iff hw.items_nodup).1 hid, rfl⟩
  refine ⟨V, v1, fun o => ?_, v2.apart, fun p hp => ?_⟩
  · rw [v2.entries o, hseen o, hitems]
    rfl
  · rw [v2.entries p] at hp
    obtain ⟨x, hx⟩ := Option.isSome_iff_exists.1 hp
    obtain ⟨n, N, c1, c2, _, c4, c5⟩ := v2.drawn p x hx
    refine ⟨n, N, c1, c2, c4, fun c m hc => ?_⟩
    rw [c5 c m hc]
    unfold links
    rw [e3.f.count_eq, e3.c.count_eq, count_keyed hw.ftree_nodup, count_keyed hw.cmap_nodup,
      count_filter_pair, e3.l]
    rfl

instance (s : Env) (op : Op) : Decidable (Tidy s op) := by
  unfold Tidy
  cases op with
  | attachMap m n => cases n <;> (unfold Good EvGood LayerDisc rootOk; infer_instance)
  | _ => unfold Good EvGood LayerDisc rootOk; infer_instance

/-- run a history of orderly calls -/
def tidyRun (s : Env) : List Op → Option Env
  | [] => some s
  | o :: os => if Tidy s o then
      match Res.state? (s.step o) with
      | some s' => tidyRun s' os
      | none => none
    else none

theorem reach_tidyRun {r : Obj} : ∀ (os : List Op) {s s' : Env}, Reach Tidy r s → tidyRun s os = some s' → Reach Tidy r s' := by
  intro os
  induction os with
  | nil => intro s s' h he; cases he; exact h
  | cons o os ih =>
    intro s s' h he
    unfold tidyRun at he
    split at he
    · next ht =>
      cases hs : Res.state? (s.step o) with
      | none => rw [hs] at he; cases he
      | some s1 => rw [hs] at he; exact ih (.step h ht hs) he
    · cases he

def Out.ok? {σ : Type} : Out σ → Option σ
  | .ok s => some s
  | _ => none

/-- every visualizer handles everything except item 5 -/
def allBut5 : Nat → Obj → Bool := fun _ o => decide (o ≠ 5)

/-- a listener that gets the events of a history and redraws -/
def watch (s : Env) (vs : List Nat) (handles : Nat → Obj → Bool) : Out (View Nat) :=
  (View.start vs).run (welcome 0 handles (fun o => 10 * o) ++
    (s.log.drop 1).map (fun e => .ev e handles (fun o => 10 * o)) ++ [.apply []])

/-- the nodes below the node of an item -/
def View.below (V : View C) (o : Obj) : List Nat :=
  match look o V.map with
  | some (some n) => ((V.nodes n).map (fun N => N.kidsFront)).getD []
  | _ => []

def viewHistory : List Op :=
  [.alloc 1 .frame [] false 0 0, .alloc 2 .frame [] false 0 0, .alloc 3 .cmap [] false 0 0, .alloc 4 .layer [] false 0 0,
   .alloc 5 .frame [] false 0 0, .addChildF 0 1, .addChildF 1 2, .addChildF 1 5, .attachMap 3 (some 1), .attach 4,
   .addChildL 3 4, .modified 2, .removeChildF 1 2, .addChildF 0 2]

/-- the hypotheses of C145 are met by a history that links, moves and modifies items, one of them not handled -/
example : ∃ s, tidyRun (init 0) viewHistory = some s ∧
    (s.getParent 2 = some 0 ∧ s.getParent 5 = some 1 ∧
     (watch s [7, 8] allBut5).ok?.map (fun V => (V.map.map (·.1), V.below 0, V.below 1, V.below 3)) =
       some ([4, 3, 2, 1, 0], [1, 2], [3], [4])) :=
  ex_of_any (by decide +kernel)

/-- **C145, the code violates the property**: a frame gets a child before it is attached itself. Afterwards both are
attached and linked in the environment, but the child is not drawn below its parent. -/
theorem C145_link_lost :
    ∃ s, run (init 0) [.alloc 1 .frame [] true 0 0, .alloc 2 .frame [] true 0 0, .addChildF 1 2, .attach 1] = some s ∧
      (s.getParent 2 = some 1 ∧ s.owner 1 = .here ∧ s.owner 2 = .here ∧
       (watch s [7] (fun _ _ => true)).ok?.map (fun V => (V.map.map (·.1), V.below 1)) = some ([1, 2, 0], [])) :=
  ex_of_any (by decide +kernel)

/-- **C145, the code violates the property**: if no visualizer handles the root frame, the first redraw goes through a
null pointer. -/
theorem C145_root_not_handled {r : Obj} {handles : Nat → Obj → Bool} (now : Obj → C) {vs : List Nat}
    (hr : ∀ z ∈ vs, handles z r = false) (busy : List Nat) (as : List (Act C)) :
    (View.start vs).run (welcome r handles now ++ .apply busy :: as) = .ub := by
  have hv : (View.start vs : View C).vizFor handles r = none := by
    unfold View.vizFor
    rw [List.find?_eq_none]
    intro z hz
    rw [hr z (List.mem_reverse.1 hz)]; simp
  have e1 : (View.start vs : View C).step (.ev ⟨.item, .add, r, none, ['/', '0'], []⟩ handles now) = .ok (View.start vs) := by
    show (View.start vs : View C).itemAttached false ((View.start vs : View C).vizFor handles r) r (now r) = _
    rw [hv]; rfl
  have e2 : (View.start vs : View C).step (.ev ⟨.root, .add, r, none, ['/', '0'], []⟩ handles now) =
      .ok ⟨[(r, none)], fun _ => none, 0, [none], vs⟩ := by
    show (View.start vs : View C).setRootNode ((View.start vs : View C).vizFor handles r) r (now r) = _
    rw [hv]; rfl
  rw [run_append]
  have e3 : (View.start vs).run (welcome r handles now) = .ok ⟨[(r, none)], fun _ => none, 0, [none], vs⟩ := by
    unfold welcome View.run View.run View.run
    rw [e1]
    show ((View.start vs).step _).bind _ = _
    rw [e2]; rfl
  rw [e3]
  rfl

/-- **C145, the code violates the property**: a root frame that is handled but not known yet blocks the listener. -/
theorem C145_root_deadlock {V : View C} {r : Obj} {handles : Nat → Obj → Bool} (now : Obj → C) {ida idb : Uid}
    {b : Option Obj} (hr : ∃ z ∈ V.vizs, handles z r = true) (hn : look r V.map = none) :
    V.handle handles now ⟨.root, .add, r, b, ida, idb⟩ = .deadlock := by
  show V.setRootNode (V.vizFor handles r) r (now r) = .deadlock
  obtain ⟨z, hz⟩ := Option.isSome_iff_exists.1 (newest_some.2 hr)
  have hv : V.vizFor handles r = some z := by unfold View.vizFor; rw [newest_eq]; exact hz
  unfold View.setRootNode View.itemAttached
  rw [hv, hn]; rfl

/-- the hypotheses are met -/
example : (View.start [3] : View Nat).handle (fun _ _ => true) (fun o => o) ⟨.root, .add, 0, none, [], []⟩ = .deadlock :=
  C145_root_deadlock _ ⟨3, by simp [View.start], rfl⟩ rfl

/-! ## C146: the two versions of a node -/

/-- calls on a node; `redraw en c` is a property change: setEnable (if it is "enabled"), then update -/
inductive NodeOp (C : Type) where
  | update (c : C)
  | addKid (k : Nat)
  | removeKid (k : Nat)
  | redraw (en : Option Bool) (c : C)
  | apply

def NodeOp.run (N : Node C) : NodeOp C → Node C
  | .update c => N.update c
  | .addKid k => N.addKid (some k)
  | .removeKid k => N.removeKid (some k)
  | .redraw en c => (match en with | some b => N.setEnable b | none => N).update c
  | .apply => N.apply

def NodeOp.runAll (N : Node C) (os : List (NodeOp C)) : Node C := os.foldl NodeOp.run N

/-- what was drawn last, and whether it is to be visible -/
def lastFace (c : C) (os : List (NodeOp C)) : C :=
  os.foldl (fun x o => match o with | .update c => c | .redraw _ c => c | _ => x) c
def lastEnabled (os : List (NodeOp C)) : Bool :=
  os.foldl (fun x o => match o with | .redraw (some b) _ => b | _ => x) true
/-- the children as of the last call -/
def lastKids (os : List (NodeOp C)) : List Nat :=
  os.foldl (fun x o => match o with | .addKid k => x ++ [k] | .removeKid k => x.erase k | _ => x) []

theorem runAll_ok (o : Obj) (z : Nat) (c : C) (os : List (NodeOp C)) :
    NodeOk (NodeOp.runAll (Node.make o z c) os) ⟨z, lastFace c os, lastEnabled os⟩ ∧
      (NodeOp.runAll (Node.make o z c) os).kidsBack = lastKids os := by
  suffices H : ∀ (os : List (NodeOp C)) (N : Node C) (x : Seen C) (ks : List Nat), NodeOk N x → x.viz = z → N.kidsBack = ks →
      NodeOk (NodeOp.runAll N os) ⟨z, os.foldl (fun x o => match o with | .update c => c | .redraw _ c => c | _ => x) x.face,
        os.foldl (fun x o => match o with | .redraw (some b) _ => b | _ => x) x.enabled⟩ ∧
      (NodeOp.runAll N os).kidsBack =
        os.foldl (fun x o => match o with | .addKid k => x ++ [k] | .removeKid k => x.erase k | _ => x) ks from
    H os _ ⟨z, c, true⟩ [] (NodeOk.make o z c) rfl rfl
  intro os
  induction os with
  | nil => rintro N ⟨z', f, e⟩ ks h rfl hk; exact ⟨h, hk⟩
  | cons o os ih =>
    rintro N x ks h hz hk
    cases o with
    | update c => exact ih _ _ ks (h.update c) hz hk
    | addKid k => exact ih _ x (ks ++ [k]) (h.addKid (some k)) hz (by show N.kidsBack ++ [k] = _; rw [hk])
    | removeKid k => exact ih _ x (ks.erase k) (h.removeKid (some k)) hz (by show N.kidsBack.erase k = _; rw [hk])
    | apply => exact ih _ x ks h.apply.1 hz (by rw [← hk]; exact (apply_fields N).2.2.1)
    | redraw en c =>
      have h1 := h.prop z en c
      rw [if_pos (h.viz.trans hz)] at h1
      unfold Seen.prop at h1
      rw [if_pos hz] at h1
      cases en with
      | none => exact ih _ { x with face := c } ks h1 hz hk
      | some b => exact ih _ { x with face := c, enabled := b } ks h1 hz hk

/-- **C146** After any calls on a node, a redraw shows the last look of the item exactly once if its visualizer is
enabled, with its present children hung below it exactly once, and nothing if it is disabled. -/
theorem C146_redraw (o : Obj) (z : Nat) (c : C) (os : List (NodeOp C)) :
    let N := NodeOp.runAll (Node.make o z c) (os ++ [.apply])
    N.drawn = (if lastEnabled os then [(some (lastFace c os), 1)] else []) ∧ N.kidsFront = lastKids os := by
  obtain ⟨h1, h2⟩ := runAll_ok o z c os
  have h3 := h1.apply
  dsimp only
  rw [NodeOp.runAll, List.foldl_append]
  show (NodeOp.runAll (Node.make o z c) os).apply.drawn = _ ∧ (NodeOp.runAll (Node.make o z c) os).apply.kidsFront = _
  obtain ⟨h4, d1, d2, d3⟩ := h3
  refine ⟨?_, ?_⟩
  · unfold Node.drawn
    rw [h4.settled d1, h4.en]
    by_cases he : lastEnabled os = true
    · rw [if_pos he, if_pos he]
      simp [h4.lastFront d1, d3]
    · rw [if_neg he, if_neg he]; rfl
  · rw [h4.kids d2, (apply_fields _).2.2.1, h2]

/-- **C146** Between redraws nothing visible changes, and the group a visualizer draws into is neither part of the
scene nor carries the children. -/
theorem C146_behind_the_scene (o : Obj) (z : Nat) (c : C) (os : List (NodeOp C)) :
    let N := NodeOp.runAll (Node.make o z c) os
    N.back ∉ N.own ∧ N.carries N.back = 0 ∧
      ∀ op : NodeOp C, (match op with | .apply => False | _ => True) →
        (op.run N).drawn = N.drawn ∧ (op.run N).kidsFront = N.kidsFront := by
  obtain ⟨h1, -⟩ := runAll_ok o z c os
  dsimp only
  generalize NodeOp.runAll (Node.make o z c) os = N at h1
  have hb : N.back ∉ N.own := by
    rcases h1.own with h | h <;> rw [h] <;> simp [Node.back]
  have hup : ∀ (N' : Node C) (c : C), N'.own = N.own → N'.front = N.front → N'.shows = N.shows → N'.carries = N.carries →
      (N'.update c).drawn = N.drawn := by
    intro N' c e1 e2 e3 e4
    unfold Node.drawn
    show N'.own.map _ = _
    rw [e1]
    apply List.map_congr_left
    intro b hbm
    have : b ≠ N'.back := by
      unfold Node.back at hb ⊢
      rw [e2]
      exact fun h => hb (h ▸ hbm)
    simp only [Node.update, if_neg this, e3, e4]
  refine ⟨hb, h1.free, fun op hop => ?_⟩
  cases op with
  | update c => exact ⟨hup N c rfl rfl rfl rfl, rfl⟩
  | addKid k => exact ⟨rfl, rfl⟩
  | removeKid k => exact ⟨rfl, rfl⟩
  | redraw en c =>
    cases en with
    | none => exact ⟨hup N c rfl rfl rfl rfl, rfl⟩
    | some b => exact ⟨hup (N.setEnable b) c rfl rfl rfl rfl, rfl⟩
  | apply => exact hop.elim

/-- a node that is drawn, changed, disabled and enabled again -/
example : (NodeOp.runAll (Node.make 1 2 'a') [.apply, .addKid 5, .update 'b', .redraw (some false) 'c', .apply,
    .redraw (some true) 'd', .apply]).drawn = [(some 'd', 1)] := by decide

/-- **C146, the code violates the property** for `setEnable` called alone: the item stays hidden however often the scene
is redrawn. -/
theorem C146_enable_alone (o : Obj) (z : Nat) (c : C) (os : List (NodeOp C)) (h : lastEnabled os = false) (k : Nat) :
    let N := (NodeOp.runAll (Node.make o z c) (os ++ [.apply])).setEnable true
    N.enabled = true ∧ (NodeOp.runAll N (List.replicate (k + 1) .apply)).drawn = [] := by
  dsimp only
  refine ⟨rfl, ?_⟩
  have h0 := (runAll_ok o z c os).1.apply
  have e : NodeOp.runAll (Node.make o z c) (os ++ [.apply]) = (NodeOp.runAll (Node.make o z c) os).apply := by
    rw [NodeOp.runAll, List.foldl_append]; rfl
  rw [e]
  obtain ⟨h1, d1, -, -⟩ := h0
  have hown : (NodeOp.runAll (Node.make o z c) os).apply.own = [] := by
    rw [h1.settled d1, h1.en]
    show (if lastEnabled os then _ else _) = _
    rw [h]; rfl
  have H : ∀ (k : Nat) (N : Node C), N.nodeDirty = false → N.enabled = true → N.own = [] →
      (NodeOp.runAll N (List.replicate k .apply)).own = [] := by
    intro k
    induction k with
    | zero => intro N _ _ h; exact h
    | succ k ih =>
      intro N hd he ho
      have hx : N.apply.nodeDirty = false ∧ N.apply.enabled = true ∧ N.apply.own = [] := by
        unfold Node.apply Node.hangKids Node.hide Node.swapNode Node.syncKids Node.dropKids
        cases hk : N.kidsDirty <;> simp [hd, he, ho]
      exact ih N.apply hx.1 hx.2.1 hx.2.2
  unfold Node.drawn
  rw [H (k + 1) ((NodeOp.runAll (Node.make o z c) os).apply.setEnable true) d1 rfl hown]; rfl

/-! ## C147: the node handed out for an item -/

theorem group_spec {V : View C} {S : Sight C} {A : Pic} (h : Follows V S A) (o : Obj) :
    ((V.getNodeForItem o).isSome = (S.seen o).isSome) ∧
    ∀ n b, V.getNodeForItem o = some (n, b) → ∃ N, V.nodes n = some N ∧ N.item = o ∧ b ∉ N.own := by
  cases hs : S.seen o with
  | none =>
    have : V.getNodeForItem o = none := by unfold View.getNodeForItem; rw [h.unseen o hs]
    rw [this]
    exact ⟨rfl, fun n b hh => by cases hh⟩
  | some x =>
    obtain ⟨n, N, h1, h2, _, h4, h5⟩ := h.seen o x hs
    have : V.getNodeForItem o = some (n, N.back) := by unfold View.getNodeForItem; rw [h1]; dsimp only; rw [h2]; rfl
    rw [this]
    refine ⟨rfl, fun n' b hh => ?_⟩
    cases hh
    refine ⟨N, h2, h4, ?_⟩
    rcases h5.own with h | h <;> rw [h] <;> simp [Node.back]

/-- **C147, the code violates the documentation**: after any history `getNodeForItem` answers for exactly the items that
are seen, with a group of the node of the item, but never with a group that is displayed (the documentation says that
it visualizes the item). -/
theorem C147_never_displayed {r : Obj} {handles : Nat → Obj → Bool} (now : Obj → C) {vs : List Nat}
    (hr : ∃ z ∈ vs, handles z r = true) (as : List (Act C)) (hf : Fits (startPic r) vs as) :
    ∃ V, (View.start vs).run (welcome r handles now ++ as) = .ok V ∧
      ∀ o, (V.getNodeForItem o).isSome = ((Sight.run ⟨vs, fun _ => none⟩ (welcome r handles now ++ as)).seen o).isSome ∧
        ∀ n b, V.getNodeForItem o = some (n, b) → ∃ N, V.nodes n = some N ∧ N.item = o ∧ b ∉ N.own := by
  obtain ⟨z, hz⟩ := Option.isSome_iff_exists.1 (newest_some.2 hr)
  obtain ⟨V0, h1, h2, h3, h4, h5⟩ := welcome_spec now hz
  obtain ⟨V1, g1, g2, g3, g4⟩ := run_spec as h2 (by rw [h3]; exact hf)
  refine ⟨V1, ?_, fun o => by
    rw [Sight.run, List.foldl_append]; exact group_spec g2 o⟩
  rw [run_append, h1]
  exact g1

/-- **C145, the scene.** An item with a node that becomes the root is in the scene; when it is no longer the root the
scene is as before. -/
theorem C145_scene (V : View C) (handles : Nat → Obj → Bool) (now now' : Obj → C) (e e' : Ev) (r : Obj) (p : Option Nat)
    (h : look r V.map = some p) (h1 : e.ty = .root ∧ e.op = .add ∧ e.a = r) (h2 : e'.ty = .root ∧ e'.op = .remove ∧ e'.a = r) :
    ∃ V' V'', V.handle handles now e = .ok V' ∧ V'.scene = V.scene ++ [p] ∧ V'.map = V.map ∧
      V'.handle handles now' e' = .ok V'' ∧ V''.scene.Perm V.scene ∧ V''.map = V.map := by
  obtain ⟨a1, a2, a3⟩ := h1
  obtain ⟨b1, b2, b3⟩ := h2
  refine ⟨{ V with scene := V.scene ++ [p] }, { V with scene := (V.scene ++ [p]).erase p }, ?_, rfl, rfl, ?_, ?_, rfl⟩
  · unfold View.handle
    rw [a1, a2, a3]
    simp [View.setRootNode, h, Out.bind, View.addScene]
  · unfold View.handle
    rw [b1, b2, b3]
    simp [View.removeRootNode, h]
  · exact (((List.perm_append_comm : (V.scene ++ [p]).Perm ([p] ++ V.scene)).erase p).trans (by simp))

/-- an item that is drawn: the group handed out holds an older look -/
example : ((View.start [7] : View Nat).run (welcome 0 (fun _ _ => true) (fun _ => 1) ++
    [.apply [], .ev ⟨.item, .update, 0, none, ['/', '0'], []⟩ (fun _ _ => true) (fun _ => 2), .apply []])).ok?.map
      (fun V => (V.getNodeForItem 0, (V.nodes 0).map (fun N => (N.drawn, N.shows N.back)))) =
    some (some (0, true), some ([(some 2, 1)], some 1)) := rfl

end View
end Envire

#print axioms Envire.View.C145_view_partial
#print axioms Envire.View.C145_environment_partial
#print axioms Envire.View.C145_link_lost
#print axioms Envire.View.C145_scene
#print axioms Envire.View.C145_root_not_handled
#print axioms Envire.View.C145_root_deadlock
#print axioms Envire.View.C146_redraw
#print axioms Envire.View.C146_behind_the_scene
#print axioms Envire.View.C146_enable_alone
#print axioms Envire.View.C147_never_displayed
