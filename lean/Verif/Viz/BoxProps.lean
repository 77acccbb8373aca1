import Verif.Viz.BoxModel
import Verif.Viz.TreeProps
/-! Property C193: the boxes beside the frames tell which frames are hidden. -/
namespace Envire
namespace Box
open Env
open View (Out)
open TreeView

/-! ### specification -/

/-- what the user last asked for: `true` for frames that are to be seen; a new item is to be seen -/
def wish (fr : Obj → Bool) (S : Obj → Bool) : Step → Obj → Bool
  | .ev e => match e.ty, e.op with
    | .item, .add => fun o => if o = e.a then true else S o
    | _, _ => S
  | .click o' => fun o => if o = o' ∧ fr o = true then !S o else S o
  | .hide os => fun o => if o ∈ os ∧ fr o = true then false else S o
  | .unhide os => fun o => if o ∈ os ∧ fr o = true then true else S o

/-- the links the handlers were told of -/
def picture (A : Pic) : Step → Pic
  | .ev e => A.apply e
  | _ => A

/-- the line of an item is in the tree; lines of maps do not matter -/
def InTree (fr : Obj → Bool) (r : Obj) (A : Pic) (o : Obj) : Prop := fr o = false ∨ o = r ∨ ∃ q, (o, q) ∈ A.f

/-- histories for which the boxes are right: orders of events the tree copes with (C148), frames that are hidden keep their parents, and the user picks
lines that are in the tree -/
def Fair (fr : Obj → Bool) (r : Obj) (A : Pic) (S : Obj → Bool) : Step → Prop
  | .ev e => Adm True True A e ∧ Gentle fr r A e ∧ (e.ty = .frameTree → e.op = .remove → ∀ b, e.b = some b → S b = true)
  | .click o => InTree fr r A o
  | .hide os => ∀ o ∈ os, InTree fr r A o
  | .unhide os => ∀ o ∈ os, InTree fr r A o

def Fairs (fr : Obj → Bool) (r : Obj) : Pic → (Obj → Bool) → List Step → Prop
  | _, _, [] => True
  | A, S, a :: as => Fair fr r A S a ∧ Fairs fr r (picture A a) (wish fr S a) as

def pictures (A : Pic) (as : List Step) : Pic := as.foldl picture A
def wishes (fr : Obj → Bool) (S : Obj → Bool) (as : List Step) : Obj → Bool := as.foldl (wish fr) S

/-! ### the tree between two events -/

/-- lines stay, or new ones are made for items that had none -/
def Grow (T T' : Tree) : Prop :=
  T.next ≤ T'.next ∧ ∀ o, T'.map o = T.map o ∨ (T.map o = none ∧ ∃ w, T.next ≤ w ∧ T'.map o = some w)

theorem Grow.refl (T : Tree) : Grow T T := ⟨Nat.le_refl _, fun _ => Or.inl rfl⟩

theorem Grow.trans {T T' T'' : Tree} (h : Grow T T') (h' : Grow T' T'') : Grow T T'' := by
  refine ⟨Nat.le_trans h.1 h'.1, fun o => ?_⟩
  rcases h'.2 o with e' | ⟨e', w', hw', g'⟩
  · rcases h.2 o with e | ⟨e, w, hw, g⟩
    · left; rw [e', e]
    · right; exact ⟨e, w, hw, by rw [e', g]⟩
  · rcases h.2 o with e | ⟨e, w, hw, g⟩
    · right; exact ⟨by rw [← e, e'], w', Nat.le_trans h.1 hw', g'⟩
    · rw [g] at e'; cases e'

theorem grow_of_eq {T T' : Tree} (h1 : T'.next = T.next) (h2 : T'.map = T.map) : Grow T T' :=
  ⟨Nat.le_of_eq h1.symm, fun o => Or.inl (by rw [h2])⟩

theorem grow_get (T : Tree) (o : Obj) (b : Bool) : Grow T (T.get o b) := by
  unfold Tree.get
  cases ho : T.map o with
  | some w => exact Grow.refl T
  | none =>
    refine ⟨Nat.le_succ _, fun x => ?_⟩
    show upd T.map o (some T.next) x = _ ∨ _ ∧ ∃ w, _ ∧ upd T.map o (some T.next) x = _
    unfold upd
    by_cases hx : x = o
    · right
      subst hx
      exact ⟨ho, T.next, Nat.le_refl _, if_pos rfl⟩
    · left
      rw [if_neg hx]

theorem grow_addChild {T T' : Tree} {p c : Nat} (h : T.addChild p c = .ok T') : Grow T T' := by
  unfold Tree.addChild at h
  split at h
  · split at h
    · cases h; exact Grow.refl _
    · cases h; exact grow_of_eq rfl rfl
  · cases h

theorem same_removeChild {T T' : Tree} {p c : Nat} (h : T.removeChild p c = .ok T') : T'.next = T.next ∧ T'.map = T.map := by
  unfold Tree.removeChild at h
  split at h
  · cases h
  · split at h
    · cases h; exact ⟨rfl, rfl⟩
    · cases h; exact ⟨rfl, rfl⟩

theorem same_delete {T T' : Tree} {w : Nat} (h : T.delete w = .ok T') : T'.next = T.next ∧ T'.map = T.map := by
  unfold Tree.delete at h
  split at h
  · cases h
  · cases h; exact ⟨rfl, rfl⟩

/-- all lines but the one of `c` stay or are made -/
def Drop (c : Obj) (T T' : Tree) : Prop :=
  T.next ≤ T'.next ∧ ∀ o, (T'.map o = T.map o ∨ (T.map o = none ∧ ∃ w, T.next ≤ w ∧ T'.map o = some w)) ∨ (o = c ∧ T'.map o = none)

theorem Grow.drop {T T' : Tree} (h : Grow T T') (c : Obj) : Drop c T T' := ⟨h.1, fun o => Or.inl (h.2 o)⟩

theorem drop_forget {T T1 T' : Tree} (h : Grow T T1) {c : Obj} {w v : Nat} (h' : (T1.forget c w).delete v = .ok T') : Drop c T T' ∧ T'.map c = none := by
  obtain ⟨h1, h2⟩ := same_delete h'
  have hm : ∀ o, T'.map o = if o = c then none else T1.map o := by intro o; rw [h2]; rfl
  refine ⟨⟨by rw [h1]; exact h.1, fun o => ?_⟩, by rw [hm, if_pos rfl]⟩
  by_cases ho : o = c
  · right; exact ⟨ho, by rw [hm, if_pos ho]⟩
  · left
    have := h.2 o
    rw [hm, if_neg ho]
    exact this

/-- the item that loses its line by an event -/
def loser (e : Ev) : Obj :=
  match e.ty, e.b with
  | .frameTree, some b => b
  | _, _ => e.a

theorem handle_drop {fr : Obj → Bool} {T T' : Tree} {A : Pic} {e : Ev} (ha : Adm True True A e) (h : T.handle fr e = .ok T') :
    Drop (loser e) T T' ∧ (e.op ≠ .remove ∨ e.ty = .layerTree → Grow T T') ∧ (e.ty = .item → e.op = .remove → fr e.a = true → T'.map e.a = none) := by
  obtain ⟨ty, op, a, b, ida, idb⟩ := e
  have done : Grow T T' → ¬ (ty = .item ∧ op = .remove ∧ fr a = true) → Drop (loser ⟨ty, op, a, b, ida, idb⟩) T T' ∧ (op ≠ .remove ∨ ty = .layerTree → Grow T T') ∧ (ty = .item → op = .remove → fr a = true → T'.map a = none) :=
    fun g hn => ⟨g.drop _, fun _ => g, fun h1 h2 h3 => absurd ⟨h1, h2, h3⟩ hn⟩
  have bindOk : ∀ {x : Out Tree} {f : Tree → Out Tree}, x.bind f = .ok T' → ∃ y, x = .ok y ∧ f y = .ok T' := by
    intro x f hx
    cases x with
    | ok y => exact ⟨y, rfl, hx⟩
    | throw _ => cases hx
    | deadlock => cases hx
    | ub => cases hx
  cases ty with
  | item =>
    cases op with
    | add => cases b <;> first | (exact absurd ha id) | (cases h; exact done (Grow.refl _) (by rintro ⟨-, h, -⟩; cases h))
    | update => cases b <;> first | (exact absurd ha id) | (cases h; exact done (Grow.refl _) (by rintro ⟨-, h, -⟩; cases h))
    | remove =>
      cases b with
      | some b => exact absurd ha id
      | none =>
        have h : (if fr a then T.removeRoot a else .ok T) = .ok T' := h
        by_cases hf : fr a = true
        · rw [if_pos hf] at h
          unfold Tree.removeRoot at h
          split at h
          · rename_i hm
            cases h
            exact ⟨(Grow.refl _).drop _, fun _ => Grow.refl _, fun _ _ _ => hm⟩
          · split at h
            · cases h
            · obtain ⟨k1, k2⟩ := drop_forget (Grow.refl T) h
              exact ⟨k1, fun h => h.elim (fun h => absurd rfl h) (fun h => nomatch h), fun _ _ _ => k2⟩
        · rw [if_neg hf] at h
          cases h
          exact done (Grow.refl _) (fun h => hf h.2.2)
  | root => cases op <;> cases b <;> exact absurd ha id
  | layerTree =>
    cases op <;> cases b <;> first
      | (exact absurd ha id)
      | (cases h; exact done (Grow.refl _) (by rintro ⟨h, -⟩; cases h))
  | frameTree =>
    cases op with
    | update => cases b <;> exact absurd ha id
    | add =>
      cases b with
      | none => exact absurd ha id
      | some b =>
        have h : T.childAdded a b = .ok T' := h
        unfold Tree.childAdded at h
        exact done (((grow_get T a true).trans (grow_get _ b false)).trans (grow_addChild h)) (by rintro ⟨h, -⟩; cases h)
    | remove =>
      cases b with
      | none => exact absurd ha id
      | some b =>
        have h : T.childRemoved a b = .ok T' := h
        unfold Tree.childRemoved at h
        obtain ⟨T1, t1, t2⟩ := bindOk h
        obtain ⟨s1, s2⟩ := same_removeChild t1
        obtain ⟨k1, k2⟩ := drop_forget (((grow_get T b false).trans (grow_get _ a false)).trans (grow_of_eq s1 s2)) t2
        exact ⟨k1, fun h => h.elim (fun h => absurd rfl h) (fun h => nomatch h), fun h => by cases h⟩
  | frameNode =>
    cases op with
    | update => cases b <;> exact absurd ha id
    | add =>
      cases b with
      | none => exact absurd ha id
      | some b =>
        have h : T.frameNodeSet a b = .ok T' := h
        unfold Tree.frameNodeSet at h
        exact done (((grow_get T a false).trans (grow_get _ b false)).trans (grow_addChild h)) (by rintro ⟨h, -⟩; cases h)
    | remove =>
      cases b with
      | none => exact absurd ha id
      | some b =>
        have h : T.frameNodeDetached a b = .ok T' := h
        unfold Tree.frameNodeDetached at h
        obtain ⟨T1, t1, t2⟩ := bindOk h
        obtain ⟨s1, s2⟩ := same_removeChild t1
        obtain ⟨k1, k2⟩ := drop_forget (((grow_get T b false).trans (grow_get _ a false)).trans (grow_of_eq s1 s2)) t2
        exact ⟨k1, fun h => h.elim (fun h => absurd rfl h) (fun h => nomatch h), fun h => by cases h⟩

/-! ### the boxes -/

structure Ok (fr : Obj → Bool) (r : Obj) (A : Pic) (S : Obj → Bool) (P : Panel) : Prop where
  tree : Inv fr r A P.tree
  boxes : ∀ o w, P.tree.map o = some w → fr o = true → P.check w = S o
  unseen : ∀ o, o ∈ A.items.map (·.2) → fr o = true → P.tree.map o = none → S o = true
  fresh : ∀ w, P.tree.next ≤ w → P.check w = true
  masks : ∀ o, o ∈ A.items.map (·.2) → fr o = true → P.mask o = some (S o)

variable {fr viz : Obj → Bool} {r : Obj} {A : Pic} {S : Obj → Bool} {P : Panel}

theorem items_apply {e : Ev} {o : Obj} (h : o ∈ (A.apply e).items.map (·.2)) :
    o ∈ A.items.map (·.2) ∨ (e.ty = .item ∧ e.op = .add ∧ o = e.a) := by
  obtain ⟨ty, op, a, b, ida, idb⟩ := e
  cases ty <;> cases op <;> cases b <;> first
    | exact Or.inl h
    | skip
  · have h : o ∈ ((ida, a) :: A.items).map (·.2) := h
    rw [List.map_cons, List.mem_cons] at h
    exact h.elim (fun h => Or.inr ⟨rfl, rfl, h⟩) Or.inl
  · have h : o ∈ (A.items.erase (ida, a)).map (·.2) := h
    obtain ⟨x, hx, rfl⟩ := List.mem_map.1 h
    exact Or.inl (List.mem_map.2 ⟨x, List.mem_of_mem_erase hx, rfl⟩)

theorem wish_ev (e : Ev) (o : Obj) : wish fr S (.ev e) o = if e.ty = .item ∧ e.op = .add ∧ o = e.a then true else S o := by
  obtain ⟨ty, op, a, b, ida, idb⟩ := e
  cases ty <;> cases op <;> simp [wish]

theorem nodes_ev (e : Ev) (m : Obj → Option Bool) (o : Obj) :
    nodes viz m e o = if e.ty = .item ∧ e.op = .add ∧ o = e.a ∧ viz o = true then some true else if e.ty = .item ∧ e.op = .remove ∧ o = e.a then none else m o := by
  obtain ⟨ty, op, a, b, ida, idb⟩ := e
  cases ty <;> cases op <;> simp only [nodes, reduceCtorEq, false_and, and_false, if_false, true_and]
  · by_cases ha : o = a
    · subst ha
      by_cases hv : viz o = true
      · simp [hv, upd]
      · simp [hv]
    · by_cases hv : viz a = true
      · simp [hv, upd, ha]
      · simp [hv, ha]
  · simp [upd]

theorem nodup_items {l : List (Uid × Obj)} (h : (l.map (·.1)).Nodup) : l.Nodup := by
  induction l with
  | nil => exact List.nodup_nil
  | cons x t ih =>
    rw [List.map_cons, List.nodup_cons] at h
    exact List.nodup_cons.2 ⟨fun hx => h.1 (List.mem_map.2 ⟨x, hx, rfl⟩), ih h.2⟩

/-- an event -/
theorem Ok.ev (h : Ok fr r A S P) (hv : ∀ o, fr o = true → viz o = true) {e : Ev} (hf : Fair fr r A S (.ev e)) :
    ∃ P', P.step fr viz (.ev e) = .ok P' ∧ Ok fr r (A.apply e) (wish fr S (.ev e)) P' := by
  obtain ⟨ha, hg, hh⟩ := hf
  obtain ⟨T', t1, t2⟩ := h.tree.step ha hg
  obtain ⟨d1, d2, d3⟩ := handle_drop ha t1
  refine ⟨⟨T', P.check, nodes viz P.mask e⟩, by unfold Panel.step; dsimp only; rw [t1], t2, ?_, ?_, ?_, ?_⟩
  · intro o w ho hfo
    show P.check w = _
    rw [wish_ev]
    have hin := (t2.entries o (by rw [ho]; rfl)).1
    rcases d1.2 o with (e1 | ⟨e1, v, v1, v2⟩) | ⟨-, e1⟩
    · have hm : P.tree.map o = some w := by rw [← e1]; exact ho
      have hA := (h.tree.entries o (by rw [hm]; rfl)).1
      rw [h.boxes o w hm hfo, if_neg]
      rintro ⟨a1, a2, rfl⟩
      obtain ⟨ty, op, a, b, ida, idb⟩ := e
      cases a1; cases a2
      cases b with
      | some b => exact absurd ha id
      | none => exact absurd hA ha.2.1
    · have hvw : v = w := by
        have ho : T'.map o = some w := ho
        rw [v2] at ho; exact Option.some.inj ho
      rw [← hvw, h.fresh v v1]
      rcases items_apply hin with hA | hA
      · split
        · rfl
        · exact (h.unseen o hA hfo e1).symm
      · rw [if_pos hA]
    · have ho : T'.map o = some w := ho
      rw [e1] at ho; cases ho
  · intro o hin hfo hm
    have hm : T'.map o = none := hm
    rw [wish_ev]
    rcases (items_apply hin).symm with hA | hA
    · rw [if_pos hA]
    by_cases hc : e.ty = .item ∧ e.op = .add ∧ o = e.a
    · rw [if_pos hc]
    rw [if_neg hc]
    by_cases hold : P.tree.map o = none
    · exact h.unseen o hA hfo hold
    -- the line was lost
    have hlost : o = loser e ∧ e.op = .remove ∧ e.ty ≠ .layerTree := by
      refine ⟨?_, ?_⟩
      · rcases d1.2 o with (e1 | ⟨e1, -⟩) | ⟨e1, -⟩
        · exact absurd (by rw [← e1]; exact hm) hold
        · exact absurd e1 hold
        · exact e1
      · have nog : ¬ Grow P.tree T' := by
          intro g
          rcases g.2 o with e1 | ⟨e1, -⟩
          · exact hold (by rw [← e1]; exact hm)
          · exact hold e1
        exact ⟨Classical.byContradiction (fun hop => nog (d2 (Or.inl hop))), fun hl => nog (d2 (Or.inr hl))⟩
    obtain ⟨l1, l2, l3⟩ := hlost
    obtain ⟨ty, op, a, b, ida, idb⟩ := e
    dsimp only at l2 l3
    subst l2
    cases ty with
    | item =>
      cases b with
      | some b => exact absurd ha id
      | none =>
        have l1 : o = a := l1
        subst l1
        exfalso
        have hin : o ∈ (A.items.erase (ida, o)).map (·.2) := hin
        obtain ⟨x, hx, hx2⟩ := List.mem_map.1 hin
        have hid : x.1 = ida := id_unique h.tree.inv.objs (o := o) (by rw [← hx2]; exact List.mem_of_mem_erase hx) ha.1
        have hnd : A.items.Nodup := nodup_items h.tree.inv.ids
        have : x = (ida, o) := by rw [← hid, ← hx2]
        rw [this] at hx
        exact absurd hx (List.Nodup.not_mem_erase hnd)
    | root => cases b <;> exact absurd ha id
    | layerTree => exact absurd rfl l3
    | frameTree =>
      cases b with
      | none => exact absurd ha id
      | some b =>
        have l1 : o = b := l1
        subst l1
        exact hh rfl rfl o rfl
    | frameNode =>
      cases b with
      | none => exact absurd ha id
      | some b =>
        have l1 : o = a := l1
        subst l1
        have := (h.tree.maps _ ha.1).1
        dsimp only at this
        rw [hfo] at this; cases this
  · exact fun w hw => h.fresh w (Nat.le_trans d1.1 hw)
  · intro o hin hfo
    show nodes viz P.mask e o = _
    rw [nodes_ev, wish_ev]
    rcases items_apply hin with hA | ⟨a1, a2, a3⟩
    · have hna : ¬ (e.ty = .item ∧ e.op = .add ∧ o = e.a) := by
        rintro ⟨a1, a2, rfl⟩
        obtain ⟨ty, op, a, b, ida, idb⟩ := e
        cases a1; cases a2
        cases b with
        | some b => exact absurd ha id
        | none => exact absurd hA ha.2.1
      have hnr : ¬ (e.ty = .item ∧ e.op = .remove ∧ o = e.a) := by
        rintro ⟨a1, a2, rfl⟩
        obtain ⟨ty, op, a, b, ida, idb⟩ := e
        cases a1; cases a2
        cases b with
        | some b => exact absurd ha id
        | none =>
          have hin : a ∈ (A.items.erase (ida, a)).map (·.2) := hin
          obtain ⟨x, hx, hx2⟩ := List.mem_map.1 hin
          have hid : x.1 = ida := id_unique h.tree.inv.objs (o := a) (by rw [← hx2]; exact List.mem_of_mem_erase hx) ha.1
          have hnd : A.items.Nodup := nodup_items h.tree.inv.ids
          have : x = (ida, a) := by rw [← hid, ← hx2]
          rw [this] at hx
          exact absurd hx (List.Nodup.not_mem_erase hnd)
      rw [if_neg (fun hc => hna ⟨hc.1, hc.2.1, hc.2.2.1⟩), if_neg hnr, if_neg hna]
      exact h.masks o hA hfo
    · rw [if_pos ⟨a1, a2, a3, hv o hfo⟩, if_pos ⟨a1, a2, a3⟩]

/-- the box of one line -/
theorem Ok.one (h : Ok fr r A S P) (hv : ∀ o, fr o = true → viz o = true) (b : Bool) {o : Obj} {w : Nat} (hw : P.tree.map o = some w) (k : Nat → Bool)
    (hk : ∀ v, v ≠ w → k v = P.check v) :
    ∃ P', put fr viz b { P with check := if fr o = true then k else P.check } w = .ok P' ∧ P'.tree = P.tree ∧ Ok fr r A (fun x => if x = o ∧ fr x = true then b else S x) P' := by
  obtain ⟨hlt, hown, -⟩ := h.tree.shows.below o w hw
  unfold put
  dsimp only
  rw [hown]
  dsimp only
  by_cases hf : fr o = true
  · rw [if_pos hf, if_pos hf]
    unfold setMask
    dsimp only
    have hin := (h.tree.entries o (by rw [hw]; rfl)).1
    rw [if_pos (hv o hf), h.masks o hin hf]
    refine ⟨_, rfl, rfl, h.tree, ?_, ?_, ?_, ?_⟩
    · intro x v hx hfx
      show upd k w b v = _
      unfold upd
      by_cases hvw : v = w
      · subst hvw
        rw [if_pos rfl, if_pos ⟨h.tree.shows.inj hx hw, hfx⟩]
      · rw [if_neg hvw, hk v hvw, if_neg]
        · exact h.boxes x v hx hfx
        · rintro ⟨rfl, -⟩
          have hx : P.tree.map x = some v := hx
          rw [hw] at hx
          exact hvw (Option.some.inj hx).symm
    · intro x hx hfx hm
      show (if x = o ∧ fr x = true then b else S x) = true
      rw [if_neg]
      · exact h.unseen x hx hfx hm
      · rintro ⟨rfl, -⟩
        have hm : P.tree.map x = none := hm
        rw [hw] at hm; cases hm
    · intro v hvn
      show upd k w b v = true
      have hvn : P.tree.next ≤ v := hvn
      have hne : v ≠ w := fun he => absurd hlt (Nat.not_lt.2 (he ▸ hvn))
      unfold upd
      rw [if_neg hne, hk v hne]
      exact h.fresh v hvn
    · intro x hx hfx
      show upd P.mask o (some b) x = _
      unfold upd
      by_cases hxo : x = o
      · rw [if_pos hxo, if_pos ⟨hxo, hfx⟩]
      · rw [if_neg hxo, if_neg (fun h => hxo h.1)]
        exact h.masks x hx hfx
  · rw [if_neg hf, if_neg hf]
    have hS : (fun x => if x = o ∧ fr x = true then b else S x) = S := by
      funext x
      rw [if_neg]
      rintro ⟨rfl, h⟩
      exact hf h
    rw [hS]
    exact ⟨_, rfl, rfl, h⟩

/-- items without lines do not matter if they are no frames -/
theorem Ok.all (hv : ∀ o, fr o = true → viz o = true) (b : Bool) : ∀ (os : List Obj) {S : Obj → Bool} {P : Panel}, Ok fr r A S P → (∀ o ∈ os, InTree fr r A o) →
    ∃ P', putAll fr viz b P (os.filterMap P.tree.map) = .ok P' ∧ Ok fr r A (fun x => if x ∈ os ∧ fr x = true then b else S x) P' := by
  intro os
  induction os with
  | nil => intro S P h _; exact ⟨P, rfl, by simpa using h⟩
  | cons o os ih =>
    intro S P h ht
    have key : ∀ x, (if x ∈ o :: os ∧ fr x = true then b else S x) = if x ∈ os ∧ fr x = true then b else (if x = o ∧ fr x = true then b else S x) := by
      intro x
      by_cases hf : fr x = true
      · by_cases h1 : x ∈ os
        · simp [h1, hf]
        · by_cases h2 : x = o
          · subst h2; simp [hf]
          · simp [h1, h2]
      · simp [hf]
    cases hw : P.tree.map o with
    | none =>
      rw [List.filterMap_cons_none hw]
      have hf : fr o = false := by
        rcases ht o List.mem_cons_self with hf | rfl | ⟨q, hq⟩
        · exact hf
        · obtain ⟨w, hw', -⟩ := h.tree.shows.root
          rw [hw] at hw'; cases hw'
        · have := (h.tree.shows.has o q (Or.inl hq)).1
          rw [hw] at this; cases this
      obtain ⟨P', p1, p2⟩ := ih h (fun x hx => ht x (List.mem_cons_of_mem _ hx))
      refine ⟨P', p1, ?_⟩
      have he : (fun x => if x ∈ o :: os ∧ fr x = true then b else S x) = fun x => if x ∈ os ∧ fr x = true then b else S x := by
        funext x
        rw [key]
        congr 1
        rw [if_neg]
        rintro ⟨rfl, h⟩
        rw [hf] at h; cases h
      rw [he]
      exact p2
    | some w =>
      rw [List.filterMap_cons_some hw]
      obtain ⟨P1, q1, q2, q3⟩ := h.one hv b hw P.check (fun _ _ => rfl)
      rw [ite_self] at q1
      obtain ⟨P', p1, p2⟩ := ih q3 (fun x hx => ht x (List.mem_cons_of_mem _ hx))
      refine ⟨P', ?_, ?_⟩
      · show (put fr viz b P w).bind _ = _
        have q1 : put fr viz b P w = .ok P1 := q1
        rw [q1]
        rw [q2] at p1
        exact p1
      · rw [funext key]
        exact p2

theorem Ok.step (h : Ok fr r A S P) (hv : ∀ o, fr o = true → viz o = true) {a : Step} (hf : Fair fr r A S a) :
    ∃ P', P.step fr viz a = .ok P' ∧ Ok fr r (picture A a) (wish fr S a) P' := by
  cases a with
  | ev e => exact h.ev hv hf
  | hide os => exact Ok.all hv false os h hf
  | unhide os => exact Ok.all hv true os h hf
  | click o =>
    have hf : InTree fr r A o := hf
    unfold Panel.step
    dsimp only
    have keep : fr o = false → Ok fr r A (wish fr S (.click o)) P := by
      intro hff
      have : wish fr S (.click o) = S := by
        funext x
        show (if x = o ∧ fr x = true then !S x else S x) = S x
        rw [if_neg]
        rintro ⟨rfl, h⟩
        rw [hff] at h; cases h
      rw [this]; exact h
    cases hw : P.tree.map o with
    | none =>
      refine ⟨P, rfl, keep ?_⟩
      rcases hf with hf | rfl | ⟨q, hq⟩
      · exact hf
      · obtain ⟨w, hw', -⟩ := h.tree.shows.root
        rw [hw] at hw'; cases hw'
      · have := (h.tree.shows.has o q (Or.inl hq)).1
        rw [hw] at this; cases this
    | some w =>
      dsimp only
      by_cases hfo : fr o = true
      · rw [if_pos hfo]
        unfold toggle
        dsimp only
        obtain ⟨P1, q1, q2, q3⟩ := h.one hv (!P.check w) hw (upd P.check w (!P.check w)) (fun v hvw => if_neg hvw)
        rw [if_pos hfo] at q1
        refine ⟨P1, q1, ?_⟩
        have hS : wish fr S (.click o) = fun x => if x = o ∧ fr x = true then !P.check w else S x := by
          funext x
          show (if x = o ∧ fr x = true then !S x else S x) = _
          by_cases hx : x = o ∧ fr x = true
          · rw [if_pos hx, if_pos hx, h.boxes o w hw hfo, hx.1]
          · rw [if_neg hx, if_neg hx]
        rw [hS]
        exact q3
      · rw [if_neg hfo]
        exact ⟨P, rfl, keep (by simpa using hfo)⟩

theorem Ok.run (hv : ∀ o, fr o = true → viz o = true) : ∀ (as : List Step) {A : Pic} {S : Obj → Bool} {P : Panel}, Ok fr r A S P → Fairs fr r A S as →
    ∃ P', P.run fr viz as = .ok P' ∧ Ok fr r (pictures A as) (wishes fr S as) P' := by
  intro as
  induction as with
  | nil => intro A S P h _; exact ⟨P, rfl, h⟩
  | cons a as ih =>
    intro A S P h hf
    obtain ⟨P1, p1, p2⟩ := h.step hv hf.1
    obtain ⟨P', q1, q2⟩ := ih p2 hf.2
    refine ⟨P', ?_, q2⟩
    show (P.step fr viz a).bind _ = _
    rw [p1]
    exact q1

theorem run_append (fr viz : Obj → Bool) (as bs : List Step) : ∀ P : Panel, P.run fr viz (as ++ bs) = (P.run fr viz as).bind (fun P => P.run fr viz bs) := by
  induction as with
  | nil => intro P; rfl
  | cons a as ih =>
    intro P
    show (P.step fr viz a).bind (fun P => P.run fr viz (as ++ bs)) = ((P.step fr viz a).bind (fun P => P.run fr viz as)).bind _
    cases P.step fr viz a with
    | ok P => exact ih P
    | throw _ => rfl
    | deadlock => rfl
    | ub => rfl

/-- an item is drawn: the scene graph is walked from the root down, and what is below a masked node is left out -/
inductive Drawn (mask : Obj → Option Bool) (up : Obj → Obj → Prop) (r : Obj) : Obj → Prop
  | root : mask r = some true → Drawn mask up r r
  | step {c p : Obj} : Drawn mask up r p → up c p → mask c = some true → Drawn mask up r c

/-- a frame and all frames above it are to be seen -/
inductive Wanted (S : Obj → Bool) (up : Obj → Obj → Prop) (r : Obj) : Obj → Prop
  | root : S r = true → Wanted S up r r
  | step {c p : Obj} : Wanted S up r p → up c p → S c = true → Wanted S up r c

/-- **C193, the part that holds.** The listeners are registered on a fresh environment. As long as the tree copes with the order of the events (C148) and
hidden frames keep their parents: the box of a frame is checked exactly if the user last asked to see it (new frames are to be seen), and the frame is
drawn exactly if this holds for it and for all frames above it. -/
theorem C193_boxes_partial (hr : fr r = true) (hv : ∀ o, fr o = true → viz o = true) (as : List Step) (hf : Fairs fr r (startPic r) (fun _ => true) as) :
    ∃ P, Panel.empty.run fr viz ((hello r).map .ev ++ as) = .ok P ∧
      (∀ o w, P.tree.map o = some w → fr o = true → P.check w = wishes fr (fun _ => true) as o) ∧
      ∀ o, Drawn P.mask (fun c p => (c, p) ∈ (pictures (startPic r) as).f) r o ↔ Wanted (wishes fr (fun _ => true) as) (fun c p => (c, p) ∈ (pictures (startPic r) as).f) r o := by
  obtain ⟨T, t1, t2⟩ := inv_hello (fr := fr) (r := r) hr
  have hT : T = Tree.empty.make r true := by
    have h : Out.ok (Tree.empty.make r true) = Out.ok T := t1
    cases h; rfl
  subst hT
  have h0 : Panel.empty.run fr viz ((hello r).map .ev) = .ok ⟨Tree.empty.make r true, fun _ => true, upd (fun _ => none) r (some true)⟩ := by
    have : nodes viz (fun _ => none) ⟨.item, .add, r, none, ['/', '0'], []⟩ = upd (fun _ => none) r (some true) := by
      show (if viz r then _ else _) = _
      rw [if_pos (hv r hr)]
    show Out.ok (Panel.mk _ _ (nodes viz (nodes viz (fun _ => none) ⟨.item, .add, r, none, ['/', '0'], []⟩) ⟨.root, .add, r, none, ['/', '0'], []⟩)) = _
    rw [this]
    rfl
  have hok : Ok fr r (startPic r) (fun _ => true) ⟨Tree.empty.make r true, fun _ => true, upd (fun _ => none) r (some true)⟩ := by
    refine ⟨t2, fun _ _ _ _ => rfl, fun _ _ _ _ => rfl, fun _ _ => rfl, ?_⟩
    intro o ho _
    have ho : o = r := by simpa [startPic] using ho
    subst ho
    exact if_pos rfl
  obtain ⟨P, p1, p2⟩ := Ok.run (viz := viz) hv as hok hf
  refine ⟨P, by rw [run_append, h0]; exact p1, p2.boxes, fun o => ?_⟩
  have frame : ∀ c p, (c, p) ∈ (pictures (startPic r) as).f → P.mask c = some (wishes fr (fun _ => true) as c) := fun c p hc =>
    p2.masks c (p2.tree.inv.f _ hc).1 (p2.tree.frames _ hc).1
  have root : P.mask r = some (wishes fr (fun _ => true) as r) := by
    obtain ⟨w, hw, -⟩ := p2.tree.shows.root
    exact p2.masks r (p2.tree.entries r (by rw [hw]; rfl)).1 hr
  constructor
  · intro h
    induction h with
    | root h => rw [root] at h; exact .root (Option.some.inj h)
    | step _ hu hm ih => rw [frame _ _ hu] at hm; exact .step ih hu (Option.some.inj hm)
  · intro h
    induction h with
    | root h => exact .root (by rw [root, h])
    | step _ hu hm ih => exact .step ih hu (by rw [frame _ _ hu, hm])

/-- frames 1 and 2 are put below the root frame and a map below frame 2 -/
def house : List Step :=
  [.ev ⟨.item, .add, 1, none, ['/', '1'], []⟩, .ev ⟨.frameTree, .add, 0, some 1, ['/', '0'], ['/', '1']⟩,
   .ev ⟨.item, .add, 2, none, ['/', '2'], []⟩, .ev ⟨.frameTree, .add, 1, some 2, ['/', '1'], ['/', '2']⟩,
   .ev ⟨.item, .add, 5, none, ['/', '3'], []⟩, .ev ⟨.frameNode, .add, 5, some 2, ['/', '3'], ['/', '2']⟩]

/-- what is seen of a panel: for some items the box of the line and the mask of the node -/
def Panel.table (P : Panel) (os : List Obj) : List (Option Bool × Option Bool) := os.map fun o => ((P.tree.map o).map P.check, P.mask o)

/-- the hypotheses of C193 are met by a history in which frames are hidden, shown again and taken away -/
example : Fairs frames5 0 (startPic 0) (fun _ => true) (house ++ [.hide [1, 5], .click 2, .unhide [1], .click 1, .click 2,
      .ev ⟨.frameNode, .remove, 5, some 2, ['/', '3'], ['/', '2']⟩, .ev ⟨.frameTree, .remove, 1, some 2, ['/', '1'], ['/', '2']⟩])
    ∧ ((Panel.empty.run frames5 (fun _ => true) ((hello 0).map .ev ++ (house ++ [.hide [1, 5], .click 2, .unhide [1], .click 1, .click 2,
      .ev ⟨.frameNode, .remove, 5, some 2, ['/', '3'], ['/', '2']⟩, .ev ⟨.frameTree, .remove, 1, some 2, ['/', '1'], ['/', '2']⟩]))).ok?.map
        (fun P => P.table [0, 1, 2]) = some [(some true, some true), (some false, some false), (none, some true)]) := by
  refine ⟨?_, by decide +kernel⟩
  refine ⟨⟨⟨by decide +kernel, by decide +kernel, rfl, by decide +kernel⟩, trivial, fun h => nomatch h⟩, ⟨⟨by decide +kernel, by decide +kernel, fun _ => ⟨by decide +kernel, by decide +kernel⟩⟩, ⟨rfl, rfl, by decide +kernel, Or.inl rfl⟩, fun _ h => nomatch h⟩,
    ⟨⟨by decide +kernel, by decide +kernel, rfl, by decide +kernel⟩, trivial, fun h => nomatch h⟩, ⟨⟨by decide +kernel, by decide +kernel, fun _ => ⟨by decide +kernel, by decide +kernel⟩⟩, ⟨rfl, rfl, by decide +kernel, Or.inr ⟨0, Or.inl (Or.inl (by decide +kernel))⟩⟩, fun _ h => nomatch h⟩,
    ⟨⟨by decide +kernel, by decide +kernel, rfl, by decide +kernel⟩, trivial, fun h => nomatch h⟩, ⟨⟨by decide +kernel, fun _ => ⟨by decide +kernel, by decide +kernel⟩⟩, ⟨rfl, rfl⟩, fun h => nomatch h⟩,
    ?_, Or.inr (Or.inr ⟨1, by decide +kernel⟩), ?_, Or.inr (Or.inr ⟨0, by decide +kernel⟩), Or.inr (Or.inr ⟨1, by decide +kernel⟩),
    ⟨⟨by decide +kernel, fun _ => ⟨by decide +kernel, by decide +kernel⟩⟩, trivial, fun h => nomatch h⟩, ⟨⟨by decide +kernel, fun _ => ⟨by decide +kernel, by decide +kernel⟩⟩, no_up (by decide +kernel), fun _ _ b hb => by cases hb; decide +kernel⟩, trivial⟩
  · intro o ho
    rcases List.mem_cons.1 ho with rfl | ho
    · exact Or.inr (Or.inr ⟨0, by decide +kernel⟩)
    · rcases List.mem_cons.1 ho with rfl | ho
      · exact Or.inl rfl
      · cases ho
  · intro o ho
    rcases List.mem_cons.1 ho with rfl | ho
    · exact Or.inr (Or.inr ⟨0, by decide +kernel⟩)
    · cases ho

/-- **C193, the code violates the property**: a hidden frame is moved to another parent. Its new line has a checked box, but the frame stays hidden; the first
click on the box changes nothing that is seen. -/
theorem C193_moved_deviation :
    (Panel.empty.run frames5 (fun _ => true) ((hello 0).map .ev ++ (house ++ [.hide [2],
      .ev ⟨.frameNode, .remove, 5, some 2, ['/', '3'], ['/', '2']⟩, .ev ⟨.frameTree, .remove, 1, some 2, ['/', '1'], ['/', '2']⟩,
      .ev ⟨.frameTree, .add, 0, some 2, ['/', '0'], ['/', '2']⟩]))).ok?.map
        (fun P => (P.table [2], (P.step frames5 (fun _ => true) (.click 2)).ok?.map (fun P => P.table [2]))) =
      some ([(some true, some false)], some [(some false, some false)]) := by decide +kernel

/-- **C193, the code violates the property**: maps cannot be hidden, whatever is selected together with them. -/
theorem C193_maps_deviation (P : Panel) (b : Bool) (ws : List Nat) (hw : ∀ w ∈ ws, ∀ o, P.tree.owner w = some o → fr o = false) : putAll fr viz b P ws = .ok P := by
  induction ws with
  | nil => rfl
  | cons w ws ih =>
    have : put fr viz b P w = .ok P := by
      unfold put
      cases ho : P.tree.owner w with
      | none => rfl
      | some o =>
        dsimp only
        rw [if_neg (by rw [hw w List.mem_cons_self o ho]; exact Bool.false_ne_true)]
    show (put fr viz b P w).bind _ = _
    rw [this]
    exact ih (fun v hv => hw v (List.mem_cons_of_mem _ hv))

#print axioms C193_boxes_partial
#print axioms C193_moved_deviation
#print axioms C193_maps_deviation

end Box
end Envire
