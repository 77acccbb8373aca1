import Verif.Ops.DirtyModel
import Verif.Ops.UpdateProps

/-! C206: dirty and immutable layers. -/
namespace Envire.Dirty

open Envire.Update

variable {C : Type}

theorem set_same {A : Type} (f : Nat → A) (x : Nat) (a : A) : set f x a x = a := if_pos rfl
theorem set_other {A : Type} (f : Nat → A) {x y : Nat} (a : A) (h : y ≠ x) : set f x a y = f y := if_neg h

/-- **C206 (update)** updateFromOperator of a layer that is marked makes the outputs of its operator what the operator computes from its inputs, and changes no other layer. If the layer is not marked, or has no
operator, nothing changes.
Missing: the mark is not taken back, and nothing but the user sets it (below). -/
theorem C206_update_partial (l : List (Oper C)) (s : State C) (x : Nat) :
    (∀ o ∈ l, x ∈ o.outs → (∀ b ∈ l, x ∈ b.outs → b = o) → Pure o → (∀ y ∈ o.ins, y ∉ o.outs) → s.dirty x = true →
      Fresh (step l s (.updateFromOperator x)).content o ∧ ∀ y, y ∉ o.outs → (step l s (.updateFromOperator x)).content y = s.content y) ∧
    (s.dirty x = false → step l s (.updateFromOperator x) = s) ∧ ((∀ o ∈ l, x ∉ o.outs) → step l s (.updateFromOperator x) = s) := by
  refine ⟨fun o ho hx hu hp hloop hd => ?_, fun hd => ?_, fun hn => ?_⟩
  · have hg : generator l x = some o := by
      unfold generator
      cases hf : l.find? (fun o => o.outs.contains x) with
      | none => exact absurd (List.contains_iff_mem.2 hx) (List.find?_eq_none.1 hf o ho)
      | some b =>
        have hb := List.mem_of_find?_eq_some hf
        have hxb : x ∈ b.outs := List.contains_iff_mem.1 (List.find?_some (p := fun o : Oper C => o.outs.contains x) hf)
        rw [hu b hb hxb]
    obtain ⟨v, hv⟩ := hp.total s.content
    have h1 : step l s (.updateFromOperator x) = { s with content := put s.content o.outs v } := by
      unfold step
      dsimp only
      rw [hg]
      dsimp only
      rw [if_pos hd]
      unfold State.run
      rw [hv]
    rw [h1]
    refine ⟨⟨v, ?_, fun y hy => put_in hy⟩, fun y hy => put_out hy⟩
    rw [← hv]
    exact hp.loc _ _ fun y hy => put_out (hloop y hy)
  · unfold step
    dsimp only
    cases generator l x with
    | none => rfl
    | some o => dsimp only; rw [hd]; rfl
  · have hg : generator l x = none := by
      unfold generator
      exact List.find?_eq_none.2 fun o ho hc => hn o ho (List.contains_iff_mem.1 hc)
    unfold step
    dsimp only
    rw [hg]

/-- **C206 (mark, deviation)** Neither updateFromOperator nor updateOperators takes a mark back: the documentation guarantees that isDirty is false afterwards. So each further call computes the layer again. -/
theorem C206_mark_deviation (l : List (Oper C)) (s : State C) (x y : Nat) :
    (step l s (.updateFromOperator x)).dirty y = s.dirty y ∧ (step l s .updateOperators).dirty y = s.dirty y := by
  refine ⟨?_, rfl⟩
  unfold step
  dsimp only
  cases generator l x with
  | none => rfl
  | some o =>
    dsimp only
    split
    · unfold State.run
      cases o.compute s.content <;> rfl
    · rfl

/-- specification: the last call that sets or resets the mark of the layer, in a history without assignments; the calls are given from the last to the first -/
def marked (x : Nat) : List (Op C) → Bool
  | [] => false
  | .setDirty y :: l => if y = x then true else marked x l
  | .resetDirty y :: l => if y = x then false else marked x l
  | _ :: l => marked x l

def NoAssign : Op C → Prop
  | .assign _ _ => False
  | _ => True

/-- **C206 (who marks, deviation)** For every history without assignments: isDirty tells what the user said last with setDirty or resetDirty. Changes of the sources and updates of the layer play no role, though
the documentation says that the mark is set when the sources were updated and the layer was not. -/
theorem C206_marked_deviation (l : List (Oper C)) (c : Nat → C) (h : List (Op C)) (hn : ∀ o ∈ h, NoAssign o) (x : Nat) : (run l (State.start c) h).dirty x = marked x h.reverse := by
  have key : ∀ (r : List (Op C)), (∀ o ∈ r, NoAssign o) → (run l (State.start c) r.reverse).dirty x = marked x r := by
    intro r
    induction r with
    | nil => intro _; rfl
    | cons o r ih =>
      intro hn
      have ih' := ih fun o ho => hn o (List.mem_cons_of_mem _ ho)
      have hrun : run l (State.start c) (o :: r).reverse = step l (run l (State.start c) r.reverse) o := by
        unfold run
        rw [List.reverse_cons, List.foldl_append]
        rfl
      rw [hrun]
      cases o with
      | setDirty y =>
        show set _ y true x = if y = x then true else marked x r
        by_cases hy : y = x
        · subst hy
          rw [set_same, if_pos rfl]
        · rw [set_other _ _ (Ne.symm hy), if_neg hy]
          exact ih'
      | resetDirty y =>
        show set _ y false x = if y = x then false else marked x r
        by_cases hy : y = x
        · subst hy
          rw [set_same, if_pos rfl]
        · rw [set_other _ _ (Ne.symm hy), if_neg hy]
          exact ih'
      | setImmutable y => exact ih'
      | modify y v => exact ih'
      | assign y z => exact (hn _ List.mem_cons_self).elim
      | updateFromOperator y => exact ((C206_mark_deviation l _ y x).1).trans ih'
      | updateOperators => exact ih'
  have := key h.reverse fun o ho => hn o (List.mem_reverse.1 ho)
  rw [List.reverse_reverse] at this
  exact this

/-- **C206 (stale, deviation)** A layer whose source was changed is not marked, and updateFromOperator leaves it as it was. -/
theorem C206_stale_deviation : ∃ (l : List (Oper Nat)) (h : List (Op Nat)), (∀ o ∈ l, Pure o) ∧
    let s := run l (State.start fun _ => 0) h
    h = [.modify 0 7, .updateFromOperator 1] ∧ s.dirty 1 = false ∧ s.content 0 = 7 ∧ s.content 1 = 0 ∧ (run l s [.setDirty 1, .updateFromOperator 1]).content 1 = 7 := by
  refine ⟨[copier "/1" 0 1], _, fun o ho => ?_, rfl, by decide +kernel, by decide +kernel, by decide +kernel, by decide +kernel⟩
  cases List.mem_singleton.1 ho
  exact copier_pure _ _ _

/-- **C206 (immutable)** A layer that was made immutable stays so in every history without assignments to it. Missing: the content of the layer, and assignments (below). -/
theorem C206_immutable_partial (l : List (Oper C)) (x : Nat) (h : List (Op C)) (hn : ∀ y, .assign x y ∉ h) : ∀ s : State C, s.immutable x = true → (run l s h).immutable x = true := by
  induction h with
  | nil => intro s hs; exact hs
  | cons o h ih =>
    intro s hs
    refine ih (fun y hy => hn y (List.mem_cons_of_mem _ hy)) (step l s o) ?_
    cases o with
    | setImmutable y =>
      show set s.immutable y true x = true
      unfold set
      split
      · rfl
      · exact hs
    | assign y z =>
      show set s.immutable y (s.immutable z) x = true
      rw [set_other _ _ fun e => hn z (by rw [e]; exact List.mem_cons_self)]
      exact hs
    | updateFromOperator y =>
      unfold step
      dsimp only
      cases generator l y with
      | none => exact hs
      | some o =>
        dsimp only
        split
        · unfold State.run
          cases o.compute s.content <;> exact hs
        · exact hs
    | setDirty y => exact hs
    | resetDirty y => exact hs
    | modify y v => exact hs
    | updateOperators => exact hs

/-- **C206 (immutable, deviation)** An assignment makes an immutable layer mutable, and its content can be changed all the time, also by operators. -/
theorem C206_immutable_deviation (l : List (Oper C)) (s : State C) (x y : Nat) (hy : s.immutable y = false) (v : C) :
    (step l s (.assign x y)).immutable x = false ∧ (run l s [.setImmutable x, .modify x v]).content x = v ∧ (run l s [.setImmutable x, .modify x v]).immutable x = true :=
  ⟨(set_same _ _ _).trans hy, set_same _ _ _, set_same _ _ _⟩

/-! ### examples -/

example : (run [copier "/1" 0 1] (State.start fun _ => 0) [.modify 0 7, .setDirty 1, .updateFromOperator 1, .modify 0 8, .updateFromOperator 1]).content 1 = 8 := by decide +kernel

#print axioms C206_update_partial
#print axioms C206_mark_deviation
#print axioms C206_marked_deviation
#print axioms C206_stale_deviation
#print axioms C206_immutable_partial
#print axioms C206_immutable_deviation
end Envire.Dirty
