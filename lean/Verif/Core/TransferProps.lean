import Verif.Core.DetachProps
import Verif.Core.IdProps
/-! Property C28: attaching an item that belongs to another environment. -/
namespace Envire
open Env

/-- the same heap object as seen by two environments: attached to `a`, not to `b` -/
structure Shared (a b : Env) (o : Obj) : Prop where
  there : a.owner o = .here
  here : b.owner o = .elsewhere
  uid : b.uid o = a.uid o
  held : b.held o = a.held o
  kind : b.kind o = a.kind o

/-- b.attachItem(o) for an item of environment `a`, Environment.cpp l.289-306: `item->detach()` runs detachItem in
the old environment (Environment.cpp l.48-51), the temporary Ptr is dropped, then the item is entered here. The
result is the old environment afterwards and the outcome here. -/
def transfer (a b : Env) (o : Obj) : Res Env × Res Env :=
  match a.detachShallow o with
  | .ok a' => (.ok a', b.attachItem o)
  | r => (r, b.attachItem o)

theorem Env.Reach.legal {r : Obj} {s : Env} (h : Reach Good r s) : Reach Legal r s := by
  induction h with
  | init => exact .init
  | step h0 h1 h2 ih => exact .step ih (Good.legal h0.wf_closed.2 h1) h2

/-- `transfer` agrees with the one-environment model: the item survives the detach in `a` iff `b` finds it alive -/
theorem transfer_alive {r : Obj} {a a' b : Env} (ha : Reach Legal r a) {o : Obj} (hs : Shared a b o)
    (h : a.detachShallow o = .ok a') : (a'.owner o = .dead ↔ b.attachItem o = .fault .useAfterFree) := by
  have he := detachShallow_eff ha.wf hs.there
  rw [h] at he
  have he : DetachEff a a' o := he
  rw [he.ownerSelf]
  unfold afterRelease attachItem
  rw [hs.here, hs.held]
  cases a.held o
  · simp
  · simp only [if_true]
    constructor
    · intro h; cases h
    · intro h
      rw [attachCore_eq] at h
      split at h <;> cases h

/-- **C28, the code violates the property (1)**: for every item nobody else holds a reference to, the transfer uses
the item after it has been deleted. -/
theorem C28_transfer_use_after_free (a b : Env) (o : Obj) (hs : Shared a b o) (hh : a.held o = false) :
    (transfer a b o).2 = .fault .useAfterFree := by
  have : b.attachItem o = .fault .useAfterFree := by
    unfold attachItem; rw [hs.here, hs.held, hh]; rfl
  unfold transfer
  split <;> exact this

/-- **C28, the code violates the property (2)**: if the id is already used here the call throws, and the item has
left the old environment all the same. -/
theorem C28_transfer_loses_item {r : Obj} {a b : Env} (ha : Reach Good r a) {o : Obj} (hs : Shared a b o)
    (hh : a.held o = true) (hid : b.getItem (a.uid o) ≠ none) :
    ∃ a' b', transfer a b o = (.ok a', .throw b') ∧ a'.getItem (a.uid o) = none ∧ a'.isAttached o = false ∧
      b'.isAttached o = false := by
  obtain ⟨a', ha'⟩ := C05_detach_returns ha hs.there
  obtain ⟨-, c2, c3, -⟩ := C05_detach_leaves_no_link (ha.legal) hs.there ha'
  refine ⟨a', { b with owner := upd b.owner o .free }, ?_, c3, c2, ?_⟩
  · unfold transfer
    rw [ha']
    dsimp only
    congr 1
    unfold attachItem
    rw [hs.here, hs.held, hh]
    simp only [if_true]
    rw [attachCore_eq, if_pos]
    show b.uid o ∈ _
    rw [hs.uid]
    exact Decidable.byContradiction (fun hn => hid ((look_none_iff).2 hn))
  · unfold isAttached
    dsimp only
    rw [upd_self]

/-- **C28, what holds**: with an outside reference and an id not used here, the item leaves the old environment
without any link, everything else there is unchanged, and it is attached here under the same id, with every other item
and all relations here unchanged. (Missing: items without outside reference, ids already used here.) -/
theorem C28_transfer_partial {r r' : Obj} {a b : Env} (ha : Reach Good r a) (hb : Reach Legal r' b) {o : Obj}
    (hs : Shared a b o) (hh : a.held o = true) (hid : b.getItem (a.uid o) = none) :
    ∃ a' b', transfer a b o = (.ok a', .ok b') ∧
      Unlinked a' o ∧ a'.isAttached o = false ∧ a'.getItem (a.uid o) = none ∧
      (∀ id y, y ≠ o → (a'.getItem id = some y ↔ a.getItem id = some y)) ∧
      b'.owner o = .here ∧ b'.uid o = a.uid o ∧
      (∀ id, b'.getItem id = if id = a.uid o then some o else b.getItem id) ∧
      RelSame b b' ∧ b'.log = b.log ++ [⟨.item, .add, o, none, a.uid o, []⟩] := by
  have hL := ha.legal
  obtain ⟨a', ha'⟩ := C05_detach_returns ha hs.there
  obtain ⟨c1, c2, c3, -⟩ := C05_detach_leaves_no_link hL hs.there ha'
  obtain ⟨-, -, -, -, -, -, -, -, -, c4⟩ := C06_detach_keeps_the_rest hL hs.there ha'
  have hn : b.uid o ∉ b.items.map (·.1) := by rw [hs.uid]; exact (look_none_iff).1 hid
  refine ⟨a', { b with owner := upd (upd b.owner o .free) o .here, items := ins (b.uid o) o b.items,
                       log := b.log ++ [⟨.item, .add, o, none, b.uid o, []⟩] },
    ?_, c1, c2, c3, c4, upd_self _ _ _, hs.uid, ?_, ⟨rfl, rfl, rfl, rfl, rfl⟩, by rw [hs.uid]⟩
  · unfold transfer
    rw [ha']
    dsimp only
    congr 1
    unfold attachItem
    rw [hs.here, hs.held, hh]
    simp only [if_true]
    rw [attachCore_eq, if_neg (show b.uid o ∉ b.items.map (·.1) from hn)]
    rfl
  · intro id
    unfold getItem
    dsimp only
    by_cases h : id = a.uid o
    · subst h; rw [if_pos rfl, hs.uid, look_ins_self hb.wf.items_nodup (by rw [← hs.uid]; exact hn)]
    · rw [if_neg h, look_ins_ne (by rw [hs.uid]; exact h)]

/-- environment `a` with a linked map 1 that is held from outside, and an environment `b` that sees it as foreign -/
def ownHistory : List Op :=
  [.alloc 1 .cmap ['/', 'm'] true 0 0, .alloc 2 .frame [] false 0 0, .addChildF 0 2, .attachMap 1 (some 2)]
def foreignHistory : List Op :=
  [.alloc 1 .cmap ['/', 'm'] true 0 0, .extAttach 1 ['/', 'm'], .alloc 3 .layer ['x'] false 0 0, .attach 3]

example : ∃ a b, run (init 0) ownHistory = some a ∧ run (init 9) foreignHistory = some b ∧ Shared a b 1 ∧
    a.held 1 = true ∧ b.getItem (a.uid 1) = none := by
  obtain ⟨a, ha, h1, h2, h3, h4⟩ := ex_of_any (o := run (init 0) ownHistory)
    (P := fun s => s.owner 1 = .here ∧ s.uid 1 = ['/', 'm'] ∧ s.held 1 = true ∧ s.kind 1 = .cmap) (by decide +kernel)
  obtain ⟨b, hb, k1, k2, k3, k4, k5⟩ := ex_of_any (o := run (init 9) foreignHistory)
    (P := fun s => s.owner 1 = .elsewhere ∧ s.uid 1 = ['/', 'm'] ∧ s.held 1 = true ∧ s.kind 1 = .cmap ∧
      s.getItem ['/', 'm'] = none) (by decide +kernel)
  exact ⟨a, b, ha, hb, ⟨h1, k1, k2.trans h2.symm, k3.trans h3.symm, k4.trans h4.symm⟩, h3, by rw [h2]; exact k5⟩

end Envire

#print axioms Envire.C28_transfer_use_after_free
#print axioms Envire.C28_transfer_loses_item
#print axioms Envire.C28_transfer_partial
