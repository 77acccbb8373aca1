import Verif.Core.TypedModel
import Verif.Core.LinkProps
import Verif.Core.IdProps

/-!
C208: items and layers of one class.
-/
namespace Envire.Typed
open Envire.Env

/-! ### specification -/

/-- what the only element of a class among some items is: that one, or an exception for several ones or none -/
def OnlyOne (mem : Obj → Prop) (is : Obj → Bool) : Answer → Prop
  | .found o => mem o ∧ is o = true ∧ ∀ p, mem p → is p = true → p = o
  | .several => ∃ a b, a ≠ b ∧ mem a ∧ mem b ∧ is a = true ∧ is b = true
  | .missing => ∀ p, mem p → is p = false

/-! ### proofs -/

theorem only_some (is : Obj → Bool) (r : Obj) (l : List Obj) : only is (some r) l = if l.any is then .several else .found r := by
  induction l with
  | nil => rfl
  | cons x l ih =>
    unfold only
    cases hx : is x with
    | true => simp [hx]
    | false => rw [if_neg (by simp), ih]; simp [hx]

theorem only_spec (is : Obj → Bool) (l : List Obj) (hl : l.Nodup) : OnlyOne (· ∈ l) is (only is none l) := by
  induction l with
  | nil => intro p hp; cases hp
  | cons x l ih =>
    obtain ⟨hx, hl⟩ := List.nodup_cons.1 hl
    unfold only
    cases h : is x with
    | true =>
      rw [if_pos rfl, only_some]
      cases ha : l.any is with
      | true =>
        obtain ⟨y, hy, hi⟩ := List.any_eq_true.1 ha
        rw [if_pos rfl]
        exact ⟨x, y, fun c => hx (c ▸ hy), List.mem_cons_self, List.mem_cons_of_mem _ hy, h, hi⟩
      | false =>
        rw [if_neg (by simp)]
        refine ⟨List.mem_cons_self, h, fun p hp hi => ?_⟩
        rcases List.mem_cons.1 hp with c | c
        · exact c
        · exact absurd (List.any_eq_true.2 ⟨p, c, hi⟩) (by rw [ha]; simp)
    | false =>
      rw [if_neg (by simp)]
      have := ih hl
      cases ho : only is none l with
      | found o =>
        rw [ho] at this
        refine ⟨List.mem_cons_of_mem _ this.1, this.2.1, fun p hp hi => ?_⟩
        rcases List.mem_cons.1 hp with c | c
        · rw [c, h] at hi; cases hi
        · exact this.2.2 p c hi
      | several =>
        rw [ho] at this
        obtain ⟨a, b, h1, h2, h3, h4⟩ := this
        exact ⟨a, b, h1, List.mem_cons_of_mem _ h2, List.mem_cons_of_mem _ h3, h4⟩
      | missing =>
        rw [ho] at this
        intro p hp
        rcases List.mem_cons.1 hp with c | c
        · rw [c]; exact h
        · exact this p c

theorem OnlyOne.congr {m m' : Obj → Prop} (h : ∀ o, m o ↔ m' o) {is : Obj → Bool} {a : Answer} (ha : OnlyOne m is a) : OnlyOne m' is a := by
  have e : m = m' := funext fun o => propext (h o)
  rw [← e]; exact ha

/-- the answer is determined: the three cases exclude each other -/
theorem OnlyOne.unique {m : Obj → Prop} {is : Obj → Bool} {a b : Answer} (ha : OnlyOne m is a) (hb : OnlyOne m is b) : a = b := by
  cases a <;> cases b <;> first | rfl | skip
  · rw [ha.2.2 _ hb.1 hb.2.1]
  · obtain ⟨x, y, n, hx, hy, ix, iy⟩ := hb
    exact absurd ((ha.2.2 x hx ix).trans (ha.2.2 y hy iy).symm) n
  · exact absurd ha.2.1 (by rw [hb _ ha.1]; simp)
  · obtain ⟨x, y, n, hx, hy, ix, iy⟩ := ha
    exact absurd ((hb.2.2 x hx ix).trans (hb.2.2 y hy iy).symm) n
  · obtain ⟨x, y, n, hx, hy, ix, iy⟩ := ha
    exact absurd ix (by rw [hb _ hx]; simp)
  · exact absurd hb.2.1 (by rw [ha _ hb.1]; simp)
  · obtain ⟨x, y, n, hx, hy, ix, iy⟩ := hb
    exact absurd ix (by rw [ha _ hx]; simp)

theorem mem_items {r : Obj} {s : Env} (h : Reach Legal r s) (o : Obj) : o ∈ s.items.map (·.2) ↔ s.owner o = .here := by
  have hw := h.wf
  rw [List.mem_map]
  constructor
  · rintro ⟨⟨id, p⟩, hp, rfl⟩
    exact ((hw.items_iff id p).1 hp).1
  · intro ho
    exact ⟨(s.uid o, o), (hw.items_iff _ o).2 ⟨ho, rfl⟩, rfl⟩

/-- **C208 (the only item)** After any legal calls, `getItem<T>()` returns the only attached item of the class, and throws if there are several ones or none. -/
theorem C208_item {r : Obj} {s : Env} (h : Reach Legal r s) (is : Obj → Bool) (a : Answer) :
    getItem s is = a ↔ OnlyOne (fun o => s.owner o = .here) is a := by
  have hs : OnlyOne (fun o => s.owner o = .here) is (getItem s is) := (only_spec is _ (C01_ids_index_items h).2.2.2.2.2).congr (mem_items h)
  exact ⟨fun e => e ▸ hs, fun ha => hs.unique ha⟩

/-- **C208 (by id)** `getItem<T>(id)` is the attached item with that id if it is of the class, and NULL otherwise. -/
theorem C208_by_id {r : Obj} {s : Env} (h : Reach Legal r s) (is : Obj → Bool) (id : Uid) (o : Obj) :
    getItemById s is id = some o ↔ s.owner o = .here ∧ s.uid o = id ∧ is o = true := by
  have hw := h.wf
  have h1 : ∀ p, look id s.items = some p ↔ s.owner p = .here ∧ s.uid p = id := fun p => (look_eq_some_iff hw.items_nodup).trans (hw.items_iff id p)
  unfold getItemById
  cases hl : look id s.items with
  | none =>
    constructor
    · intro c; cases c
    · rintro ⟨a, b, _⟩
      rw [(h1 o).2 ⟨a, b⟩] at hl; cases hl
  | some p =>
    have hp := (h1 p).1 hl
    dsimp only
    constructor
    · intro c
      split at c
      · rename_i hi; cases c; exact ⟨hp.1, hp.2, hi⟩
      · cases c
    · rintro ⟨a, b, c⟩
      have e : some p = some o := hl.symm.trans ((h1 o).2 ⟨a, b⟩)
      cases e
      rw [if_pos c]

/-- **C208 (all items)** `getItems<T>()` lists exactly the attached items of the class, each once. -/
theorem C208_items {r : Obj} {s : Env} (h : Reach Legal r s) (is : Obj → Bool) :
    (∀ o, o ∈ getItems s is ↔ s.owner o = .here ∧ is o = true) ∧ (getItems s is).Nodup := by
  refine ⟨fun o => ?_, (C01_ids_index_items h).2.2.2.2.2.filter _⟩
  unfold getItems
  rw [List.mem_filter, mem_items h]

/-- **C208 (inputs and outputs, partial)** `getInput<T>()` and `getOutput<T>()` give the only layer of the class among the inputs (outputs) of the operator and throw if there are several ones or none, provided no
link exists twice.
Missing: links that exist twice (C208_twice_deviation). -/
theorem C208_link_partial (s : Env) (is : Obj → Bool) (op : Obj) (a : Answer) :
    ((s.getInputs op).Nodup → (getInput s is op = a ↔ OnlyOne (fun l => (op, l) ∈ s.opIn) is a)) ∧
    ((s.getOutputs op).Nodup → (getOutput s is op = a ↔ OnlyOne (fun l => (op, l) ∈ s.opOut) is a)) := by
  constructor
  · intro hn
    have hs : OnlyOne (fun l => (op, l) ∈ s.opIn) is (getInput s is op) := (only_spec is _ hn).congr fun _ => mem_getInputs
    exact ⟨fun e => e ▸ hs, fun ha => hs.unique ha⟩
  · intro hn
    have hs : OnlyOne (fun l => (op, l) ∈ s.opOut) is (getOutput s is op) := (only_spec is _ hn).congr fun _ => mem_getOutputs
    exact ⟨fun e => e ▸ hs, fun ha => hs.unique ha⟩

/-- **C208 (what holds for all links)** Also if links exist twice: a layer that is returned is the only one of the class, and "none" is thrown exactly if there is none. -/
theorem C208_link_sound (s : Env) (is : Obj → Bool) (op : Obj) :
    (∀ o, getInput s is op = .found o → OnlyOne (fun l => (op, l) ∈ s.opIn) is (.found o)) ∧ (getInput s is op = .missing ↔ OnlyOne (fun l => (op, l) ∈ s.opIn) is .missing) ∧
    (∀ o, getOutput s is op = .found o → OnlyOne (fun l => (op, l) ∈ s.opOut) is (.found o)) ∧ (getOutput s is op = .missing ↔ OnlyOne (fun l => (op, l) ∈ s.opOut) is .missing) := by
  have key : ∀ l : List Obj, (∀ o, only is none l = .found o → OnlyOne (· ∈ l) is (.found o)) ∧ (only is none l = .missing ↔ OnlyOne (· ∈ l) is .missing) := by
    intro l
    induction l with
    | nil => exact ⟨(fun o c => by cases c), ⟨(fun _ p hp => by cases hp), fun _ => rfl⟩⟩
    | cons x l ih =>
      unfold only
      cases h : is x with
      | true =>
        rw [if_pos rfl, only_some]
        refine ⟨fun o c => ?_, ⟨fun c => ?_, fun c => ?_⟩⟩
        · cases ha : l.any is with
          | true => rw [ha] at c; cases c
          | false =>
            rw [ha, if_neg (by simp)] at c
            cases c
            refine ⟨List.mem_cons_self, h, fun p hp hi => ?_⟩
            rcases List.mem_cons.1 hp with c | c
            · exact c
            · exact absurd (List.any_eq_true.2 ⟨p, c, hi⟩) (by rw [ha]; simp)
        · split at c <;> cases c
        · exact absurd (c x List.mem_cons_self) (by rw [h]; simp)
      | false =>
        rw [if_neg (by simp)]
        refine ⟨fun o c => ?_, ⟨fun c => ?_, fun c => ?_⟩⟩
        · have := ih.1 o c
          refine ⟨List.mem_cons_of_mem _ this.1, this.2.1, fun p hp hi => ?_⟩
          rcases List.mem_cons.1 hp with c | c
          · rw [c, h] at hi; cases hi
          · exact this.2.2 p c hi
        · intro p hp
          rcases List.mem_cons.1 hp with e | e
          · rw [e]; exact h
          · exact ih.2.1 c p e
        · exact ih.2.2 fun p hp => c p (List.mem_cons_of_mem _ hp)
  have ei : (fun l => l ∈ s.getInputs op) = fun l => (op, l) ∈ s.opIn := funext fun l => propext mem_getInputs
  have eo : (fun l => l ∈ s.getOutputs op) = fun l => (op, l) ∈ s.opOut := funext fun l => propext mem_getOutputs
  have k1 := key (s.getInputs op)
  have k2 := key (s.getOutputs op)
  rw [ei] at k1
  rw [eo] at k2
  exact ⟨k1.1, k1.2, k2.1, k2.2⟩

/-- **C208 (link twice, deviation)** Layer 3 is the only input of its class of operator 2, but because it was added twice `getInput` throws "more than one input layer". -/
theorem C208_twice_deviation :
    ∃ s, run (init 0) (chainHistory ++ [.addInput 2 3]) = some s ∧ getInput s (· = 3) 2 = .several ∧ OnlyOne (fun l => (2, l) ∈ s.opIn) (· = 3) (.found 3) := by
  obtain ⟨s, h1, h2, h3⟩ : ∃ s, run (init 0) (chainHistory ++ [.addInput 2 3]) = some s ∧ getInput s (· = 3) 2 = .several ∧ (2, 3) ∈ s.opIn := ex_of_any (by decide +kernel)
  exact ⟨s, h1, h2, h3, by simp, fun l _ h => of_decide_eq_true h⟩

/-- **C208 (generated layers, partial)** `getGeneratedFrom<T>(l)` lists exactly the outputs of the class of the operators that read `l`.
Missing: each once (C208_generated_deviation). -/
theorem C208_generated_partial (s : Env) (is : Obj → Bool) (l x : Obj) :
    x ∈ getGeneratedFrom s is l ↔ is x = true ∧ ∃ op, (op, l) ∈ s.opIn ∧ (op, x) ∈ s.opOut := by
  unfold getGeneratedFrom
  rw [List.mem_filter, (C13_generated_from s l).1 x]
  constructor
  · rintro ⟨⟨op, h1, h2⟩, h3⟩
    exact ⟨h3, op, mem_getInputs.1 h1, mem_getOutputs.1 h2⟩
  · rintro ⟨h3, op, h1, h2⟩
    exact ⟨⟨op, mem_getInputs.2 h1, mem_getOutputs.2 h2⟩, h3⟩

/-- **C208 (generated layers, deviation)** Two operators may have the same output: the layer is listed twice, and only the operator at the lower address is its generator. -/
theorem C208_generated_deviation :
    ∃ s, run (init 0) (chainHistory ++ [.addOutput 2 4]) = some s ∧ getGeneratedFrom s (fun _ => true) 3 = [4, 5, 4] ∧ (1, 4) ∈ s.opOut ∧ (2, 4) ∈ s.opOut ∧ s.getGenerator 4 = some 1 :=
  ex_of_any (by decide +kernel)

/-- **C208 (generator, deviation)** Layer::getGenerator of an attached layer that no operator generates returns NULL instead of the documented exception; for other layers it is an operator that has it as output. -/
theorem C208_generator_deviation (s : Env) (l : Obj) (hl : s.owner l = .here) :
    ((∀ op, (op, l) ∉ s.opOut) → layerGenerator s l = .ok none) ∧ (∀ op, layerGenerator s l = .ok (some op) → (op, l) ∈ s.opOut) ∧
    ((∃ op, (op, l) ∈ s.opOut) → ∃ op, layerGenerator s l = .ok (some op)) := by
  have g := (C13_generated_from s l).2
  unfold layerGenerator
  rw [hl]
  refine ⟨fun h => ?_, fun op h => ?_, ?_⟩
  · rw [g.2.2 fun op c => h op (mem_getOutputs.1 c)]
  · have e : s.getGenerator l = some op := by simpa using h
    exact mem_getOutputs.1 (g.1 op e)
  · rintro ⟨op, h⟩
    cases hg : s.getGenerator l with
    | none => exact absurd (mem_getOutputs.2 h) (g.2.1 hg op)
    | some p => exact ⟨p, rfl⟩

/-! ### examples -/

example : ∃ s, run (init 0) chainHistory = some s ∧ (getItem s (fun o => decide (o = 3)) = .found 3 ∧ getItem s (fun o => (s.kind o).isLayer) = .several ∧ getItem s (fun o => s.kind o = .cmap) = .missing ∧
    (s.getInputs 2).Nodup ∧ getInput s (· = 4) 2 = .found 4 ∧ getOutput s (fun o => (s.kind o).isLayer) 2 = .found 5 ∧ getItems s (fun o => s.kind o = .op) = [1, 2] ∧ layerGenerator s 3 = .ok none ∧ s.owner 3 = .here) := by
  obtain ⟨s, h1, h2⟩ : ∃ s, run (init 0) chainHistory = some s ∧ (getItem s (fun o => decide (o = 3)) = .found 3 ∧ getItem s (fun o => (s.kind o).isLayer) = .several ∧ getItem s (fun o => s.kind o = .cmap) = .missing ∧
    (s.getInputs 2).Nodup ∧ getInput s (· = 4) 2 = .found 4 ∧ getOutput s (fun o => (s.kind o).isLayer) 2 = .found 5 ∧ getItems s (fun o => s.kind o = .op) = [1, 2] ∧ s.getGenerator 3 = none ∧ s.owner 3 = .here) := ex_of_any (by decide +kernel)
  obtain ⟨a, b, c, d, e, f, g, i, j⟩ := h2
  exact ⟨s, h1, a, b, c, d, e, f, g, by unfold layerGenerator; rw [j, i], j⟩

#print axioms C208_item
#print axioms C208_by_id
#print axioms C208_items
#print axioms C208_link_partial
#print axioms C208_link_sound
#print axioms C208_twice_deviation
#print axioms C208_generated_partial
#print axioms C208_generated_deviation
#print axioms C208_generator_deviation
end Envire.Typed
