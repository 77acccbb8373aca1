import Verif.Viz.RemoveModel
import Verif.Tools.DeleteProps
import Mathlib.Algebra.Group.Basic

/-!
C176: removing the selected items. C177: frames in the visualization.
-/
namespace Envire.RemoveSel
open Env Delete

/-- specification: a frame without a parent -/
def Loose (s : Env) (o : Obj) : Prop := s.kind o = .frame ∧ ∀ p, (o, p) ∉ s.ftree

/-- specification: what is to be removed: the selected items that are attached and no frames without a parent, and all that is below them -/
def Doomed (s : Env) (sel : List Obj) (x : Obj) : Prop := ∃ o ∈ sel, s.owner o = .here ∧ ¬ Loose s o ∧ Subtree s o x

theorem doomed_down {s : Env} (hc : Closed s) (sel : List Obj) : Down s (Doomed s sel) := by
  constructor
  · rintro x p h ⟨o, ho, h1, h2, hs⟩
    exact ⟨o, ho, h1, h2, (Subtree.down hc o).1 x p h hs⟩
  · rintro x p h ⟨o, ho, h1, h2, hs⟩
    exact ⟨o, ho, h1, h2, (Subtree.down hc o).2 x p h hs⟩

theorem above_doomed {s : Env} (hc : Closed s) {pre : List Obj} {x o : Obj} (h : Above s x o) (hn : Doomed s pre o) : Doomed s pre x := by
  induction h with
  | one h1 => exact (doomed_down hc pre).1 _ _ h1 hn
  | more h1 _ ih => exact (doomed_down hc pre).1 _ _ h1 (ih hn)

theorem parent_iff {s : Env} (hw : WF s) (o p : Obj) : s.getParent o = some p ↔ (o, p) ∈ s.ftree := look_eq_some_iff hw.ftree_nodup

theorem rootFrame_iff {s : Env} (hw : WF s) (o : Obj) : rootFrame s o = false ↔ ¬ Loose s o := by
  unfold rootFrame Loose
  by_cases hk : s.kind o = .frame
  · cases hp : s.getParent o with
    | none =>
      simp only [hk, decide_true, Option.isNone_none, Bool.and_self, Bool.true_eq_false, true_and, false_iff, not_not]
      intro p h
      rw [(parent_iff hw o p).2 h] at hp
      cases hp
    | some p =>
      simp only [hk, decide_true, Option.isNone_some, Bool.and_false, true_and, true_iff]
      exact fun h => h p ((parent_iff hw o p).1 hp)
  · simp [hk]

theorem rootFrame_eq {s t : Env} (hw : WF s) (hwt : WF t) (hc : Closed s) {pre : List Obj} (hr : Restrict s t (Doomed s pre)) {o : Obj} (ho : ¬ Doomed s pre o) : rootFrame t o = rootFrame s o := by
  have hk : t.kind = s.kind := hr.stat.kind
  have hp : (t.getParent o).isNone = (s.getParent o).isNone := by
    cases hs : s.getParent o with
    | none =>
      cases ht : t.getParent o with
      | none => rfl
      | some p =>
        have := (parent_iff hwt o p).1 ht
        rw [hr.ftree] at this
        have := (parent_iff hw o p).2 (mem_dropSet.1 this).1
        rw [hs] at this
        cases this
    | some p =>
      have hm := (parent_iff hw o p).1 hs
      have hnp : ¬ Doomed s pre p := fun h => ho ((doomed_down hc pre).1 _ _ hm h)
      have : (o, p) ∈ t.ftree := by
        rw [hr.ftree]
        exact mem_dropSet.2 ⟨hm, ho, hnp⟩
      rw [(parent_iff hwt o p).2 this]
  unfold rootFrame
  rw [hk, hp]

theorem removeSelected_from {s : Env} (hw : WF s) (hc : Closed s) (ha : Acyclic s) (sel : List Obj) :
    ∀ (pre : List Obj) (t : Env), WF t → Closed t → Restrict s t (Doomed s pre) →
      ∃ s', removeSelected t sel = .ok s' ∧ (WF s' ∧ Closed s') ∧ Restrict s s' (Doomed s (pre ++ sel)) := by
  induction sel with
  | nil => intro pre t hwt hct hr; exact ⟨t, rfl, ⟨hwt, hct⟩, by simpa using hr⟩
  | cons o sel ih =>
    intro pre t hwt hct hr
    have happ : (pre ++ [o]) ++ sel = pre ++ o :: sel := by simp
    have hhere : ∀ x, t.owner x = .here ↔ s.owner x = .here ∧ ¬ Doomed s pre x := by
      intro x
      by_cases hx : Doomed s pre x
      · rw [hr.ownerIn x hx]
        exact ⟨fun h => absurd h (afterRelease_ne_here s x), fun h => absurd hx h.2⟩
      · rw [hr.ownerOut x hx]
        exact ⟨fun h => ⟨h, hx⟩, fun h => h.1⟩
    by_cases hcond : t.owner o = .here ∧ rootFrame t o = false
    · have hso := (hhere o).1 hcond.1
      have hroot : rootFrame s o = false := (rootFrame_eq hw hwt hc hr hso.2) ▸ hcond.2
      have hat : Acyclic t := ha.sub fun e he => by
        rw [hr.ftree] at he; exact (mem_dropSet.1 he).1
      obtain ⟨t1, e1, ⟨hw1, hc1⟩, r1⟩ := detach_step hwt hct hat hcond.1
      have hr' : Restrict s t1 (Doomed s (pre ++ [o])) := by
        refine (hr.trans r1).congr fun x => ?_
        rw [hr.subtree (doomed_down hc pre) o hso.2 x]
        constructor
        · rintro (⟨o', ho', hs⟩ | hs)
          · exact ⟨o', List.mem_append_left _ ho', hs⟩
          · exact ⟨o, by simp, hso.1, (rootFrame_iff hw o).1 hroot, hs⟩
        · rintro ⟨o', ho', h1, h2, hs⟩
          rcases List.mem_append.1 ho' with ho' | ho'
          · exact Or.inl ⟨o', ho', h1, h2, hs⟩
          · rw [List.mem_singleton] at ho'
            subst ho'
            exact Or.inr hs
      obtain ⟨s', he, hi, hrr⟩ := ih (pre ++ [o]) t1 hw1 hc1 hr'
      refine ⟨s', ?_, hi, by rw [← happ]; exact hrr⟩
      unfold removeSelected
      rw [if_pos hcond, e1]
      exact he
    · have hr' : Restrict s t (Doomed s (pre ++ [o])) := by
        refine hr.congr fun x => ?_
        constructor
        · rintro ⟨o', ho', hs⟩
          exact ⟨o', List.mem_append_left _ ho', hs⟩
        · rintro ⟨o', ho', h1, h2, hs⟩
          rcases List.mem_append.1 ho' with ho' | ho'
          · exact ⟨o', ho', h1, h2, hs⟩
          · rw [List.mem_singleton] at ho'
            subst ho'
            have hn : Doomed s pre o' := Classical.byContradiction fun hn => by
              refine hcond ⟨(hhere o').2 ⟨h1, hn⟩, ?_⟩
              rw [rootFrame_eq hw hwt hc hr hn]
              exact (rootFrame_iff hw o').2 h2
            rcases hs with rfl | hs | ⟨f, hf, hs⟩
            · exact hn
            · exact above_doomed hc hs hn
            · rcases hs with rfl | hs
              · exact (doomed_down hc pre).2 _ _ hf hn
              · exact (doomed_down hc pre).2 _ _ hf (above_doomed hc hs hn)
      obtain ⟨s', he, hi, hrr⟩ := ih (pre ++ [o]) t hwt hct hr'
      refine ⟨s', ?_, hi, by rw [← happ]; exact hrr⟩
      unfold removeSelected
      rw [if_neg hcond]
      exact he

/-- **C176** For an environment reached by well-used calls with an acyclic frame tree, and any selection (an item and items below it, in any order, items that are gone, the root): removing the selected items does not fail.
Afterwards exactly the items are there that were not selected and are not below a selected item, and the frames without a parent; they keep their ids and, in the old order, all relations among themselves. -/
theorem C176_remove {r : Obj} {s : Env} (h : Reach Good r s) (ha : Acyclic s) (sel : List Obj) :
    ∃ s', removeSelected s sel = .ok s' ∧
      (∀ id x, s'.getItem id = some x ↔ s.getItem id = some x ∧ ¬ Doomed s sel x) ∧
      (∀ x, s'.owner x = .here ↔ s.owner x = .here ∧ ¬ Doomed s sel x) ∧ s'.uid = s.uid ∧
      (open Classical in
        let keep := fun l : List (Obj × Obj) => l.filter (fun e => decide (¬ Doomed s sel e.1 ∧ ¬ Doomed s sel e.2))
        s'.ftree = keep s.ftree ∧ s'.ltree = keep s.ltree ∧ s'.opIn = keep s.opIn ∧ s'.opOut = keep s.opOut ∧
        s'.cmap = keep s.cmap) := by
  obtain ⟨hw, hc⟩ := h.wf_closed
  have h0 : Restrict s s (Doomed s []) := (Restrict.empty s).congr fun x => by
    constructor
    · intro h; exact h.elim
    · rintro ⟨o, ho, _⟩; simp at ho
  obtain ⟨s', he, ⟨hw', _⟩, hr⟩ := removeSelected_from hw hc ha sel [] s hw hc h0
  refine ⟨s', he, Restrict.getItem hw hw' hr, ?_, hr.uid, ⟨hr.ftree, hr.ltree, hr.opIn, hr.opOut, hr.cmap⟩⟩
  intro x
  by_cases hx : Doomed s sel x
  · rw [hr.ownerIn x hx]
    exact ⟨fun h => absurd h (afterRelease_ne_here s x), fun h => absurd hx h.2⟩
  · rw [hr.ownerOut x hx]
    exact ⟨fun h => ⟨h, hx⟩, fun h => h.1⟩

/-- **C176** The order and the repetition of the selected items does not matter. -/
theorem C176_order {r : Obj} {s s1 s2 : Env} (h : Reach Good r s) (ha : Acyclic s) {sel sel' : List Obj} (hs : ∀ o, o ∈ sel ↔ o ∈ sel')
    (h1 : removeSelected s sel = .ok s1) (h2 : removeSelected s sel' = .ok s2) :
    s1.items = s2.items ∧ s1.ftree = s2.ftree ∧ s1.ltree = s2.ltree ∧ s1.opIn = s2.opIn ∧ s1.opOut = s2.opOut ∧ s1.cmap = s2.cmap ∧ s1.owner = s2.owner ∧ s1.uid = s2.uid := by
  obtain ⟨hw, hc⟩ := h.wf_closed
  have h0 : Restrict s s (Doomed s []) := (Restrict.empty s).congr fun x => by
    constructor
    · intro h; exact h.elim
    · rintro ⟨o, ho, _⟩; simp at ho
  obtain ⟨t1, e1, _, r1⟩ := removeSelected_from hw hc ha sel [] s hw hc h0
  obtain ⟨t2, e2, _, r2⟩ := removeSelected_from hw hc ha sel' [] s hw hc h0
  rw [h1] at e1; cases e1
  rw [h2] at e2; cases e2
  have hn : ∀ x, Doomed s ([] ++ sel') x ↔ Doomed s ([] ++ sel) x := by
    intro x
    simp only [List.nil_append]
    constructor <;> rintro ⟨o, ho, h⟩
    · exact ⟨o, (hs o).2 ho, h⟩
    · exact ⟨o, (hs o).1 ho, h⟩
  have r2' := r2.congr hn
  refine ⟨r1.items.trans r2'.items.symm, r1.ftree.trans r2'.ftree.symm, r1.ltree.trans r2'.ltree.symm, r1.opIn.trans r2'.opIn.symm, r1.opOut.trans r2'.opOut.symm,
    r1.cmap.trans r2'.cmap.symm, funext fun x => ?_, r1.uid.trans r2'.uid.symm⟩
  by_cases hx : Doomed s ([] ++ sel) x
  · rw [r1.ownerIn x hx, r2'.ownerIn x hx]
  · rw [r1.ownerOut x hx, r2'.ownerOut x hx]

/-- **C176** The root frame of the environment, and every other frame without a parent, is never removed. -/
theorem C176_root {r : Obj} {s s' : Env} (h : Reach Good r s) (ha : Acyclic s) {sel : List Obj} {x : Obj} (hx : Loose s x) (ho : s.owner x = .here) (hs : removeSelected s sel = .ok s') : s'.owner x = .here := by
  obtain ⟨hw, hc⟩ := h.wf_closed
  obtain ⟨t, e, _, h3, _⟩ := C176_remove h ha sel
  rw [hs] at e; cases e
  refine (h3 x).2 ⟨ho, ?_⟩
  rintro ⟨o, _, _, h2, hs⟩
  rcases hs with rfl | hs | ⟨f, hf, _⟩
  · exact h2 hx
  · cases hs with
    | one h => exact hx.2 _ h
    | more h _ => exact hx.2 _ h
  · have := (hc.cmap _ hf).2.1
    rw [show ((x, f) : Obj × Obj).1 = x from rfl] at this
    simp [hx.1] at this

/-- a selection with a frame, one below it and the root -/
def exRemoved : Option (List Obj × List (Obj × Obj)) :=
  match run (init 0) treeHistory with
  | none => none
  | some s => match removeSelected s [2, 0, 1, 2] with
    | .ok s' => some (s'.items.map (·.2), s'.cmap)
    | _ => none

example : exRemoved = some ([0, 3, 5], [(5, 3)]) := by decide +kernel

/-! ### C177 -/

/-- **C177** (partial) After each update the group of a frame has the pose of the frame; the ellipse of a frame with an uncertainty is drawn once, if it is to be shown, and in the coordinates of the parent: the transform of its group undoes the pose.
Missing: frames that have no uncertainty any more (C177_stale_deviation). -/
theorem C177_frame_partial {G E : Type} [Group G] (b : Bool) (t : G) (cov : Option E) (g : FrameGroup G E) :
    (updateNode b t cov g).pose = t ∧ (∀ e, cov = some e → ∃ i el, (updateNode b t cov g).unc = some (i, el) ∧ t * i = 1 ∧ (el = if b then some e else none)) ∧
      (g.unc = none → cov = none → (updateNode b t cov g).unc = none) := by
  refine ⟨rfl, fun e he => ?_, fun h h' => ?_⟩
  · subst he
    exact ⟨_, _, rfl, mul_inv_cancel t, rfl⟩
  · subst h'
    exact h

/-- Violation: if the uncertainty of a frame is taken away the old ellipse stays, in a place that moves with the frame. -/
theorem C177_stale_deviation {G E : Type} [Group G] (t u : G) (e : E) (g : FrameGroup G E) :
    ∃ i, (updateNode true u none (updateNode true t (some e) g)).unc = some (i, some e) ∧ u * i = u * t⁻¹ ∧ (u ≠ t → u * i ≠ 1) := by
  refine ⟨t⁻¹, rfl, rfl, fun h h' => h ?_⟩
  exact mul_inv_eq_one.1 h'

#print axioms C176_remove
#print axioms C176_order
#print axioms C176_root
#print axioms C177_frame_partial
#print axioms C177_stale_deviation

end Envire.RemoveSel
