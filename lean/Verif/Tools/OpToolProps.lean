import Verif.Tools.OpToolModel
import Verif.Core.IdProps
import Verif.Core.Closed
import Verif.Core.CloneProps
import Verif.Tools.DeleteProps
/-! Property C194: tools that add an operator to an environment. -/
namespace Envire.OpTool
open Envire Envire.Env

/-- specification: `s'` is `s` with one more item, the operator `o` with the given inputs and outputs -/
structure Added (s s' : Env) (o : Obj) (is os : List Obj) : Prop where
  fresh : s.getItem (s'.uid o) = none
  items : ∀ id x, s'.getItem id = some x ↔ s.getItem id = some x ∨ (id = s'.uid o ∧ x = o)
  ids : ∀ x, x ≠ o → s'.uid x = s.uid x
  inputs : ∀ p, s'.getInputs p = if p = o then is else s.getInputs p
  outputs : ∀ p, s'.getOutputs p = if p = o then os else s.getOutputs p
  frames : s'.ftree = s.ftree
  layers : s'.ltree = s.ltree
  maps : s'.cmap = s.cmap

theorem filter_ins (k v : Obj) (q : Obj) : ∀ l : List (Obj × Obj), ((ins k v l).filter (fun e => decide (e.1 = q))).map (·.2) =
    if q = k ∧ l.filter (fun e => decide (e.1 = q)) = [] then [v] else if q = k then ((ins k v l).filter (fun e => decide (e.1 = q))).map (·.2) else (l.filter (fun e => decide (e.1 = q))).map (·.2) := by
  intro l
  induction l with
  | nil =>
    by_cases h : q = k
    · simp [ins, h]
    · simp [ins, h, Ne.symm h]
  | cons p t ih =>
    by_cases h : q = k
    · subst h
      by_cases h2 : (p :: t).filter (fun e => decide (e.1 = q)) = []
      · rw [if_pos ⟨rfl, h2⟩]
        have hp : ¬ p.1 = q := by
          intro hp
          rw [List.filter_cons_of_pos (by simpa using hp)] at h2
          cases h2
        rw [List.filter_cons_of_neg (by simpa using hp)] at h2
        rw [if_pos ⟨rfl, h2⟩] at ih
        unfold ins
        split
        · simp [h2, hp]
        · rw [List.filter_cons_of_neg (by simpa using hp)]
          exact ih
      · rw [if_neg (fun h => h2 h.2), if_pos rfl]
    · rw [if_neg (fun hh => h hh.1), if_neg h]
      rw [if_neg (fun hh => h hh.1), if_neg h] at ih
      unfold ins
      split
      · simp [Ne.symm h]
      · by_cases hp : p.1 = q
        · rw [List.filter_cons_of_pos (by simpa using hp), List.filter_cons_of_pos (by simpa using hp), List.map_cons, List.map_cons, ih]
        · rw [List.filter_cons_of_neg (by simpa using hp), List.filter_cons_of_neg (by simpa using hp), ih]

/-- a state in which a step of a tool may be done -/
structure Ready (s s' : Env) (o : Obj) : Prop where
  wf : WF s'
  closed : Closed s'
  here : s'.owner o = .here
  kind : s'.kind o = .op
  owners : ∀ x, x ≠ o → s'.owner x = s.owner x
  kinds : ∀ x, x ≠ o → s'.kind x = s.kind x

/-- the new operator is attached -/
theorem attached {s : Env} (hw : WF s) (hc : Closed s) {o : Obj} (ho : s.owner o = .dead) (ia oa : Nat) :
    ∃ s', (new s o ia oa).attachItem o = .ok s' ∧ Added s s' o [] [] ∧ Ready s s' o := by
  have hex : s.exec (.alloc o .op [] true ia oa) = .ok (new s o ia oa) := by
    simp only [Env.exec]
    rw [if_pos ho]
    rfl
  have hw' : WF (new s o ia oa) := by
    have := hw.exec (.alloc o .op [] true ia oa) trivial
    rwa [hex] at this
  have hc' : Closed (new s o ia oa) := by
    have := hc.exec hw (.alloc o .op [] true ia oa) trivial rfl
    rwa [hex] at this
  have hfree : (new s o ia oa).owner o = .free := upd_self _ _ _
  have huid : (new s o ia oa).uid o = [] := upd_self _ _ _
  obtain ⟨n, s', h1, -, -, -, hnone, -, hself, hhere, hother, hkeep, hrel⟩ := automatic_id_fresh hw' hfree (Or.inl huid)
  have h1' := attachItem_free hfree
  rw [h1] at h1'
  have hkeys : ∀ e ∈ s.opIn, e.1 ≠ o := by
    intro e he hh
    have := (hc.opIn e he).1.1
    rw [hh, ho] at this; cases this
  have hkeys' : ∀ e ∈ s.opOut, e.1 ≠ o := by
    intro e he hh
    have := (hc.opOut e he).1.1
    rw [hh, ho] at this; cases this
  have hforms : s'.items = ins (s'.uid o) o s.items ∧ s'.kind = (new s o ia oa).kind ∧ s'.uid o ∉ s.items.map (·.1) := by
    split at h1'
    · cases h1'
    · rename_i hni
      cases h1'
      dsimp only
      rw [upd_self]
      exact ⟨rfl, rfl, hni⟩
  refine ⟨s', h1, ⟨hnone, ?_, ?_, ?_, ?_, hrel.ftree, hrel.ltree, hrel.cmap⟩, ⟨?_, ?_, hhere, ?_, ?_, ?_⟩⟩
  · intro id x
    show look id s'.items = some x ↔ look id s.items = some x ∨ _
    rw [hforms.1]
    by_cases hid : id = s'.uid o
    · subst hid
      have hn : look (s'.uid o) s.items = none := look_none_iff.2 hforms.2.2
      rw [look_ins_self hw.items_nodup hforms.2.2, hn]
      constructor
      · intro h; exact Or.inr ⟨rfl, (Option.some.inj h).symm⟩
      · rintro (h | ⟨-, rfl⟩)
        · cases h
        · rfl
    · rw [look_ins_ne hid]
      exact ⟨Or.inl, fun h => h.elim (fun h => h) (fun h => absurd h.1 hid)⟩
  · intro x hx
    rw [(hother x hx).1]
    exact upd_ne _ _ hx
  · intro p
    unfold getInputs
    rw [hrel.opIn]
    split
    · rename_i hp
      subst hp
      have : s.opIn.filter (fun e => decide (e.1 = p)) = [] := List.filter_eq_nil_iff.2 (fun e he => by simpa using hkeys e he)
      show (s.opIn.filter _).map _ = _
      rw [this]; rfl
    · rfl
  · intro p
    unfold getOutputs
    rw [hrel.opOut]
    split
    · rename_i hp
      subst hp
      have : s.opOut.filter (fun e => decide (e.1 = p)) = [] := List.filter_eq_nil_iff.2 (fun e he => by simpa using hkeys' e he)
      show (s.opOut.filter _).map _ = _
      rw [this]; rfl
    · rfl
  · have := hw'.exec (.attach o) trivial
    simp only [Env.exec] at this
    rwa [h1] at this
  · have := hc'.exec hw' (.attach o) (fun h => by rw [hfree] at h; cases h) rfl
    simp only [Env.exec] at this
    rwa [h1] at this
  · rw [hforms.2.1]; exact upd_self _ _ _
  · intro x hx
    rw [(hother x hx).2]
    exact upd_ne _ _ hx
  · intro x hx
    rw [hforms.2.1]
    exact upd_ne _ _ hx

theorem look_none_of_filter {l : List (Obj × Obj)} {o : Obj} (h : (l.filter (fun e => decide (e.1 = o))).map (·.2) = []) : look o l = none := by
  refine look_none_iff.2 (fun hm => ?_)
  obtain ⟨e, he, rfl⟩ := List.mem_map.1 hm
  have : e ∈ l.filter (fun x => decide (x.1 = e.1)) := List.mem_filter.2 ⟨he, by simp⟩
  rw [List.map_eq_nil_iff] at h
  rw [h] at this
  cases this

/-- an input is added to the new operator -/
theorem added_in {s s' : Env} {o l : Obj} {os : List Obj} (h : Added s s' o [] os) (hr : Ready s s' o) (hl : s'.owner l = .here) (hk : (s'.kind l).isLayer = true) :
    ∃ s'', s'.opAddInput o l = .ok s'' ∧ Added s s'' o [l] os ∧ Ready s s'' o := by
  have ho := hr.here
  have hnil : s'.getInputs o = [] := by rw [h.inputs, if_pos rfl]
  have hlook : look o s'.opIn = none := look_none_of_filter hnil
  have hres : s'.opAddInput o l = .ok { s' with opIn := ins o l s'.opIn } := by
    unfold opAddInput
    rw [if_neg (by rw [ho]; simp), if_neg (by rw [hnil]; rintro ⟨h1, h2⟩; exact h1 (Nat.le_zero.1 h2))]
    unfold addInput
    rw [if_neg (by rw [hlook]; simp)]
    unfold ensureAttached
    rw [ho]
    show ((match s'.owner l with | .dead => Res.fault .useAfterFree | .free => s'.attachItem l | _ => .ok s').bind _) = _
    rw [hl]
    rfl
  refine ⟨_, hres, ⟨h.fresh, h.items, h.ids, ?_, h.outputs, h.frames, h.layers, h.maps⟩, ⟨?_, ?_, ho, hr.kind, hr.owners, hr.kinds⟩⟩
  · intro p
    unfold getInputs
    dsimp only
    rw [filter_ins]
    by_cases hp : p = o
    · subst hp
      rw [if_pos ⟨rfl, List.map_eq_nil_iff.1 hnil⟩, if_pos rfl]
    · rw [if_neg (fun h => hp h.1), if_neg hp, if_neg hp]
      have := h.inputs p
      rw [if_neg hp] at this
      exact this
  · have := hr.wf.exec (.opAddInput o l) trivial
    simp only [Env.exec] at this
    rwa [hres] at this
  · have := hr.closed.exec hr.wf (.opAddInput o l) ⟨ho, by rw [hl]; simp⟩ (by simp [Env.typed, hr.kind, hk])
    simp only [Env.exec] at this
    rwa [hres] at this

theorem added_out {s s' : Env} {o l : Obj} {is : List Obj} (h : Added s s' o is []) (hr : Ready s s' o) (hl : s'.owner l = .here) (hk : (s'.kind l).isLayer = true) :
    ∃ s'', s'.opAddOutput o l = .ok s'' ∧ Added s s'' o is [l] ∧ Ready s s'' o := by
  have ho := hr.here
  have hnil : s'.getOutputs o = [] := by rw [h.outputs, if_pos rfl]
  have hlook : look o s'.opOut = none := look_none_of_filter hnil
  have hres : s'.opAddOutput o l = .ok { s' with opOut := ins o l s'.opOut } := by
    unfold opAddOutput
    rw [if_neg (by rw [ho]; simp), if_neg (by rw [hnil]; rintro ⟨h1, h2⟩; exact h1 (Nat.le_zero.1 h2))]
    unfold addOutput
    rw [if_neg (by rw [hlook]; simp)]
    unfold ensureAttached
    rw [ho]
    show ((match s'.owner l with | .dead => Res.fault .useAfterFree | .free => s'.attachItem l | _ => .ok s').bind _) = _
    rw [hl]
    rfl
  refine ⟨_, hres, ⟨h.fresh, h.items, h.ids, h.inputs, ?_, h.frames, h.layers, h.maps⟩, ⟨?_, ?_, ho, hr.kind, hr.owners, hr.kinds⟩⟩
  · intro p
    unfold getOutputs
    dsimp only
    rw [filter_ins]
    by_cases hp : p = o
    · subst hp
      rw [if_pos ⟨rfl, List.map_eq_nil_iff.1 hnil⟩, if_pos rfl]
    · rw [if_neg (fun h => hp h.1), if_neg hp, if_neg hp]
      have := h.outputs p
      rw [if_neg hp] at this
      exact this
  · have := hr.wf.exec (.opAddOutput o l) trivial
    simp only [Env.exec] at this
    rwa [hres] at this
  · have := hr.closed.exec hr.wf (.opAddOutput o l) ⟨ho, by rw [hl]; simp⟩ (by simp [Env.typed, hr.kind, hk])
    simp only [Env.exec] at this
    rwa [hres] at this

theorem eraseKey_id {l : List (Obj × Obj)} {o : Obj} (h : (l.filter (fun e => decide (e.1 = o))).map (·.2) = []) : eraseKey o l = l := by
  unfold eraseKey
  refine List.filter_eq_self.2 (fun e he => ?_)
  rw [List.map_eq_nil_iff] at h
  have := List.filter_eq_nil_iff.1 h e he
  simpa using this

theorem removeInputs_id {s : Env} {o : Obj} (h : s.getInputs o = []) : s.removeInputs o = s := by
  unfold removeInputs
  rw [eraseKey_id h]

theorem removeOutputs_id {s : Env} {o : Obj} (h : s.getOutputs o = []) : s.removeOutputs o = s := by
  unfold removeOutputs
  rw [eraseKey_id h]

theorem Added.no_inputs {s s' : Env} {o : Obj} {os : List Obj} (h : Added s s' o [] os) : s'.getInputs o = [] := by rw [h.inputs, if_pos rfl]

theorem Added.no_outputs {s s' : Env} {o : Obj} {is : List Obj} (h : Added s s' o is []) : s'.getOutputs o = [] := by rw [h.outputs, if_pos rfl]

theorem item_here {s : Env} (hw : WF s) {i : Uid} {g : Obj} (h : s.getItem i = some g) : s.owner g = .here := ((hw.items_iff i g).1 (look_some_mem h)).1

variable {cls : Obj → Class} {runs : Env → Bool} {s : Env} {o : Obj} {i j : Uid}

theorem find_some {p : Class → Bool} {g : Obj} (hi : s.getItem i = some g) (hg : p (cls g) = true) : find s cls p i = some g := by
  unfold find
  rw [hi]
  simp [Option.filter, hg]

theorem find_spec {p : Class → Bool} {g : Obj} (h : find s cls p i = some g) : s.getItem i = some g ∧ p (cls g) = true := by
  unfold find at h
  exact Option.filter_eq_some_iff.1 h

/-- maps are maps -/
def Typed (cls : Obj → Class) (s : Env) : Prop := ∀ x, s.owner x = .here → cls x ≠ .other → s.kind x = .cmap

theorem Ready.other {s s' : Env} {o : Obj} (h : Ready s s' o) (ho : s.owner o = .dead) (ht : Typed cls s) {g : Obj} (hg : s.owner g = .here) (hk : cls g ≠ .other) :
    s'.owner g = .here ∧ (s'.kind g).isLayer = true := by
  have hn : g ≠ o := by
    rintro rfl
    rw [ho] at hg; cases hg
  exact ⟨by rw [h.owners g hn, hg], by rw [h.kinds g hn, ht g hg hk]; rfl⟩

theorem gridToMls_finish (hw : WF s) (hc : Closed s) (ht : Typed cls s) (ho : s.owner o = .dead) {g m : Obj} (hi : s.getItem i = some g)
    (hj : s.getItem j = some m) (hg : cls g = .gridDouble ∨ cls g = .gridFloat) (hm : cls m = .mls) :
    ∃ s', gridToMls cls runs s o i j = finish runs o s' ∧ Added s s' o [g] [m] ∧ Ready s s' o := by
  obtain ⟨s1, a1, a2, a3⟩ := attached hw hc ho 1 1
  have hg' := a3.other ho ht (item_here hw hi) (by rcases hg with h | h <;> rw [h] <;> simp)
  obtain ⟨s2, b1, b2, b3⟩ := added_in a2 a3 hg'.1 hg'.2
  have hm' := b3.other ho ht (item_here hw hj) (by rw [hm]; simp)
  obtain ⟨s3, c1, c2, c3⟩ := added_out b2 b3 hm'.1 hm'.2
  refine ⟨s3, ?_, c2, c3⟩
  have f1 : find s cls Class.isGridBase i = some g := find_some hi (by rcases hg with h | h <;> rw [h] <;> rfl)
  have f2 : find s cls (fun c => c == .mls) j = some m := find_some hj (by rw [hm]; rfl)
  unfold gridToMls
  dsimp only
  rw [f1, f2, a1]
  dsimp only [lift, addIn]
  rw [if_pos (by rcases hg with h | h <;> simp [h]), b1]
  dsimp only
  rw [if_neg (by rw [b2.no_outputs]; simp)]
  unfold addOut
  dsimp only
  rw [c1]
  rfl

theorem finish_written {s s' : Env} {p : Obj} (h : finish runs o s = .written s' p) : s' = s ∧ p = o := by
  unfold finish at h
  split at h
  · cases h; exact ⟨rfl, rfl⟩
  · cases h

theorem finish_runs {s : Env} (hr : runs s = true) : finish runs o s = .written s o := by
  unfold finish
  rw [if_pos hr]

/-- **C194 (env_grid_to_mls)** The tool writes an environment only if the first id is that of a grid of floating point numbers and the second that of a MLS grid
(and it does so if the conversion works, next theorem). The environment then has one more item, whose id is printed and was not in use: the operator with this input and this output.
Everything else is as before. -/
theorem C194_grid_to_mls_partial (hw : WF s) (hc : Closed s) (ht : Typed cls s) (ho : s.owner o = .dead) (s' : Env) (p : Obj) :
    gridToMls cls runs s o i j = .written s' p → p = o ∧ ∃ g m, s.getItem i = some g ∧ s.getItem j = some m ∧ (cls g = .gridDouble ∨ cls g = .gridFloat) ∧ cls m = .mls ∧ Added s s' o [g] [m] := by
  intro h
  have key : ∃ g m, s.getItem i = some g ∧ s.getItem j = some m ∧ (cls g = .gridDouble ∨ cls g = .gridFloat) ∧ cls m = .mls := by
    obtain ⟨s1, a1, a2, a3⟩ := attached hw hc ho 1 1
    unfold gridToMls at h
    dsimp only at h
    rw [a1] at h
    dsimp only [lift] at h
    split at h
    · rename_i hany
      cases hf : find s cls Class.isGridBase i with
      | none => rw [hf] at hany; cases hany
      | some g =>
        rw [hf] at h hany
        have hg : cls g = .gridDouble ∨ cls g = .gridFloat := by simpa using hany
        have hi := (find_spec hf).1
        have hg' := a3.other ho ht (item_here hw hi) (by rcases hg with h | h <;> rw [h] <;> simp)
        obtain ⟨s2, b1, b2, b3⟩ := added_in a2 a3 hg'.1 hg'.2
        dsimp only [addIn] at h
        rw [b1] at h
        dsimp only [lift] at h
        rw [if_neg (by rw [b2.no_outputs]; simp)] at h
        cases hf2 : find s cls (fun c => c == .mls) j with
        | none => rw [hf2] at h; cases h
        | some m => exact ⟨g, m, hi, (find_spec hf2).1, hg, by simpa using (find_spec hf2).2⟩
    · cases h
  obtain ⟨g, m, hi, hj, hg, hm⟩ := key
  obtain ⟨s3, c1, c2, -⟩ := gridToMls_finish (runs := runs) hw hc ht ho hi hj hg hm
  rw [c1] at h
  obtain ⟨rfl, rfl⟩ := finish_written h
  exact ⟨rfl, g, m, hi, hj, hg, hm, c2⟩

theorem C194_grid_to_mls_works (hw : WF s) (hc : Closed s) (ht : Typed cls s) (ho : s.owner o = .dead) (hr : ∀ s, runs s = true) {g m : Obj} (hi : s.getItem i = some g)
    (hj : s.getItem j = some m) (hg : cls g = .gridDouble ∨ cls g = .gridFloat) (hm : cls m = .mls) :
    ∃ s', gridToMls cls runs s o i j = .written s' o ∧ Added s s' o [g] [m] := by
  obtain ⟨s', h1, h2, -⟩ := gridToMls_finish (runs := runs) hw hc ht ho hi hj hg hm
  exact ⟨s', h1.trans (finish_runs (hr _)), h2⟩

theorem mlsToGrid_finish (hw : WF s) (hc : Closed s) (ht : Typed cls s) (ho : s.owner o = .dead) {g m : Obj} (hi : s.getItem i = some m)
    (hj : s.getItem j = some g) (hm : cls m = .mls) (hg : cls g = .gridDouble) : ∃ s', mlsToGrid cls runs s o i j = finish runs o s' ∧ Added s s' o [m] [g] := by
  obtain ⟨s1, a1, a2, a3⟩ := attached hw hc ho 1 1
  have hm' := a3.other ho ht (item_here hw hi) (by rw [hm]; simp)
  obtain ⟨s2, b1, b2, b3⟩ := added_in a2 a3 hm'.1 hm'.2
  have hg' := b3.other ho ht (item_here hw hj) (by rw [hg]; simp)
  obtain ⟨s3, c1, c2, c3⟩ := added_out b2 b3 hg'.1 hg'.2
  refine ⟨s3, ?_, c2⟩
  have f1 : find s cls (fun c => c == .mls) i = some m := find_some hi (by rw [hm]; rfl)
  have f2 : find s cls (fun c => c == .gridDouble) j = some g := find_some hj (by rw [hg]; rfl)
  unfold mlsToGrid
  dsimp only
  rw [f1, f2, a1]
  dsimp only [lift, addIn]
  rw [removeInputs_id a2.no_inputs, b1]
  dsimp only
  rw [removeOutputs_id b2.no_outputs]
  unfold addOut
  dsimp only
  rw [c1]
  rfl

/-- **C194 (env_mls_to_grid)** the same with the maps exchanged; only grids of doubles are accepted -/
theorem C194_mls_to_grid_works (hw : WF s) (hc : Closed s) (ht : Typed cls s) (ho : s.owner o = .dead) (hr : ∀ s, runs s = true) {g m : Obj} (hi : s.getItem i = some m)
    (hj : s.getItem j = some g) (hm : cls m = .mls) (hg : cls g = .gridDouble) : ∃ s', mlsToGrid cls runs s o i j = .written s' o ∧ Added s s' o [m] [g] := by
  obtain ⟨s', h1, h2⟩ := mlsToGrid_finish (runs := runs) hw hc ht ho hi hj hm hg
  exact ⟨s', h1.trans (finish_runs (hr _)), h2⟩

theorem C194_mls_to_grid_partial (hw : WF s) (hc : Closed s) (ht : Typed cls s) (ho : s.owner o = .dead) (s' : Env) (p : Obj) :
    mlsToGrid cls runs s o i j = .written s' p → p = o ∧ ∃ m g, s.getItem i = some m ∧ s.getItem j = some g ∧ cls m = .mls ∧ cls g = .gridDouble ∧ Added s s' o [m] [g] := by
  intro h
  have key : ∃ m g, s.getItem i = some m ∧ s.getItem j = some g ∧ cls m = .mls ∧ cls g = .gridDouble := by
    obtain ⟨s1, a1, a2, a3⟩ := attached hw hc ho 1 1
    unfold mlsToGrid at h
    dsimp only at h
    rw [a1] at h
    dsimp only [lift] at h
    cases hf : find s cls (fun c => c == .mls) i with
    | none => rw [hf] at h; cases h
    | some m =>
      rw [hf] at h
      have hm : cls m = .mls := by simpa using (find_spec hf).2
      have hi := (find_spec hf).1
      have hm' := a3.other ho ht (item_here hw hi) (by rw [hm]; simp)
      obtain ⟨s2, b1, b2, b3⟩ := added_in a2 a3 hm'.1 hm'.2
      dsimp only [addIn] at h
      rw [removeInputs_id a2.no_inputs, b1] at h
      dsimp only [lift] at h
      cases hf2 : find s cls (fun c => c == .gridDouble) j with
      | none => rw [hf2] at h; cases h
      | some g => exact ⟨m, g, hi, (find_spec hf2).1, hm, by simpa using (find_spec hf2).2⟩
  obtain ⟨m, g, hi, hj, hm, hg⟩ := key
  obtain ⟨s3, c1, c2⟩ := mlsToGrid_finish (runs := runs) hw hc ht ho hi hj hm hg
  rw [c1] at h
  obtain ⟨rfl, rfl⟩ := finish_written h
  exact ⟨rfl, m, g, hi, hj, hm, hg, c2⟩

theorem illumination_finish (hw : WF s) (hc : Closed s) (ht : Typed cls s) (ho : s.owner o = .dead) {g : Obj} (hi : s.getItem i = some g)
    (hg : cls g ≠ .other) : ∃ s', illumination cls runs s o i = finish runs o s' ∧ Added s s' o [] [g] := by
  obtain ⟨s1, a1, a2, a3⟩ := attached hw hc ho 0 0
  have hg' := a3.other ho ht (item_here hw hi) hg
  obtain ⟨s3, c1, c2, c3⟩ := added_out a2 a3 hg'.1 hg'.2
  refine ⟨s3, ?_, c2⟩
  have f1 : find s cls Class.isGridBase i = some g := find_some hi (by cases h : cls g <;> first | rfl | exact absurd h hg)
  unfold illumination
  dsimp only
  rw [f1, a1]
  dsimp only [lift, addOut]
  rw [c1]

/-- **C194 (env_grid_illumination)** the operator has no input and the grid as output -/
theorem C194_illumination_works (hw : WF s) (hc : Closed s) (ht : Typed cls s) (ho : s.owner o = .dead) (hr : ∀ s, runs s = true) {g : Obj} (hi : s.getItem i = some g)
    (hg : cls g ≠ .other) : ∃ s', illumination cls runs s o i = .written s' o ∧ Added s s' o [] [g] := by
  obtain ⟨s', h1, h2⟩ := illumination_finish (runs := runs) hw hc ht ho hi hg
  exact ⟨s', h1.trans (finish_runs (hr _)), h2⟩

theorem C194_illumination_partial (hw : WF s) (hc : Closed s) (ht : Typed cls s) (ho : s.owner o = .dead) (s' : Env) (p : Obj) :
    illumination cls runs s o i = .written s' p → p = o ∧ ∃ g, s.getItem i = some g ∧ cls g ≠ .other ∧ Added s s' o [] [g] := by
  intro h
  have key : ∃ g, s.getItem i = some g ∧ cls g ≠ .other := by
    obtain ⟨s1, a1, a2, a3⟩ := attached hw hc ho 0 0
    unfold illumination at h
    dsimp only at h
    rw [a1] at h
    cases hf : find s cls Class.isGridBase i with
    | none => rw [hf] at h; cases h
    | some g =>
      refine ⟨g, (find_spec hf).1, fun hh => ?_⟩
      have := (find_spec hf).2
      rw [hh] at this; cases this
  obtain ⟨g, hi, hg⟩ := key
  obtain ⟨s3, c1, c2⟩ := illumination_finish (runs := runs) hw hc ht ho hi hg
  rw [c1] at h
  obtain ⟨rfl, rfl⟩ := finish_written h
  exact ⟨rfl, g, hi, hg, c2⟩

/-- **C194 (deviation)** An id that is not in the environment, or that of an item of another class, is not reported: the tools use a null pointer. Only the grid of
env_grid_to_mls is checked. -/
theorem C194_null_deviation (hw : WF s) (hc : Closed s) (ho : s.owner o = .dead) (hn : ∀ m, s.getItem i = some m → cls m = .other) :
    mlsToGrid cls runs s o i j = .crash ∧ illumination cls runs s o i = .crash ∧ gridToMls cls runs s o i j = .exception := by
  obtain ⟨s1, a1, a2, a3⟩ := attached hw hc ho 1 1
  obtain ⟨t1, t2, t3, t4⟩ := attached hw hc ho 0 0
  have hf : ∀ p : Class → Bool, p .other = false → find s cls p i = none := by
    intro p hp
    cases hh : find s cls p i with
    | none => rfl
    | some g =>
      obtain ⟨h1, h2⟩ := find_spec hh
      rw [hn g h1, hp] at h2
      cases h2
  refine ⟨?_, ?_, ?_⟩
  · unfold mlsToGrid
    dsimp only
    rw [hf _ rfl, a1]
    rfl
  · unfold illumination
    dsimp only
    rw [hf _ rfl, t2]
    rfl
  · unfold gridToMls
    dsimp only
    rw [hf _ rfl, a1]
    rfl

/-- the tool is used once for every address in `os` -/
def again (cls : Obj → Class) (runs : Env → Bool) (i j : Uid) : List Obj → Env → Option Env
  | [], s => some s
  | o :: os, s =>
    match gridToMls cls runs s o i j with
    | .written s' _ => again cls runs i j os s'
    | _ => none

/-- **C194 (deviation)** Using the tool again does not replace the operator of before: after n times there are n more operators with the same input and output. -/
theorem C194_again_deviation (hr : ∀ s, runs s = true) {g m : Obj} (hg : cls g = .gridDouble ∨ cls g = .gridFloat) (hm : cls m = .mls) : ∀ (os : List Obj) (s : Env), WF s → Closed s →
    (∀ o ∈ os, s.owner o = .dead ∧ cls o = .other) → os.Nodup → Typed cls s → s.getItem i = some g → s.getItem j = some m →
    ∃ s', again cls runs i j os s = some s' ∧ (∀ o ∈ os, s'.owner o = .here ∧ s'.getInputs o = [g] ∧ s'.getOutputs o = [m])
      ∧ ∀ p, p ∉ os → s'.owner p = s.owner p ∧ s'.getInputs p = s.getInputs p ∧ s'.getOutputs p = s.getOutputs p := by
  intro os
  induction os with
  | nil =>
    intro s _ _ _ _ _ _ _
    exact ⟨s, rfl, fun o ho => absurd ho List.not_mem_nil, fun p _ => ⟨rfl, rfl, rfl⟩⟩
  | cons o os ih =>
    intro s hw hc ho hnd ht hi hj
    have hnd' := List.nodup_cons.1 hnd
    obtain ⟨s1, h1, h2, h3⟩ := gridToMls_finish (runs := runs) hw hc ht (ho o List.mem_cons_self).1 hi hj hg hm
    rw [finish_runs (hr _)] at h1
    have hne : ∀ p ∈ os, p ≠ o := fun p hp he => hnd'.1 (he ▸ hp)
    have ht1 : Typed cls s1 := by
      intro x hx hcx
      by_cases hxo : x = o
      · subst hxo
        exact absurd (ho x List.mem_cons_self).2 hcx
      · rw [h3.kinds x hxo]
        rw [h3.owners x hxo] at hx
        exact ht x hx hcx
    obtain ⟨s', k1, k2, k3⟩ := ih s1 h3.wf h3.closed (fun p hp => ⟨by rw [h3.owners p (hne p hp)]; exact (ho p (List.mem_cons_of_mem _ hp)).1, (ho p (List.mem_cons_of_mem _ hp)).2⟩)
      hnd'.2 ht1 ((h2.items i g).2 (Or.inl hi)) ((h2.items j m).2 (Or.inl hj))
    refine ⟨s', ?_, ?_, ?_⟩
    · unfold again
      rw [h1]
      exact k1
    · intro p hp
      rcases List.mem_cons.1 hp with rfl | hp
      · obtain ⟨q1, q2, q3⟩ := k3 p hnd'.1
        rw [q1, q2, q3, h2.inputs, if_pos rfl, h2.outputs, if_pos rfl]
        exact ⟨h3.here, rfl, rfl⟩
      · exact k2 p hp
    · intro p hp
      have hpo : p ≠ o := fun h => hp (h ▸ List.mem_cons_self)
      obtain ⟨q1, q2, q3⟩ := k3 p (fun h => hp (List.mem_cons_of_mem _ h))
      rw [q1, q2, q3, h2.inputs, if_neg hpo, h2.outputs, if_neg hpo]
      exact ⟨h3.owners p hpo, rfl, rfl⟩

/-- example: a grid /2 and a MLS grid /3 -/
def exCls : Obj → Class
  | 1 => .gridDouble
  | 2 => .mls
  | _ => .other

def exHistory : List Op := [.alloc 1 .cmap [] true 0 0, .attach 1, .alloc 2 .cmap [] true 0 0, .attach 2]

theorem exReady : ∃ s, WF s ∧ Closed s ∧ Typed exCls s ∧ (s.owner 3 = .dead ∧ s.owner 4 = .dead) ∧ s.getItem ['/', '2'] = some 1 ∧ s.getItem ['/', '3'] = some 2 := by
  obtain ⟨s, hs, h1, h2, h3, h4, h5, h6⟩ := ex_of_any (o := Delete.goodRun (init 0) exHistory)
    (P := fun s => s.kind 1 = .cmap ∧ s.kind 2 = .cmap ∧ s.owner 3 = .dead ∧ s.owner 4 = .dead ∧ s.getItem ['/', '2'] = some 1 ∧ s.getItem ['/', '3'] = some 2) (by decide +kernel)
  have hr := (Delete.reach_goodRun _ .init hs).wf_closed
  refine ⟨s, hr.1, hr.2, ?_, ⟨h3, h4⟩, h5, h6⟩
  intro x _ hx
  unfold exCls at hx
  split at hx
  · exact h1
  · exact h2
  · exact absurd rfl hx

example : ∃ s s', gridToMls exCls (fun _ => true) s 3 ['/', '2'] ['/', '3'] = .written s' 3 ∧ Added s s' 3 [1] [2] := by
  obtain ⟨s, h1, h2, h3, h4, h5, h6⟩ := exReady
  obtain ⟨s', h⟩ := C194_grid_to_mls_works h1 h2 h3 h4.1 (fun _ => rfl) h5 h6 (Or.inl rfl) rfl
  exact ⟨s, s', h⟩

example : ∃ s s', mlsToGrid exCls (fun _ => true) s 3 ['/', '3'] ['/', '2'] = .written s' 3 ∧ Added s s' 3 [2] [1] := by
  obtain ⟨s, h1, h2, h3, h4, h5, h6⟩ := exReady
  obtain ⟨s', h⟩ := C194_mls_to_grid_works h1 h2 h3 h4.1 (fun _ => rfl) h6 h5 rfl rfl
  exact ⟨s, s', h⟩

example : ∃ s s', illumination exCls (fun _ => true) s 3 ['/', '2'] = .written s' 3 ∧ Added s s' 3 [] [1] := by
  obtain ⟨s, h1, h2, h3, h4, h5, h6⟩ := exReady
  obtain ⟨s', h⟩ := C194_illumination_works h1 h2 h3 h4.1 (fun _ => rfl) h5 (by decide)
  exact ⟨s, s', h⟩

example : ∃ s s', again exCls (fun _ => true) ['/', '2'] ['/', '3'] [3, 4] s = some s' ∧ s'.getOutputs 3 = [2] ∧ s'.getOutputs 4 = [2] := by
  obtain ⟨s, h1, h2, h3, h4, h5, h6⟩ := exReady
  obtain ⟨s', h, k, -⟩ := C194_again_deviation (runs := fun _ => true) (fun _ => rfl) (Or.inl rfl) rfl [3, 4] s h1 h2 (by
    intro o ho
    rcases List.mem_cons.1 ho with rfl | ho
    · exact ⟨h4.1, rfl⟩
    · rcases List.mem_cons.1 ho with rfl | ho
      · exact ⟨h4.2, rfl⟩
      · cases ho) (by decide) h3 h5 h6
  exact ⟨s, s', h, (k 3 (by decide)).2.2, (k 4 (by decide)).2.2⟩

#print axioms C194_grid_to_mls_partial
#print axioms C194_grid_to_mls_works
#print axioms C194_mls_to_grid_partial
#print axioms C194_mls_to_grid_works
#print axioms C194_illumination_partial
#print axioms C194_illumination_works
#print axioms C194_null_deviation
#print axioms C194_again_deviation
end Envire.OpTool
