import Verif.Core.LinkLemmas
import Verif.Core.Witness
/-! Properties C11 - C15: layer tree and operator links. -/
namespace Envire
open Env

theorem look_eq_head (k : Obj) (l : List (Obj × Obj)) :
    look k l = ((l.filter (fun e => decide (e.1 = k))).map (·.2)).head? := by
  induction l with
  | nil => rfl
  | cons e t ih =>
    unfold look
    by_cases h : e.1 = k
    · rw [if_pos h, List.filter_cons_of_pos (by simpa using h)]; rfl
    · rw [if_neg h, ih, List.filter_cons_of_neg (by simpa using h)]

theorem count_vals (l : List (Obj × Obj)) (c p : Obj) :
    ((l.filter (fun e => decide (e.1 = c))).map (·.2)).count p = l.count (c, p) := by
  induction l with
  | nil => rfl
  | cons e t ih =>
    obtain ⟨a, b⟩ := e
    by_cases h : a = c
    · rw [List.filter_cons_of_pos (by simpa using h), List.map_cons, List.count_cons, ih, List.count_cons]
      subst h
      by_cases hb : b = p <;> simp [hb]
    · rw [List.filter_cons_of_neg (by simpa using h), ih, List.count_cons]
      simp [h]

theorem count_keys (l : List (Obj × Obj)) (c p : Obj) :
    ((l.filter (fun e => decide (e.2 = p))).map (·.1)).count c = l.count (c, p) := by
  induction l with
  | nil => rfl
  | cons e t ih =>
    obtain ⟨a, b⟩ := e
    by_cases h : b = p
    · rw [List.filter_cons_of_pos (by simpa using h), List.map_cons, List.count_cons, ih, List.count_cons]
      subst h
      by_cases hb : a = c <;> simp [hb]
    · rw [List.filter_cons_of_neg (by simpa using h), ih, List.count_cons]
      simp [h]

/-! ## C11 -/

/-- three layers; 3 gets the parents 1 and 2, and the link to 2 is added again -/
def dupHistory : List Op :=
  [.alloc 1 .layer [] false 0 0, .alloc 2 .layer [] false 0 0, .alloc 3 .layer [] false 0 0, .attach 1, .attach 2,
   .addChildL 1 3, .addChildL 2 3, .addChildL 2 3]

/-- **C11, the code violates the property**: the second addChild(2, 3) creates a second link, because only the first
parent of 3 is compared; 3 is listed twice among the children of 2, and is still a child after one removeChild. -/
theorem C11_duplicate_layer_link :
    (∃ s, run (init 0) dupHistory = some s ∧ s.getLayerChildren 2 = [3, 3]) ∧
    (∃ s, run (init 0) (dupHistory ++ [.removeChildL 2 3]) = some s ∧ s.getLayerChildren 2 = [3]) :=
  ⟨ex_of_any (by decide +kernel), ex_of_any (by decide +kernel)⟩

/-- **C11 (exact effect)** For all states: addChild(p, c) adds one occurrence of the link, except when p is
the *first* parent of c, then it does nothing; removeChild(p, c) removes one occurrence; all other links keep
their multiplicity; the two query directions always agree. -/
theorem C11_layer_links_exact (s : Env) (p c : Obj) :
    (∀ x y, (s.getLayerChildren y).count x = (s.getLayerParents x).count y) ∧
    (∀ s', s.addChildL p c = .ok s' → ∀ x y, (s'.getLayerChildren y).count x = (s.getLayerChildren y).count x +
        (if x = c ∧ y = p ∧ (s.getLayerParents c).head? ≠ some p then 1 else 0)) ∧
    (∀ s', s.addChildL p c = .throw s' → RelSame s s') ∧
    (∀ s', s.removeChildL p c = .ok s' → ∀ x y, (s'.getLayerChildren y).count x = (s.getLayerChildren y).count x -
        (if x = c ∧ y = p then 1 else 0)) := by
  refine ⟨fun x y => ?_, fun s' hs x y => ?_, fun s' hs => ?_, fun s' hs x y => ?_⟩
  · exact (count_keys s.ltree x y).trans (count_vals s.ltree x y).symm
  · have := addChildL_rel s p c
    rw [hs] at this
    have h2 := this.2.1
    unfold getLayerChildren getLayerParents
    rw [← look_eq_head, count_keys, count_keys, h2]
    by_cases hh : look c s.ltree = some p
    · simp [hh]
    · rw [if_neg hh, (ins_perm c p s.ltree).count_eq, List.count_cons]
      by_cases hx : x = c ∧ y = p
      · simp [hx, hh]
      · have : ¬ ((c, p) == (x, y)) = true := by
          intro e; rw [beq_iff_eq] at e; cases e; exact hx ⟨rfl, rfl⟩
        rw [if_neg this, if_neg (fun h => hx ⟨h.1, h.2.1⟩)]
  · have := addChildL_rel s p c
    rw [hs] at this
    exact this
  · have := removeChildL_rel s p c
    rw [hs] at this
    have h2 := this.2.1
    unfold getLayerChildren
    rw [count_keys, count_keys, h2, List.count_erase]
    by_cases hx : x = c ∧ y = p
    · simp [hx]
    · have : ¬ ((x, y) == (c, p)) = true := by
        intro e; rw [beq_iff_eq] at e; cases e; exact hx ⟨rfl, rfl⟩
      rw [if_neg hx]
      congr 1
      split
      · rename_i h'; rw [beq_iff_eq] at h'; cases h'; exact absurd ⟨rfl, rfl⟩ hx
      · rfl

/-- rule of use the code does not enforce: a link is only added again if it is the first of the child -/
def NoDup (s : Env) : Op → Prop
  | .addChildL p c => p ∈ s.getLayerParents c → (s.getLayerParents c).head? = some p
  | _ => True

/-- **C11, what holds**: as long as an existing link is added again only while it is the child's first one, every
child is listed once, adding it again changes nothing, and one removeChild makes it disappear. (Missing: children
with several parents, where the duplicate check of the code fails.) -/
theorem C11_no_duplicates_partial {r : Obj} {s : Env} (h : Reach (fun s op => Legal s op ∧ NoDup s op) r s) (p c : Obj) :
    (s.getLayerChildren p).count c ≤ 1 ∧
    (∀ s', s.removeChildL p c = .ok s' → c ∉ s'.getLayerChildren p) ∧
    (∀ s', NoDup s (.addChildL p c) → c ∈ s.getLayerChildren p → s.addChildL p c = .ok s' → s'.ltree = s.ltree) := by
  have hn : WF s ∧ s.ltree.Nodup := by
    refine Reach.invariant (G := fun s op => Legal s op ∧ NoDup s op) (P := fun s => WF s ∧ s.ltree.Nodup)
      ⟨WF.init r, List.nodup_nil⟩ ?_ h
    rintro s op ⟨hw, hn⟩ ⟨hl, hd⟩
    refine (hw.exec op hl).and ?_
    by_cases ha : addsL op = false
    · exact (exec_noMore hw hl).mono (fun s' h' => hn.sublist (h'.ltree ha))
    · cases op <;> first | exact absurd rfl ha | skip
      rename_i p c
      refine (addChildL_rel s p c).toAll (fun s' h' => ?_) (fun s' h' => h'.ltree ▸ hn)
      rw [h'.2.1]
      split
      · exact hn
      · rename_i hx
        refine ((ins_perm c p s.ltree).nodup_iff).2 (List.nodup_cons.2 ⟨?_, hn⟩)
        intro hm
        refine hx ?_
        rw [look_eq_head]
        refine hd ?_
        exact List.mem_map.2 ⟨(c, p), List.mem_filter.2 ⟨hm, by simp⟩, rfl⟩
  have hcount : (s.getLayerChildren p).count c ≤ 1 := by
    unfold getLayerChildren; rw [count_keys]; exact List.nodup_iff_count.1 hn.2 _
  refine ⟨hcount, fun s' hs => ?_, fun s' hd hm hs => ?_⟩
  · have := (C11_layer_links_exact s p c).2.2.2 s' hs c p
    rw [if_pos ⟨rfl, rfl⟩] at this
    rw [← List.count_eq_zero]
    omega
  · have := addChildL_rel s p c
    rw [hs] at this
    have h2 := this.2.1
    have hp : p ∈ s.getLayerParents c := by
      have := (C11_layer_links_exact s p c).1 c p
      rw [← List.count_pos_iff] at hm ⊢
      omega
    rw [if_pos] at h2
    · exact h2
    · rw [look_eq_head]; exact hd hp

example : ∃ s, run (init 0) [.alloc 1 .layer [] false 0 0, .alloc 2 .layer [] false 0 0, .attach 1, .addChildL 1 2,
    .addChildL 1 2] = some s ∧ s.getLayerChildren 1 = [2] := ex_of_any (by decide +kernel)

/-! ## C12 -/

/-- links of operators with a declared arity are only made through Operator::addInput/setInput etc. -/
def ThroughOperator (s : Env) : Op → Prop
  | .addInput op _ => s.inArity op = 0
  | .addOutput op _ => s.outArity op = 0
  | _ => True

theorem len_ins (op l x : Obj) (t : List (Obj × Obj)) :
    (((ins op l t).filter (fun e => decide (e.1 = x))).map (·.2)).length =
      ((t.filter (fun e => decide (e.1 = x))).map (·.2)).length + (if x = op then 1 else 0) := by
  rw [List.length_map, List.length_map, ((ins_perm op l t).filter _).length_eq]
  by_cases h : x = op
  · rw [List.filter_cons_of_pos (by simp [h])]; simp [h]
  · rw [List.filter_cons_of_neg (by simpa using fun e => h e.symm)]; simp [h]

theorem len_if_ins (op l x : Obj) (t : List (Obj × Obj)) (b : Prop) [Decidable b] :
    (((if b then t else ins op l t).filter (fun e => decide (e.1 = x))).map (·.2)).length ≤
      ((t.filter (fun e => decide (e.1 = x))).map (·.2)).length + (if x = op then 1 else 0) := by
  split
  · exact Nat.le_add_right _ _
  · rw [len_ins]; exact Nat.le_refl _

theorem len_sub {t t' : List (Obj × Obj)} (h : t'.Sublist t) (x : Obj) :
    ((t'.filter (fun e => decide (e.1 = x))).map (·.2)).length ≤
      ((t.filter (fun e => decide (e.1 = x))).map (·.2)).length := by
  rw [List.length_map, List.length_map]; exact (h.filter _).length_le

/-- the limits -/
def ArityOk (s : Env) : Prop := ∀ op, (s.inArity op ≠ 0 → (s.getInputs op).length ≤ s.inArity op) ∧
  (s.outArity op ≠ 0 → (s.getOutputs op).length ≤ s.outArity op)

theorem ArityOk.step {s s' : Env} (h : ArityOk s) {op : Op} (hn : NoMore s op s') (ha : allocs op = false)
    (hi : ∀ x, s.inArity x ≠ 0 → (s'.getInputs x).length ≤ (s.getInputs x).length ∨ (s'.getInputs x).length ≤ s.inArity x)
    (ho : ∀ x, s.outArity x ≠ 0 → (s'.getOutputs x).length ≤ (s.getOutputs x).length ∨
      (s'.getOutputs x).length ≤ s.outArity x) : ArityOk s' := by
  obtain ⟨a1, a2⟩ := hn.arity ha
  intro x
  refine ⟨fun hx => ?_, fun hx => ?_⟩
  · rw [a1] at hx ⊢
    rcases hi x hx with h1 | h1
    · exact Nat.le_trans h1 ((h x).1 hx)
    · exact h1
  · rw [a2] at hx ⊢
    rcases ho x hx with h1 | h1
    · exact Nat.le_trans h1 ((h x).2 hx)
    · exact h1

theorem len_eraseKey_self (op : Obj) (t : List (Obj × Obj)) :
    (((eraseKey op t).filter (fun e => decide (e.1 = op))).map (·.2)).length = 0 := by
  rw [List.length_map, List.length_eq_zero_iff, List.filter_eq_nil_iff]
  intro e he
  have := (mem_eraseKey.1 he).2
  simpa using this

theorem ArityOk.exec {s : Env} (h : ArityOk s) (hw : WF s) (hc : Closed s) {op : Op} (hg : Good s op)
    (ht : ThroughOperator s op) : (s.exec op).All ArityOk := by
  have hl := hg.legal hc
  have hno := exec_noMore hw hl
  have subI : ∀ {s' : Env} {op : Op}, NoMore s op s' → addsI op = false → ∀ x, s.inArity x ≠ 0 →
      (s'.getInputs x).length ≤ (s.getInputs x).length ∨ (s'.getInputs x).length ≤ s.inArity x :=
    fun hn ha x _ => Or.inl (len_sub (hn.opIn ha) x)
  have subO : ∀ {s' : Env} {op : Op}, NoMore s op s' → addsO op = false → ∀ x, s.outArity x ≠ 0 →
      (s'.getOutputs x).length ≤ (s.getOutputs x).length ∨ (s'.getOutputs x).length ≤ s.outArity x :=
    fun hn ha x _ => Or.inl (len_sub (hn.opOut ha) x)
  by_cases ha : allocs op = true
  · cases op <;> first | cases ha | skip
    rename_i o k id hd ia oa
    unfold Env.exec
    dsimp only
    split
    · rename_i hdead
      -- no link mentions a deleted object
      have z1 : s.getInputs o = [] := by
        unfold getInputs
        rw [List.map_eq_nil_iff, List.filter_eq_nil_iff]
        intro e he hx
        rw [decide_eq_true_eq] at hx
        have := (hc.opIn e he).1.1
        rw [hx, hdead] at this; cases this
      have z2 : s.getOutputs o = [] := by
        unfold getOutputs
        rw [List.map_eq_nil_iff, List.filter_eq_nil_iff]
        intro e he hx
        rw [decide_eq_true_eq] at hx
        have := (hc.opOut e he).1.1
        rw [hx, hdead] at this; cases this
      intro x
      by_cases hx : x = o
      · subst hx
        exact ⟨fun _ => by show (s.getInputs x).length ≤ _; rw [z1]; exact Nat.zero_le _,
          fun _ => by show (s.getOutputs x).length ≤ _; rw [z2]; exact Nat.zero_le _⟩
      · refine ⟨fun h1 => ?_, fun h1 => ?_⟩
        · have e : upd s.inArity o ia x = s.inArity x := upd_ne _ _ hx
          show (s.getInputs x).length ≤ upd s.inArity o ia x
          rw [e]; exact (h x).1 (by rw [← e]; exact h1)
        · have e : upd s.outArity o oa x = s.outArity x := upd_ne _ _ hx
          show (s.getOutputs x).length ≤ upd s.outArity o oa x
          rw [e]; exact (h x).2 (by rw [← e]; exact h1)
    · trivial
  · replace ha : allocs op = false := by simpa using ha
    by_cases hi : addsI op = false
    · by_cases ho : addsO op = false
      · exact hno.mono (fun s' hn => h.step hn ha (subI hn hi) (subO hn ho))
      · cases op <;> first | exact absurd rfl ho | skip
        · rename_i op l
          refine (hno.toSat.and (addOutput_rel s op l)).toAll (fun s' hn => ?_)
            (fun s' hn => h.step hn.1 ha (subI hn.1 hi) (fun x _ => Or.inl (by
              unfold getOutputs; rw [hn.2.opOut]; exact Nat.le_refl _)))
          refine h.step hn.1 ha (subI hn.1 hi) (fun x hx => ?_)
          refine Or.inl ?_
          unfold getOutputs
          rw [hn.2.2.2.2.1]
          refine Nat.le_trans (len_if_ins _ _ _ _ _) ?_
          rw [if_neg]
          · exact Nat.le_refl _
          · rintro rfl; exact hx ht
        · rename_i op l
          have e : s.exec (.opAddOutput op l) = s.opAddOutput op l := rfl
          rw [e] at hno ⊢
          by_cases hlim : s.outArity op ≠ 0 ∧ s.outArity op ≤ (s.getOutputs op).length
          · unfold Env.opAddOutput; rw [if_neg (fun h => h hg.1), if_pos hlim]; exact h
          · have e2 : s.opAddOutput op l = s.addOutput op l := by
              unfold Env.opAddOutput; rw [if_neg (fun h => h hg.1), if_neg hlim]
            rw [e2] at hno ⊢
            refine (hno.toSat.and (addOutput_rel s op l)).toAll (fun s' hn => ?_)
              (fun s' hn => h.step hn.1 ha (subI hn.1 hi) (fun x _ => Or.inl (by
                unfold getOutputs; rw [hn.2.opOut]; exact Nat.le_refl _)))
            refine h.step hn.1 ha (subI hn.1 hi) (fun x hx => ?_)
            have hle : (s'.getOutputs x).length ≤ (s.getOutputs x).length + (if x = op then 1 else 0) := by
              unfold getOutputs; rw [hn.2.2.2.2.1]; exact len_if_ins _ _ _ _ _
            by_cases hxo : x = op
            · subst hxo
              rw [if_pos rfl] at hle
              have : ¬ s.outArity x ≤ (s.getOutputs x).length := fun h => hlim ⟨hx, h⟩
              exact Or.inr (by omega)
            · rw [if_neg hxo] at hle; exact Or.inl hle
        · rename_i op l
          have e : s.exec (.opSetOutput op l) = (s.removeOutputs op).opAddOutput op l := by
            show s.opSetOutput op l = _
            unfold Env.opSetOutput; rw [if_neg (fun h => h hg.1)]
          rw [e] at hno ⊢
          have hz : ((s.removeOutputs op).getOutputs op).length = 0 := len_eraseKey_self op s.opOut
          have e2 : (s.removeOutputs op).opAddOutput op l = (s.removeOutputs op).addOutput op l := by
            unfold Env.opAddOutput
            rw [if_neg (fun h => h (show s.owner op = _ from hg.1)), if_neg]
            rintro ⟨h1, h2⟩
            rw [hz] at h2
            exact h1 (Nat.le_zero.1 h2)
          rw [e2] at hno ⊢
          have key : ∀ s' : Env, (∀ x, (s'.getOutputs x).length ≤
              ((s.removeOutputs op).getOutputs x).length + (if x = op then 1 else 0)) →
              ∀ x, s.outArity x ≠ 0 → (s'.getOutputs x).length ≤ (s.getOutputs x).length ∨
                (s'.getOutputs x).length ≤ s.outArity x := by
            intro s' hle x hx
            have hle := hle x
            by_cases hxo : x = op
            · subst hxo; rw [if_pos rfl, hz] at hle; exact Or.inr (by omega)
            · rw [if_neg hxo] at hle
              exact Or.inl (Nat.le_trans hle (len_sub (eraseKey_sublist op s.opOut) x))
          refine (hno.toSat.and (addOutput_rel (s.removeOutputs op) op l)).toAll (fun s' hn => ?_) (fun s' hn => ?_)
          · refine h.step hn.1 ha (subI hn.1 hi) (key s' (fun x => ?_))
            unfold getOutputs; rw [hn.2.2.2.2.1]; exact len_if_ins _ _ _ _ _
          · refine h.step hn.1 ha (subI hn.1 hi) (key s' (fun x => ?_))
            unfold getOutputs; rw [hn.2.opOut]; exact Nat.le_add_right _ _
    · have ho : addsO op = false := by cases op <;> first | rfl | exact absurd rfl hi
      cases op <;> first | exact absurd rfl hi | skip
      · rename_i op l
        refine (hno.toSat.and (addInput_rel s op l)).toAll (fun s' hn => ?_)
          (fun s' hn => h.step hn.1 ha (fun x _ => Or.inl (by
            unfold getInputs; rw [hn.2.opIn]; exact Nat.le_refl _)) (subO hn.1 ho))
        refine h.step hn.1 ha (fun x hx => ?_) (subO hn.1 ho)
        refine Or.inl ?_
        unfold getInputs
        rw [hn.2.2.2.1]
        refine Nat.le_trans (len_if_ins _ _ _ _ _) ?_
        rw [if_neg]
        · exact Nat.le_refl _
        · rintro rfl; exact hx ht
      · rename_i op l
        have e : s.exec (.opAddInput op l) = s.opAddInput op l := rfl
        rw [e] at hno ⊢
        by_cases hlim : s.inArity op ≠ 0 ∧ s.inArity op ≤ (s.getInputs op).length
        · unfold Env.opAddInput; rw [if_neg (fun h => h hg.1), if_pos hlim]; exact h
        · have e2 : s.opAddInput op l = s.addInput op l := by
            unfold Env.opAddInput; rw [if_neg (fun h => h hg.1), if_neg hlim]
          rw [e2] at hno ⊢
          refine (hno.toSat.and (addInput_rel s op l)).toAll (fun s' hn => ?_)
            (fun s' hn => h.step hn.1 ha (fun x _ => Or.inl (by
              unfold getInputs; rw [hn.2.opIn]; exact Nat.le_refl _)) (subO hn.1 ho))
          refine h.step hn.1 ha (fun x hx => ?_) (subO hn.1 ho)
          have hle : (s'.getInputs x).length ≤ (s.getInputs x).length + (if x = op then 1 else 0) := by
            unfold getInputs; rw [hn.2.2.2.1]; exact len_if_ins _ _ _ _ _
          by_cases hxo : x = op
          · subst hxo
            rw [if_pos rfl] at hle
            have : ¬ s.inArity x ≤ (s.getInputs x).length := fun h => hlim ⟨hx, h⟩
            exact Or.inr (by omega)
          · rw [if_neg hxo] at hle; exact Or.inl hle
      · rename_i op l
        have e : s.exec (.opSetInput op l) = (s.removeInputs op).opAddInput op l := by
          show s.opSetInput op l = _
          unfold Env.opSetInput; rw [if_neg (fun h => h hg.1)]
        rw [e] at hno ⊢
        have hz : ((s.removeInputs op).getInputs op).length = 0 := len_eraseKey_self op s.opIn
        have e2 : (s.removeInputs op).opAddInput op l = (s.removeInputs op).addInput op l := by
          unfold Env.opAddInput
          rw [if_neg (fun h => h (show s.owner op = _ from hg.1)), if_neg]
          rintro ⟨h1, h2⟩
          rw [hz] at h2
          exact h1 (Nat.le_zero.1 h2)
        rw [e2] at hno ⊢
        have key : ∀ s' : Env, (∀ x, (s'.getInputs x).length ≤
            ((s.removeInputs op).getInputs x).length + (if x = op then 1 else 0)) →
            ∀ x, s.inArity x ≠ 0 → (s'.getInputs x).length ≤ (s.getInputs x).length ∨
              (s'.getInputs x).length ≤ s.inArity x := by
          intro s' hle x hx
          have hle := hle x
          by_cases hxo : x = op
          · subst hxo; rw [if_pos rfl, hz] at hle; exact Or.inr (by omega)
          · rw [if_neg hxo] at hle
            exact Or.inl (Nat.le_trans hle (len_sub (eraseKey_sublist op s.opIn) x))
        refine (hno.toSat.and (addInput_rel (s.removeInputs op) op l)).toAll (fun s' hn => ?_) (fun s' hn => ?_)
        · refine h.step hn.1 ha (key s' (fun x => ?_)) (subO hn.1 ho)
          unfold getInputs; rw [hn.2.2.2.1]; exact len_if_ins _ _ _ _ _
        · refine h.step hn.1 ha (key s' (fun x => ?_)) (subO hn.1 ho)
          unfold getInputs; rw [hn.2.opIn]; exact Nat.le_add_right _ _

/-- **C12** In every history that follows the rules of use and links operators with declared arity only through the
Operator methods, no operator has more inputs (outputs) than its declared arity; arity 0 is unlimited. -/
theorem C12_arity_never_exceeded {r : Obj} {s : Env}
    (h : Reach (fun s op => Good s op ∧ ThroughOperator s op) r s) (op : Obj) :
    (s.inArity op ≠ 0 → (s.getInputs op).length ≤ s.inArity op) ∧
    (s.outArity op ≠ 0 → (s.getOutputs op).length ≤ s.outArity op) := by
  have := Reach.invariant' (G := fun s op => Good s op ∧ ThroughOperator s op)
    (P := fun s => (WF s ∧ Closed s) ∧ ArityOk s) (r := r)
    ⟨⟨WF.init r, Closed.init r⟩, fun _ => ⟨fun _ => Nat.zero_le _, fun _ => Nat.zero_le _⟩⟩
    (fun s op hp hg _ ht => by
      obtain ⟨⟨hw, hc⟩, ha⟩ := hp
      exact ((hw.exec op (hg.1.legal hc)).and (hc.exec hw op hg.1 ht)).and (ha.exec hw hc hg.1 hg.2)) h
  exact this.2 op

/-- **C12** An attempt to exceed the limit throws and changes nothing; below the limit it throws only if a layer or
operator cannot be attached. -/
theorem C12_limit_throws (s : Env) (op l : Obj) (ho : s.owner op = .here) (hl : s.owner l = .here) :
    (s.opAddInput op l = .throw s ↔ s.inArity op ≠ 0 ∧ s.inArity op ≤ (s.getInputs op).length) ∧
    (s.opAddOutput op l = .throw s ↔ s.outArity op ≠ 0 ∧ s.outArity op ≤ (s.getOutputs op).length) := by
  have e1 : s.ensureAttached op = .ok s := by unfold ensureAttached; rw [ho]
  have e2 : s.ensureAttached l = .ok s := by unfold ensureAttached; rw [hl]
  constructor
  · unfold opAddInput
    rw [if_neg (fun h => h ho)]
    split
    · rename_i h; exact ⟨fun _ => h, fun _ => rfl⟩
    · rename_i h
      refine ⟨fun h' => ?_, fun h' => absurd h' h⟩
      unfold addInput at h'
      rw [e1, Res.ok_bind, e2, Res.ok_bind] at h'
      split at h' <;> cases h'
  · unfold opAddOutput
    rw [if_neg (fun h => h ho)]
    split
    · rename_i h; exact ⟨fun _ => h, fun _ => rfl⟩
    · rename_i h
      refine ⟨fun h' => ?_, fun h' => absurd h' h⟩
      unfold addOutput at h'
      rw [e1, Res.ok_bind, e2, Res.ok_bind] at h'
      split at h' <;> cases h'

/-- an operator with arity 1: the second addInput throws, setInput replaces -/
example : ∃ s, run (init 0) [.alloc 1 .op [] false 1 0, .alloc 2 .layer [] false 0 0, .alloc 3 .layer [] false 0 0,
    .attach 1, .opAddInput 1 2, .opAddInput 1 3, .opSetInput 1 3] = some s ∧
    (s.inArity 1 = 1 ∧ s.getInputs 1 = [3] ∧ (s.opAddInput 1 2).thrown?.isSome = true) :=
  ex_of_any (by decide +kernel)

/-! ## C13 -/

theorem vals_ins {t : List (Obj × Obj)} (hs : KeySorted t) (op l x : Obj) :
    ((ins op l t).filter (fun e => decide (e.1 = x))).map (·.2) =
      (t.filter (fun e => decide (e.1 = x))).map (·.2) ++ (if x = op then [l] else []) := by
  by_cases h : x = op
  · subst h; rw [filter_key_ins_self hs]; simp
  · rw [filter_key_ins_ne (fun e => h e.symm)]; simp [h]

theorem vals_remove (t : List (Obj × Obj)) (op l x : Obj) :
    ((t.filter (fun e => decide (e ≠ (op, l)))).filter (fun e => decide (e.1 = x))).map (·.2) =
      if x = op then ((t.filter (fun e => decide (e.1 = x))).map (·.2)).filter (fun y => decide (y ≠ l))
      else (t.filter (fun e => decide (e.1 = x))).map (·.2) := by
  induction t with
  | nil => split <;> rfl
  | cons e t ih =>
    obtain ⟨a, b⟩ := e
    by_cases h1 : a = x
    · subst h1
      by_cases h2 : a = op
      · subst h2
        by_cases h3 : b = l
        · subst h3; simp at ih ⊢; exact ih
        · simp [h3] at ih ⊢; exact ih
      · simp [h2] at ih ⊢; exact ih
    · by_cases h2 : (a, b) = (op, l)
      · rw [List.filter_cons_of_neg (by simp [h2]), ih, List.filter_cons_of_neg (by simpa using h1)]
      · rw [List.filter_cons_of_pos (by rw [decide_eq_true_eq]; exact h2), List.filter_cons_of_neg (by simpa using h1), ih,
          List.filter_cons_of_neg (by simpa using h1)]

/-- **C13 (addInput / addOutput)** l is appended to the inputs of op (unless it is the first one already); the inputs
of other operators and all outputs are unchanged. -/
theorem C13_addInput {r : Obj} {s s' : Env} (h : Reach Legal r s) (op l : Obj) (hs : s.addInput op l = .ok s') :
    l ∈ s'.getInputs op ∧
    (∀ x, s'.getInputs x = s.getInputs x ++ if x = op ∧ (s.getInputs op).head? ≠ some l then [l] else []) ∧
    (∀ x, s'.getOutputs x = s.getOutputs x) := by
  have hr := addInput_rel s op l
  rw [hs] at hr
  obtain ⟨-, -, h3, h4, -⟩ := hr
  have main : ∀ x, s'.getInputs x = s.getInputs x ++ if x = op ∧ (s.getInputs op).head? ≠ some l then [l] else [] := by
    intro x
    unfold getInputs
    rw [h3, ← look_eq_head]
    by_cases hh : look op s.opIn = some l
    · simp [hh]
    · rw [if_neg hh, vals_ins h.wf.opIn_sorted]
      simp [hh]
  refine ⟨?_, main, fun x => by unfold getOutputs; rw [h4]⟩
  rw [main]
  by_cases hh : (s.getInputs op).head? = some l
  · exact List.mem_append_left _ (List.mem_of_mem_head? hh)
  · simp [hh]

theorem C13_addOutput {r : Obj} {s s' : Env} (h : Reach Legal r s) (op l : Obj) (hs : s.addOutput op l = .ok s') :
    l ∈ s'.getOutputs op ∧
    (∀ x, s'.getOutputs x = s.getOutputs x ++ if x = op ∧ (s.getOutputs op).head? ≠ some l then [l] else []) ∧
    (∀ x, s'.getInputs x = s.getInputs x) := by
  have hr := addOutput_rel s op l
  rw [hs] at hr
  obtain ⟨-, -, h3, h4, -⟩ := hr
  have main : ∀ x, s'.getOutputs x = s.getOutputs x ++ if x = op ∧ (s.getOutputs op).head? ≠ some l then [l] else [] := by
    intro x
    unfold getOutputs
    rw [h4, ← look_eq_head]
    by_cases hh : look op s.opOut = some l
    · simp [hh]
    · rw [if_neg hh, vals_ins h.wf.opOut_sorted]
      simp [hh]
  refine ⟨?_, main, fun x => by unfold getInputs; rw [h3]⟩
  rw [main]
  by_cases hh : (s.getOutputs op).head? = some l
  · exact List.mem_append_left _ (List.mem_of_mem_head? hh)
  · simp [hh]

/-- **C13 (removal)** removeInput(op, l) removes every occurrence of l from the inputs of op and nothing else;
removeInputs(op) leaves none; the same for outputs. -/
theorem C13_remove (s : Env) (op l x : Obj) :
    (s.removeInput op l).getInputs x = (if x = op then (s.getInputs x).filter (fun y => decide (y ≠ l)) else s.getInputs x) ∧
    (s.removeInput op l).getOutputs x = s.getOutputs x ∧
    (s.removeOutput op l).getOutputs x = (if x = op then (s.getOutputs x).filter (fun y => decide (y ≠ l)) else s.getOutputs x) ∧
    (s.removeOutput op l).getInputs x = s.getInputs x ∧
    (s.removeInputs op).getInputs x = (if x = op then [] else s.getInputs x) ∧
    (s.removeOutputs op).getOutputs x = (if x = op then [] else s.getOutputs x) := by
  have er : ∀ t : List (Obj × Obj), ((eraseKey op t).filter (fun e => decide (e.1 = x))).map (·.2) =
      if x = op then [] else (t.filter (fun e => decide (e.1 = x))).map (·.2) := by
    intro t
    unfold eraseKey
    rw [List.filter_filter]
    by_cases h : x = op
    · subst h; simp
    · rw [if_neg h]
      congr 1
      apply List.filter_congr
      intro e _
      by_cases h1 : e.1 = x
      · simp [h1, h]
      · simp [h1]
  exact ⟨vals_remove _ _ _ _, rfl, vals_remove _ _ _ _, rfl, er _, er _⟩

/-- **C13 (setInput / setOutput)** after a normal return the list of inputs is exactly [l] -/
theorem C13_setInput {r : Obj} {s s' : Env} (h : Reach Legal r s) (op l : Obj) :
    (s.opSetInput op l = .ok s' → s'.getInputs op = [l] ∧ ∀ x, x ≠ op → s'.getInputs x = s.getInputs x) ∧
    (s.opSetOutput op l = .ok s' → s'.getOutputs op = [l] ∧ ∀ x, x ≠ op → s'.getOutputs x = s.getOutputs x) := by
  constructor
  · intro hs
    unfold opSetInput at hs
    split at hs
    · cases hs
    unfold opAddInput at hs
    split at hs
    · cases hs
    split at hs
    · cases hs
    have hr := addInput_rel (s.removeInputs op) op l
    rw [hs] at hr
    have h3 := hr.2.2.1
    rw [if_neg (by rw [show look op (s.removeInputs op).opIn = none from look_eraseKey_self _ _]; simp)] at h3
    have hv : ∀ x, s'.getInputs x = (s.removeInputs op).getInputs x ++ if x = op then [l] else [] := by
      intro x; unfold getInputs; rw [h3, vals_ins (h.wf.removeInputs op).opIn_sorted]
    refine ⟨?_, fun x hx => ?_⟩
    · rw [hv, (C13_remove s op l op).2.2.2.2.1]; simp
    · rw [hv, (C13_remove s op l x).2.2.2.2.1]; simp [hx]
  · intro hs
    unfold opSetOutput at hs
    split at hs
    · cases hs
    unfold opAddOutput at hs
    split at hs
    · cases hs
    split at hs
    · cases hs
    have hr := addOutput_rel (s.removeOutputs op) op l
    rw [hs] at hr
    have h3 := hr.2.2.2.1
    rw [if_neg (by rw [show look op (s.removeOutputs op).opOut = none from look_eraseKey_self _ _]; simp)] at h3
    have hv : ∀ x, s'.getOutputs x = (s.removeOutputs op).getOutputs x ++ if x = op then [l] else [] := by
      intro x; unfold getOutputs; rw [h3, vals_ins (h.wf.removeOutputs op).opOut_sorted]
    refine ⟨?_, fun x hx => ?_⟩
    · rw [hv, (C13_remove s op l op).2.2.2.2.2]; simp
    · rw [hv, (C13_remove s op l x).2.2.2.2.2]; simp [hx]

theorem mem_getInputs {s : Env} {op l : Obj} : l ∈ s.getInputs op ↔ (op, l) ∈ s.opIn := by
  unfold getInputs
  rw [List.mem_map]
  constructor
  · rintro ⟨e, he, rfl⟩
    obtain ⟨h1, h2⟩ := List.mem_filter.1 he
    rw [decide_eq_true_eq] at h2; rw [← h2]; exact h1
  · intro h; exact ⟨(op, l), List.mem_filter.2 ⟨h, by simp⟩, rfl⟩

theorem mem_getOutputs {s : Env} {op l : Obj} : l ∈ s.getOutputs op ↔ (op, l) ∈ s.opOut := by
  unfold getOutputs
  rw [List.mem_map]
  constructor
  · rintro ⟨e, he, rfl⟩
    obtain ⟨h1, h2⟩ := List.mem_filter.1 he
    rw [decide_eq_true_eq] at h2; rw [← h2]; exact h1
  · intro h; exact ⟨(op, l), List.mem_filter.2 ⟨h, by simp⟩, rfl⟩

/-- **C13 (derived queries)** getLayersGeneratedFrom(l) lists exactly the outputs of the operators that have l as
input; getGenerator(l) is an operator having l as output, and is NULL iff there is none. -/
theorem C13_generated_from (s : Env) (l : Obj) :
    (∀ x, x ∈ s.getLayersGeneratedFrom l ↔ ∃ op, l ∈ s.getInputs op ∧ x ∈ s.getOutputs op) ∧
    (∀ op, s.getGenerator l = some op → l ∈ s.getOutputs op) ∧
    (s.getGenerator l = none ↔ ∀ op, l ∉ s.getOutputs op) := by
  refine ⟨fun x => ?_, fun op hop => ?_, ?_⟩
  · unfold getLayersGeneratedFrom
    rw [List.mem_flatMap]
    constructor
    · rintro ⟨⟨op, y⟩, he, hx⟩
      obtain ⟨h1, h2⟩ := List.mem_filter.1 he
      rw [decide_eq_true_eq] at h2
      exact ⟨op, mem_getInputs.2 (by rw [← h2]; exact h1), hx⟩
    · rintro ⟨op, h1, h2⟩
      exact ⟨(op, l), List.mem_filter.2 ⟨mem_getInputs.1 h1, by simp⟩, h2⟩
  · unfold getGenerator at hop
    obtain ⟨⟨a, b⟩, he, rfl⟩ := Option.map_eq_some_iff.1 hop
    have h2 := List.find?_some he
    simp only [decide_eq_true_eq] at h2
    exact mem_getOutputs.2 (by rw [← h2]; exact List.mem_of_find?_eq_some he)
  · unfold getGenerator
    rw [Option.map_eq_none_iff, List.find?_eq_none]
    constructor
    · intro h op hm
      exact h _ (mem_getOutputs.1 hm) (by simp)
    · intro h e he hx
      rw [decide_eq_true_eq] at hx
      exact h e.1 (mem_getOutputs.2 (by rw [← hx]; exact he))

/-- two operators in a chain sharing a layer -/
def chainHistory : List Op :=
  [.alloc 1 .op [] false 0 0, .alloc 2 .op [] false 0 0, .alloc 3 .layer [] false 0 0, .alloc 4 .layer [] false 0 0,
   .alloc 5 .layer [] false 0 0, .addInput 1 3, .addOutput 1 4, .addInput 2 4, .addInput 2 3, .addOutput 2 5]

example : ∃ s, run (init 0) chainHistory = some s ∧ (s.getLayersGeneratedFrom 3 = [4, 5] ∧ s.getGenerator 4 = some 1 ∧
    s.getGenerator 3 = none ∧ s.getInputs 2 = [4, 3]) := ex_of_any (by decide +kernel)

/-! ## C14 -/

/-- **C14, the code violates the property**: the check for an existing link looks only at the first link of the
operator; adding the second input again creates a duplicate. -/
theorem C14_duplicate_input :
    (∃ s, run (init 0) (chainHistory ++ [.addInput 2 3]) = some s ∧ s.getInputs 2 = [4, 3, 3]) ∧
    (∃ s, run (init 0) (chainHistory ++ [.addOutput 1 3, .addOutput 1 3]) = some s ∧ s.getOutputs 1 = [4, 3, 3]) :=
  ⟨ex_of_any (by decide +kernel), ex_of_any (by decide +kernel)⟩

/-- **C14, what holds**: adding a link again does nothing if it is the first link of the operator. (Missing: links
after the first one.) -/
theorem C14_existing_first_input_partial (s : Env) (op l : Obj) :
    ((s.getInputs op).head? = some l → s.addInput op l = .ok s) ∧
    ((s.getOutputs op).head? = some l → s.addOutput op l = .ok s) := by
  constructor
  · intro h; unfold addInput; rw [look_eq_head]; exact if_pos h
  · intro h; unfold addOutput; rw [look_eq_head]; exact if_pos h

example : ∃ s, run (init 0) chainHistory = some s ∧ (s.getInputs 2).head? = some 4 := ex_of_any (by decide +kernel)

/-! ## C15 -/

/-- **C15, the code violates the property**: Layer::detachFromOperator never changes which layers are generated, in
any state: it removes an *input* link of the generator instead of the output link. -/
theorem C15_layer_stays_generated (s s' : Env) (l : Obj) (h : s.detachFromOperator l = .ok s') :
    ∀ x, s'.getGenerator x = s.getGenerator x := by
  unfold detachFromOperator at h
  split at h
  · cases h
  · split at h <;> cases h <;> intro x <;> rfl

/-- **C15, what holds**: the layer is no longer an *input* of its generator, everything else is unchanged. (Missing:
the documented effect, see `C15_layer_stays_generated`.) -/
theorem C15_detachFromOperator_partial (s : Env) (l : Obj) (hl : s.owner l = .here) :
    ∃ s', s.detachFromOperator l = .ok s' ∧
      (∀ op x, x ∈ s'.getInputs op ↔ x ∈ s.getInputs op ∧ ¬ (x = l ∧ s.getGenerator l = some op)) ∧
      s'.opOut = s.opOut ∧ s'.ftree = s.ftree ∧ s'.ltree = s.ltree ∧ s'.cmap = s.cmap ∧ s'.items = s.items := by
  unfold detachFromOperator
  rw [if_neg (fun h => h hl)]
  cases hg : s.getGenerator l with
  | none =>
    exact ⟨s, rfl, fun op x => ⟨fun h => ⟨h, fun h' => by cases h'.2⟩, fun h => h.1⟩, rfl, rfl, rfl, rfl, rfl⟩
  | some g =>
    refine ⟨_, rfl, fun op x => ?_, rfl, rfl, rfl, rfl, rfl⟩
    rw [(C13_remove s g l op).1]
    by_cases h : op = g
    · subst h; simp
    · rw [if_neg h]
      exact ⟨fun hx => ⟨hx, fun h' => h (Option.some.inj h'.2).symm⟩, fun hx => hx.1⟩

/-- concretely: the generated layer 4 is still generated after the call -/
example : ∃ s, run (init 0) (chainHistory ++ [.detachFromOperator 4]) = some s ∧ s.getGenerator 4 = some 1 :=
  ex_of_any (by decide +kernel)

end Envire

#print axioms Envire.C11_duplicate_layer_link
#print axioms Envire.C11_layer_links_exact
#print axioms Envire.C11_no_duplicates_partial
#print axioms Envire.C12_arity_never_exceeded
#print axioms Envire.C12_limit_throws
#print axioms Envire.C13_addInput
#print axioms Envire.C13_addOutput
#print axioms Envire.C13_remove
#print axioms Envire.C13_setInput
#print axioms Envire.C13_generated_from
#print axioms Envire.C14_duplicate_input
#print axioms Envire.C14_existing_first_input_partial
#print axioms Envire.C15_layer_stays_generated
#print axioms Envire.C15_detachFromOperator_partial
