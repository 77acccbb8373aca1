import Verif.Ops.UpdateModel

/-! C205: updating all operators. -/
namespace Envire.Update

variable {C : Type}

/-! ### specification -/

/-- the operator computes its outputs from its inputs alone, and does not fail -/
structure Pure (o : Oper C) : Prop where
  loc : ∀ c d : Nat → C, (∀ x ∈ o.ins, c x = d x) → o.compute c = o.compute d
  total : ∀ c : Nat → C, ∃ v, o.compute c = .wrote v

/-- the outputs of the operator are what it computes from its inputs -/
def Fresh (c : Nat → C) (o : Oper C) : Prop := ∃ v, o.compute c = .wrote v ∧ ∀ x ∈ o.outs, c x = v x

/-- each layer is the output of one operator at most, and the ids are ordered as in a map -/
structure Graph (l : List (Oper C)) : Prop where
  ordered : l.Pairwise fun a b => a.id < b.id
  single : ∀ a ∈ l, ∀ b ∈ l, ∀ x, x ∈ a.outs → x ∈ b.outs → a.id = b.id

theorem put_in {c : Nat → C} {outs : List Nat} {v : Nat → C} {x : Nat} (h : x ∈ outs) : put c outs v x = v x :=
  if_pos (List.contains_iff_mem.2 h)

theorem put_out {c : Nat → C} {outs : List Nat} {v : Nat → C} {x : Nat} (h : x ∉ outs) : put c outs v x = c x :=
  if_neg fun e => h (List.contains_iff_mem.1 e)

theorem fresh_congr {o : Oper C} (ho : Pure o) {c d : Nat → C} (hi : ∀ x ∈ o.ins, c x = d x) (hx : ∀ x ∈ o.outs, c x = d x) (h : Fresh c o) : Fresh d o := by
  obtain ⟨v, hv, hw⟩ := h
  exact ⟨v, by rw [← ho.loc c d hi]; exact hv, fun x hm => by rw [← hx x hm]; exact hw x hm⟩

/-- the content of a layer that no operator of the list has as output stays -/
theorem update_keeps : ∀ (l : List (Oper C)) (s : State C) (x : Nat), (∀ o ∈ l, x ∉ o.outs) → (update l s).1.content x = s.content x := by
  intro l
  induction l with
  | nil => intro s x _; rfl
  | cons o l ih =>
    intro s x h
    unfold update one
    cases o.compute s.content with
    | thrown => rfl
    | refused => exact ih _ x fun o ho => h o (List.mem_cons_of_mem _ ho)
    | wrote v =>
      refine (ih _ x fun o ho => h o (List.mem_cons_of_mem _ ho)).trans ?_
      exact put_out (h o List.mem_cons_self)

/-- without failures the loop runs to its end and each output is announced once -/
theorem update_runs : ∀ (l : List (Oper C)) (s : State C), (∀ o ∈ l, Pure o) → (update l s).2 = true ∧ (update l s).1.events = s.events ++ l.flatMap Oper.outs := by
  intro l
  induction l with
  | nil => intro s _; exact ⟨rfl, (List.append_nil _).symm⟩
  | cons o l ih =>
    intro s h
    obtain ⟨v, hv⟩ := (h o List.mem_cons_self).total s.content
    obtain ⟨h1, h2⟩ := ih ⟨put s.content o.outs v, s.events ++ o.outs⟩ fun o ho => h o (List.mem_cons_of_mem _ ho)
    unfold update one
    rw [hv]
    refine ⟨h1, h2.trans ?_⟩
    rw [List.flatMap_cons, List.append_assoc]

/-- later operators do not change what the operator reads or writes -/
theorem fresh_of_order : ∀ (l : List (Oper C)) (s : State C), (∀ o ∈ l, Pure o) → (∀ o ∈ l, ∀ x ∈ o.ins, x ∉ o.outs) →
    l.Pairwise (fun a b => ∀ x ∈ b.outs, x ∉ a.ins ∧ x ∉ a.outs) → ∀ o ∈ l, Fresh (update l s).1.content o := by
  intro l
  induction l with
  | nil => intro s _ _ _ o ho; cases ho
  | cons a l ih =>
    intro s hp hs hw o ho
    obtain ⟨v, hv⟩ := (hp a List.mem_cons_self).total s.content
    have hw' := List.pairwise_cons.1 hw
    have heq : update (a :: l) s = update l ⟨put s.content a.outs v, s.events ++ a.outs⟩ := by
      conv => lhs; unfold update one
      rw [hv]
    rw [heq]
    rcases List.mem_cons.1 ho with rfl | ho
    · have hin : ∀ x ∈ o.ins, s.content x = (update l ⟨put s.content o.outs v, s.events ++ o.outs⟩).1.content x := by
        intro x hx
        rw [update_keeps l _ x fun b hb hm => (hw'.1 b hb x hm).1 hx]
        exact (put_out (hs o List.mem_cons_self x hx)).symm
      refine ⟨v, by rw [← (hp o List.mem_cons_self).loc _ _ hin]; exact hv, fun x hx => ?_⟩
      rw [update_keeps l _ x fun b hb hm => (hw'.1 b hb x hm).2 hx]
      exact put_in hx
    · exact ih _ (fun o ho => hp o (List.mem_cons_of_mem _ ho)) (fun o ho => hs o (List.mem_cons_of_mem _ ho)) hw'.2 o ho

/-- **C205 (in the order of the ids)** If each operator whose output another one reads has the smaller id, then after updateOperators all outputs are what the operators compute from the inputs as they
are then, the other layers are unchanged, and each output is announced once.
Missing: other orders of the ids, operators that fail (below). -/
theorem C205_order_partial (l : List (Oper C)) (hl : Graph l) (hp : ∀ o ∈ l, Pure o) (hc : ∀ a ∈ l, ∀ b ∈ l, ∀ x, x ∈ a.outs → x ∈ b.ins → a.id < b.id) (s : State C) :
    (update l s).2 = true ∧ (∀ o ∈ l, Fresh (update l s).1.content o) ∧ (∀ x, (∀ o ∈ l, x ∉ o.outs) → (update l s).1.content x = s.content x) ∧
    (update l s).1.events = s.events ++ l.flatMap Oper.outs := by
  refine ⟨(update_runs l s hp).1, fresh_of_order l s hp (fun o ho x hi hx => String.lt_irrefl _ (hc o ho o ho x hx hi)) ?_, fun x hx => update_keeps l s x hx, (update_runs l s hp).2⟩
  refine List.Pairwise.imp_of_mem ?_ hl.ordered
  intro a b ha hb hlt x hx
  refine ⟨fun hi => String.lt_irrefl _ (String.lt_trans hlt (hc b hb a ha x hx hi)), fun ho => ?_⟩
  have := hl.single b hb a ha x hx ho
  rw [this] at hlt
  exact String.lt_irrefl _ hlt

/-! ### several calls -/

/-- the layers that no operator makes, or one of a rank below `k` -/
def Low (l : List (Oper C)) (rank : String → Nat) (k : Nat) (x : Nat) : Prop := ∀ o ∈ l, x ∈ o.outs → rank o.id < k

def Settled (l : List (Oper C)) (rank : String → Nat) (k : Nat) (c : Nat → C) : Prop := ∀ o ∈ l, rank o.id < k → Fresh c o

theorem settle_part {l : List (Oper C)} (hl : Graph l) (hp : ∀ o ∈ l, Pure o) {rank : String → Nat} (hr : ∀ a ∈ l, ∀ b ∈ l, ∀ x, x ∈ a.outs → x ∈ b.ins → rank a.id < rank b.id) {k : Nat}
    {c : Nat → C} (hc : Settled l rank k c) : ∀ (m : List (Oper C)) (s : State C), (∀ o ∈ m, o ∈ l) → m.Pairwise (fun a b => a.id < b.id) → (∀ x, Low l rank k x → s.content x = c x) →
    (∀ x, Low l rank k x → (update m s).1.content x = c x) ∧ ∀ o ∈ m, rank o.id < k + 1 → Fresh (update m s).1.content o := by
  have hins : ∀ o ∈ l, rank o.id < k + 1 → ∀ x ∈ o.ins, Low l rank k x := by
    intro o ho hk x hx a ha hxa
    have := hr a ha o ho x hxa hx
    omega
  intro m
  induction m with
  | nil => intro s _ _ h; exact ⟨h, fun o ho => by cases ho⟩
  | cons a m ih =>
    intro s hm hw h
    have hal := hm a List.mem_cons_self
    have hw' := List.pairwise_cons.1 hw
    obtain ⟨v, hv⟩ := (hp a hal).total s.content
    have heq : update (a :: m) s = update m ⟨put s.content a.outs v, s.events ++ a.outs⟩ := by
      conv => lhs; unfold update one
      rw [hv]
    rw [heq]
    have h' : ∀ x, Low l rank k x → put s.content a.outs v x = c x := by
      intro x hx
      by_cases hxa : x ∈ a.outs
      · have hk := hx a hal hxa
        rw [put_in hxa]
        obtain ⟨w, hw1, hw2⟩ := hc a hal hk
        have : a.compute s.content = a.compute c := (hp a hal).loc _ _ fun y hy => h y (hins a hal (by omega) y hy)
        rw [hv, hw1] at this
        cases this
        exact (hw2 x hxa).symm
      · rw [put_out hxa]
        exact h x hx
    obtain ⟨h1, h2⟩ := ih ⟨put s.content a.outs v, s.events ++ a.outs⟩ (fun o ho => hm o (List.mem_cons_of_mem _ ho)) hw'.2 h'
    refine ⟨h1, fun o ho hk => ?_⟩
    rcases List.mem_cons.1 ho with rfl | ho
    · refine ⟨v, ?_, fun x hx => ?_⟩
      · rw [← hv]
        refine (hp o hal).loc _ _ fun y hy => ?_
        have hlow := hins o hal hk y hy
        rw [h1 y hlow, h y hlow]
      · rw [update_keeps m _ x fun b hb hxb => ?_]
        · exact put_in hx
        · have he := hl.single o hal b (hm b (List.mem_cons_of_mem _ hb)) x hx hxb
          have hlt := hw'.1 b hb
          rw [he] at hlt
          exact String.lt_irrefl _ hlt
    · exact h2 o ho hk

/-- **C205 (several calls)** In any graph without cycles, whatever the ids, as many calls of updateOperators as the longest chain has operators bring all layers up to date. -/
theorem C205_repeat (l : List (Oper C)) (hl : Graph l) (hp : ∀ o ∈ l, Pure o) (rank : String → Nat) (hr : ∀ a ∈ l, ∀ b ∈ l, ∀ x, x ∈ a.outs → x ∈ b.ins → rank a.id < rank b.id) (k : Nat)
    (hk : ∀ o ∈ l, rank o.id < k) (s : State C) : ∀ o ∈ l, Fresh (updates l k s).content o := by
  have key : ∀ (k j : Nat) (s : State C), Settled l rank j s.content → Settled l rank (j + k) (updates l k s).content := by
    intro k
    induction k with
    | zero => intro j s h; exact h
    | succ k ih =>
      intro j s h
      have h1 : Settled l rank (j + 1) (update l s).1.content := by
        intro o ho hk
        exact (settle_part hl hp hr h l s (fun _ h => h) hl.ordered fun _ _ => rfl).2 o ho hk
      have := ih (j + 1) (update l s).1 h1
      rw [show j + 1 + k = j + (k + 1) by omega] at this
      exact this
  intro o ho
  refine key k 0 s (fun o _ h => by omega) o ho ?_
  have := hk o ho
  omega

/-- **C205 (order, deviation)** If an operator has a smaller id than the one that makes its input, then updateOperators computes its output from the old input. -/
theorem C205_order_deviation (a b : Oper C) (hb : Pure b) (hout : ∀ x ∈ a.outs, x ∉ b.outs) (s : State C) :
    ∃ v, b.compute s.content = .wrote v ∧ ∀ x ∈ b.outs, (update [b, a] s).1.content x = v x := by
  obtain ⟨v, hv⟩ := hb.total s.content
  refine ⟨v, hv, fun x hx => ?_⟩
  have heq : update [b, a] s = update [a] ⟨put s.content b.outs v, s.events ++ b.outs⟩ := by
    conv => lhs; unfold update one
    rw [hv]
  rw [heq, update_keeps [a] _ x fun o ho hm => ?_]
  · exact put_in hx
  · cases List.mem_singleton.1 ho
    exact hout x hm hx

/-- the operator that copies layer `i` to layer `o` -/
def copier (id : String) (i o : Nat) : Oper Nat := ⟨id, [i], [o], fun c => .wrote fun _ => c i⟩

theorem copier_pure (id : String) (i o : Nat) : Pure (copier id i o) := by
  refine ⟨fun c d h => ?_, fun c => ⟨_, rfl⟩⟩
  show Res.wrote (fun _ => c i) = Res.wrote (fun _ => d i)
  rw [h i List.mem_cons_self]

/-- **C205 (automatic ids, deviation)** The operators 9 and 10 of an environment are made in the order of the chain from layer 0 over 1 to 2. In the map 10 comes first, so that the result is out of date
after updateOperators, and up to date after the second call. -/
theorem C205_ids_deviation :
    let l := [copier "/10" 1 2, copier "/9" 0 1]
    let s : State Nat := ⟨fun x => if x = 0 then 7 else 0, []⟩
    Graph l ∧ ¬ Fresh (update l s).1.content (copier "/10" 1 2) ∧ (update l s).1.content 2 = 0 ∧ (update l s).1.content 1 = 7 ∧ (updates l 2 s).content 2 = 7 := by
  refine ⟨⟨?_, ?_⟩, ?_, by decide +kernel, by decide +kernel, by decide +kernel⟩
  · exact List.Pairwise.cons (fun b hb => by cases List.mem_singleton.1 hb; show "/10" < "/9"; decide +kernel) (List.pairwise_singleton _ _)
  · intro a ha b hb x hxa hxb
    simp only [List.mem_cons, List.not_mem_nil, or_false] at ha hb
    rcases ha with rfl | rfl <;> rcases hb with rfl | rfl <;> simp [copier] at hxa hxb ⊢ <;> omega
  · rintro ⟨v, hv, hw⟩
    have h2 := hw 2 List.mem_cons_self
    cases hv
    revert h2
    decide +kernel

/-- **C205 (failures, deviation)** An operator that throws ends the call: the operators with greater ids are not updated. An operator that returns false ends nothing, and its outputs are announced although
they did not change. -/
theorem C205_failure_deviation (a : Oper C) (l : List (Oper C)) (s : State C) :
    (a.compute s.content = .thrown → update (a :: l) s = (s, false)) ∧ (a.compute s.content = .refused → update (a :: l) s = update l ⟨s.content, s.events ++ a.outs⟩) := by
  constructor <;> intro h
  · unfold update one
    rw [h]
  · conv => lhs; unfold update one
    rw [h]

/-! ### examples -/

/-- a chain in the order of the ids -/
example :
    let l := [copier "/1" 0 1, copier "/2" 1 2]
    Graph l ∧ (∀ o ∈ l, Pure o) ∧ (∀ a ∈ l, ∀ b ∈ l, ∀ x, x ∈ a.outs → x ∈ b.ins → a.id < b.id) ∧ (update l ⟨fun x => if x = 0 then 7 else 0, []⟩).1.content 2 = 7 ∧
    (update l ⟨fun x => if x = 0 then 7 else 0, []⟩).1.events = [1, 2] := by
  refine ⟨⟨?_, ?_⟩, ?_, ?_, by decide +kernel, by decide +kernel⟩
  · exact List.Pairwise.cons (fun b hb => by cases List.mem_singleton.1 hb; show "/1" < "/2"; decide +kernel) (List.pairwise_singleton _ _)
  · intro a ha b hb x hxa hxb
    simp only [List.mem_cons, List.not_mem_nil, or_false] at ha hb
    rcases ha with rfl | rfl <;> rcases hb with rfl | rfl <;> simp [copier] at hxa hxb ⊢ <;> omega
  · intro o ho
    simp only [List.mem_cons, List.not_mem_nil, or_false] at ho
    rcases ho with rfl | rfl <;> exact copier_pure _ _ _
  · intro a ha b hb x hxa hxb
    simp only [List.mem_cons, List.not_mem_nil, or_false] at ha hb
    rcases ha with rfl | rfl <;> rcases hb with rfl | rfl <;> simp [copier] at hxa hxb ⊢ <;> first | omega | decide +kernel

#print axioms C205_order_partial
#print axioms C205_repeat
#print axioms C205_order_deviation
#print axioms C205_ids_deviation
#print axioms C205_failure_deviation
end Envire.Update
