import Verif.Maps.TravCellModel

/-!
C210: cells of a traversability grid.

The specification speaks about the list of calls only: `lastTrav`, `lastProb` (what was written last to a cell), `classAt` (what was registered last for a number).
-/
namespace Envire.TravCell

variable {K : Type}

/-! ### specification -/

/-- the class number that the call writes to the cell -/
def Op.trav? (x y : Nat) : Op K → Option Nat
  | .setTraversability k i j => if x = i ∧ y = j then some k else none
  | .setBoth k _ i j => if x = i ∧ y = j then some k else none
  | _ => none

/-- the byte of the probability that the call writes to the cell -/
def Op.prob? (x y : Nat) : Op K → Option Nat
  | .setProbability p i j => if x = i ∧ y = j then some p else none
  | .setBoth _ p i j => if x = i ∧ y = j then some p else none
  | _ => none

def Op.class? (n : Nat) : Op K → Option K
  | .setClass m k => if n = m then some k else none
  | _ => none

def lastTrav (ops : List (Op K)) (x y : Nat) : Nat := (ops.reverse.findSome? (Op.trav? x y)).getD 0
def lastProb (ops : List (Op K)) (x y : Nat) : Nat := (ops.reverse.findSome? (Op.prob? x y)).getD 0

/-- the class of a number: the last one that was registered, the placeholder if a greater number has a class, otherwise none -/
def classAt (d : K) (ops : List (Op K)) (n : Nat) : Option K :=
  match ops.reverse.findSome? (Op.class? n) with
  | some k => some k
  | none => if ops.any (fun | .setClass m _ => decide (n < m) | _ => false) then some d else none

/-- no band is taken away -/
def Keeps (ops : List (Op K)) : Prop := ∀ b, Op.removeData b ∉ ops

/-! ### proofs -/

theorem last_snoc {β : Type} (f : Op K → Option β) (ops : List (Op K)) (o : Op K) :
    (ops ++ [o]).reverse.findSome? f = (match f o with | some v => some v | none => ops.reverse.findSome? f) := by
  rw [List.reverse_append, List.reverse_cons, List.reverse_nil, List.nil_append, List.singleton_append, List.findSome?_cons]
  cases f o <;> rfl

/-- a band holds what the calls have written -/
structure Holds (f : Nat → Nat → Nat) (t : Store) : Prop where
  ptr : t.ptr ≠ .dangling
  live : t.ptr = .live → t.data ≠ none
  val : ∀ x y, (t.data.getD fun _ _ => 0) x y = f x y

theorem Holds.array {f : Nat → Nat → Nat} {t : Store} (g : Holds f t) : t.array.ptr = .live ∧ ∃ d, t.array.data = some d ∧ ∀ x y, d x y = f x y := by
  unfold Store.array
  cases hp : t.ptr with
  | null => exact ⟨rfl, _, rfl, g.val⟩
  | live =>
    refine ⟨hp, ?_⟩
    cases hd : t.data with
    | none => exact absurd hd (g.live hp)
    | some d => exact ⟨d, by simp, fun x y => by have := g.val x y; rw [hd] at this; exact this⟩
  | dangling => exact absurd hp g.ptr

theorem Holds.write {f : Nat → Nat → Nat} {t : Store} (g : Holds f t) (w h v x y : Nat) :
    (x < w ∧ y < h → ∃ u, t.write w h v x y = some u ∧ Holds (fun i j => if i = x ∧ j = y then v else f i j) u) ∧ (¬ (x < w ∧ y < h) → t.write w h v x y = none) := by
  obtain ⟨h1, d, h2, h3⟩ := g.array
  unfold Store.write
  rw [h1, h2]
  dsimp only
  constructor
  · intro c
    rw [if_pos c]
    refine ⟨_, rfl, by simp, by simp, ?_⟩
    intro i j
    simp only [Option.getD_some, h3]
  · intro c; rw [if_neg c]

theorem Holds.read {f : Nat → Nat → Nat} {t : Store} (g : Holds f t) (w h x y : Nat) :
    (x < w ∧ y < h → ∃ u, t.read w h x y = some (u, f x y) ∧ Holds f u) ∧ (¬ (x < w ∧ y < h) → t.read w h x y = none) := by
  obtain ⟨h1, d, h2, h3⟩ := g.array
  unfold Store.read
  rw [h1, h2]
  dsimp only
  constructor
  · intro c
    rw [if_pos c, h3]
    refine ⟨_, rfl, by rw [h1]; simp, by rw [h2]; simp, ?_⟩
    intro i j
    rw [h2]; exact h3 i j
  · intro c; rw [if_neg c]

structure Good (d : K) (ops : List (Op K)) (s : State K) : Prop where
  trav : Holds (lastTrav ops) s.trav
  prob : Holds (lastProb ops) s.prob
  classes : ∀ n, s.classes[n]? = classAt d ops n

theorem good_start (d : K) : Good d [] (State.start K) := by
  refine ⟨⟨by simp [State.start], by simp [State.start], fun _ _ => rfl⟩, ⟨by simp [State.start], by simp [State.start], fun _ _ => rfl⟩, fun n => ?_⟩
  simp [State.start, classAt]

theorem setClass_get (d : K) (l : List K) (n : Nat) (k : K) (m : Nat) :
    (setClass d l n k)[m]? = if m = n then some k else match l[m]? with | some c => some c | none => if m < n then some d else none := by
  unfold setClass
  by_cases hl : l.length ≤ n
  · rw [if_pos hl, List.getElem?_set]
    by_cases h : n = m
    · subst h
      rw [if_pos rfl, if_pos (by rw [List.length_append, List.length_replicate]; omega), if_pos rfl]
    · rw [if_neg h, if_neg (show ¬ m = n from fun c => h c.symm), List.getElem?_append]
      by_cases c : m < l.length
      · rw [if_pos c, List.getElem?_eq_getElem c]
      · rw [if_neg c, List.getElem?_replicate, List.getElem?_eq_none (by omega)]
        dsimp only
        by_cases e : m < n
        · rw [if_pos e, if_pos (by omega)]
        · rw [if_neg e, if_neg (by omega)]
  · rw [if_neg hl, List.getElem?_set]
    by_cases h : n = m
    · subst h
      rw [if_pos rfl, if_pos (by omega), if_pos rfl]
    · rw [if_neg h, if_neg (show ¬ m = n from fun c => h c.symm)]
      cases hm : l[m]? with
      | some c => rfl
      | none =>
        have := List.getElem?_eq_none_iff.1 hm
        dsimp only
        rw [if_neg (by omega)]

theorem classAt_snoc (d : K) (ops : List (Op K)) (n : Nat) (k : K) (m : Nat) :
    classAt d (ops ++ [.setClass n k]) m = if m = n then some k else match classAt d ops m with | some c => some c | none => if m < n then some d else none := by
  unfold classAt
  rw [last_snoc]
  simp only [Op.class?]
  by_cases h : m = n
  · simp [h]
  · rw [if_neg h, if_neg h]
    cases ops.reverse.findSome? (Op.class? m) with
    | some c => rfl
    | none =>
      dsimp only
      rw [List.any_append]
      cases ops.any (fun | .setClass j _ => decide (m < j) | _ => false) <;> simp

theorem classAt_other (d : K) (ops : List (Op K)) (o : Op K) (h : ∀ n k, o ≠ .setClass n k) (m : Nat) : classAt d (ops ++ [o]) m = classAt d ops m := by
  unfold classAt
  rw [last_snoc, List.any_append]
  cases o <;> first | (simp [Op.class?]; done) | exact absurd rfl (h _ _)

theorem lastTrav_snoc (ops : List (Op K)) (o : Op K) (x y : Nat) : lastTrav (ops ++ [o]) x y = match Op.trav? x y o with | some v => v | none => lastTrav ops x y := by
  unfold lastTrav
  rw [last_snoc]
  cases Op.trav? x y o <;> rfl

theorem lastProb_snoc (ops : List (Op K)) (o : Op K) (x y : Nat) : lastProb (ops ++ [o]) x y = match Op.prob? x y o with | some v => v | none => lastProb ops x y := by
  unfold lastProb
  rw [last_snoc]
  cases Op.prob? x y o <;> rfl

theorem Holds.congr {f g : Nat → Nat → Nat} {t : Store} (h : Holds f t) (e : ∀ x y, f x y = g x y) : Holds g t := ⟨h.ptr, h.live, fun x y => (h.val x y).trans (e x y)⟩

/-- what a call needs -/
def Fits (d : K) (w h : Nat) (ops : List (Op K)) : Op K → Prop
  | .setTraversability _ x y => x < w ∧ y < h
  | .setProbability _ x y => x < w ∧ y < h
  | .setBoth _ _ x y => x < w ∧ y < h
  | .getTraversability x y => (x < w ∧ y < h) ∧ classAt d ops (lastTrav ops x y) ≠ none
  | .getProbability x y => x < w ∧ y < h
  | .setClass _ _ => True
  | .removeData _ => True

theorem get_trav {d : K} {ops : List (Op K)} {s : State K} (g : Good d ops s) (w h x y : Nat) (hx : x < w ∧ y < h) :
    match classAt d ops (lastTrav ops x y) with
    | none => getTraversability w h s x y = none
    | some k => ∃ u, getTraversability w h s x y = some ({ s with trav := u }, k) ∧ Holds (lastTrav ops) u := by
  obtain ⟨u, h1, h2⟩ := (g.trav.read w h x y).1 hx
  unfold getTraversability
  rw [h1]
  dsimp only
  rw [g.classes]
  cases classAt d ops (lastTrav ops x y) with
  | none => rfl
  | some k => exact ⟨u, rfl, h2⟩

theorem get_prob {d : K} {ops : List (Op K)} {s : State K} (g : Good d ops s) (w h x y : Nat) (hx : x < w ∧ y < h) :
    ∃ u, getProbability w h s x y = some ({ s with prob := u }, lastProb ops x y) ∧ Holds (lastProb ops) u := by
  obtain ⟨u, h1, h2⟩ := (g.prob.read w h x y).1 hx
  unfold getProbability
  rw [h1]
  exact ⟨u, rfl, h2⟩

theorem good_step {d : K} {w h : Nat} {ops : List (Op K)} {s : State K} (g : Good d ops s) (o : Op K) (hr : ∀ b, o ≠ .removeData b) :
    (Fits d w h ops o → ∃ t, step d w h s o = some t ∧ Good d (ops ++ [o]) t) ∧ (¬ Fits d w h ops o → step d w h s o = none) := by
  cases o with
  | removeData b => exact absurd rfl (hr b)
  | setClass n k =>
    refine ⟨fun _ => ⟨_, rfl, ?_, ?_, ?_⟩, fun c => absurd trivial c⟩
    · exact g.trav.congr fun x y => by rw [lastTrav_snoc]; rfl
    · exact g.prob.congr fun x y => by rw [lastProb_snoc]; rfl
    · intro m
      show (setClass d s.classes n k)[m]? = _
      rw [setClass_get, classAt_snoc, g.classes]
  | setTraversability k x y =>
    refine ⟨fun c => ?_, fun c => ?_⟩
    · obtain ⟨u, h1, h2⟩ := (g.trav.write w h k x y).1 c
      refine ⟨{ s with trav := u }, ?_, ?_, ?_, ?_⟩
      · simp [step, write, State.get, h1, State.put]
      · refine h2.congr fun i j => ?_
        rw [lastTrav_snoc]
        simp only [Op.trav?]
        split <;> rfl
      · exact g.prob.congr fun x y => by rw [lastProb_snoc]; rfl
      · intro m; rw [classAt_other d ops _ (by intro _ _ c; cases c)]; exact g.classes m
    · have := (g.trav.write w h k x y).2 c
      simp [step, write, State.get, this]
  | setProbability k x y =>
    refine ⟨fun c => ?_, fun c => ?_⟩
    · obtain ⟨u, h1, h2⟩ := (g.prob.write w h k x y).1 c
      refine ⟨{ s with prob := u }, ?_, ?_, ?_, ?_⟩
      · simp [step, write, State.get, h1, State.put]
      · exact g.trav.congr fun x y => by rw [lastTrav_snoc]; rfl
      · refine h2.congr fun i j => ?_
        rw [lastProb_snoc]
        simp only [Op.prob?]
        split <;> rfl
      · intro m; rw [classAt_other d ops _ (by intro _ _ c; cases c)]; exact g.classes m
    · have := (g.prob.write w h k x y).2 c
      simp [step, write, State.get, this]
  | setBoth k p x y =>
    refine ⟨fun c => ?_, fun c => ?_⟩
    · obtain ⟨u, h1, h2⟩ := (g.prob.write w h p x y).1 c
      obtain ⟨v, h3, h4⟩ := (g.trav.write w h k x y).1 c
      refine ⟨{ s with prob := u, trav := v }, ?_, ?_, ?_, ?_⟩
      · simp [step, write, State.get, h1, State.put, h3]
      · refine h4.congr fun i j => ?_
        rw [lastTrav_snoc]
        simp only [Op.trav?]
        split <;> rfl
      · refine h2.congr fun i j => ?_
        rw [lastProb_snoc]
        simp only [Op.prob?]
        split <;> rfl
      · intro m; rw [classAt_other d ops _ (by intro _ _ c; cases c)]; exact g.classes m
    · have := (g.prob.write w h p x y).2 c
      simp [step, write, State.get, this]
  | getTraversability x y =>
    refine ⟨fun c => ?_, fun c => ?_⟩
    · have r := get_trav g w h x y c.1
      cases hc : classAt d ops (lastTrav ops x y) with
      | none => exact absurd hc c.2
      | some k =>
        rw [hc] at r
        obtain ⟨u, h1, h2⟩ := r
        refine ⟨_, by simp only [step, h1]; rfl, ?_, ?_, ?_⟩
        · exact h2.congr fun x y => by rw [lastTrav_snoc]; rfl
        · exact g.prob.congr fun x y => by rw [lastProb_snoc]; rfl
        · intro m; rw [classAt_other d ops _ (by intro _ _ c; cases c)]; exact g.classes m
    · by_cases hx : x < w ∧ y < h
      · have r := get_trav g w h x y hx
        cases hc : classAt d ops (lastTrav ops x y) with
        | none => rw [hc] at r; simp only [step, r]
        | some k => exact absurd ⟨hx, by rw [hc]; simp⟩ c
      · have := (g.trav.read w h x y).2 hx
        simp [step, getTraversability, this]
  | getProbability x y =>
    refine ⟨fun c => ?_, fun c => ?_⟩
    · obtain ⟨u, h1, h2⟩ := get_prob g w h x y c
      refine ⟨_, by simp only [step, h1]; rfl, ?_, ?_, ?_⟩
      · exact g.trav.congr fun x y => by rw [lastTrav_snoc]; rfl
      · exact h2.congr fun x y => by rw [lastProb_snoc]; rfl
      · intro m; rw [classAt_other d ops _ (by intro _ _ c; cases c)]; exact g.classes m
    · have := (g.prob.read w h x y).2 c
      simp [step, getProbability, this]

theorem good_run {d : K} {w h : Nat} (b : List (Op K)) : ∀ {a : List (Op K)} {s t : State K}, Good d a s → Keeps b → run d w h s b = some t → Good d (a ++ b) t := by
  induction b with
  | nil => intro a s t g _ e; simp [run] at e; subst e; simpa using g
  | cons o b ih =>
    intro a s t g hk e
    have ho : ∀ x, o ≠ .removeData x := fun x c => hk x (by rw [← c]; exact List.mem_cons_self)
    have hb : Keeps b := fun x c => hk x (List.mem_cons_of_mem _ c)
    unfold run at e
    by_cases hf : Fits d w h a o
    · obtain ⟨u, h1, h2⟩ := (good_step g o ho).1 hf
      rw [h1] at e
      have := ih h2 hb e
      simpa using this
    · rw [(good_step g o ho).2 hf] at e
      cases e

/-- **C210 (cells, partial)** After any calls that take no band away, a cell of the grid has the class that was registered last for the number that was written to it last, and the probability that was written to
it last; cells that were never written have number 0 and probability 0. The two do not influence each other.
Missing: a number without a class is undefined behaviour instead of an exception (C210_class_deviation), and so is the use of a band that was removed (C210_removed_deviation). -/
theorem C210_cells_partial (d : K) (w h : Nat) (ops : List (Op K)) (hk : Keeps ops) (s : State K) (hs : run d w h (State.start K) ops = some s) (x y : Nat) (hx : x < w) (hy : y < h) :
    (∀ k, classAt d ops (lastTrav ops x y) = some k → (getTraversability w h s x y).map (·.2) = some k) ∧
    (getProbability w h s x y).map (·.2) = some (lastProb ops x y) := by
  have g := good_run ops (good_start d) hk hs
  rw [List.nil_append] at g
  constructor
  · intro k hc
    have r := get_trav g w h x y ⟨hx, hy⟩
    rw [hc] at r
    obtain ⟨u, h1, _⟩ := r
    rw [h1]; rfl
  · obtain ⟨u, h1, _⟩ := get_prob g w h x y ⟨hx, hy⟩
    rw [h1]; rfl

/-- **C210 (defined calls)** The next call is defined exactly if its cell is in the grid and, for getTraversability, the number of the cell has a class. -/
theorem C210_defined (d : K) (w h : Nat) (ops : List (Op K)) (hk : Keeps ops) (s : State K) (hs : run d w h (State.start K) ops = some s) (o : Op K) (ho : ∀ b, o ≠ .removeData b) :
    (∃ t, step d w h s o = some t) ↔ Fits d w h ops o := by
  have g := good_run ops (good_start d) hk hs
  rw [List.nil_append] at g
  constructor
  · rintro ⟨t, ht⟩
    by_cases hf : Fits d w h ops o
    · exact hf
    · rw [(good_step g o ho).2 hf] at ht; cases ht
  · intro hf
    obtain ⟨t, ht, _⟩ := (good_step g o ho).1 hf
    exact ⟨t, ht⟩

/-- **C210 (number without class, deviation)** A cell whose number has no class cannot be asked: undefined behaviour. This is so for all cells of a grid without classes. -/
theorem C210_class_deviation (d : K) (w h : Nat) (ops : List (Op K)) (hk : Keeps ops) (s : State K) (hs : run d w h (State.start K) ops = some s) (x y : Nat) :
    (classAt d ops (lastTrav ops x y) = none → getTraversability w h s x y = none) ∧ ((∀ n k, Op.setClass n k ∉ ops) → getTraversability w h s x y = none) := by
  have g := good_run ops (good_start d) hk hs
  rw [List.nil_append] at g
  have key : classAt d ops (lastTrav ops x y) = none → getTraversability w h s x y = none := by
    intro hc
    by_cases hx : x < w ∧ y < h
    · have r := get_trav g w h x y hx
      rw [hc] at r; exact r
    · unfold getTraversability
      rw [(g.trav.read w h x y).2 hx]
  refine ⟨key, fun hn => key ?_⟩
  unfold classAt
  have h1 : ops.reverse.findSome? (Op.class? (lastTrav ops x y)) = none := by
    rw [List.findSome?_eq_none_iff]
    intro o ho
    cases o <;> first | rfl | exact absurd (List.mem_reverse.1 ho) (hn _ _)
  rw [h1]
  dsimp only
  rw [if_neg]
  intro c
  obtain ⟨o, ho, hc⟩ := List.any_eq_true.1 c
  cases o <;> first | cases hc | exact absurd ho (hn _ _)

/-- **C210 (band taken away, deviation)** After a cell was written and its band removed, the next use of the band is undefined behaviour, also for the same grid and cell. -/
theorem C210_removed_deviation (d : K) (w h : Nat) (ops : List (Op K)) (hk : Keeps ops) (k x y : Nat) (o : Op K)
    (ho : (∃ v i j, o = .setTraversability v i j) ∨ (∃ i j, o = .getTraversability i j)) :
    run d w h (State.start K) (ops ++ [.setTraversability k x y, .removeData .trav, o]) = none := by
  have happ : ∀ (a b : List (Op K)) (s : State K), run d w h s (a ++ b) = (run d w h s a).bind fun t => run d w h t b := by
    intro a
    induction a with
    | nil => intro b s; rfl
    | cons q a ih =>
      intro b s
      simp only [List.cons_append, run]
      cases step d w h s q with
      | none => rfl
      | some t => exact ih b t
  rw [happ]
  cases hs : run d w h (State.start K) ops with
  | none => rfl
  | some s =>
    have g := good_run ops (good_start d) hk hs
    rw [List.nil_append] at g
    show run d w h s [.setTraversability k x y, .removeData .trav, o] = none
    by_cases hx : x < w ∧ y < h
    · obtain ⟨u, h1, h2⟩ := (g.trav.write w h k x y).1 hx
      have hu : u.ptr = .live := by
        obtain ⟨a1, e, a2, _⟩ := g.trav.array
        unfold Store.write at h1
        rw [a1, a2] at h1
        dsimp only at h1
        rw [if_pos hx] at h1
        cases h1; rfl
      have e1 : step d w h s (.setTraversability k x y) = some { s with trav := u } := by simp [step, write, State.get, h1, State.put]
      have e2 : step d w h { s with trav := u } (.removeData .trav) = some { s with trav := ⟨none, .dangling⟩ } := by simp [step, State.get, State.put, hu]
      unfold run
      rw [e1]
      dsimp only
      unfold run
      rw [e2]
      dsimp only
      unfold run
      rcases ho with ⟨v, i, j, rfl⟩ | ⟨i, j, rfl⟩
      · rfl
      · rfl
    · unfold run
      simp [step, write, State.get, (g.trav.write w h k x y).2 hx]

/-! ### examples -/

/-- classes are numbers here, -1 the placeholder -/
def sample : List (Op Int) := [.setClass 2 50, .setTraversability 2 0 1, .setBoth 1 200 0 0, .setClass 1 70, .getTraversability 0 0, .setProbability 30 0 0]

example : (run (-1) 2 2 (State.start Int) sample).isSome = true ∧ lastTrav sample 0 0 = 1 ∧ classAt (-1) sample 1 = some 70 ∧ lastProb sample 0 0 = 30 ∧ classAt (-1) sample 0 = some (-1) ∧
    classAt (-1) sample 3 = none ∧ lastTrav sample 1 1 = 0 := by decide +kernel
example : ((run (-1) 2 2 (State.start Int) sample).bind fun s => (getTraversability 2 2 s 0 0).map (·.2)) = some 70 := by decide +kernel
example : Keeps sample := by intro b h; simp [sample] at h

#print axioms C210_cells_partial
#print axioms C210_defined
#print axioms C210_class_deviation
#print axioms C210_removed_deviation
end Envire.TravCell
