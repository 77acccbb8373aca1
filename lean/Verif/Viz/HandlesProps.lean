import Verif.Viz.HandlesModel

/-!
C179: the handles of frames.
-/
namespace Envire.Handles

variable {M C : Type}

/-- the circle of references that is never broken -/
def Circle (s : State M C) (i : Nat) : Prop := (Obj.translate i, Obj.callback i) ∈ s.refs ∧ (Obj.callback i, Obj.translate i) ∈ s.refs

structure Inv (s : State M C) : Prop where
  live : s.live = List.range s.made
  circle : ∀ i < s.made, Circle s i
  follow : ∀ i < s.made, s.tf i = s.pose (s.frameOf i)
  active : ∀ i, s.active = some i → i < s.made

theorem freeObj_inv {s : State M C} (h : Inv s) (o : Obj) : Inv (s.freeObj o) ∧ (s.freeObj o).made = s.made ∧ (s.freeObj o).active = s.active ∧ (s.freeObj o).pose = s.pose ∧ (s.freeObj o).cov = s.cov := by
  unfold State.freeObj
  by_cases hr : s.refs.any (fun e => decide (e.2 = o)) = true
  · rw [if_pos hr]
    exact ⟨h, rfl, rfl, rfl, rfl⟩
  · rw [if_neg hr]
    have hn : ∀ e ∈ s.refs, e.2 ≠ o := fun e he ho => hr (List.any_eq_true.2 ⟨e, he, by simpa using ho⟩)
    refine ⟨⟨?_, fun i hi => ⟨?_, ?_⟩, h.follow, h.active⟩, rfl, rfl, rfl, rfl⟩
    · show s.live.filter _ = _
      rw [List.filter_eq_self.2, h.live]
      intro i hi
      rw [h.live, List.mem_range] at hi
      have := hn _ (h.circle i hi).1
      simpa using fun h => this h.symm
    · exact List.mem_filter.2 ⟨(h.circle i hi).1, by simpa using fun hh => hn _ (h.circle i hi).2 hh⟩
    · exact List.mem_filter.2 ⟨(h.circle i hi).2, by simpa using fun hh => hn _ (h.circle i hi).1 hh⟩

theorem foldl_inv (os : List Obj) : ∀ {s : State M C}, Inv s → Inv (os.foldl State.freeObj s) ∧ (os.foldl State.freeObj s).made = s.made ∧ (os.foldl State.freeObj s).active = s.active ∧
    (os.foldl State.freeObj s).pose = s.pose ∧ (os.foldl State.freeObj s).cov = s.cov := by
  induction os with
  | nil => intro s h; exact ⟨h, rfl, rfl, rfl, rfl⟩
  | cons o os ih =>
    intro s h
    obtain ⟨h1, h2, h3, h4, h5⟩ := freeObj_inv h o
    obtain ⟨g1, g2, g3, g4, g5⟩ := ih h1
    exact ⟨g1, g2.trans h2, g3.trans h3, g4.trans h4, g5.trans h5⟩

theorem delete_inv {s : State M C} (h : Inv s) (i : Nat) : Inv (s.deleteManipulator i) ∧ (s.deleteManipulator i).made = s.made ∧ (s.deleteManipulator i).active = none ∧
    (s.deleteManipulator i).pose = s.pose ∧ (s.deleteManipulator i).cov = s.cov := by
  unfold State.deleteManipulator
  refine foldl_inv _ (s := { s with refs := _, active := none }) ⟨h.live, fun k hk => ⟨?_, ?_⟩, h.follow, fun k hk => by cases hk⟩
  · exact List.mem_filter.2 ⟨(h.circle k hk).1, by simp⟩
  · exact List.mem_filter.2 ⟨(h.circle k hk).2, by simp⟩

theorem set_inv {s : State M C} (hl : s.live = List.range s.made) (hc : ∀ i < s.made, Circle s i) (ha : ∀ i, s.active = some i → i < s.made) (f : Nat)
    (hf : ∀ i < s.made, s.frameOf i ≠ f → s.tf i = s.pose (s.frameOf i)) (m : M) (c : Option C) : Inv (s.setTransform f m c) := by
  refine ⟨hl, hc, fun i hi => ?_, ha⟩
  have hi : i < s.made := hi
  show (if i ∈ s.live ∧ s.frameOf i = f then (if f = f then m else s.pose f) else s.tf i) = if s.frameOf i = f then m else s.pose (s.frameOf i)
  have hm : i ∈ s.live := by rw [hl]; exact List.mem_range.2 hi
  by_cases hif : s.frameOf i = f
  · simp [hm, hif]
  · simp [hif, hf i hi hif]

theorem step_inv {s : State M C} (h : Inv s) (op : Op M C) : Inv (s.step op) := by
  cases op with
  | activate f =>
    unfold State.step
    have key : ∀ s1 : State M C, Inv s1 → s1.active = none → Inv (match f with
      | none => s1
      | some f => { s1 with refs := refsOf s1.made ++ s1.refs, live := s1.live ++ [s1.made], frameOf := fun k => if k = s1.made then f else s1.frameOf k,
                            tf := fun k => if k = s1.made then s1.pose f else s1.tf k, made := s1.made + 1, active := some s1.made }) := by
      intro s1 h1 _
      cases f with
      | none => exact h1
      | some f =>
        refine ⟨?_, fun i hi => ?_, fun i hi => ?_, fun i hi => ?_⟩
        · show s1.live ++ [s1.made] = List.range (s1.made + 1)
          rw [h1.live, List.range_succ]
        · replace hi : i < s1.made + 1 := hi
          rcases Nat.lt_or_ge i s1.made with hi' | hi'
          · exact ⟨List.mem_append_right _ (h1.circle i hi').1, List.mem_append_right _ (h1.circle i hi').2⟩
          · have : i = s1.made := by omega
            subst this
            exact ⟨List.mem_append_left _ (by simp [refsOf]), List.mem_append_left _ (by simp [refsOf])⟩
        · replace hi : i < s1.made + 1 := hi
          show (if i = s1.made then s1.pose f else s1.tf i) = s1.pose (if i = s1.made then f else s1.frameOf i)
          by_cases hi' : i = s1.made
          · simp [hi']
          · simp only [hi', if_false]
            exact h1.follow i (by omega)
        · show i < s1.made + 1
          have : s1.made = i := Option.some.inj hi
          omega
    cases ha : s.active with
    | none => exact key s h ha
    | some i => exact key _ (delete_inv h i).1 (delete_inv h i).2.2.1
  | drag m =>
    cases ha : s.active with
    | none =>
      have : s.step (.drag m) = s := by simp only [State.step, ha]
      rw [this]
      exact h
    | some i =>
      have : s.step (.drag m) = { s with tf := fun k => if k = i then m else s.tf k }.setTransform (s.frameOf i) m none := by simp only [State.step, ha]
      rw [this]
      refine set_inv (s := { s with tf := fun k => if k = i then m else s.tf k }) h.live h.circle h.active (s.frameOf i) (fun k hk hne => ?_) m none
      show (if k = i then m else s.tf k) = s.pose (s.frameOf k)
      have : k ≠ i := fun hki => hne (hki ▸ rfl)
      rw [if_neg this]
      exact h.follow k hk
  | move f m c => exact set_inv h.live h.circle h.active f (fun k hk _ => h.follow k hk) m c

theorem run_inv {s : State M C} (h : Inv s) (ops : List (Op M C)) : Inv (run s ops) := by
  unfold run
  induction ops generalizing s with
  | nil => exact h
  | cons op ops ih => exact ih (step_inv h op)

theorem start_inv (pose : Nat → M) (cov : Nat → Option C) (m : M) : Inv (start pose cov m) :=
  ⟨rfl, fun i hi => absurd hi (Nat.not_lt_zero i), fun i hi => absurd hi (Nat.not_lt_zero i), fun i hi => by cases hi⟩

/-- **C179** After every sequence of activations, drags and moves in the environment the handles are at the pose of their frame. -/
theorem C179_follow (pose : Nat → M) (cov : Nat → Option C) (m : M) (ops : List (Op M C)) (i : Nat) (h : (run (start pose cov m) ops).active = some i) :
    (run (start pose cov m) ops).tf i = (run (start pose cov m) ops).pose ((run (start pose cov m) ops).frameOf i) :=
  (run_inv (start_inv pose cov m) ops).follow i ((run_inv (start_inv pose cov m) ops).active i h)

/-- **C179** A drag moves the active frame to the pose of the handles and no other; activations move nothing. -/
theorem C179_drag (s : State M C) (hi : Inv s) (m : M) : (∀ i, s.active = some i → ∀ f, (s.step (.drag m)).pose f = if f = s.frameOf i then m else s.pose f) ∧
    (s.active = none → s.step (.drag m) = s) ∧ (∀ f, (s.step (.activate f)).pose = s.pose ∧ (s.step (.activate f)).cov = s.cov) := by
  refine ⟨fun i h f => ?_, fun h => ?_, fun f => ?_⟩
  · unfold State.step
    rw [h]
    rfl
  · unfold State.step
    rw [h]
  · unfold State.step
    cases ha : s.active with
    | none => cases f <;> exact ⟨rfl, rfl⟩
    | some i =>
      obtain ⟨_, _, _, h4, h5⟩ := delete_inv hi i
      simp only
      generalize s.deleteManipulator i = s1 at *
      cases f <;> exact ⟨h4, h5⟩

/-- number of activations of frames -/
def frames : List (Op M C) → Nat
  | [] => 0
  | .activate (some _) :: ops => frames ops + 1
  | _ :: ops => frames ops

theorem made_eq (ops : List (Op M C)) : ∀ {s : State M C}, Inv s → (run s ops).made = s.made + frames ops := by
  induction ops with
  | nil => intro s _; rfl
  | cons op ops ih =>
    intro s h
    have := ih (step_inv h op)
    show (run (s.step op) ops).made = _
    rw [this]
    cases op with
    | drag m =>
      have : (s.step (.drag m)).made = s.made := by unfold State.step; cases s.active <;> rfl
      rw [this]; rfl
    | move f m c => rfl
    | activate f =>
      have h1 : (match s.active with | some i => s.deleteManipulator i | none => s).made = s.made := by
        cases s.active with
        | none => rfl
        | some i => exact (delete_inv h i).2.1
      cases f with
      | none =>
        have : (s.step (.activate none)).made = s.made := h1
        rw [this]; rfl
      | some f =>
        have : (s.step (.activate (some f))).made = s.made + 1 := by
          show (match s.active with | some i => s.deleteManipulator i | none => s).made + 1 = s.made + 1
          rw [h1]
        rw [this]
        show s.made + 1 + frames ops = s.made + (frames ops + 1)
        omega

/-- Violation: the handler of a former manipulator stays registered for ever, as it and its draggers hold each other: after any sequence of calls there are as many handlers as frames were activated. -/
theorem C179_leak_deviation (pose : Nat → M) (cov : Nat → Option C) (m : M) (ops : List (Op M C)) : (run (start pose cov m) ops).live.length = frames ops := by
  rw [(run_inv (start_inv pose cov m) ops).live, List.length_range, made_eq ops (start_inv pose cov m)]
  simp [start]

/-- Violation: a drag takes the uncertainty of the frame away. -/
theorem C179_uncertainty_deviation (s : State M C) (m : M) (i : Nat) (h : s.active = some i) : (s.step (.drag m)).cov (s.frameOf i) = none := by
  unfold State.step
  rw [h]
  show (if s.frameOf i = s.frameOf i then none else _) = none
  simp

/-- handles of two frames, one after the other -/
def exRun : State Nat Nat := run (start (fun _ => 0) (fun _ => some 1) 0) [.activate (some 3), .drag 7, .move 3 8 (some 2), .activate (some 4), .drag 9, .activate none]

example : exRun.pose 3 = 8 ∧ exRun.pose 4 = 9 ∧ exRun.cov 3 = some 2 ∧ exRun.cov 4 = none ∧ exRun.live = [0, 1] ∧ exRun.active = none ∧ exRun.tf 0 = 8 := by decide +kernel

#print axioms C179_follow
#print axioms C179_drag
#print axioms C179_leak_deviation
#print axioms C179_uncertainty_deviation

end Envire.Handles
