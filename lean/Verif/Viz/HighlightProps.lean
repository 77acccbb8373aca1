import Verif.Viz.HighlightModel

/-!
C175: highlighting of items.
-/
namespace Envire.Highlight
open View (Node)
variable {C : Type}

theorem apply_shows (N : Node C) : N.apply.shows = N.shows := by
  unfold Node.apply Node.hangKids Node.hide Node.swapNode Node.syncKids Node.dropKids
  dsimp only
  split <;> split <;> split <;> rfl

theorem apply_front (N : Node C) : N.apply.front = if N.nodeDirty then !N.front else N.front := by
  unfold Node.apply Node.hangKids Node.hide Node.swapNode Node.syncKids Node.dropKids Node.back
  dsimp only
  cases h1 : N.nodeDirty <;> cases h2 : N.kidsDirty <;> cases h3 : N.enabled <;> simp [h1]

theorem apply_dirty (N : Node C) : N.apply.nodeDirty = false := by
  unfold Node.apply Node.hangKids Node.hide Node.swapNode Node.syncKids Node.dropKids
  dsimp only
  cases h1 : N.nodeDirty <;> cases h2 : N.kidsDirty <;> cases h3 : N.enabled <;> simp [h1]

theorem apply_own {N : Node C} (he : N.enabled = true) (h : N.own = [N.front]) : N.apply.own = [N.apply.front] ∧ N.apply.enabled = true := by
  unfold Node.apply Node.hangKids Node.hide Node.swapNode Node.syncKids Node.dropKids
  dsimp only
  cases h1 : N.nodeDirty <;> cases h2 : N.kidsDirty <;> simp [h1, he, h]

/-- specification: what is seen of an item: what is drawn in the groups below its node -/
def Seen (N : Node C) (c : C) : Prop := ∃ b ∈ N.own, N.shows b = some c

/-- a node that is in the scene: made, drawn once and shown -/
structure Live (N : Node C) : Prop where
  own : N.own = [N.front]
  on : N.enabled = true
  drawn : ∀ b, ∃ c, N.shows b = some c

theorem Live.step {N : Node C} (h : Live N) (a : Act C) : Live (step N a) := by
  have hp : ∀ f, Live (paint N f) := fun f => ⟨h.own, h.on, fun b => by
    obtain ⟨c, hc⟩ := h.drawn b
    unfold paint
    dsimp only
    by_cases e : b = N.back
    · exact ⟨f c, by rw [if_pos e, hc]; rfl⟩
    · exact ⟨c, by rw [if_neg e, hc]⟩⟩
  cases a with
  | redraw =>
    obtain ⟨h1, h2⟩ := apply_own h.on h.own
    exact ⟨h1, h2, fun b => by rw [show Highlight.step N .redraw = N.apply from rfl, apply_shows]; exact h.drawn b⟩
  | change f => exact ⟨(hp f).own, (hp f).on, (hp f).drawn⟩
  | paint f => exact hp f

theorem Live.run {N : Node C} (h : Live N) (as : List (Act C)) : Live (run N as) := by
  induction as generalizing N with
  | nil => exact h
  | cons a as ih => exact ih (h.step a)

theorem Live.seen {N : Node C} (h : Live N) (c : C) : Seen N c ↔ N.shows N.front = some c := by
  unfold Seen
  rw [h.own]
  simp

theorem back_ne (N : Node C) : N.front ≠ N.back := by
  unfold Node.back
  cases N.front <;> decide

/-- a new node is in the scene after the first redraw (its groups are drawn when they are made) -/
theorem live_make (o : Obj) (z : Nat) (c d : C) : Live (Node.apply { Node.make o z c with shows := fun b => if b = true then some c else some d }) := by
  refine ⟨by unfold Node.apply Node.hangKids Node.hide Node.swapNode Node.syncKids Node.dropKids Node.make Node.update Node.back; rfl, rfl, fun b => ?_⟩
  rw [apply_shows]
  cases b
  · exact ⟨d, rfl⟩
  · exact ⟨c, rfl⟩

/-- Violation: highlighting an item whose last change is shown already is not seen, neither at once nor after any number of changes and redraws: it is painted into the group that is not shown, and
the next change paints over it (visualizers that draw everything anew: clouds, meshes). -/
theorem C175_unseen_deviation {N : Node C} (hN : Live N) (hd : N.nodeDirty = false) (Lit : C → Prop) (h0 : ∀ c, Seen N c → ¬ Lit c) (f : C → C) (as : List (Act C))
    (has : ∀ a ∈ as, a = .redraw ∨ ∃ d, ¬ Lit d ∧ a = .change fun _ => d) : ∀ c, Seen (run (step N (.paint f)) as) c → ¬ Lit c := by
  have key : ∀ (as : List (Act C)) (N : Node C), Live N → (∀ c, N.shows N.front = some c → ¬ Lit c) → (N.nodeDirty = true → ∀ c, N.shows N.back = some c → ¬ Lit c) →
      (∀ a ∈ as, a = .redraw ∨ ∃ d, ¬ Lit d ∧ a = .change fun _ => d) → ∀ c, Seen (run N as) c → ¬ Lit c := by
    intro as
    induction as with
    | nil => intro N hN h1 _ _ c hc; exact h1 c ((hN.seen c).1 hc)
    | cons a as ih =>
      intro N hN h1 h2 h c hc
      refine ih (step N a) (hN.step a) ?_ ?_ (fun b hb => h b (by simp [hb])) c hc
      · intro c hc
        rcases h a (by simp) with rfl | ⟨d, hd, rfl⟩
        · rw [show step N .redraw = N.apply from rfl, apply_shows, apply_front] at hc
          cases hdirty : N.nodeDirty with
          | true => rw [hdirty] at hc; exact h2 hdirty c hc
          | false => rw [hdirty] at hc; exact h1 c hc
        · have : (step N (.change fun _ => d)).shows N.front = N.shows N.front := if_neg (back_ne N)
          rw [show (step N (.change fun _ => d)).front = N.front from rfl, this] at hc
          exact h1 c hc
      · intro hdirty c hc
        rcases h a (by simp) with rfl | ⟨d, hd, rfl⟩
        · rw [show step N .redraw = N.apply from rfl, apply_dirty] at hdirty
          cases hdirty
        · rw [show (step N (.change fun _ => d)).back = N.back from rfl, show (step N (.change fun _ => d)).shows N.back = (N.shows N.back).map fun _ => d from if_pos rfl] at hc
          obtain ⟨x, hx⟩ := hN.drawn N.back
          rw [hx] at hc
          exact (Option.some.inj hc) ▸ hd
  refine key as _ (hN.step _) ?_ ?_ has
  · intro c hc
    have : (step N (.paint f)).shows N.front = N.shows N.front := if_neg (back_ne N)
    rw [show (step N (.paint f)).front = N.front from rfl, this] at hc
    exact h0 c ((hN.seen c).2 hc)
  · intro h
    rw [show (step N (.paint f)).nodeDirty = N.nodeDirty from rfl, hd] at h
    cases h

/-- Violation: if a change is not shown yet when an item is highlighted, the item is seen highlighted from the next redraw on, and stays so when it is unhighlighted, however often it is redrawn. -/
theorem C175_stuck_deviation {N : Node C} (hN : Live N) (hd : N.nodeDirty = true) {c : C} (hc : N.shows N.back = some c) (f g : C → C) (n : Nat) :
    ∀ x, Seen (run N ([.paint f, .redraw, .paint g] ++ List.replicate n .redraw)) x ↔ x = f c := by
  have key : ∀ (n : Nat) (N : Node C), N.nodeDirty = false → Live N → ∀ y, N.shows N.front = some y → ∀ x, Seen (run N (List.replicate n .redraw)) x ↔ x = y := by
    intro n
    induction n with
    | zero =>
      intro N _ hN y hy x
      rw [show run N (List.replicate 0 .redraw) = N from rfl, hN.seen, hy]
      exact ⟨fun h => (Option.some.inj h).symm, fun h => congrArg some h.symm⟩
    | succ n ih =>
      intro N hd hN y hy x
      have hf : N.apply.front = N.front := by rw [apply_front, hd]; rfl
      refine ih N.apply (apply_dirty N) (hN.step .redraw) y ?_ x
      rw [apply_shows, hf]
      exact hy
  intro x
  refine key n (step (step (step N (.paint f)) .redraw) (.paint g)) ?_ (((hN.step _).step _).step _) (f c) ?_ x
  · show (step (step N (.paint f)) .redraw).nodeDirty = false
    exact apply_dirty _
  · have h1 : (step (step N (.paint f)) .redraw).front = N.back := by
      rw [show step (step N (.paint f)) .redraw = (step N (.paint f)).apply from rfl, apply_front, show (step N (.paint f)).nodeDirty = true from hd]
      rfl
    have h2 : (step (step N (.paint f)) .redraw).shows N.back = some (f c) := by
      rw [show step (step N (.paint f)) .redraw = (step N (.paint f)).apply from rfl, apply_shows, show (step N (.paint f)).shows N.back = (N.shows N.back).map f from if_pos rfl, hc]
      rfl
    rw [show (step (step (step N (.paint f)) .redraw) (.paint g)).front = (step (step N (.paint f)) .redraw).front from rfl, h1]
    have hne : N.back ≠ (step (step N (.paint f)) .redraw).back := h1 ▸ back_ne _
    rw [show (step (step (step N (.paint f)) .redraw) (.paint g)).shows N.back = (step (step N (.paint f)) .redraw).shows N.back from if_neg hne, h2]

/-- C175: what was painted into the group is seen after the next change and redraw, as far as the visualizer keeps it. -/
theorem C175_change_partial {N : Node C} (hN : Live N) {c : C} (hc : N.shows N.back = some c) (f u : C → C) : ∀ x, Seen (run N [.paint f, .change u, .redraw]) x ↔ x = u (f c) := by
  intro x
  have hd : (step (step N (.paint f)) (.change u)).nodeDirty = true := rfl
  have hs : (step (step N (.paint f)) (.change u)).shows N.back = some (u (f c)) := by
    show (if N.back = N.back then (if N.back = N.back then (N.shows N.back).map f else N.shows N.back).map u else _) = _
    rw [if_pos rfl, if_pos rfl, hc]
    rfl
  have hf : (run N [.paint f, .change u, .redraw]).front = N.back := by
    rw [show run N [.paint f, .change u, .redraw] = (step (step N (.paint f)) (.change u)).apply from rfl, apply_front, hd]
    rfl
  rw [(hN.run _).seen, hf, show run N [.paint f, .change u, .redraw] = (step (step N (.paint f)) (.change u)).apply from rfl, apply_shows, hs]
  exact ⟨fun h => (Option.some.inj h).symm, fun h => congrArg some h.symm⟩

/-- C175: an item that is highlighted and unhighlighted before it changes is as before, if its visualizer undoes the painting in the group. -/
theorem C175_restored_partial {N : Node C} (f g : C → C) (hg : ∀ c, N.shows N.back = some c → g (f c) = c) : run N [.paint f, .paint g] = N := by
  have : (run N [.paint f, .paint g]).shows = N.shows := by
    funext b
    show (if b = N.back then ((if b = N.back then (N.shows b).map f else N.shows b)).map g else (if b = N.back then (N.shows b).map f else N.shows b)) = N.shows b
    by_cases h : b = N.back
    · rw [if_pos h, if_pos h]
      cases hs : N.shows b with
      | none => rfl
      | some c => exact congrArg some (hg c (h ▸ hs))
    · rw [if_neg h, if_neg h]
  show ({ N with shows := (run N [.paint f, .paint g]).shows } : Node C) = N
  rw [this]

/-- C175: this holds for the crosses of frames. -/
theorem C175_frame_partial {P : Type} (N : Node (Frame P)) : run N [.paint cross, .paint uncross] = N :=
  C175_restored_partial _ _ fun c _ => by cases c; simp [cross, uncross]

/-- Violation: a frame that is highlighted, moved, drawn and unhighlighted is seen with a cross, and again after each second of its further movements, though it is not highlighted any more. -/
theorem C175_cross_deviation {P : Type} {N : Node (Frame P)} (hN : Live N) (hd : N.nodeDirty = false) (p : P) (ps : List (P × P)) :
    ∃ x, Seen (run N ([.paint cross, .change (move p), .redraw, .paint uncross] ++ ps.flatMap fun q => [.change (move q.1), .redraw, .change (move q.2), .redraw])) x ∧ 1 ≤ x.crosses := by
  have key : ∀ (ps : List (P × P)) (N : Node (Frame P)), Live N → N.nodeDirty = false → (∃ x, N.shows N.front = some x ∧ 1 ≤ x.crosses) →
      ∃ x, Seen (run N (ps.flatMap fun q => [.change (move q.1), .redraw, .change (move q.2), .redraw])) x ∧ 1 ≤ x.crosses := by
    intro ps
    induction ps with
    | nil =>
      rintro N hN _ ⟨x, h1, h2⟩
      exact ⟨x, (hN.seen x).2 h1, h2⟩
    | cons q ps ih =>
      rintro N hN hd ⟨x, h1, h2⟩
      have e : run N ((q :: ps).flatMap fun q => [.change (move q.1), .redraw, .change (move q.2), .redraw]) =
          run (run N [.change (move q.1), .redraw, .change (move q.2), .redraw]) (ps.flatMap fun q => [.change (move q.1), .redraw, .change (move q.2), .redraw]) := by
        rw [List.flatMap_cons, run, List.foldl_append]
        rfl
      rw [e]
      let A := step (step N (.change (move q.1))) .redraw
      have a1 : A.front = N.back := by
        show (step N (.change (move q.1))).apply.front = _
        rw [apply_front]
        rfl
      have a2 : A.shows N.front = some x := by
        show (step N (.change (move q.1))).apply.shows N.front = _
        rw [apply_shows, show (step N (.change (move q.1))).shows N.front = N.shows N.front from if_neg (back_ne N), h1]
      have a3 : A.back = N.front := by
        unfold Node.back
        rw [a1]
        unfold Node.back
        simp
      let B := step (step A (.change (move q.2))) .redraw
      have b1 : B.front = N.front := by
        show (step A (.change (move q.2))).apply.front = _
        rw [apply_front, show (step A (.change (move q.2))).nodeDirty = true from rfl, if_pos rfl, show (step A (.change (move q.2))).front = A.front from rfl]
        exact a3
      have b2 : B.shows N.front = some (move q.2 x) := by
        show (step A (.change (move q.2))).apply.shows N.front = _
        rw [apply_shows, show (step A (.change (move q.2))).shows N.front = (A.shows N.front).map (move q.2) from if_pos a3.symm, a2]
        rfl
      refine ih B ((((hN.step _).step _).step _).step _) (apply_dirty _) ⟨move q.2 x, ?_, h2⟩
      rw [b1, b2]
  have e : run N ([.paint cross, .change (move p), .redraw, .paint uncross] ++ ps.flatMap fun q => [.change (move q.1), .redraw, .change (move q.2), .redraw]) =
      run (run N [.paint cross, .change (move p), .redraw, .paint uncross]) (ps.flatMap fun q => [.change (move q.1), .redraw, .change (move q.2), .redraw]) := by
    rw [run, List.foldl_append]
    rfl
  rw [e]
  let A := step (step (step N (.paint cross)) (.change (move p))) .redraw
  obtain ⟨c, hc⟩ := hN.drawn N.back
  have a1 : A.front = N.back := by
    show (step (step N (.paint cross)) (.change (move p))).apply.front = _
    rw [apply_front]
    rfl
  have a2 : A.shows N.back = some (move p (cross c)) := by
    show (step (step N (.paint cross)) (.change (move p))).apply.shows N.back = _
    rw [apply_shows]
    show (if N.back = N.back then (if N.back = N.back then (N.shows N.back).map cross else N.shows N.back).map (move p) else _) = _
    rw [if_pos rfl, if_pos rfl, hc]
    rfl
  refine key ps (step A (.paint uncross)) ((((hN.step _).step _).step _).step _) (apply_dirty _) ⟨move p (cross c), ?_, Nat.succ_le_succ (Nat.zero_le _)⟩
  have hne : N.back ≠ A.back := a1 ▸ back_ne A
  rw [show (step A (.paint uncross)).front = A.front from rfl, a1, show (step A (.paint uncross)).shows N.back = A.shows N.back from if_neg hne, a2]

/-- a frame with two groups without crosses -/
def exNode : Node (Frame Nat) := Node.apply { Node.make 5 0 (⟨1, 0⟩ : Frame Nat) with shows := fun b => if b = true then some ⟨1, 0⟩ else some ⟨0, 0⟩ }

example : Live exNode ∧ exNode.nodeDirty = false ∧ ((run exNode [.paint cross, .change (move 2), .redraw, .paint uncross]).shows (run exNode [.paint cross, .change (move 2), .redraw, .paint uncross]).front).map (fun x => (x.pose, x.crosses)) = some (2, 1) :=
  ⟨live_make 5 0 _ _, rfl, rfl⟩

/-! ### the active item -/

/-- specification: the items that are highlighted after some calls, the last one first -/
def Lit : List Call → Obj → Prop
  | [], _ => False
  | .highlight o :: l, x => x = o ∨ Lit l x
  | .unhighlight o :: l, x => x ≠ o ∧ Lit l x

/-- C175: as long as no item is removed: activating entries of the tree never fails; only the item that was activated last is highlighted and has handles (if it is a frame), and no other. -/
theorem C175_active_partial {S : Scene} (hv : ∀ o, S.frame o = true → S.viz o = true) {l : List (Option (Option Obj))} (hl : ∀ o, some (some o) ∈ l → S.node o = true) :
    ∃ m, activates S .start l = .ok m ∧ (∀ x, Lit m.calls x → m.active = some x) ∧ (∀ x, m.handles = some x → m.active = some x ∧ S.frame x = true) ∧
      (∀ o, l.getLast? = some (some (some o)) → m.active = some o ∧ (S.viz o = true → Lit m.calls o) ∧ (S.frame o = true → m.handles = some o)) := by
  let I : Man → Prop := fun m => (∀ o, m.active = some o → S.node o = true) ∧ (∀ x, Lit m.calls x → m.active = some x ∧ S.viz x = true) ∧ (∀ x, m.handles = some x → m.active = some x ∧ S.frame x = true)
  have one : ∀ (m : Man) (i : Option (Option Obj)), I m → (∀ o, i = some (some o) → S.node o = true) → ∃ m', activate S m i = .ok m' ∧ I m' ∧
      (∀ o, i = some (some o) → m'.active = some o ∧ (S.viz o = true → Lit m'.calls o) ∧ (S.frame o = true → m'.handles = some o)) := by
    rintro m i ⟨i1, i2, i3⟩ hi
    obtain ⟨n, hn, n1, n2, n3⟩ : ∃ n, leave S m = .ok n ∧ n.active = m.active ∧ (∀ x, ¬ Lit n.calls x) ∧ n.handles = none := by
      unfold leave
      cases ha : m.active with
      | none =>
        refine ⟨m, rfl, ha, fun x h => ?_, ?_⟩
        · have := (i2 x h).1
          rw [ha] at this
          cases this
        · cases hh : m.handles with
          | none => rfl
          | some x =>
            have := (i3 x hh).1
            rw [ha] at this
            cases this
      | some a =>
        dsimp only
        by_cases hva : S.viz a = true
        · rw [if_pos hva, if_neg (by rw [i1 a ha]; simp)]
          refine ⟨_, rfl, rfl, fun x h => ?_, rfl⟩
          have h' : x ≠ a ∧ Lit m.calls x := h
          have := (i2 x h'.2).1
          rw [ha] at this
          exact h'.1 (Option.some.inj this).symm
        · rw [if_neg hva]
          refine ⟨m, rfl, ha, fun x h => ?_, ?_⟩
          · obtain ⟨e1, e2⟩ := i2 x h
            rw [ha] at e1
            exact hva ((Option.some.inj e1) ▸ e2)
          · cases hh : m.handles with
            | none => rfl
            | some x =>
              obtain ⟨e1, e2⟩ := i3 x hh
              rw [ha] at e1
              exact absurd ((Option.some.inj e1) ▸ hv x e2) hva
    unfold activate
    rw [hn]
    dsimp only
    unfold enter
    cases i with
    | none => exact ⟨n, rfl, ⟨fun o h => i1 o (n1 ▸ h), fun x h => absurd h (n2 x), fun x h => by rw [n3] at h; cases h⟩, fun o h => by cases h⟩
    | some i =>
      cases i with
      | none => exact ⟨_, rfl, ⟨fun o h => (by cases h), fun x h => absurd h (n2 x), fun x h => by dsimp only at h; rw [n3] at h; cases h⟩, fun o h => by cases h⟩
      | some o =>
        have ho := hi o rfl
        dsimp only
        by_cases hvo : S.viz o = true
        · rw [if_pos hvo, if_neg (by rw [ho]; simp)]
          refine ⟨_, rfl, ⟨fun x h => (Option.some.inj h) ▸ ho, fun x h => ?_, fun x h => ?_⟩, fun x h => ?_⟩
          · rcases (h : x = o ∨ Lit n.calls x) with rfl | h
            · exact ⟨rfl, hvo⟩
            · exact absurd h (n2 x)
          · dsimp only at h
            by_cases hf : S.frame o = true
            · rw [if_pos hf] at h
              exact ⟨h, (Option.some.inj h) ▸ hf⟩
            · rw [if_neg hf, n3] at h
              cases h
          · cases h
            exact ⟨rfl, fun _ => .inl rfl, fun hf => if_pos hf⟩
        · rw [if_neg hvo]
          refine ⟨_, rfl, ⟨fun x h => (Option.some.inj h) ▸ ho, fun x h => absurd h (n2 x), fun x h => by dsimp only at h; rw [n3] at h; cases h⟩, fun x h => ?_⟩
          cases h
          exact ⟨rfl, fun h => absurd h hvo, fun h => absurd (hv o h) hvo⟩
  have all : ∀ (l : List (Option (Option Obj))) (m : Man), I m → (∀ o, some (some o) ∈ l → S.node o = true) → ∃ m', activates S m l = .ok m' ∧ I m' ∧
      (∀ o, l.getLast? = some (some (some o)) → m'.active = some o ∧ (S.viz o = true → Lit m'.calls o) ∧ (S.frame o = true → m'.handles = some o)) := by
    intro l
    induction l with
    | nil => intro m hm _; exact ⟨m, rfl, hm, fun o h => by cases h⟩
    | cons i l ih =>
      intro m hm hl
      obtain ⟨n, h1, h2, h3⟩ := one m i hm fun o h => hl o (by simp [h])
      obtain ⟨k, g1, g2, g3⟩ := ih n h2 fun o h => hl o (by simp [h])
      refine ⟨k, by rw [activates, h1]; exact g1, g2, fun o ho => ?_⟩
      cases l with
      | nil =>
        have : i = some (some o) := by simpa using ho
        rw [activates] at g1
        cases g1
        exact h3 o this
      | cons j l => exact g3 o (by simpa using ho)
  obtain ⟨m, h1, h2, h3⟩ := all l .start ⟨fun o h => (by cases h), fun x h => h.elim, fun x h => by cases h⟩ hl
  exact ⟨m, h1, fun x h => (h2.2.1 x h).1, h2.2.2, h3⟩

/-- a scene in which all items but number 9 are shown, 1 is a frame -/
def exScene : Scene := { viz := fun o => o != 9, node := fun o => o != 9, frame := fun o => o == 1, uses := fun _ => true }

example : ∃ m, activates exScene .start [some (some 1), some (some 2), some (some 1)] = .ok m ∧ m.calls = [.highlight 1, .unhighlight 2, .highlight 2, .unhighlight 1, .highlight 1] ∧ m.handles = some 1 :=
  ⟨_, rfl, rfl, rfl⟩

/-- Violation: when the active item is removed from the environment, the next activation of any entry calls its visualizer with a null pointer. -/
theorem C175_removed_deviation {S : Scene} {m : Man} {a : Obj} (ha : m.active = some a) (hv : S.viz a = true) (hu : S.uses a = true) (hn : S.node a = false) (i : Option (Option Obj)) : activate S m i = .undefined := by
  unfold activate leave
  rw [ha]
  simp [hv, hu, hn]

example : ∃ m, activate exScene .start (some (some 2)) = .ok m ∧ activate { exScene with node := fun o => o != 2 } m (some (some 1)) = .undefined :=
  ⟨_, rfl, rfl⟩

#print axioms C175_unseen_deviation
#print axioms C175_stuck_deviation
#print axioms C175_change_partial
#print axioms C175_restored_partial
#print axioms C175_frame_partial
#print axioms C175_cross_deviation
#print axioms C175_active_partial
#print axioms C175_removed_deviation

end Envire.Highlight
