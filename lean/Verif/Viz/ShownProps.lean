import Verif.Viz.ShownModel

/-!
C178: the environments of the visualization.
-/
namespace Envire.Shown

/-- rules of use: only environments of the user that are there are used, and the visualization only as long as it is there -/
def Allowed (s : State) : Op → Prop
  | .new => True
  | .free n => s.made[n]? = some .user ∧ n ∉ s.freed
  | .change n => s.made[n]? = some .user ∧ n ∉ s.freed
  | .update n => s.up = true ∧ s.made[n]? = some .user ∧ n ∉ s.freed
  | .load => s.up = true
  | .binary => s.up = true
  | .destroy => s.up = true

/-- a history of calls that ended without undefined behaviour; the last call is first -/
inductive Reach : List Op → State → Prop
  | start : Reach [] start
  | ok {ops s op s'} : Reach ops s → Allowed s op → s.step op = .ok s' → Reach (op :: ops) s'
  | throw {ops s op s'} : Reach ops s → Allowed s op → s.step op = .throw s' → Reach (op :: ops) s'

structure Inv (s : State) (gone : Nat → Prop) : Prop where
  envMade : ∀ e, s.env = some e → s.made[e]? = some (if s.owns then .viz else .user)
  ownsEnv : s.owns = true → s.env ≠ none
  known : s.known = s.watched
  watched : ∀ n ∈ s.watched, n < s.made.length ∧ n ∉ s.freed
  freed : ∀ n ∈ s.freed, n < s.made.length
  viz : ∀ n, s.made[n]? = some .viz → (n ∈ s.freed ↔ ¬ (s.up = true ∧ s.owns = true ∧ s.env = some n))
  user : ∀ n, s.made[n]? = some .user → (n ∈ s.freed ↔ gone n)
  scene : ∀ e, s.env = some e → e ∈ s.scene
  knownScene : ∀ k ∈ s.known, k ∈ s.scene

theorem lt_of_get {α} {l : List α} {n : Nat} {x : α} (h : l[n]? = some x) : n < l.length := (List.getElem?_eq_some_iff.1 h).1

theorem watch_inv {s : State} {n : Nat} {gone : Nat → Prop} (hm : s.made[n]? = some .user) (he : s.env = some n) (ho : s.owns = false)
    (hk : s.known = s.watched) (hw : ∀ n ∈ s.watched, n < s.made.length ∧ n ∉ s.freed) (hf : ∀ n ∈ s.freed, n < s.made.length)
    (hv : ∀ n, s.made[n]? = some .viz → n ∈ s.freed) (hu : ∀ n, s.made[n]? = some .user → (n ∈ s.freed ↔ gone n)) (hs : ∀ k ∈ s.known, k ∈ s.scene)
    {s' : State} (h : s.watch n = .ok s' ∨ s.watch n = .throw s') : Inv s' gone ∧ s.scene <:+ s'.scene := by
  unfold State.watch at h
  by_cases h1 : n ∈ s.freed
  · simp [h1] at h
  · by_cases h2 : n ∈ s.known
    · simp only [h1, h2, if_true, if_false, reduceCtorEq, false_or, Out.throw.injEq] at h
      subst h
      refine ⟨⟨fun e h => ?_, fun h => ?_, hk, hw, hf, fun k h => ?_, hu, fun e h => ?_, hs⟩, List.suffix_refl _⟩
      · rw [he] at h; cases h; rw [ho]; exact hm
      · rw [ho] at h; cases h
      · simp [hv k h, ho]
      · rw [he] at h; cases h; exact hs _ h2
    · simp only [h1, h2, if_false, reduceCtorEq, or_false, Out.ok.injEq] at h
      subst h
      refine ⟨⟨fun e h => ?_, fun h => ?_, by simp [hk], fun k h => ?_, hf, fun k h => ?_, hu, fun e h => ?_, fun k h => ?_⟩, List.suffix_cons _ _⟩
      · replace h : s.env = some e := h
        rw [he] at h; cases h
        show s.made[n]? = some (if s.owns then .viz else .user)
        rw [ho]; exact hm
      · replace h : s.owns = true := h
        rw [ho] at h; cases h
      · rcases List.mem_cons.1 h with rfl | h
        · exact ⟨lt_of_get hm, h1⟩
        · exact hw k h
      · show k ∈ s.freed ↔ ¬ (s.up = true ∧ s.owns = true ∧ s.env = some k)
        simp [hv k h, ho]
      · replace h : s.env = some e := h
        rw [he] at h; cases h
        exact List.mem_cons_self
      · rcases List.mem_cons.1 h with rfl | h
        · exact List.mem_cons_self
        · exact List.mem_cons_of_mem _ (hs k h)

theorem free_ok {s s1 : State} {n : Nat} (h : s.free n = .ok s1) : n ∉ s.freed ∧
    s1 = { s with freed := n :: s.freed, known := s.known.filter (fun k => decide (k ≠ n)), watched := s.watched.filter (fun k => decide (k ≠ n)) } := by
  unfold State.free at h
  by_cases h1 : n ∈ s.freed
  · simp [h1] at h
  · by_cases h2 : n ∈ s.watched ∧ s.up = false
    · simp [h1, h2] at h
    · rw [if_neg h1, if_neg h2] at h
      cases h
      exact ⟨h1, rfl⟩

theorem free_no_throw {s s1 : State} {n : Nat} : s.free n ≠ .throw s1 := by
  unfold State.free
  split
  · simp
  · split <;> simp

/-- the state with which updateDataIntern registers the listener; `m`: the new environment -/
theorem updateData_cases {s s' : State} {n : Nat} (h : s.updateData n = .ok s' ∨ s.updateData n = .throw s') :
    (∃ m s1, s.env = some m ∧ s.owns = true ∧ s.free m = .ok s1 ∧ (({ s1 with owns := false, env := some n }.watch n = .ok s') ∨ ({ s1 with owns := false, env := some n }.watch n = .throw s'))) ∨
    (s.owns = true → s.env = none) ∧ (({ s with owns := false, env := some n }.watch n = .ok s') ∨ ({ s with owns := false, env := some n }.watch n = .throw s')) := by
  unfold State.updateData at h
  cases he : s.env with
  | none =>
    simp only [he] at h
    exact .inr ⟨fun _ => rfl, h⟩
  | some m =>
    simp only [he] at h
    by_cases h1 : m ∈ s.freed
    · simp [h1] at h
    · simp only [h1, if_false] at h
      cases ho : s.owns with
      | false =>
        simp only [ho, Bool.false_eq_true, if_false] at h
        exact .inr ⟨fun h => by simp at h, h⟩
      | true =>
        simp only [ho, if_true] at h
        cases hf : s.free m with
        | ok s1 =>
          simp only [hf] at h
          exact .inl ⟨m, s1, rfl, rfl, hf, h⟩
        | throw s1 => exact absurd hf free_no_throw
        | fault => simp [hf] at h

/-- what holds of the state before the registration -/
theorem before_watch {s : State} {gone : Nat → Prop} (hi : Inv s gone) (hup : s.up = true) {m : Nat} {s1 : State} (he : s.env = some m) (ho : s.owns = true) (hf : s.free m = .ok s1) :
    s1.made = s.made ∧ s1.scene = s.scene ∧ s1.known = s1.watched ∧ (∀ n ∈ s1.watched, n < s1.made.length ∧ n ∉ s1.freed) ∧ (∀ n ∈ s1.freed, n < s1.made.length) ∧
    (∀ n, s1.made[n]? = some .viz → n ∈ s1.freed) ∧ (∀ n, s1.made[n]? = some .user → (n ∈ s1.freed ↔ gone n)) ∧ (∀ n ∈ s1.known, n ∈ s.known) := by
  obtain ⟨_, rfl⟩ := free_ok hf
  have hmm : s.made[m]? = some .viz := by simpa [ho] using hi.envMade m he
  refine ⟨rfl, rfl, by simp [hi.known], fun n hn => ?_, fun n hn => ?_, fun n hn => ?_, fun n hn => ?_, fun n hn => ?_⟩
  · simp only [List.mem_filter, decide_eq_true_eq] at hn
    refine ⟨(hi.watched n hn.1).1, fun h => ?_⟩
    rcases List.mem_cons.1 h with h | h
    · exact hn.2 h
    · exact (hi.watched n hn.1).2 h
  · rcases List.mem_cons.1 hn with rfl | h
    · exact lt_of_get hmm
    · exact hi.freed n h
  · by_cases hnm : n = m
    · subst hnm; exact List.mem_cons_self
    · refine List.mem_cons_of_mem _ ((hi.viz n hn).2 ?_)
      rintro ⟨_, _, h⟩
      rw [he] at h
      exact hnm (Option.some.inj h).symm
  · have hnm : n ≠ m := by rintro rfl; rw [show s.made[n]? = some .user from hn] at hmm; cases hmm
    rw [← hi.user n hn]
    simp [hnm]
  · exact (List.mem_filter.1 hn).1

theorem updateData_inv {s s' : State} {gone : Nat → Prop} (hi : Inv s gone) (hup : s.up = true) {n : Nat} (hm : s.made[n]? = some .user)
    (h : s.updateData n = .ok s' ∨ s.updateData n = .throw s') : Inv s' gone ∧ s.scene <:+ s'.scene := by
  rcases updateData_cases h with ⟨m, s1, he, ho, hf, h⟩ | ⟨hno, h⟩
  · obtain ⟨e1, e2, g1, g2, g3, g4, g5, g6⟩ := before_watch hi hup he ho hf
    have := watch_inv (s := { s1 with owns := false, env := some n }) (gone := gone) (by simpa [e1] using hm) rfl rfl g1 g2 g3 g4 g5 (fun k h => by rw [show ({ s1 with owns := false, env := some n } : State).scene = s1.scene from rfl, e2]; exact hi.knownScene k (g6 k h)) h
    exact ⟨this.1, by simpa [e2] using this.2⟩
  · have ho : s.owns = false := by
      cases ho : s.owns with
      | false => rfl
      | true => exact absurd (hno ho) (hi.ownsEnv ho)
    exact watch_inv (s := { s with owns := false, env := some n }) (gone := gone) hm rfl rfl hi.known hi.watched hi.freed (fun k hk => (hi.viz k hk).2 (by simp [ho])) hi.user hi.knownScene h

/-- `own` never fails to register the new environment -/
theorem own_inv {s s' : State} {gone : Nat → Prop} (hi : Inv s gone) (hup : s.up = true) (hg : ¬ gone s.made.length)
    (h : s.own = .ok s' ∨ s.own = .throw s') : Inv s' gone ∧ s'.scene = s.made.length :: s.scene ∧ s.own = .ok s' ∧ s'.up = true := by
  have hwatch : ∀ t : State, t.made = s.made ++ [.viz] → t.up = true → t.owns = false → t.env = some s.made.length → t.known = t.watched → (∀ n ∈ t.watched, n < s.made.length ∧ n ∉ t.freed) → (∀ n ∈ t.freed, n < s.made.length) →
      (∀ n, s.made[n]? = some .viz → n ∈ t.freed) → (∀ n, s.made[n]? = some .user → (n ∈ t.freed ↔ gone n)) → (∀ k ∈ t.known, k ∈ t.scene) → ∀ s2, (t.watch s.made.length = .ok s2 ∨ t.watch s.made.length = .throw s2) →
      t.watch s.made.length = .ok s2 ∧ s2.scene = s.made.length :: t.scene ∧ s2.up = true ∧ s2.known = s.made.length :: t.known ∧ Inv { s2 with owns := true } gone := by
    intro t e1 e2 e3 e4 g1 g2 g3 g4 g5 g6 s2 h
    have h1 : s.made.length ∉ t.freed := fun h => Nat.lt_irrefl _ (g3 _ h)
    have h2 : s.made.length ∉ t.known := fun h => Nat.lt_irrefl _ (g2 _ (g1 ▸ h)).1
    unfold State.watch at h ⊢
    simp only [h1, h2, if_false, reduceCtorEq, or_false, Out.ok.injEq] at h
    subst h
    refine ⟨by simp [h1, h2], rfl, e2, rfl, ⟨fun e h => ?_, fun _ => by simp [e4], by simp [g1], fun k h => ?_, fun k h => ?_, fun k h => ?_, fun k h => ?_, fun e h => ?_, fun k h => ?_⟩⟩
    · replace h : t.env = some e := h
      rw [e4] at h; cases h
      show t.made[s.made.length]? = some .viz
      simp [e1]
    · show k < t.made.length ∧ k ∉ t.freed
      rw [e1, List.length_append]
      rcases List.mem_cons.1 h with rfl | h
      · exact ⟨Nat.lt_succ_self _, h1⟩
      · exact ⟨Nat.lt_succ_of_lt (g2 k h).1, (g2 k h).2⟩
    · show k < t.made.length
      rw [e1, List.length_append]
      exact Nat.lt_succ_of_lt (g3 k h)
    · replace h : t.made[k]? = some .viz := h
      show k ∈ t.freed ↔ ¬ (t.up = true ∧ true = true ∧ t.env = some k)
      rw [e1] at h
      by_cases hk : k < s.made.length
      · rw [List.getElem?_append_left hk] at h
        have : k ≠ s.made.length := Nat.ne_of_lt hk
        simp [g4 k h, e4, this.symm]
      · have hk' : k = s.made.length := by
          have := lt_of_get h
          simp at this
          omega
        subst hk'
        simp [e2, e4, h1]
    · replace h : t.made[k]? = some .user := h
      rw [e1] at h
      by_cases hk : k < s.made.length
      · rw [List.getElem?_append_left hk] at h
        exact g5 k h
      · have hk' : k = s.made.length := by
          have := lt_of_get h
          simp at this
          omega
        subst hk'
        simp at h
    · replace h : t.env = some e := h
      rw [e4] at h; cases h
      exact List.mem_cons_self
    · rcases List.mem_cons.1 h with rfl | h
      · exact List.mem_cons_self
      · exact List.mem_cons_of_mem _ (g6 k h)
  have main : ∀ s2, ((s.make .viz).updateData s.made.length = .ok s2 ∨ (s.make .viz).updateData s.made.length = .throw s2) →
      (s.make .viz).updateData s.made.length = .ok s2 ∧ s2.scene = s.made.length :: s.scene ∧ s2.up = true ∧ s2.known = s.made.length :: s2.known.tail ∧ (∀ k ∈ s2.known.tail, k ∈ s.known) ∧ Inv { s2 with owns := true } gone := by
    intro s2 h
    have hor := h
    rcases updateData_cases h with ⟨m, s1, he, ho, hf, h⟩ | ⟨hno, h⟩
    · replace he : s.env = some m := he
      replace ho : s.owns = true := ho
      have hf' : s.free m = .ok { s1 with made := s.made } := by
        obtain ⟨a, b⟩ := free_ok hf
        unfold State.free at hf ⊢
        by_cases h1 : m ∈ s.freed
        · exact absurd h1 a
        · by_cases h2 : m ∈ s.watched ∧ s.up = false
          · rw [hup] at h2; simp at h2
          · rw [if_neg h1, if_neg h2, b]
            rfl
      obtain ⟨_, e2, g1, g2, g3, g4, g5, g6⟩ := before_watch hi hup he ho hf'
      obtain ⟨_, hs1⟩ := free_ok hf
      have := hwatch { s1 with owns := false, env := some s.made.length } (by rw [hs1]; rfl) (by rw [hs1]; exact hup) rfl rfl g1 g2 g3 g4 g5 (fun k hk => by rw [show ({ s1 with owns := false, env := some s.made.length } : State).scene = s1.scene from rfl, show s1.scene = s.scene from e2]; exact hi.knownScene k (g6 k hk)) s2 h
      obtain ⟨w, a, b, c, d⟩ := this
      refine ⟨?_, by simpa using a.trans (by rw [show ({ s1 with owns := false, env := some s.made.length } : State).scene = s1.scene from rfl]; rw [show s1.scene = s.scene from e2]), b, by rw [c]; rfl, by rw [c]; exact g6, d⟩
      rcases hor with hor | hor
      · exact hor
      · exfalso
        unfold State.updateData at hor
        rw [show (s.make .viz).env = some m from he] at hor
        simp only at hor
        split at hor
        · cases hor
        · rw [show (s.make .viz).owns = true from ho, if_pos rfl, hf] at hor
          simp only at hor
          rw [w] at hor
          cases hor
    · have ho : s.owns = false := by
        cases ho : s.owns with
        | false => rfl
        | true => exact absurd (hno ho) (hi.ownsEnv ho)
      obtain ⟨w, a, b, c, d⟩ := hwatch { (s.make .viz) with owns := false, env := some s.made.length } rfl hup rfl rfl hi.known hi.watched hi.freed
        (fun k hk => (hi.viz k hk).2 (by simp [ho])) hi.user hi.knownScene s2 h
      refine ⟨?_, a, b, by rw [c]; rfl, by rw [c]; exact fun k hk => hk, d⟩
      rcases hor with hor | hor
      · exact hor
      · exfalso
        unfold State.updateData at hor
        rw [show (s.make .viz).owns = false from ho] at hor
        cases he : s.env with
        | none =>
          rw [show (s.make .viz).env = none from he] at hor
          simp only at hor
          rw [w] at hor
          cases hor
        | some m =>
          rw [show (s.make .viz).env = some m from he] at hor
          simp only at hor
          split at hor
          · cases hor
          · rw [if_neg (by simp), w] at hor
            cases hor
  unfold State.own at h ⊢
  cases hu : (s.make .viz).updateData s.made.length with
  | ok s2 =>
    obtain ⟨_, a, b, c, d, e⟩ := main s2 (.inl hu)
    simp only [hu, Out.ok.injEq, reduceCtorEq, or_false] at h
    subst h
    exact ⟨e, a, rfl, b⟩
  | throw s2 =>
    have := (main s2 (.inr hu)).1
    rw [hu] at this
    cases this
  | fault => simp [hu] at h

theorem Inv.mono {s : State} {g g' : Nat → Prop} (hi : Inv s g) (h : ∀ n, s.made[n]? = some .user → (g n ↔ g' n)) : Inv s g' :=
  ⟨hi.envMade, hi.ownsEnv, hi.known, hi.watched, hi.freed, hi.viz, fun n hn => (hi.user n hn).trans (h n hn), hi.scene, hi.knownScene⟩

theorem made_grows {s s' : State} {op : Op} (h : s.step op = .ok s' ∨ s.step op = .throw s') : s.made <+: s'.made := by
  have hw : ∀ (t : State) n t', (t.watch n = .ok t' ∨ t.watch n = .throw t') → t'.made = t.made := by
    intro t n t' h
    unfold State.watch at h
    by_cases h1 : n ∈ t.freed
    · simp [h1] at h
    · by_cases h2 : n ∈ t.known
      · simp [h1, h2] at h; rw [h]
      · simp only [h1, h2, if_false, reduceCtorEq, or_false, Out.ok.injEq] at h; rw [← h]
  have hu : ∀ (t : State) n t', (t.updateData n = .ok t' ∨ t.updateData n = .throw t') → t'.made = t.made := by
    intro t n t' h
    rcases updateData_cases h with ⟨m, s1, _, _, hf, h⟩ | ⟨_, h⟩
    · rw [hw _ _ _ h]
      obtain ⟨_, rfl⟩ := free_ok hf
      rfl
    · have := hw _ _ _ h
      exact this
  have ho : ∀ (t t' : State), (t.own = .ok t' ∨ t.own = .throw t') → t.made <+: t'.made := by
    intro t t' h
    unfold State.own at h
    cases hc : (t.make .viz).updateData t.made.length with
    | ok t2 =>
      simp only [hc, Out.ok.injEq, reduceCtorEq, or_false] at h
      have := hu _ _ _ (.inl hc)
      rw [← h]
      show t.made <+: t2.made
      rw [this]
      exact List.prefix_append _ _
    | throw t2 =>
      simp only [hc, Out.throw.injEq, reduceCtorEq, false_or] at h
      have := hu _ _ _ (.inr hc)
      rw [← h, this]
      exact List.prefix_append _ _
    | fault => simp [hc] at h
  have hf : ∀ (t : State) n t', (t.free n = .ok t' ∨ t.free n = .throw t') → t'.made = t.made := by
    intro t n t' h
    rcases h with h | h
    · obtain ⟨_, rfl⟩ := free_ok h
      rfl
    · exact absurd h free_no_throw
  cases op with
  | new =>
    simp only [State.step, Out.ok.injEq, reduceCtorEq, or_false] at h
    rw [← h]
    exact List.prefix_append _ _
  | free n => exact (hf s n s' h) ▸ List.prefix_refl _
  | change n =>
    unfold State.step at h
    by_cases h1 : n ∈ s.freed
    · simp [h1] at h
    · by_cases h2 : n ∈ s.watched ∧ s.up = false
      · simp [h1, h2] at h
      · simp only [h1, h2, if_false, Out.ok.injEq, reduceCtorEq, or_false] at h
        rw [h]
        exact List.prefix_refl _
  | update n => exact (hu s n s' h) ▸ List.prefix_refl _
  | load => exact ho s s' h
  | binary =>
    unfold State.step at h
    cases he : s.env with
    | none => simp only [he] at h; exact ho s s' h
    | some n =>
      simp only [he] at h
      have : s' = s := by
        split at h
        · split at h
          · simp at h
          · exact (by simpa using h : s = s').symm
        · exact (by simpa using h : s = s').symm
      rw [this]
      exact List.prefix_refl _
  | destroy =>
    unfold State.step at h
    have : s'.made = s.made := by
      cases ho : s.owns with
      | false =>
        simp only [ho, Bool.false_eq_true, if_false, Out.ok.injEq, reduceCtorEq, or_false] at h
        rw [← h]
      | true =>
        simp only [ho, if_true] at h
        cases he : s.env with
        | none => simp only [he, Out.ok.injEq, reduceCtorEq, or_false] at h; rw [← h]
        | some n =>
          simp only [he] at h
          cases hc : s.free n with
          | ok s1 =>
            simp only [hc, Out.ok.injEq, reduceCtorEq, or_false] at h
            rw [← h]
            have := hf _ _ _ (.inl hc)
            exact this
          | throw s1 => exact absurd hc free_no_throw
          | fault => simp [hc] at h
    rw [this]
    exact List.prefix_refl _

/-- the calls that free an environment of the user are those of the user -/
theorem step_inv {s s' : State} {op : Op} {gone : Nat → Prop} (hi : Inv s gone) (hg : ∀ n, gone n → n < s.made.length) (ha : Allowed s op) (h : s.step op = .ok s' ∨ s.step op = .throw s') :
    Inv s' (fun n => op = .free n ∨ gone n) ∧ s.scene <:+ s'.scene := by
  have hfree : ∀ n s1, s.free n = .ok s1 → s1.scene = s.scene := by
    intro n s1 h
    obtain ⟨_, rfl⟩ := free_ok h
    rfl
  cases op with
  | new =>
    simp only [State.step, Out.ok.injEq, reduceCtorEq, or_false] at h
    subst h
    have hlen : (s.make .user).made.length = s.made.length + 1 := by simp [State.make]
    refine ⟨⟨fun e he => ?_, hi.ownsEnv, hi.known, fun n hn => ?_, fun n hn => ?_, fun n hn => ?_, fun n hn => ?_, hi.scene, hi.knownScene⟩, List.suffix_refl _⟩
    · have := hi.envMade e he
      show (s.made ++ [.user])[e]? = _
      rw [List.getElem?_append_left (lt_of_get this)]
      exact this
    · rw [hlen]
      exact ⟨Nat.lt_succ_of_lt (hi.watched n hn).1, (hi.watched n hn).2⟩
    · rw [hlen]
      exact Nat.lt_succ_of_lt (hi.freed n hn)
    · replace hn : (s.made ++ [.user])[n]? = some .viz := hn
      have : n < s.made.length := by
        have := lt_of_get hn
        rcases Nat.lt_or_ge n s.made.length with h | h
        · exact h
        · have : n = s.made.length := by simp at this; omega
          subst this
          simp at hn
      rw [List.getElem?_append_left this] at hn
      exact hi.viz n hn
    · replace hn : (s.made ++ [.user])[n]? = some .user := hn
      simp only [reduceCtorEq, false_or]
      rcases Nat.lt_or_ge n s.made.length with h | h
      · rw [List.getElem?_append_left h] at hn
        exact hi.user n hn
      · constructor
        · intro h'
          exact absurd (hi.freed n h') (Nat.not_lt_of_le h)
        · intro h'
          exact absurd (hg n h') (Nat.not_lt_of_le h)
  | free n =>
    rcases h with h | h
    · obtain ⟨h1, h2⟩ := free_ok h
      have hn := ha.1
      have hne : s.env = some n → s.owns = false := by
        intro he
        have := hi.envMade n he
        rw [hn] at this
        cases ho : s.owns with
        | false => rfl
        | true => rw [ho] at this; cases this
      subst h2
      refine ⟨⟨hi.envMade, hi.ownsEnv, by simp [hi.known], fun k hk => ?_, fun k hk => ?_, fun k hk => ?_, fun k hk => ?_, hi.scene, fun k hk => ?_⟩, List.suffix_refl _⟩
      · simp only [List.mem_filter, decide_eq_true_eq] at hk
        refine ⟨(hi.watched k hk.1).1, fun h => ?_⟩
        rcases List.mem_cons.1 h with h | h
        · exact hk.2 h
        · exact (hi.watched k hk.1).2 h
      · rcases List.mem_cons.1 hk with rfl | h
        · exact lt_of_get hn
        · exact hi.freed k h
      · have hkn : k ≠ n := by rintro rfl; rw [show s.made[k]? = some .viz from hk] at hn; cases hn
        rw [List.mem_cons]
        simp only [hkn, false_or]
        exact hi.viz k hk
      · rw [List.mem_cons, hi.user k hk]
        constructor
        · rintro (rfl | h)
          · exact .inl rfl
          · exact .inr h
        · rintro (h | h)
          · cases h; exact .inl rfl
          · exact .inr h
      · exact hi.knownScene k (List.mem_filter.1 hk).1
    · exact absurd h free_no_throw
  | change n =>
    unfold State.step at h
    by_cases h1 : n ∈ s.freed
    · simp [h1] at h
    · by_cases h2 : n ∈ s.watched ∧ s.up = false
      · simp [h1, h2] at h
      · simp only [h1, h2, if_false, Out.ok.injEq, reduceCtorEq, or_false] at h
        subst h
        exact ⟨hi.mono fun n _ => by simp, List.suffix_refl _⟩
  | update n =>
    obtain ⟨h1, h2⟩ := updateData_inv hi ha.1 ha.2.1 h
    exact ⟨h1.mono fun n _ => by simp, h2⟩
  | load =>
    obtain ⟨h1, h2, _⟩ := own_inv hi ha (fun h => Nat.lt_irrefl _ (hg _ h)) h
    exact ⟨h1.mono fun n _ => by simp, h2 ▸ List.suffix_cons _ _⟩
  | binary =>
    unfold State.step at h
    cases he : s.env with
    | none =>
      simp only [he] at h
      obtain ⟨h1, h2, _⟩ := own_inv hi ha (fun h => Nat.lt_irrefl _ (hg _ h)) h
      exact ⟨h1.mono fun n _ => by simp, h2 ▸ List.suffix_cons _ _⟩
    | some n =>
      simp only [he] at h
      have : s' = s := by
        split at h
        · split at h
          · simp at h
          · exact (by simpa using h : s = s').symm
        · exact (by simpa using h : s = s').symm
      rw [this]
      exact ⟨hi.mono fun n _ => by simp, List.suffix_refl _⟩
  | destroy =>
    unfold State.step at h
    cases ho : s.owns with
    | false =>
      simp only [ho, Bool.false_eq_true, if_false, Out.ok.injEq, reduceCtorEq, or_false] at h
      subst h
      refine ⟨⟨fun e he => by have := hi.envMade e he; rw [ho] at this; exact this, fun h => (Bool.noConfusion h), hi.known, hi.watched, hi.freed, fun k hk => ?_, fun k hk => ?_, hi.scene, hi.knownScene⟩, List.suffix_refl _⟩
      · have := hi.viz k hk
        show k ∈ s.freed ↔ ¬ (false = true ∧ _)
        rw [this, ho]
        simp
      · have := hi.user k hk
        show k ∈ s.freed ↔ _
        simp [this]
    | true =>
      simp only [ho, if_true] at h
      cases he : s.env with
      | none => exact absurd he (hi.ownsEnv ho)
      | some n =>
        simp only [he] at h
        cases hc : s.free n with
        | throw s1 => exact absurd hc free_no_throw
        | fault => simp [hc] at h
        | ok s1 =>
          simp only [hc, Out.ok.injEq, reduceCtorEq, or_false] at h
          obtain ⟨e1, e2, g1, g2, g3, g4, g5, g6⟩ := before_watch hi ha he ho hc
          obtain ⟨_, hs1⟩ := free_ok hc
          have he1 : s1.env = some n := by rw [hs1]; exact he
          have ho1 : s1.owns = true := by rw [hs1]; exact ho
          subst h
          refine ⟨⟨fun e hh => ?_, fun _ => ?_, g1, g2, g3, fun k hk => ?_, fun k hk => ?_, fun e hh => ?_, fun k hk => ?_⟩, ?_⟩
          · show s1.made[e]? = some (if s1.owns then _ else _)
            rw [e1, ho1]
            replace hh : s1.env = some e := hh
            rw [he1] at hh; cases hh
            have := hi.envMade n he
            rw [ho] at this
            exact this
          · show s1.env ≠ none
            rw [he1]; simp
          · simpa using g4 k hk
          · have := g5 k hk
            show k ∈ s1.freed ↔ _
            simp [this]
          · replace hh : s1.env = some e := hh
            rw [he1] at hh; cases hh
            show n ∈ s1.scene
            rw [e2]
            exact hi.scene n he
          · show k ∈ s1.scene
            rw [e2]
            exact hi.knownScene k (g6 k hk)
          · show s.scene <:+ s1.scene
            rw [e2]
            exact List.suffix_refl _

theorem reach_inv {ops : List Op} {s : State} (h : Reach ops s) : Inv s (fun n => Op.free n ∈ ops) ∧ ∀ n, Op.free n ∈ ops → n < s.made.length := by
  have next : ∀ {ops s op s'}, Inv s (fun n => Op.free n ∈ ops) ∧ (∀ n, Op.free n ∈ ops → n < s.made.length) → Allowed s op → (s.step op = .ok s' ∨ s.step op = .throw s') →
      Inv s' (fun n => Op.free n ∈ op :: ops) ∧ ∀ n, Op.free n ∈ op :: ops → n < s'.made.length := by
    intro ops s op s' ih ha h
    refine ⟨(step_inv ih.1 ih.2 ha h).1.mono fun n _ => ?_, fun n hn => ?_⟩
    · rw [List.mem_cons]
      exact ⟨fun h => h.imp Eq.symm id, fun h => h.imp Eq.symm id⟩
    · refine Nat.lt_of_lt_of_le ?_ (made_grows h).length_le
      rcases List.mem_cons.1 hn with rfl | hn
      · exact lt_of_get ha.1
      · exact ih.2 n hn
  induction h with
  | start => exact ⟨⟨by simp [start], by simp [start], rfl, by simp [start], by simp [start], by simp [start], by simp [start], by simp [start], by simp [start]⟩, by simp⟩
  | ok _ ha h ih => exact next ih ha (.inl h)
  | throw _ ha h ih => exact next ih ha (.inr h)

/-- **C178** After every history of calls: an environment that the visualization made itself (to load a file or for the first binary event) is freed as soon as it is replaced or the visualization is destroyed, and not before;
an environment of the user is freed exactly if the user did so. -/
theorem C178_owner {ops : List Op} {s : State} (h : Reach ops s) (n : Nat) :
    (s.made[n]? = some .viz → (n ∈ s.freed ↔ ¬ (s.up = true ∧ s.owns = true ∧ s.env = some n))) ∧ (s.made[n]? = some .user → (n ∈ s.freed ↔ Op.free n ∈ ops)) :=
  ⟨(reach_inv h).1.viz n, (reach_inv h).1.user n⟩

/-- **C178** (partial) The environment that was given last is in the scene; the first one is alone there. Missing: that former environments leave the scene (C178_both_deviation). -/
theorem C178_shown_partial {ops : List Op} {s : State} (h : Reach ops s) :
    (∀ e, s.env = some e → e ∈ s.scene) ∧
    (s.env = none → s.scene = [] → ∀ s' n, (s.updateData n = .ok s' → s'.scene = [n] ∧ s'.env = some n) ∧ (s.own = .ok s' → s'.scene = [s.made.length] ∧ s'.env = some s.made.length ∧ s'.owns = true)) := by
  refine ⟨(reach_inv h).1.scene, fun he hs s' n => ⟨fun h' => ?_, fun h' => ?_⟩⟩
  · unfold State.updateData State.watch at h'
    simp only [he] at h'
    split at h'
    · cases h'
    · split at h'
      · cases h'
      · cases h'
        exact ⟨by simp [hs], rfl⟩
  · unfold State.own State.updateData State.watch at h'
    rw [show (s.make .viz).env = none from he] at h'
    simp only at h'
    split at h'
    · rename_i s1 h1
      cases h'
      split at h1
      · cases h1
      · split at h1
        · cases h1
        · cases h1
          exact ⟨by simp [State.make, hs], rfl, rfl⟩
    · cases h'
    · cases h'

/-- Violation: nothing ever leaves the scene, as the node that is removed is not the one that was added: after another environment is given both are seen, and if the former one belongs to the user its changes are still followed. -/
theorem C178_both_deviation : (∀ {ops : List Op} {s s' : State} {op : Op}, Reach ops s → Allowed s op → (s.step op = .ok s' ∨ s.step op = .throw s') → s.scene <:+ s'.scene) ∧
    ∃ ops s, Reach ops s ∧ s.env = some 1 ∧ s.scene = [1, 0] ∧ s.watched = [1, 0] := by
  refine ⟨fun h ha hs => (step_inv (reach_inv h).1 (reach_inv h).2 ha hs).2, ?_⟩
  let s1 := start.make .user
  let s2 := s1.make .user
  let s3 : State := { s2 with env := some 0, scene := [0], known := [0], watched := [0] }
  let s4 : State := { s2 with env := some 1, scene := [1, 0], known := [1, 0], watched := [1, 0] }
  refine ⟨[.update 1, .update 0, .new, .new], s4, ?_, rfl, rfl, rfl⟩
  exact .ok (s := s3) (.ok (s := s2) (.ok (s := s1) (.ok .start trivial rfl) trivial rfl) ⟨rfl, rfl, by decide⟩ (by decide)) ⟨rfl, rfl, by decide⟩ (by decide)

/-- the results of calls, one after the other, until one is undefined -/
def run : State → List Op → List (Option Bool)
  | _, [] => []
  | s, op :: ops => match s.step op with
    | .ok s' => some true :: run s' ops
    | .throw s' => some false :: run s' ops
    | .fault => [none]

/-- Violation: an environment that is given a second time is refused with an exception. -/
theorem C178_again_deviation {ops : List Op} {s s1 : State} (h : Reach ops s) (n : Nat) (ha : Allowed s (.update n)) (h1 : s.step (.update n) = .ok s1) : ∃ s2, s1.step (.update n) = .throw s2 := by
  have hr := Reach.ok h ha h1
  have hk : n ∈ s1.known ∧ n ∉ s1.freed ∧ s1.owns = false ∧ s1.env = some n := by
    have : ∀ t : State, t.owns = false → t.env = some n → t.watch n = .ok s1 → n ∈ s1.known ∧ n ∉ s1.freed ∧ s1.owns = false ∧ s1.env = some n := by
      intro t ho he ht
      unfold State.watch at ht
      split at ht
      · cases ht
      · rename_i hf
        split at ht
        · cases ht
        · cases ht
          exact ⟨List.mem_cons_self, hf, ho, he⟩
    have h1' : s.updateData n = .ok s1 := h1
    unfold State.updateData at h1'
    cases he : s.env with
    | none => simp only [he] at h1'; exact this _ rfl rfl h1'
    | some m =>
      simp only [he] at h1'
      split at h1'
      · cases h1'
      · split at h1'
        · split at h1'
          · exact this _ rfl rfl h1'
          · cases h1'
          · cases h1'
        · exact this _ rfl rfl h1'
  obtain ⟨a, b, c, d⟩ := hk
  refine ⟨s1, ?_⟩
  show s1.updateData n = _
  unfold State.updateData
  rw [d]
  simp only [b, c, Bool.false_eq_true, if_false]
  unfold State.watch
  rw [if_neg b, if_pos a]
  have : ({ s1 with owns := false, env := some n } : State) = s1 := by
    cases s1
    simp_all
  rw [this]

/-- Violations: an environment of the user that was freed is asked for its root when the next one is given; and an environment of the user must not be changed after the visualization is destroyed, as the listener is still registered. -/
theorem C178_freed_deviation : run start [.new, .new, .update 0, .free 0, .update 1] = [some true, some true, some true, some true, none] ∧
    run start [.new, .update 0, .destroy, .change 0] = [some true, some true, some true, none] := by decide

/-- **C178** Binary events are accepted as long as the user gave no environment: the first one makes an environment, the others use it. With an environment of the user they are refused. -/
theorem C178_binary {ops : List Op} {s : State} (h : Reach ops s) (hup : s.up = true) :
    ((s.env = none ∨ s.owns = true) → ∃ s', s.step .binary = .ok s' ∧ s'.owns = true) ∧ (s.env ≠ none → s.owns = false → s.step .binary = .throw s) := by
  have hi := (reach_inv h).1
  refine ⟨fun h' => ?_, fun he ho => ?_⟩
  · cases he : s.env with
    | none =>
      have h1 : s.made.length ∉ s.freed := fun h => Nat.lt_irrefl _ (hi.freed _ h)
      have h2 : s.made.length ∉ s.known := fun h => Nat.lt_irrefl _ (hi.watched _ (hi.known ▸ h)).1
      refine ⟨{ s with made := s.made ++ [.viz], env := some s.made.length, owns := true, known := s.made.length :: s.known, scene := s.made.length :: s.scene, watched := s.made.length :: s.watched }, ?_, rfl⟩
      unfold State.step
      rw [he]
      simp only
      unfold State.own State.updateData
      rw [show (s.make .viz).env = none from he]
      simp only
      unfold State.watch
      simp only [State.make, h1, h2, if_false]
    | some n =>
      have ho : s.owns = true := by
        rcases h' with h' | h'
        · rw [he] at h'; cases h'
        · exact h'
      have hn : n ∉ s.freed := by
        have := hi.envMade n he
        rw [ho] at this
        rw [hi.viz n this]
        simp [hup, ho, he]
      refine ⟨s, ?_, ho⟩
      unfold State.step
      rw [he]
      simp only [ho, if_true, hn, if_false]
  · cases he' : s.env with
    | none => exact absurd he' he
    | some n =>
      unfold State.step
      rw [he']
      simp [ho]

example : run start [.binary, .binary, .load, .new, .update 2, .binary, .destroy, .free 2] = [some true, some true, some true, some true, some true, some false, some true, none] := by decide

#print axioms C178_owner
#print axioms C178_shown_partial
#print axioms C178_both_deviation
#print axioms C178_again_deviation
#print axioms C178_freed_deviation
#print axioms C178_binary

end Envire.Shown
