import Verif.Viz.WindowModel

/-!
C184: the window of enview: environments, saving, and the form of the alignment.
-/
namespace Envire.Window

open Envire.Shown

/-- the window after the constructor -/
def first : State := ⟨⟨some 0, false, [.user], [], [0], [0], [0], true⟩, some 0, "", []⟩

theorem start_first : start = some first := by rfl

theorem write_parts (w : State) : (w.write).viz = w.viz ∧ (w.write).env = w.env ∧ (w.write).fileName = w.fileName := by
  unfold State.write
  split <;> exact ⟨rfl, rfl, rfl⟩

theorem saveAs_parts (w : State) (d : String) : (w.saveAs d).viz = w.viz ∧ (w.saveAs d).env = w.env := by
  unfold State.saveAs
  split
  · exact ⟨rfl, rfl⟩
  · exact ⟨(write_parts _).1, (write_parts _).2.1⟩

theorem save_parts (w : State) (d : String) : (w.save d).viz = w.viz ∧ (w.save d).env = w.env := by
  unfold State.save
  refine ⟨(write_parts _).1.trans ?_, (write_parts _).2.1.trans ?_⟩
  · split
    · exact (saveAs_parts w d).1
    · rfl
  · split
    · exact (saveAs_parts w d).2
    · rfl

/-- a window that has not loaded anything loads nothing -/
theorem load_fails {w : State} (hv : w.viz = first.viz) (he : w.env = some 0) : w.setEnvironment = none := by
  unfold State.setEnvironment
  rw [hv, he]
  rfl

/-- **C184, the code violates the property**: the window frees the environment that is shown before it shows another one. Every load
that is not cancelled uses the freed environment; without such a load nothing goes wrong. -/
theorem C184_load_deviation (ops : List Op) : (∃ w, start = some w ∧ run w ops = none) ↔ ∃ d, d ≠ "" ∧ .load d ∈ ops := by
  have key : ∀ (ops : List Op) (w : State), w.viz = first.viz → w.env = some 0 → (run w ops = none ↔ ∃ d, d ≠ "" ∧ .load d ∈ ops) := by
    intro ops
    induction ops with
    | nil => intro w _ _; constructor
             · intro h; cases h
             · rintro ⟨_, _, h⟩; cases h
    | cons o l ih =>
      intro w hv he
      have go : ∀ w', w.step o = some w' → w'.viz = first.viz → w'.env = some 0 → (∀ d, o = .load d → d = "") →
          (run w (o :: l) = none ↔ ∃ d, d ≠ "" ∧ .load d ∈ o :: l) := by
        intro w' h1 h2 h3 h4
        have : run w (o :: l) = run w' l := by conv_lhs => unfold run
                                               rw [h1]
        rw [this, ih w' h2 h3]
        constructor
        · rintro ⟨d, hd, h⟩; exact ⟨d, hd, List.mem_cons_of_mem _ h⟩
        · rintro ⟨d, hd, h⟩
          rcases List.mem_cons.1 h with h | h
          · exact absurd (h4 d h.symm) hd
          · exact ⟨d, hd, h⟩
      cases o with
      | load d =>
        by_cases hd : d = ""
        · exact go w (by unfold State.step; dsimp only; rw [if_pos hd]) hv he (fun d' h => by cases h; exact hd)
        · have : run w (.load d :: l) = none := by
            unfold run State.step
            dsimp only
            rw [if_neg hd, load_fails hv he]
          simp only [this, true_iff]
          exact ⟨d, hd, List.mem_cons_self⟩
      | save d => exact go _ rfl ((save_parts w d).1.trans hv) ((save_parts w d).2.trans he) (fun d' h => by cases h)
      | saveAs d => exact go _ rfl ((saveAs_parts w d).1.trans hv) ((saveAs_parts w d).2.trans he) (fun d' h => by cases h)
  rw [start_first]
  constructor
  · rintro ⟨w, h, h'⟩
    cases h
    exact (key ops first rfl rfl).1 h'
  · intro h
    exact ⟨first, rfl, (key ops first rfl rfl).2 h⟩

/-- **C184 (saving, partial)** Saving under a chosen name writes the environment once to that directory and keeps the name; saving again
writes once to the name that was kept, without a dialog; a cancelled dialog of "save as" changes nothing; the first save
writes to the chosen name. Missing: once in the first save (it writes twice), a first save that is cancelled
(`C184_cancel_deviation`). -/
theorem C184_save_partial (w : State) {n : Nat} (hw : w.env = some n) (d : String) :
    (d ≠ "" → (w.saveAs d).writes = w.writes ++ [(d, n)] ∧ (w.saveAs d).fileName = d) ∧ w.saveAs "" = w ∧
    (w.fileName ≠ "" → (w.save d).writes = w.writes ++ [(w.fileName, n)] ∧ (w.save d).fileName = w.fileName) ∧
    (w.fileName = "" → d ≠ "" → (w.save d).writes = w.writes ++ [(d, n), (d, n)] ∧ (w.save d).fileName = d) := by
  have wr : ∀ w : State, w.env = some n → w.write.writes = w.writes ++ [(w.fileName, n)] := by
    intro w h; unfold State.write; rw [h]
  have as : d ≠ "" → (w.saveAs d).writes = w.writes ++ [(d, n)] ∧ (w.saveAs d).fileName = d := by
    intro hd
    unfold State.saveAs
    rw [if_neg hd]
    exact ⟨wr { w with fileName := d } hw, (write_parts _).2.2⟩
  refine ⟨as, by unfold State.saveAs; rw [if_pos rfl], fun hf => ?_, fun hf hd => ?_⟩
  · unfold State.save
    rw [if_neg hf]
    exact ⟨wr w hw, (write_parts _).2.2⟩
  · unfold State.save
    rw [if_pos hf]
    refine ⟨?_, ((write_parts _).2.2).trans (as hd).2⟩
    rw [wr _ ((saveAs_parts w d).2.trans hw), (as hd).1, (as hd).2, List.append_assoc]
    rfl

/-- **C184, the code violates the property**: a first save whose dialog is cancelled writes to the empty name. -/
theorem C184_cancel_deviation (w : State) {n : Nat} (hw : w.env = some n) (hf : w.fileName = "") :
    (w.save "").writes = w.writes ++ [("", n)] := by
  unfold State.save State.saveAs
  rw [if_pos hf, if_pos rfl]
  unfold State.write
  rw [hw, hf]

/-- the environment that is written is the one that is shown -/
theorem C184_written {w : State} (h : start = some w) (ops : List Op) {w' : State} (h' : run w ops = some w') :
    w'.env = w'.viz.env ∧ ∀ e ∈ w'.writes, w'.viz.env = some e.2 := by
  rw [start_first] at h
  cases h
  have key : ∀ (ops : List Op) (w : State), w.viz = first.viz → w.env = some 0 → (∀ e ∈ w.writes, e.2 = 0) → ∀ w', run w ops = some w' →
      w'.viz = first.viz ∧ w'.env = some 0 ∧ ∀ e ∈ w'.writes, e.2 = 0 := by
    intro ops
    induction ops with
    | nil => intro w a b c w' h; cases h; exact ⟨a, b, c⟩
    | cons o l ih =>
      intro w a b c w' h
      have wr : ∀ w : State, w.env = some 0 → (∀ e ∈ w.writes, e.2 = 0) → ∀ e ∈ w.write.writes, e.2 = 0 := by
        intro w b c e he
        unfold State.write at he
        rw [b] at he
        rcases List.mem_append.1 he with he | he
        · exact c e he
        · rw [List.mem_singleton.1 he]
      have as : ∀ d, ∀ e ∈ (w.saveAs d).writes, e.2 = 0 := by
        intro d
        unfold State.saveAs
        split
        · exact c
        · exact wr _ b c
      unfold run at h
      cases o with
      | load d =>
        unfold State.step at h
        dsimp only at h
        by_cases hd : d = ""
        · rw [if_pos hd] at h
          exact ih w a b c w' h
        · rw [if_neg hd, load_fails a b] at h
          cases h
      | save d =>
        refine ih _ ((save_parts w d).1.trans a) ((save_parts w d).2.trans b) ?_ w' h
        unfold State.save
        split
        · exact wr _ ((saveAs_parts w d).2.trans b) (as d)
        · exact wr _ b c
      | saveAs d => exact ih _ ((saveAs_parts w d).1.trans a) ((saveAs_parts w d).2.trans b) (as d) w' h
  obtain ⟨a, b, c⟩ := key ops first rfl rfl (by intro e he; cases he) w' h'
  rw [a, b]
  exact ⟨rfl, fun e he => by rw [c e he]; rfl⟩

/-- **C184 (form, partial)** If all texts are numbers and the number of rounds is not negative, the alignment gets exactly the numbers of the form.
Missing: forms with a text that is no number (`C184_form_deviation`). -/
theorem C184_form_partial (int : String → Option Int) (num : String → Option ℚ) (f : Form) {i : Int} {a b c d : ℚ}
    (h1 : int f.iterations = some i) (h2 : num f.minMse = some a) (h3 : num f.minMseDiff = some b) (h4 : num f.density = some c)
    (h5 : num f.overlap = some d) (hi : 0 ≤ i) (hb : i < 2 ^ 64) : params int num f = ⟨i, a, b, c, d⟩ := by
  unfold params
  simp only [h1, h2, h3, h4, h5, Int.emod_eq_of_lt hi hb]

/-- a text that is no number keeps its default, and so do all texts after it, in the order rounds, error, difference, density, overlap;
without any number the alignment makes 10 rounds, with the errors 0.02 and 0.01, the density 0.1 and the overlap 0.8 -/
theorem C184_form_order (int : String → Option Int) (num : String → Option ℚ) (f : Form) :
    (int f.iterations = none → params int num f = defaults) ∧ defaults = ⟨10, 2 / 100, 1 / 100, 1 / 10, 8 / 10⟩ ∧
    (∀ i, int f.iterations = some i → 0 ≤ i → i < 2 ^ 64 → num f.minMse = none → params int num f = { defaults with maxIter := i }) ∧
    (num f.minMseDiff = none → (params int num f).density = defaults.density ∧ (params int num f).overlap = defaults.overlap) ∧
    (num f.density = none → (params int num f).density = defaults.density ∧ (params int num f).overlap = defaults.overlap) := by
  refine ⟨fun h => ?_, rfl, fun i h h0 hb h1 => ?_, fun h => ?_, fun h => ?_⟩
  · unfold params; simp only [h]
  · unfold params; simp only [h, h1, Int.emod_eq_of_lt h0 hb]
  · unfold params
    cases int f.iterations <;> simp only [and_self]
    cases num f.minMse <;> simp only [and_self, h]
  · unfold params
    cases int f.iterations <;> simp only [and_self]
    cases num f.minMse <;> simp only [and_self]
    cases num f.minMseDiff <;> simp only [and_self, h]

/-- **C184, the code violates the property**: an empty field for the error makes the tool ignore the density that is shown; and a
negative number of rounds becomes a huge one. -/
theorem C184_form_deviation : ∃ (int : String → Option Int) (num : String → Option ℚ),
    num ".01" = some (1 / 100) ∧ (params int num ⟨"5", "", "1e-8", ".01", ".8"⟩).density = 1 / 10 ∧
    int "-1" = some (-1) ∧ (params int num ⟨"-1", ".8", "1e-8", ".01", ".8"⟩).maxIter = 18446744073709551615 := by
  refine ⟨fun s => if s = "5" then some 5 else if s = "-1" then some (-1) else none,
    fun s => if s = ".01" then some (1 / 100) else if s = ".8" then some (8 / 10) else none, ?_, ?_, ?_, ?_⟩ <;> decide +kernel

/-- what the user chose since the list was cleared -/
def chosen : List Press → List Nat
  | [] => []
  | .add (some o) :: l => chosen l ++ [o]
  | .clear :: _ => []
  | _ :: l => chosen l

/-- items that were freed -/
def gone : List Press → List Nat
  | [] => []
  | .free o :: l => o :: gone l
  | _ :: l => gone l

/-- **C184 (model)** For any presses (the last one first): the alignment of a selected cloud uses exactly the clouds chosen since the list was cleared, in that
order, and it uses a freed cloud exactly if a chosen cloud was freed. -/
theorem C184_model (there : List Nat) (l : List Press) (hl : ∀ o ∈ chosen l, o ∈ there) (m : Nat) :
    let s : Lists := l.foldr (fun p (s : Lists) => s.step p) ⟨[], there⟩
    s.runICP (some m) = (if ∃ o ∈ chosen l, o ∈ gone l then .fault else .aligned m (chosen l)) ∧ s.runICP none = .nothing := by
  have key : ∀ l : List Press, (l.foldr (fun p (s : Lists) => s.step p) ⟨[], there⟩).model = chosen l ∧
      ∀ o, o ∈ (l.foldr (fun p (s : Lists) => s.step p) ⟨[], there⟩).there ↔ o ∈ there ∧ o ∉ gone l := by
    intro l
    induction l with
    | nil => exact ⟨rfl, fun o => by simp [gone]⟩
    | cons p l ih =>
      rw [List.foldr_cons]
      cases p with
      | add x => cases x with
        | some o => exact ⟨by show _ ++ [o] = _; rw [ih.1]; rfl, ih.2⟩
        | none => exact ih
      | clear => exact ⟨rfl, ih.2⟩
      | free o =>
        refine ⟨ih.1, fun x => ?_⟩
        show x ∈ List.filter _ _ ↔ x ∈ there ∧ x ∉ o :: gone l
        rw [List.mem_filter, ih.2, List.mem_cons]
        simp only [decide_eq_true_eq]
        tauto
  obtain ⟨k1, k2⟩ := key l
  refine ⟨?_, rfl⟩
  unfold Lists.runICP
  dsimp only
  rw [k1]
  by_cases h : ∃ o ∈ chosen l, o ∈ gone l
  · obtain ⟨o, h1, h2⟩ := h
    rw [if_neg, if_pos ⟨o, h1, h2⟩]
    intro hall
    have := List.all_eq_true.1 hall o h1
    rw [decide_eq_true_eq, k2] at this
    exact this.2 h2
  · rw [if_pos, if_neg h]
    rw [List.all_eq_true]
    intro o ho
    rw [decide_eq_true_eq, k2]
    exact ⟨hl o ho, fun hg => h ⟨o, ho, hg⟩⟩

/-! ## examples -/

example : (start.bind fun w => run w [.save "", .saveAs "a", .save "b", .load "", .saveAs ""]).map (fun w => (w.writes, w.fileName)) =
    some ([("", 0), ("a", 0), ("a", 0)], "a") := by decide +kernel

example : (start.bind fun w => run w [.saveAs "a", .load "b"]).isNone := by decide +kernel

example : params (fun _ => some 5) (fun _ => some (1 / 2)) ⟨"5", "a", "b", "c", "d"⟩ = ⟨5, 1 / 2, 1 / 2, 1 / 2, 1 / 2⟩ := by decide +kernel

example : chosen [.add (some 3), .add none, .add (some 2), .clear, .add (some 1)] = [2, 3] ∧ gone [.free 4, .add (some 2), .free 1] = [4, 1] := by decide

#print axioms C184_load_deviation
#print axioms C184_save_partial
#print axioms C184_cancel_deviation
#print axioms C184_written
#print axioms C184_form_partial
#print axioms C184_form_order
#print axioms C184_form_deviation
#print axioms C184_model

end Envire.Window
