import Verif.Viz.AddModel
import Verif.Maps.DeepProps
import Mathlib.Tactic.NormNum
import Mathlib.Tactic.FinCases
import Mathlib.LinearAlgebra.Matrix.Notation

/-! C195: adding data in enview. -/
namespace Envire.Add
open Envire Envire.Env
open Envire.MapSet (Pose)
open Matrix

/-- the import at a frame of the environment -/
theorem import_kept {s : Env} (hw : WF s) (hc : Closed s) (hroot : rootOk s) {fn pc : Obj} (hn : s.owner fn = .here) (h1 : s.owner pc = .dead) {T : Type} (tf : Obj → T) :
    ∃ s', importCsv s true fn pc = .ok s' ∧ Clone.Kept s s' tf tf [pc] ∧ s'.getFrameNode pc = some fn ∧ s'.getParent pc = none ∧ s'.kind pc = .cmap := by
  have hw1 := Clone.alloc_wf hw h1 .cmap
  have hc1 := Clone.alloc_closed hw hc h1 .cmap
  have hos : ∀ x, x ≠ pc → (Clone.alloc s pc .cmap).owner x = s.owner x := fun x hx => upd_ne _ _ hx
  have hks : ∀ x, x ≠ pc → (Clone.alloc s pc .cmap).kind x = s.kind x := fun x hx => upd_ne _ _ hx
  have hus : ∀ x, x ≠ pc → (Clone.alloc s pc .cmap).uid x = s.uid x := fun x hx => upd_ne _ _ hx
  have hrs : s.rootNode ≠ pc := by rintro h; rw [← h, hroot.1] at h1; cases h1
  have hnp : fn ≠ pc := by rintro rfl; rw [hn] at h1; cases h1
  have hr1 : rootOk (Clone.alloc s pc .cmap) := ⟨(hos _ hrs).trans hroot.1, (hks _ hrs).trans hroot.2⟩
  obtain ⟨s2, e2, w2, c2, o2, f2, r2, k2, x2, i2, t2, lt2, in2, out2⟩ :=
    Deep.attach_auto hw1 hc1 hr1 (upd_self _ _ _) (upd_self _ _ _) (.inl (upd_self _ _ _))
  have hn2 : s2.owner fn = .here := by rw [(x2 fn hnp).1, hos fn hnp]; exact hn
  have hroot2 : s2.owner s.rootNode = .here := by rw [(x2 _ hrs).1, hos _ hrs]; exact hroot.1
  obtain ⟨s4, e4, f4, o4, u4, k4, i4, t4, lt4, in4, out4, r4, g4⟩ := Clone.set_frame w2 o2 hn2 f2 hroot2 tf
  refine ⟨s4, ?_, { fresh := ?_, root := ?_, owner := ?_, uid := ?_, kind := ?_, tf := fun _ _ => rfl, item := ?_, parent := ?_, frame := ?_, ltree := ?_, opIn := ?_, opOut := ?_ },
    f4, ?_, ?_⟩
  · unfold importCsv
    rw [if_neg (by decide), if_neg (by simp [hn]), e2]
    exact e4
  · intro a ha
    simp only [List.mem_cons, List.not_mem_nil, or_false] at ha
    subst ha
    exact ⟨h1, by rw [o4]; exact o2⟩
  · rw [r4, r2]; rfl
  · intro x hx
    have hx' : x ≠ pc := by simpa using hx
    rw [o4, (x2 x hx').1, hos x hx']
  · intro x hx
    have hx' : x ≠ pc := by simpa using hx
    rw [u4, (x2 x hx').2.1, hus x hx']
  · intro x hx
    have hx' : x ≠ pc := by simpa using hx
    rw [k4, k2, hks x hx']
  · intro id x hx
    have := i2 id x hx
    show look id s4.items = _
    rw [i4]
    exact this
  · intro x hx
    unfold getParent
    rw [t4, t2]
    rfl
  · intro x hx
    have hx' : x ≠ pc := by simpa using hx
    rw [g4 x hx', (x2 x hx').2.2]
    rfl
  · rw [lt4, lt2]; rfl
  · rw [in4, in2]; rfl
  · rw [out4, out2]; rfl
  · show look pc s4.ftree = _
    rw [t4, t2]
    exact Clone.dead_not_parent hc h1
  · rw [k4, k2]
    exact upd_self _ _ _

variable {r : Obj} {s : Env}

/-- **C195 (selected frame)** A frame of the environment is selected and the file can be opened: afterwards there is one more item, a cloud in this frame; everything else is as before. -/
theorem C195_selected_partial (hs : Reach Good r s) (hroot : rootOk s) {T : Type} (tf : Obj → T) (fn fm pc : Obj) (hn : s.owner fn = .here) (hk : s.kind fn = .frame)
    (h1 : s.owner pc = .dead) :
    ∃ s', addCsv s (some fn) (some true) fm pc = .ok s' ∧ Clone.Kept s s' tf tf [pc] ∧ s'.getFrameNode pc = some fn ∧ s'.kind pc = .cmap := by
  obtain ⟨hw, hc⟩ := hs.wf_closed
  obtain ⟨s', e, k, f, -, kk⟩ := import_kept hw hc hroot hn h1 tf
  refine ⟨s', ?_, k, f, kk⟩
  unfold addCsv selectedFrame
  dsimp only
  rw [if_neg (by rw [hn]; decide), if_pos hk]
  exact e

/-- **C195 (no selected frame)** Nothing or another item is selected: there are two more items, a frame below the root and a cloud in this frame; everything else is as before. -/
theorem C195_new_frame_partial (hs : Reach Good r s) (hroot : rootOk s) {T : Type} (tf : Obj → T) (v : T) (sel : Selected) (fm pc : Obj)
    (hsel : ∀ x, sel = some x → s.owner x = .here ∧ s.kind x ≠ .frame) (h1 : s.owner pc = .dead) (h2 : s.owner fm = .dead) (hne : pc ≠ fm) :
    ∃ s', addCsv s sel (some true) fm pc = .ok s' ∧ Clone.Kept s s' tf (upd tf fm v) [fm, pc] ∧ s'.getFrameNode pc = some fm ∧ s'.kind pc = .cmap ∧ s'.getParent fm = some s.rootNode ∧
      s'.kind fm = .frame := by
  obtain ⟨hw, hc⟩ := hs.wf_closed
  obtain ⟨s1, e1, w1, c1, k1, p1, kf1, -⟩ := Clone.add_fresh hw hc hroot.1 hroot.2 h2 tf v
  have hrf : s.rootNode ≠ fm := by rintro h; rw [← h, hroot.1] at h2; cases h2
  have hroot1 : rootOk s1 := by
    unfold rootOk
    rw [k1.root, k1.owner _ (by simpa using hrf), k1.kind _ (by simpa using hrf)]
    exact hroot
  have hpc1 : s1.owner pc = .dead := by rw [k1.owner pc (by simpa using hne)]; exact h1
  obtain ⟨s2, e2, k2, f2, p2, kk2⟩ := import_kept w1 c1 hroot1 (k1.fresh fm (by simp)).2 hpc1 (upd tf fm v)
  have hfp : fm ∉ [pc] := by simpa using hne.symm
  have hb : ∀ x, x ∉ [fm, pc] → x ∉ [fm] ∧ x ∉ [pc] := by
    intro x hx
    simp only [List.mem_cons, List.not_mem_nil, or_false, not_or] at hx ⊢
    exact hx
  refine ⟨s2, ?_, { fresh := ?_, root := ?_, owner := ?_, uid := ?_, kind := ?_, tf := ?_, item := ?_, parent := ?_, frame := ?_, ltree := ?_, opIn := ?_, opOut := ?_ }, f2, kk2, ?_, ?_⟩
  · have hsf : selectedFrame s sel = some none := by
      unfold selectedFrame
      cases sel with
      | none => rfl
      | some x =>
        dsimp only
        rw [if_neg (by rw [(hsel x rfl).1]; decide), if_neg (hsel x rfl).2]
    unfold addCsv
    dsimp only
    rw [hsf, e1]
    exact e2
  · intro a ha
    simp only [List.mem_cons, List.not_mem_nil, or_false] at ha
    rcases ha with rfl | rfl
    · exact ⟨h2, by rw [k2.owner a hfp]; exact (k1.fresh a (by simp)).2⟩
    · exact ⟨h1, (k2.fresh a (by simp)).2⟩
  · rw [k2.root, k1.root]
  · intro x hx; rw [k2.owner x (hb x hx).2, k1.owner x (hb x hx).1]
  · intro x hx; rw [k2.uid x (hb x hx).2, k1.uid x (hb x hx).1]
  · intro x hx; rw [k2.kind x (hb x hx).2, k1.kind x (hb x hx).1]
  · intro x hx; exact upd_ne _ _ (by simpa using (hb x hx).1)
  · intro id x hx; exact k2.item id x (k1.item id x hx)
  · intro x hx; rw [k2.parent x (hb x hx).2, k1.parent x (hb x hx).1]
  · intro x hx; rw [k2.frame x (hb x hx).2, k1.frame x (hb x hx).1]
  · rw [k2.ltree, k1.ltree]
  · rw [k2.opIn, k1.opIn]
  · rw [k2.opOut, k1.opOut]
  · rw [k2.parent fm hfp]; exact p1
  · rw [k2.kind fm hfp]; exact kf1

/-- **C195 (nothing to do)** If the dialog is cancelled, or the file cannot be opened and a frame is selected, nothing changes. -/
theorem C195_unchanged_partial (s : Env) (fm pc : Obj) : (∀ sel, addCsv s sel none fm pc = .ok s) ∧
    ∀ fn, s.owner fn = .here → s.kind fn = .frame → addCsv s (some fn) (some false) fm pc = .throw s := by
  refine ⟨fun _ => rfl, fun fn h1 h2 => ?_⟩
  unfold addCsv selectedFrame
  dsimp only
  rw [if_neg (by rw [h1]; decide), if_pos h2]
  rfl

/-- **C195, the code violates the property**: if the file cannot be opened and no frame is selected, a new empty frame stays in the environment. -/
theorem C195_frame_deviation (hs : Reach Good r s) (hroot : rootOk s) (fm pc : Obj) (h2 : s.owner fm = .dead) :
    ∃ s', addCsv s none (some false) fm pc = .throw s' ∧ s'.owner fm = .here ∧ s'.getParent fm = some s.rootNode := by
  obtain ⟨hw, hc⟩ := hs.wf_closed
  obtain ⟨s1, e1, -, -, k1, p1, -, -⟩ := Clone.add_fresh hw hc hroot.1 hroot.2 h2 (fun _ => ()) ()
  refine ⟨s1, ?_, (k1.fresh fm (by simp)).2, p1⟩
  unfold addCsv selectedFrame
  dsimp only
  rw [e1]
  rfl

/-- **C195, the code violates the property**: after the item that was clicked last is gone, the action uses freed memory. -/
theorem C195_gone_deviation (x fm pc : Obj) (opens : Bool) (h : s.owner x = .dead) : addCsv s (some x) (some opens) fm pc = .fault .useAfterFree := by
  unfold addCsv selectedFrame
  dsimp only
  rw [if_pos h]

/-- specification: where the points of a cloud are to be seen; `w` is the transform of its frame to the root -/
def seen (w : Pose) (c : Cloud) : List (Fin 3 → ℝ) := c.vertices.map w.apply

/-- **C195 (picked points)** The points of before stay where they are and one is added. It is at the place that was picked exactly if the transform of the frame leaves this place fixed, for
example if there is none. -/
theorem C195_pick_partial (w : Pose) (c : Cloud) (p : Fin 3 → ℝ) : seen w (pick c p) = seen w c ++ [w.apply p] ∧ (seen w (pick c p) = seen w c ++ [p] ↔ w.apply p = p) ∧
    seen ⟨1, 0⟩ (pick c p) = seen ⟨1, 0⟩ c ++ [p] := by
  have h : ∀ w : Pose, seen w (pick c p) = seen w c ++ [w.apply p] := fun w => by simp [seen, pick]
  refine ⟨h w, ?_, ?_⟩
  · rw [h w]
    simp
  · rw [h]
    simp [Pose.apply]

/-- **C195, the code violates the property**: in a frame that is shifted the point appears elsewhere. -/
theorem C195_pick_deviation (c : Cloud) (p : Fin 3 → ℝ) (t : Fin 3 → ℝ) (ht : t ≠ 0) : seen ⟨1, t⟩ (pick c p) ≠ seen ⟨1, t⟩ c ++ [p] := by
  intro h
  have := ((C195_pick_partial ⟨1, t⟩ c p).2.1).1 h
  exact ht (by simpa [Pose.apply] using this)

/-- **C195, the code violates the property**: in a cloud with a color for each point the new point has none. -/
theorem C195_color_deviation (c : Cloud) (p : Fin 3 → ℝ) (h : c.colors.length = c.vertices.length) : (pick c p).colors.length < (pick c p).vertices.length := by
  simp [pick, h]

/-! ### examples -/

example : ∃ s', addCsv (init 0) (some 0) (some true) 1 2 = .ok s' ∧ s'.getFrameNode 2 = some 0 := by
  obtain ⟨s', h, -, k, -⟩ := C195_selected_partial (Reach.init (G := Good) (r := 0)) ⟨rfl, rfl⟩ (fun _ => ()) 0 1 2 rfl rfl rfl
  exact ⟨s', h, k⟩

example : ∃ s', addCsv (init 0) none (some true) 1 2 = .ok s' ∧ s'.getFrameNode 2 = some 1 ∧ s'.getParent 1 = some 0 := by
  obtain ⟨s', h, -, k, -, k', -⟩ := C195_new_frame_partial (Reach.init (G := Good) (r := 0)) ⟨rfl, rfl⟩ (fun _ => ()) () none 1 2 (by intro x hx; cases hx) rfl rfl (by decide)
  exact ⟨s', h, k, k'⟩

#print axioms C195_selected_partial
#print axioms C195_new_frame_partial
#print axioms C195_unchanged_partial
#print axioms C195_frame_deviation
#print axioms C195_gone_deviation
#print axioms C195_pick_partial
#print axioms C195_pick_deviation
#print axioms C195_color_deviation
end Envire.Add
