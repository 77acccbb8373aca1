import Verif.Maps.ImportModel
import Verif.Maps.DeepProps
import Mathlib.Tactic.LinearCombination
import Mathlib.Tactic.FinCases
import Mathlib.Tactic.NormNum
import Mathlib.Data.Matrix.Mul

/-! C188: importing scan files. -/

namespace Envire.Import
open Envire Envire.Env
open Envire.MapSet (Pose)
open Matrix

noncomputable section

/-! ### specification -/

/-- the rotations of a file, in order -/
def rotations : List PoseLine → List (Matrix (Fin 3) (Fin 3) ℝ)
  | [] => []
  | .orientation x u v w :: l => matrix x u v w :: rotations l
  | .origin .. :: l => rotations l

/-- the origins of a file -/
def origins : List PoseLine → List (Fin 3 → ℝ)
  | [] => []
  | .orientation .. :: l => origins l
  | .origin x y z :: l => ![x, y, z] :: origins l

/-- all quaternions have length one -/
def Unit (l : List PoseLine) : Prop := ∀ x u v w, .orientation x u v w ∈ l → x * x + u * u + v * v + w * w = 1

/-- nothing in the environment differs: items, trees, operators, and no event was sent -/
structure Same (s s' : Env) : Prop where
  items : s'.items = s.items
  root : s'.rootNode = s.rootNode
  ftree : s'.ftree = s.ftree
  ltree : s'.ltree = s.ltree
  cmap : s'.cmap = s.cmap
  opIn : s'.opIn = s.opIn
  opOut : s'.opOut = s.opOut
  log : s'.log = s.log

/-! ### import -/

/-- C188: after importing a file at a frame of the environment there are two new items, the scan and its frame; the frame is a child of the given one and has the pose of the
file; everything else is as before -/
theorem C188_import {r : Obj} {s : Env} (hs : Reach Good r s) (hroot : rootOk s) (tf : Obj → Pose) (l : List PoseLine) (node scan fm : Obj) (hn : s.owner node = .here)
    (hk : s.kind node = .frame) (h1 : s.owner scan = .dead) (h2 : s.owner fm = .dead) (hne : scan ≠ fm) :
    ∃ s' tf', importScan s tf (.lines l) node scan fm = .ok (s', tf') ∧ Clone.Kept s s' tf tf' [scan, fm] ∧ s'.getFrameNode scan = some fm ∧ s'.getParent fm = some node ∧
      s'.getParent scan = none ∧ tf' fm = pose l ∧ s'.kind scan = .cmap ∧ s'.kind fm = .frame := by
  obtain ⟨hw, hc⟩ := hs.wf_closed
  have hw1 := Clone.alloc_wf hw h1 .cmap
  have hc1 := Clone.alloc_closed hw hc h1 .cmap
  have hos : ∀ x, x ≠ scan → (Clone.alloc s scan .cmap).owner x = s.owner x := fun x hx => upd_ne _ _ hx
  have hks : ∀ x, x ≠ scan → (Clone.alloc s scan .cmap).kind x = s.kind x := fun x hx => upd_ne _ _ hx
  have hus : ∀ x, x ≠ scan → (Clone.alloc s scan .cmap).uid x = s.uid x := fun x hx => upd_ne _ _ hx
  have hrs : s.rootNode ≠ scan := by rintro h; rw [← h, hroot.1] at h1; cases h1
  have hnsc : node ≠ scan := by rintro rfl; rw [hn] at h1; cases h1
  have hnfm : node ≠ fm := by rintro rfl; rw [hn] at h2; cases h2
  have hr1 : rootOk (Clone.alloc s scan .cmap) := ⟨(hos _ hrs).trans hroot.1, (hks _ hrs).trans hroot.2⟩
  obtain ⟨s2, e2, w2, c2, o2, f2, r2, k2, x2, i2, t2, lt2, in2, out2⟩ :=
    Deep.attach_auto hw1 hc1 hr1 (upd_self _ _ _) (upd_self _ _ _) (.inl (upd_self _ _ _))
  have hfm2 : s2.owner fm = .dead := by rw [(x2 fm hne.symm).1, hos fm hne.symm]; exact h2
  have hn2 : s2.owner node = .here := by rw [(x2 node hnsc).1, hos node hnsc]; exact hn
  have hk2 : s2.kind node = .frame := by rw [k2, hks node hnsc]; exact hk
  obtain ⟨s3, e3, w3, c3, kept3, p3, kf3, cm3⟩ := Clone.add_fresh w2 c2 hn2 hk2 hfm2 tf (⟨1, 0⟩ : Pose)
  have hsc3 : s3.owner scan = .here := by rw [kept3.owner scan (by simpa using hne)]; exact o2
  have hfm3 : s3.owner fm = .here := (kept3.fresh fm (by simp)).2
  have hroot3 : s3.owner s.rootNode = .here := by
    have hrf : s.rootNode ≠ fm := by rintro h; rw [← h, hroot.1] at h2; cases h2
    rw [kept3.owner _ (by simpa using hrf), (x2 _ hrs).1, hos _ hrs]
    exact hroot.1
  have hq3 : s3.getFrameNode scan = some s.rootNode := by rw [kept3.frame scan (by simpa using hne)]; exact f2
  obtain ⟨s4, e4, f4, o4, u4, k4, i4, t4, lt4, in4, out4, r4, g4⟩ := Clone.set_frame w3 hsc3 hfm3 hq3 hroot3 tf
  have e5 : s4.emit .item .update fm none = .ok { s4 with log := s4.log ++ [⟨.item, .update, fm, none, s4.uid fm, []⟩] } := by
    have ho : s4.owner fm = .here := by rw [o4]; exact hfm3
    unfold emit
    dsimp only
    rw [if_neg (by rw [ho]; decide), dropTmp_of_not_free (by show s4.owner fm ≠ _; rw [ho]; decide)]
  have hpar : ∀ x, x ∉ [scan, fm] → s4.getParent x = s.getParent x := by
    intro x hx
    have hx' : x ≠ scan ∧ x ≠ fm := by simpa using hx
    have a : s4.getParent x = s3.getParent x := by unfold getParent; rw [t4]
    rw [a, kept3.parent x (by simpa using hx'.2)]
    unfold getParent
    rw [t2]
    rfl
  refine ⟨{ s4 with log := s4.log ++ [⟨.item, .update, fm, none, s4.uid fm, []⟩] }, upd (upd tf fm ⟨1, 0⟩) fm (pose l), ?_,
    { fresh := ?_, root := ?_, owner := ?_, uid := ?_, kind := ?_, tf := ?_, item := ?_, parent := hpar, frame := ?_, ltree := ?_, opIn := ?_, opOut := ?_ }, f4, ?_, ?_, upd_self _ _ _, ?_, ?_⟩
  · unfold importScan
    rw [if_neg (by simp [hn])]
    dsimp only
    rw [e2]
    dsimp only
    rw [e3]
    dsimp only
    rw [e4]
    dsimp only
    rw [e5]
  · intro a ha
    simp only [List.mem_cons, List.not_mem_nil, or_false] at ha
    rcases ha with rfl | rfl
    · exact ⟨h1, by show s4.owner _ = _; rw [o4]; exact hsc3⟩
    · exact ⟨h2, by show s4.owner _ = _; rw [o4]; exact hfm3⟩
  · show s4.rootNode = _
    rw [r4, kept3.root, r2]
    rfl
  · intro x hx
    have hx' : x ≠ scan ∧ x ≠ fm := by simpa using hx
    show s4.owner x = _
    rw [o4, kept3.owner x (by simpa using hx'.2), (x2 x hx'.1).1, hos x hx'.1]
  · intro x hx
    have hx' : x ≠ scan ∧ x ≠ fm := by simpa using hx
    show s4.uid x = _
    rw [u4, kept3.uid x (by simpa using hx'.2), (x2 x hx'.1).2.1, hus x hx'.1]
  · intro x hx
    have hx' : x ≠ scan ∧ x ≠ fm := by simpa using hx
    show s4.kind x = _
    rw [k4, kept3.kind x (by simpa using hx'.2), k2, hks x hx'.1]
  · intro x hx
    have hx' : x ≠ scan ∧ x ≠ fm := by simpa using hx
    rw [upd_ne _ _ hx'.2, upd_ne _ _ hx'.2]
  · intro id x hx
    have := kept3.item id x (i2 id x hx)
    show look id s4.items = _
    rw [i4]
    exact this
  · intro x hx
    have hx' : x ≠ scan ∧ x ≠ fm := by simpa using hx
    show s4.getFrameNode x = _
    rw [g4 x hx'.1, kept3.frame x (by simpa using hx'.2), (x2 x hx'.1).2.2]
    rfl
  · show s4.ltree = _
    rw [lt4, kept3.ltree, lt2]
    rfl
  · show s4.opIn = _
    rw [in4, kept3.opIn, in2]
    rfl
  · show s4.opOut = _
    rw [out4, kept3.opOut, out2]
    rfl
  · show look fm s4.ftree = _
    rw [t4]
    exact p3
  · show look scan s4.ftree = _
    rw [t4]
    have a : s3.getParent scan = s2.getParent scan := kept3.parent scan (by simpa using hne)
    have b : s2.getParent scan = s.getParent scan := by unfold getParent; rw [t2]; rfl
    exact a.trans (b.trans (Clone.dead_not_parent hc h1))
  · show s4.kind scan = _
    rw [k4, kept3.kind scan (by simpa using hne), k2]
    exact upd_self _ _ _
  · show s4.kind fm = _
    rw [k4]
    exact kf3

/-- C188: if the frame is not in the environment, the file cannot be opened or is not a scan, the call fails and nothing in the environment changes; only the memory of a scan
may have been taken -/
theorem C188_failed (s : Env) (tf : Obj → Pose) (file : File) (node scan fm : Obj) (h : s.owner node ≠ .here ∨ file = .missing ∨ file = .broken) :
    ∃ s', importScan s tf file node scan fm = .throw (s', tf) ∧ Same s s' ∧ ∀ x, x ≠ scan → s'.owner x = s.owner x := by
  unfold importScan
  by_cases hn : s.owner node ≠ .here
  · rw [if_pos hn]
    exact ⟨s, rfl, ⟨rfl, rfl, rfl, rfl, rfl, rfl, rfl, rfl⟩, fun _ _ => rfl⟩
  · rw [if_neg hn]
    rcases h with h | rfl | rfl
    · exact absurd h hn
    · exact ⟨_, rfl, ⟨rfl, rfl, rfl, rfl, rfl, rfl, rfl, rfl⟩, fun x hx => upd_ne _ _ hx⟩
    · exact ⟨_, rfl, ⟨rfl, rfl, rfl, rfl, rfl, rfl, rfl, rfl⟩, fun x hx => (upd_ne _ _ hx).trans (upd_ne _ _ hx)⟩

/-- C188: if parsing fails the scan is deleted again -/
theorem C188_deleted (s : Env) (tf : Obj → Pose) (node scan fm : Obj) (hn : s.owner node = .here) (h1 : s.owner scan = .dead) :
    ∃ s', importScan s tf .broken node scan fm = .throw (s', tf) ∧ s'.owner = s.owner := by
  unfold importScan
  rw [if_neg (by simp [hn])]
  refine ⟨_, rfl, ?_⟩
  funext x
  by_cases hx : x = scan
  · rw [hx, h1]; exact upd_self _ _ _
  · exact (upd_ne _ _ hx).trans (upd_ne _ _ hx)

/-- C188, the code violates the property: if the file cannot be opened the scan is not deleted, and nobody has its address -/
theorem C188_leak_deviation (s : Env) (tf : Obj → Pose) (node scan fm : Obj) (hn : s.owner node = .here) :
    ∃ s', importScan s tf .missing node scan fm = .throw (s', tf) ∧ s'.owner scan = .free ∧ s'.held scan = false := by
  unfold importScan
  rw [if_neg (by simp [hn])]
  exact ⟨_, rfl, upd_self _ _ _, upd_self _ _ _⟩

/-! ### the pose -/

theorem pose_from (l : List PoseLine) : ∀ t : Pose, l.foldl poseLine t = ⟨t.R * (rotations l).prod, t.t + (origins l).sum⟩ := by
  induction l with
  | nil => intro t; simp [rotations, origins]
  | cons a l ih =>
    intro t
    rw [List.foldl_cons, ih]
    cases a with
    | orientation x u v w => simp [poseLine, rotations, origins, mul_assoc]
    | origin x y z =>
      simp only [poseLine, rotations, origins, List.sum_cons]
      congr 1
      abel

/-- C188: the orientation of the frame is the product of the orientations of the file in their order, its position the sum of the origins; it does not matter how the lines of
the two kinds follow each other -/
theorem C188_pose (l : List PoseLine) : (pose l).R = (rotations l).prod ∧ (pose l).t = (origins l).sum := by
  unfold pose
  rw [pose_from]
  simp

theorem orthogonal (w x y z : ℝ) (h : w * w + x * x + y * y + z * z = 1) : matrix w x y z * (matrix w x y z)ᵀ = 1 := by
  have h0 : w * w = 1 - x * x - y * y - z * z := by linarith
  unfold matrix
  ext i j
  fin_cases i <;> fin_cases j <;> simp [Matrix.mul_apply, Fin.sum_univ_three] <;>
    first
    | linear_combination (4 * (y * y + z * z)) * h
    | linear_combination (4 * (x * x + z * z)) * h
    | linear_combination (4 * (x * x + y * y)) * h
    | linear_combination (-4 * x * y) * h
    | linear_combination (-4 * x * z) * h
    | linear_combination (-4 * y * z) * h

/-- C188 (partial: quaternions of length one) the frame is not scaled or sheared -/
theorem C188_rigid_partial (l : List PoseLine) (h : Unit l) : (pose l).R * (pose l).Rᵀ = 1 := by
  rw [(C188_pose l).1]
  induction l with
  | nil => simp [rotations]
  | cons a l ih =>
    have hl : Unit l := fun x u v w hm => h x u v w (List.mem_cons_of_mem _ hm)
    cases a with
    | origin x y z => exact ih hl
    | orientation x u v w =>
      have ho := orthogonal x u v w (h x u v w (List.mem_cons_self ..))
      simp only [rotations, List.prod_cons, Matrix.transpose_mul]
      rw [show matrix x u v w * (rotations l).prod * ((rotations l).prodᵀ * (matrix x u v w)ᵀ) =
        matrix x u v w * ((rotations l).prod * (rotations l).prodᵀ) * (matrix x u v w)ᵀ by simp only [Matrix.mul_assoc], ih hl, Matrix.mul_one, ho]

/-- C188, the code violates the property: a quaternion that is not normalised makes a frame that stretches all lengths but those along an axis -/
theorem C188_stretch_deviation : ((pose [.orientation 1 1 0 0]).R * (pose [.orientation 1 1 0 0]).Rᵀ) 1 1 = 5 := by
  rw [(C188_pose _).1]
  simp [rotations, matrix, Matrix.mul_apply, Fin.sum_univ_three]
  norm_num

/-! ### lines -/

theorem addLines_from (l : List (ℝ × Sample)) : ∀ s : Scan, s.lines ≠ [] →
    l.foldl (fun s a => addLine s a.1 a.2) s = { s with lines := s.lines ++ l.map fun a => ⟨a.1, a.2.ranges, a.2.remission⟩ } := by
  induction l with
  | nil => intro s _; simp
  | cons a l ih =>
    intro s hs
    rw [List.foldl_cons, ih]
    · simp [addLine, hs]
    · simp [addLine]

/-- C188: lines are added in order with all their readings; the first one gives the angles and the number of readings of the scan -/
theorem C188_lines (a : ℝ × Sample) (l : List (ℝ × Sample)) :
    (a :: l).foldl (fun s a => addLine s a.1 a.2) Scan.new =
      ⟨some a.2.start, some a.2.resolution, some a.2.ranges.length, (a :: l).map fun a => ⟨a.1, a.2.ranges, a.2.remission⟩⟩ := by
  rw [List.foldl_cons, addLines_from _ _ (by simp [addLine])]
  simp [addLine, Scan.new]

/-- C188 (partial: lines that fit) each line has the number of readings of the scan -/
theorem C188_shape_partial (a : ℝ × Sample) (l : List (ℝ × Sample)) (h : ∀ b ∈ l, b.2.ranges.length = a.2.ranges.length) :
    ∀ x ∈ ((a :: l).foldl (fun s a => addLine s a.1 a.2) Scan.new).lines, some x.ranges.length = ((a :: l).foldl (fun s a => addLine s a.1 a.2) Scan.new).perLine := by
  rw [C188_lines]
  intro x hx
  simp only [List.mem_map, List.mem_cons] at hx
  obtain ⟨b, rfl | hb, rfl⟩ := hx
  · rfl
  · exact congrArg some (h b hb)

/-- C188, the code violates the property: a line with other angles or another number of readings is added too -/
theorem C188_shape_deviation (a b : ℝ × Sample) (h : b.2.ranges.length ≠ a.2.ranges.length) :
    ∃ x ∈ ([a, b].foldl (fun s a => addLine s a.1 a.2) Scan.new).lines, some x.ranges.length ≠ ([a, b].foldl (fun s a => addLine s a.1 a.2) Scan.new).perLine := by
  rw [C188_lines]
  exact ⟨⟨b.1, b.2.ranges, b.2.remission⟩, by simp, fun e => h (Option.some.inj e)⟩

/-! ### examples -/

/-- the hypotheses of `C188_import` hold in an environment with a frame -/
example : ((run (init 0) [.alloc 1 .frame [] true 0 0, .addChildF 0 1]).map fun s =>
    (s.owner 1, s.kind 1, s.owner 2, s.owner 3, s.owner s.rootNode, s.kind s.rootNode)) = some (.here, .frame, .dead, .dead, .here, .frame) := by decide +kernel

example : Unit [.orientation 0.6 0.8 0 0, .origin 1 2 3] := by
  intro x u v w h
  simp at h
  obtain ⟨rfl, rfl, rfl, rfl⟩ := h
  norm_num

end

#print axioms C188_import
#print axioms C188_failed
#print axioms C188_deleted
#print axioms C188_leak_deviation
#print axioms C188_pose
#print axioms C188_rigid_partial
#print axioms C188_stretch_deviation
#print axioms C188_lines
#print axioms C188_shape_partial
#print axioms C188_shape_deviation

end Envire.Import
