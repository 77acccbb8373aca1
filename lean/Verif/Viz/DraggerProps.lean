import Verif.Viz.DraggerModel
import Mathlib.Tactic.FinCases
import Mathlib.Tactic.FieldSimp
import Mathlib.LinearAlgebra.Matrix.Notation
import Mathlib.Tactic.NormNum
import Mathlib.Tactic.Linarith
import Mathlib.Tactic.Ring
import Mathlib.LinearAlgebra.Matrix.NonsingularInverse

/-! C199: size and place of the handles of a frame. -/
namespace Envire.Dragger
open Matrix

/-- specification: a rotation or reflection -/
def Rigid (a : Matrix (Fin 3) (Fin 3) ℝ) : Prop := a * a.transpose = 1

/-- specification: the poses in a history are rigid, and so are the turns of the handles -/
def RigidOp : Op → Prop
  | .move t => Rigid t.lin
  | .drag _ turn t => Rigid turn ∧ Rigid t.lin
  | .draw _ => True

/-- specification: the pose of the frame after a history -/
def poseAfter (t : Pose) : List Op → Pose
  | [] => t
  | .move t' :: l => poseAfter t' l
  | .drag _ _ t' :: l => poseAfter t' l
  | .draw _ :: l => poseAfter t l

theorem scale_of {m : Mat} {k : ℝ} (hk : 0 ≤ k) {a : Matrix (Fin 3) (Fin 3) ℝ} (ha : a.transpose * a = 1) (h : m.lin = k • a) : getScale m = fun _ => k := by
  funext j
  unfold getScale
  have hj := congrFun (congrFun ha j) j
  simp only [Matrix.mul_apply, Fin.sum_univ_three, Matrix.transpose_apply, Matrix.one_apply_eq] at hj
  rw [h]
  simp only [Matrix.smul_apply, smul_eq_mul]
  rw [show (k * a 0 j) ^ 2 + (k * a 1 j) ^ 2 + (k * a 2 j) ^ 2 = k ^ 2 * (a 0 j * a 0 j + a 1 j * a 1 j + a 2 j * a 2 j) by ring, hj, mul_one, Real.sqrt_sq hk]

theorem diag_mul (k : ℝ) (a : Matrix (Fin 3) (Fin 3) ℝ) : Matrix.diagonal (fun _ => k) * a = k • a := by
  ext i j
  rw [Matrix.diagonal_mul]
  rfl

/-- the handles are where the frame is; `k` is the scale of the outer one -/
structure Inv (s : State) (k : ℝ) : Prop where
  pos : 0 < k
  rigid : Rigid s.frame.lin
  tlin : s.translate.lin = k • (1 : Matrix (Fin 3) (Fin 3) ℝ)
  ttrans : s.translate.trans = s.frame.trans
  rlin : s.rotate.lin = (6 / 10 : ℝ) • s.frame.lin.transpose
  rtrans : s.rotate.trans = 0

theorem update_inv {f : Pose} {t r : Mat} {k : ℝ} (hk : 0 < k) (hf : Rigid f.lin) (ht : t.lin = k • (1 : Matrix (Fin 3) (Fin 3) ℝ)) {a : Matrix (Fin 3) (Fin 3) ℝ} (ha : a.transpose * a = 1)
    (hr : r.lin = (6 / 10 : ℝ) • a) : Inv (updateOSG ⟨f, t, r⟩) k := by
  have e1 := scale_of hk.le (by simp) ht
  have e2 := scale_of (by norm_num) ha hr
  refine ⟨hk, hf, ?_, rfl, ?_, rfl⟩
  · show Matrix.diagonal (getScale t) * (1 : Matrix (Fin 3) (Fin 3) ℝ).transpose = _
    rw [e1, diag_mul, Matrix.transpose_one]
  · show Matrix.diagonal (getScale r) * f.lin.transpose = _
    rw [e2, diag_mul]
    rfl

theorem start_inv {t : Pose} (ht : Rigid t.lin) : Inv (start t) 1 := by
  unfold start
  have e : getScale ⟨1, 0⟩ = fun _ => 1 := scale_of (a := 1) zero_le_one (by simp) (by simp)
  refine update_inv one_pos ht (by simp) (a := 1) (by simp) ?_
  show Matrix.diagonal (fun j => getScale ⟨1, 0⟩ j * (6 / 10)) * (1 : Matrix (Fin 3) (Fin 3) ℝ) = _
  rw [e, diag_mul, one_mul]

theorem step_inv {s : State} {k : ℝ} (h : Inv s k) (o : Op) (ho : RigidOp o) : ∃ k', Inv (step s o) k' := by
  cases o with
  | move t => exact ⟨k, update_inv h.pos ho h.tlin (a := s.frame.lin.transpose) (by rw [Matrix.transpose_transpose]; exact h.rigid) h.rlin⟩
  | drag place turn t =>
    refine ⟨k, update_inv (t := ⟨s.translate.lin, place⟩) h.pos ho.2 h.tlin (a := s.frame.lin.transpose * turn) ?_ ?_⟩
    · rw [Matrix.transpose_mul, Matrix.transpose_transpose, Matrix.mul_assoc, ← Matrix.mul_assoc s.frame.lin, h.rigid, Matrix.one_mul]
      exact mul_eq_one_comm.mp ho.1
    · show s.rotate.lin * turn = _
      rw [h.rlin, Matrix.smul_mul]
  | draw pix =>
    show ∃ k', Inv (draw s pix) k'
    unfold draw
    split
    · refine ⟨if 0 < pix then 240 / pix else 1, ?_, h.rigid, ?_, h.ttrans, h.rlin, h.rtrans⟩
      · split
        · positivity
        · exact one_pos
      · show Matrix.diagonal (fun _ => _) * (1 : Matrix (Fin 3) (Fin 3) ℝ) = _
        rw [diag_mul]
    · exact ⟨k, h⟩

theorem run_inv {s : State} {k : ℝ} (h : Inv s k) (l : List Op) (hl : ∀ o ∈ l, RigidOp o) : ∃ k', Inv (run s l) k' := by
  induction l generalizing s k with
  | nil => exact ⟨k, h⟩
  | cons o l ih =>
    obtain ⟨k', h'⟩ := step_inv h o (hl o (by simp))
    exact ih h' (fun o ho => hl o (by simp [ho]))

theorem run_frame (s : State) (l : List Op) : (run s l).frame = poseAfter s.frame l := by
  induction l generalizing s with
  | nil => rfl
  | cons o l ih =>
    refine (ih (step s o)).trans ?_
    cases o with
    | move t => rfl
    | drag place turn t => rfl
    | draw pix =>
      show poseAfter (draw s pix).frame l = poseAfter s.frame l
      unfold draw
      split <;> rfl

/-- **C199 (place)** After any history of rigid poses the outer handle is drawn at the place of the frame and without rotation, the inner one at the same place, turned as the frame and 0.6 times as
large as it would be without the factor, whatever was dragged. -/
theorem C199_place_partial {t : Pose} (ht : Rigid t.lin) (l : List Op) (hl : ∀ o ∈ l, RigidOp o) :
    ∃ k : ℝ, 0 < k ∧ (run (start t) l).translate = ⟨k • 1, (poseAfter t l).trans⟩ ∧
      mul (run (start t) l).rotate (run (start t) l).translate = ⟨(k * (6 / 10)) • (poseAfter t l).lin.transpose, (poseAfter t l).trans⟩ := by
  obtain ⟨k, h⟩ := run_inv (start_inv ht) l hl
  have e : (run (start t) l).frame = poseAfter t l := run_frame (start t) l
  refine ⟨k, h.pos, ?_, ?_⟩
  · rw [← e, ← h.ttrans, ← h.tlin]
  · unfold mul
    rw [h.rlin, h.rtrans, h.tlin, h.ttrans, e, Matrix.zero_vecMul, zero_add, Matrix.mul_smul, Matrix.mul_one, smul_smul]

/-- **C199 (size)** When the handles are drawn and are before the camera they are 240 pixels large, however large they were before and however far the camera is. Proved unless they would be 240
pixels large with the scale 1. -/
theorem C199_size_partial {t : Pose} (l : List Op) {pix : ℝ} (hp : 0 < pix) (hne : pix ≠ 240) :
    ∃ k : ℝ, (run (start t) (l ++ [.draw pix])).translate.lin = k • 1 ∧ k * pix = 240 := by
  refine ⟨240 / pix, ?_, by field_simp⟩
  unfold run
  rw [List.foldl_append]
  show (draw _ pix).translate.lin = _
  unfold draw
  rw [if_pos hne, if_pos hp]
  exact diag_mul _ _

/-- **C199 (size kept)** An event or dragging does not change the scale of the handles: they are as large as at the last drawing until they are drawn again. -/
theorem C199_kept {s : State} {k : ℝ} (hk : 0 ≤ k) (h : s.translate.lin = k • 1) (o : Op) (ho : ∀ pix, o ≠ .draw pix) : (step s o).translate.lin = k • 1 := by
  have e : ∀ (f : Pose) (r : Mat) (p : Fin 3 → ℝ), (updateOSG ⟨f, ⟨s.translate.lin, p⟩, r⟩).translate.lin = k • 1 := by
    intro f r p
    show Matrix.diagonal (getScale ⟨s.translate.lin, p⟩) * (1 : Matrix (Fin 3) (Fin 3) ℝ).transpose = _
    rw [scale_of (m := ⟨s.translate.lin, p⟩) hk (a := 1) (by simp) h, diag_mul, Matrix.transpose_one]
  cases o with
  | move t => exact e t s.rotate s.translate.trans
  | drag place turn t => exact e t _ place
  | draw pix => exact absurd rfl (ho pix)

/-- **C199 (deviation)** If the handles would be 240 pixels large with the scale 1 the scale of the last drawing stays: after the camera came from twice the distance they are 480 pixels large. -/
theorem C199_stale_deviation (t : Pose) : (run (start t) [.draw 120, .draw 240]).translate.lin = (480 / 240 : ℝ) • 1 := by
  show (draw (draw (start t) 120) 240).translate.lin = _
  unfold draw
  rw [if_neg (by norm_num), if_pos (by norm_num), if_pos (by norm_num)]
  show Matrix.diagonal (fun _ => _) * (1 : Matrix (Fin 3) (Fin 3) ℝ) = _
  rw [diag_mul]
  norm_num

/-- **C199 (deviation)** If the transform of the frame has a scale the inner handle is multiplied with it at each event, though the frame stays as it is. -/
theorem C199_grow_deviation {c : ℝ} (hc : 0 < c) {a : Matrix (Fin 3) (Fin 3) ℝ} (ha : Rigid a) (p : Fin 3 → ℝ) (n : Nat) :
    (run (start ⟨c • a, p⟩) (List.replicate n (.move ⟨c • a, p⟩))).rotate.lin = (6 / 10 * c ^ (n + 1)) • a.transpose := by
  have upd : ∀ (s : State) (k : ℝ) (b : Matrix (Fin 3) (Fin 3) ℝ), 0 < k → b.transpose * b = 1 → s.rotate.lin = k • b →
      (updateOSG { s with frame := ⟨c • a, p⟩ }).rotate.lin = (k * c) • a.transpose := by
    intro s k b hk hb h
    show Matrix.diagonal (getScale s.rotate) * (c • a).transpose = _
    rw [scale_of hk.le hb h, diag_mul, Matrix.transpose_smul, smul_smul]
  have ht : a.transpose.transpose * a.transpose = 1 := by rw [Matrix.transpose_transpose]; exact ha
  have e : getScale ⟨1, 0⟩ = fun _ => 1 := scale_of (a := 1) zero_le_one (by simp) (by simp)
  have key : ∀ n (s : State) (k : ℝ), 0 < k → s.rotate.lin = k • a.transpose → (run s (List.replicate n (.move ⟨c • a, p⟩))).rotate.lin = (k * c ^ n) • a.transpose := by
    intro n
    induction n with
    | zero => intro s k _ h; rw [pow_zero, mul_one]; exact h
    | succ n ih =>
      intro s k hk h
      have := ih (step s (.move ⟨c • a, p⟩)) (k * c) (by positivity) (upd s k _ hk ht h)
      rw [List.replicate_succ]
      refine this.trans ?_
      rw [pow_succ]; congr 1; ring
  have h0 : (start ⟨c • a, p⟩).rotate.lin = (6 / 10 * c) • a.transpose := by
    refine upd { frame := ⟨c • a, p⟩, translate := ⟨1, 0⟩, rotate := scaled (fun j => getScale ⟨1, 0⟩ j * (6 / 10)) ⟨1, 0⟩ } (6 / 10) 1 (by norm_num) (by simp) ?_
    show Matrix.diagonal (fun j => getScale ⟨1, 0⟩ j * (6 / 10)) * (1 : Matrix (Fin 3) (Fin 3) ℝ) = _
    rw [e, diag_mul, one_mul]
  rw [key n _ _ (by positivity) h0]
  congr 1; rw [pow_succ]; ring

/-! ### examples -/

example : ∃ k : ℝ, 0 < k ∧ (run (start ⟨1, 0⟩) [.draw 100, .move ⟨!![0, -1, 0; 1, 0, 0; 0, 0, 1], ![1, 2, 3]⟩]).translate = ⟨k • 1, ![1, 2, 3]⟩ := by
  obtain ⟨k, hk, h, -⟩ := C199_place_partial (t := ⟨1, 0⟩) (by simp [Rigid]) [.draw 100, .move ⟨!![0, -1, 0; 1, 0, 0; 0, 0, 1], ![1, 2, 3]⟩] (by
    intro o ho
    simp only [List.mem_cons, List.not_mem_nil, or_false] at ho
    rcases ho with rfl | rfl
    · trivial
    · show Rigid _
      unfold Rigid
      ext i j
      fin_cases i <;> fin_cases j <;> simp [Matrix.mul_apply, Fin.sum_univ_three])
  exact ⟨k, hk, h⟩

example (p : Fin 3 → ℝ) : (run (start ⟨(2 : ℝ) • 1, p⟩) (List.replicate 3 (.move ⟨(2 : ℝ) • 1, p⟩))).rotate.lin = (96 / 10 : ℝ) • 1 := by
  rw [C199_grow_deviation (by norm_num) (by simp [Rigid])]
  norm_num

#print axioms C199_place_partial
#print axioms C199_size_partial
#print axioms C199_kept
#print axioms C199_stale_deviation
#print axioms C199_grow_deviation
end Envire.Dragger
