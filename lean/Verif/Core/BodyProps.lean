import Verif.Core.BodyModel

/-! C181: transforms and states of rigid bodies. -/

namespace Envire.Body

open Envire

variable {P A G : Type}

/-! ## specification -/

/-- the library gives a pose of the transform -/
def Conv.Right (c : Conv P G) : Prop := ∀ g, c.toTrans (c.toPose g) = g

/-- a covariance in which rotation and translation are independent -/
def Independent (m : M6) : Prop := ∀ i j : Fin 3, m (.inl i) (.inr j) = 0 ∧ m (.inr i) (.inl j) = 0

/-- two states that mean the same: same place, same covariances, same other members -/
structure Same (c : Conv P G) (r r' : Rbs P A) : Prop where
  pose : c.toTrans r.pose = c.toTrans r'.pose
  orientation : r.covOrientation = r'.covOrientation
  position : r.covPosition = r'.covPosition
  rest : r.rest = r'.rest

/-! ## C181 -/

/-- **C181** A state that is made a transform and copied back, into a state with any contents, has its pose and both covariances; the other members of the target stay. -/
theorem C181_state (c : Conv P G) (hc : c.Right) (r target : Rbs P A) : Same c (copyTo c (assign c r) target) { r with rest := target.rest } :=
  ⟨hc _, rfl, rfl, rfl⟩

/-- **C181** What a copied state says of the transform: the pose, and the covariance of each rotation and translation. -/
theorem C181_entries (c : Conv P G) (hc : c.Right) (t : TU G) (target : Rbs P A) : c.toTrans (copyTo c t target).pose = t.trans ∧
    (∀ i j, (copyTo c t target).covOrientation i j = t.cov (.inl i) (.inl j)) ∧ (∀ i j, (copyTo c t target).covPosition i j = t.cov (.inr i) (.inr j)) ∧ (copyTo c t target).rest = target.rest :=
  ⟨hc _, fun _ _ => rfl, fun _ _ => rfl, rfl⟩

/-- **C181** (partial) An uncertain transform whose rotation and translation are independent comes back as it was. Missing: other transforms, see C181_correlation_deviation and C181_certain_deviation. -/
theorem C181_transform_partial (c : Conv P G) (hc : c.Right) (t : TU G) (target : Rbs P A) (hu : t.unc = true) (hi : Independent t.cov) : assign c (copyTo c t target) = t := by
  refine TU.ext (hc _) ?_ hu.symm
  ext (i | i) (j | j)
  · rfl
  · exact (hi i j).1.symm
  · exact (hi i j).2.symm
  · rfl

/-- Violation: whatever relation of rotation and translation the covariance had, it is gone after the way back. -/
theorem C181_correlation_deviation (c : Conv P G) (t : TU G) (target : Rbs P A) : Independent (assign c (copyTo c t target)).cov ∧ (¬ Independent t.cov → (assign c (copyTo c t target)).cov ≠ t.cov) := by
  have h : Independent (assign c (copyTo c t target)).cov := fun _ _ => ⟨rfl, rfl⟩
  exact ⟨h, fun hn he => hn (he ▸ h)⟩

/-- Violation: a transform without uncertainty comes back as an uncertain one, and so does every state. -/
theorem C181_certain_deviation (c : Conv P G) (g : G) (target : Rbs P A) [Group G] : (∀ r : Rbs P A, (assign c r).unc = true) ∧ (TU.certain g).unc = false ∧
    assign c (copyTo c (TU.certain g) target) ≠ TU.certain g :=
  ⟨fun _ => rfl, rfl, fun h => absurd (congrArg TU.unc h) (by simp [assign, TU.certain])⟩

/-- quaternion and its negative: poses as whole numbers, transforms as their sizes -/
def exConv : Conv ℤ ℕ := ⟨Int.natAbs, fun n => -(n : ℤ)⟩

example : exConv.Right := fun n => by simp [exConv]
example : exConv.toPose (exConv.toTrans 3) ≠ 3 := by decide
example : Independent (Matrix.fromBlocks (1 : M3) 0 0 (2 : M3)) := fun _ _ => ⟨rfl, rfl⟩
example : ¬ Independent (Matrix.fromBlocks (1 : M3) 1 1 (2 : M3)) := fun h => by simpa using (h 0 0).1

#print axioms C181_state
#print axioms C181_entries
#print axioms C181_transform_partial
#print axioms C181_correlation_deviation
#print axioms C181_certain_deviation

end Envire.Body
