import Verif.Maps.CloudCopyModel
import Verif.Maps.PlyProps
import Verif.Ops.ToCloudProps

/-!
C120: copies of point clouds, and their extents.
-/

namespace Envire.CloudCopy

open Envire.Ply (V3 Res Codec serialize C115_sizes)
open Envire.ToCloud (PC clear Clearable clear_ok blank blank_clearable)

noncomputable section

/-! ### specification -/

/-- the transform of a point, if it is asked for -/
def Target (transform : Bool) (t : Aff) (p : V3) : V3 := if transform then t.apply p else p

/-- the coordinates differ by at most e -/
def Within (e : ℝ) (p q : V3) : Prop := |q.1 - p.1| ≤ e ∧ |q.2.1 - p.2.1| ≤ e ∧ |q.2.2 - p.2.2| ≤ e

def size (p : V3) : ℝ := Real.sqrt (p.1 ^ 2 + p.2.1 ^ 2 + p.2.2 ^ 2 + 1)

/-- the distance of a transform from the identity: the norm of the difference of the matrices, squared -/
def distance (t : Aff) : ℝ := ∑ i : Fin 3, ∑ j : Fin 4, (t.m i j - if (i : Nat) = j then 1 else 0) ^ 2

/-- b is the smallest box with all the points -/
def IsExtents (l : List V3) (b : Option (V3 × V3)) : Prop :=
  (b = none ↔ l = []) ∧ ∀ lo hi, b = some (lo, hi) →
    IsLeast {x | ∃ p ∈ l, p.1 = x} lo.1 ∧ IsLeast {x | ∃ p ∈ l, p.2.1 = x} lo.2.1 ∧ IsLeast {x | ∃ p ∈ l, p.2.2 = x} lo.2.2 ∧
    IsGreatest {x | ∃ p ∈ l, p.1 = x} hi.1 ∧ IsGreatest {x | ∃ p ∈ l, p.2.1 = x} hi.2.1 ∧ IsGreatest {x | ∃ p ∈ l, p.2.2 = x} hi.2.2

/-! ### lemmas -/

theorem row_unit (p : V3) (i : Fin 3) : ∑ j, unit i j * coord p j = ![p.1, p.2.1, p.2.2] i := by
  fin_cases i <;> simp [unit, coord, Fin.sum_univ_four]

theorem row_near {t : Aff} (h : t.isIdentity) (p : V3) (i : Fin 3) : |![p.1, p.2.1, p.2.2] i - t.row p i| ≤ 2 / 10 ^ 12 * size p := by
  have e : t.row p i - ![p.1, p.2.1, p.2.2] i = ∑ j, (t.m i j - unit i j) * coord p j := by
    rw [← row_unit, Aff.row, ← Finset.sum_sub_distrib]
    exact Finset.sum_congr rfl fun j _ => by ring
  have hc : ∑ j, coord p j ^ 2 = p.1 ^ 2 + p.2.1 ^ 2 + p.2.2 ^ 2 + 1 := by simp [coord, Fin.sum_univ_four]
  have h1 : ∑ j, (t.m i j - unit i j) ^ 2 ≤ (2 / 10 ^ 12) ^ 2 := by
    refine le_trans (Finset.single_le_sum (f := fun i => ∑ j, (t.m i j - unit i j) ^ 2) (fun i _ => Finset.sum_nonneg fun j _ => sq_nonneg _) (Finset.mem_univ i)) (le_trans h ?_)
    have := min_le_right (∑ i, ∑ j, t.m i j ^ 2 + 1) 4
    nlinarith
  have h2 := Finset.sum_mul_sq_le_sq_mul_sq Finset.univ (fun j => t.m i j - unit i j) (coord p)
  rw [hc] at h2
  have h3 : (∑ j, (t.m i j - unit i j) * coord p j) ^ 2 ≤ (2 / 10 ^ 12) ^ 2 * (p.1 ^ 2 + p.2.1 ^ 2 + p.2.2 ^ 2 + 1) := h2.trans (mul_le_mul_of_nonneg_right h1 (by positivity))
  rw [abs_sub_comm, e]
  refine (Real.abs_le_sqrt h3).trans (le_of_eq ?_)
  rw [Real.sqrt_mul (by positivity), Real.sqrt_sq (by positivity)]
  rfl

theorem apply_near {t : Aff} (h : t.isIdentity) (p : V3) : Within (2 / 10 ^ 12 * size p) (t.apply p) p := ⟨row_near h p 0, row_near h p 1, row_near h p 2⟩

theorem distance_small {t : Aff} (h : t.isIdentity) : distance t ≤ 4 / 10 ^ 24 := by
  refine le_trans h ?_
  have := min_le_right (∑ i, ∑ j, t.m i j ^ 2 + 1) 4
  nlinarith

theorem within_self (e : ℝ) (h : 0 ≤ e) (p : V3) : Within e p p := by simp [Within, h]

theorem size_nonneg (p : V3) : 0 ≤ 2 / 10 ^ 12 * size p := mul_nonneg (by norm_num) (Real.sqrt_nonneg _)

/-! ### C120 -/

/-- C120: a copy has the points of the source, in the frame of the copy if this is asked for, up to a small part of their size; exactly if no transform is asked for, or if it is not very near to the identity -/
theorem C120_copy_partial (c s : PC) (hc : Clearable c) (t : Aff) (transform : Bool) :
    ∃ r, copyFrom c (some s) (some t) transform = .ok r ∧ List.Forall₂ (fun p q => Within (2 / 10 ^ 12 * size p) (Target transform t p) q) s.vertices r.vertices ∧
      (transform = false ∨ 4 / 10 ^ 24 < distance t → r.vertices = s.vertices.map (Target transform t)) := by
  classical
  unfold copyFrom
  rw [clear_ok hc]
  refine ⟨_, rfl, ?_, ?_⟩
  · dsimp only [Option.getD_some]
    by_cases h : transform = false ∨ t.isIdentity
    · rw [if_pos h]
      rw [List.forall₂_same]
      intro p _
      cases transform with
      | false => exact within_self _ (size_nonneg p) p
      | true => exact apply_near (h.resolve_left (by simp)) p
    · rw [if_neg h, List.nil_append]
      have ht : transform = true := by cases transform with
        | false => exact absurd (.inl rfl) h
        | true => rfl
      rw [List.forall₂_map_right_iff, List.forall₂_same]
      intro p _
      subst ht
      exact within_self _ (size_nonneg p) _
  · intro h
    dsimp only [Option.getD_some]
    rcases h with rfl | h
    · rw [if_pos (.inl rfl)]
      exact (List.map_id _).symm
    · cases transform with
      | false =>
        rw [if_pos (.inl rfl)]
        exact (List.map_id _).symm
      | true =>
        rw [if_neg (fun h1 => absurd (distance_small (h1.resolve_left (by simp))) (not_le.2 h)), List.nil_append]
        rfl

/-- C120: the copy of a sample has its points, and the first three components of its colors; nothing else is left of what was in the cloud before but the faces of a mesh -/
theorem C120_sample (c : PC) (hc : Clearable c) (s : Sample) : ∃ r, copySample c s = .ok r ∧ r.vertices = s.points ∧ r.colors = some (s.colors.map fun q => (q.1, q.2.1, q.2.2.1)) ∧ (∀ l, r.normals = some l → l = []) ∧ ∀ l, r.variance = some l → l = [] := by
  unfold copySample
  rw [clear_ok hc]
  refine ⟨_, rfl, rfl, ?_, ?_, ?_⟩
  · cases c.colors <;> rfl
  · intro l h
    obtain ⟨_, _, rfl⟩ := Option.map_eq_some_iff.1 h
    rfl
  · intro l h
    obtain ⟨_, _, rfl⟩ := Option.map_eq_some_iff.1 h
    rfl

/-- Violation: a cloud that is made of a sample with points but without colors cannot be written as a PLY file -/
theorem C120_sample_save (k : Codec) (double : Bool) (c : PC) (hc : Clearable c) (s : Sample) (hp : s.points ≠ []) (h : s.colors = []) : ∃ r, copySample c s = .ok r ∧ serialize k r.toCloud double = .throws := by
  obtain ⟨r, h1, h2, h3, -⟩ := C120_sample c hc s
  refine ⟨r, h1, C115_sizes k double _ (.inr ⟨[], by rw [h3, h]; rfl, fun h4 => hp ?_⟩)⟩
  rw [← h2]
  exact List.length_eq_zero_iff.1 h4.symm

/-- Violation: normals, colors, variances of the source are not copied -/
theorem C120_data (c s : PC) (hc : Clearable c) (t : Aff) (transform : Bool) : ∃ r, copyFrom c (some s) (some t) transform = .ok r ∧ (∀ l, r.normals = some l → l = []) ∧ (∀ l, r.colors = some l → l = []) ∧ (∀ l, r.variance = some l → l = []) ∧ r.faces = c.faces := by
  unfold copyFrom
  rw [clear_ok hc]
  refine ⟨_, rfl, ?_, ?_, ?_, rfl⟩
  all_goals
    intro l h
    obtain ⟨_, _, rfl⟩ := Option.map_eq_some_iff.1 h
    rfl

/-- Violation: a cloud that had colors or normals itself cannot be written after it is a copy of a cloud with points -/
theorem C120_copy_save (k : Codec) (double : Bool) (c s : PC) (hc : Clearable c) (h : c.normals.isSome = true ∨ c.colors.isSome = true) (hs : s.vertices ≠ []) (t : Aff) (transform : Bool) :
    ∃ r, copyFrom c (some s) (some t) transform = .ok r ∧ serialize k r.toCloud double = .throws := by
  obtain ⟨r, h1, h2, -⟩ := C120_copy_partial c s hc t transform
  have hl : r.vertices.length ≠ 0 := by
    rw [← h2.length_eq]
    exact fun h => hs (List.length_eq_zero_iff.1 h)
  refine ⟨r, h1, C115_sizes k double _ ?_⟩
  unfold copyFrom at h1
  rw [clear_ok hc] at h1
  cases h1
  rcases h with h | h
  · obtain ⟨l, hl'⟩ := Option.isSome_iff_exists.1 h
    exact .inl ⟨[], by simp [hl'], fun h => hl h.symm⟩
  · obtain ⟨l, hl'⟩ := Option.isSome_iff_exists.1 h
    exact .inr ⟨[], by simp [hl'], fun h => hl h.symm⟩

/-- Violation: a copy of itself has no points -/
theorem C120_self (c : PC) (hc : Clearable c) (t : Aff) (transform : Bool) : ∃ r, copyFrom c none (some t) transform = .ok r ∧ r.vertices = [] := by
  unfold copyFrom
  rw [clear_ok hc]
  refine ⟨_, rfl, ?_⟩
  dsimp only [Option.getD_none]
  split <;> rfl

/-- Violation: meshes of ScanMeshing (with attributes of another type) cannot be the target of a copy -/
theorem C120_undefined (c : PC) (l : List Nat) (h : c.attributes = some (.ints l)) (s : Option PC) (t : Option Aff) (transform : Bool) (q : Sample) : copyFrom c s t transform = .undefined ∧ copySample c q = .undefined := by
  unfold copyFrom copySample clear
  rw [h]
  exact ⟨rfl, rfl⟩

theorem least_extend {f : V3 → ℝ} {l : List V3} {a : ℝ} (h : IsLeast {x | ∃ p ∈ l, f p = x} a) (q : V3) : IsLeast {x | ∃ p ∈ l ++ [q], f p = x} (min a (f q)) := by
  obtain ⟨⟨p, hp, hpa⟩, h2⟩ := h
  constructor
  · rcases min_cases a (f q) with ⟨e, _⟩ | ⟨e, _⟩
    · exact ⟨p, by simp [hp], by rw [e, hpa]⟩
    · exact ⟨q, by simp, e.symm⟩
  · rintro x ⟨r, hr, rfl⟩
    rcases List.mem_append.1 hr with hr | hr
    · exact (min_le_left _ _).trans (h2 ⟨r, hr, rfl⟩)
    · rw [List.mem_singleton.1 hr]
      exact min_le_right _ _

theorem greatest_extend {f : V3 → ℝ} {l : List V3} {a : ℝ} (h : IsGreatest {x | ∃ p ∈ l, f p = x} a) (q : V3) : IsGreatest {x | ∃ p ∈ l ++ [q], f p = x} (max a (f q)) := by
  obtain ⟨⟨p, hp, hpa⟩, h2⟩ := h
  constructor
  · rcases max_cases a (f q) with ⟨e, _⟩ | ⟨e, _⟩
    · exact ⟨p, by simp [hp], by rw [e, hpa]⟩
    · exact ⟨q, by simp, e.symm⟩
  · rintro x ⟨r, hr, rfl⟩
    rcases List.mem_append.1 hr with hr | hr
    · exact (h2 ⟨r, hr, rfl⟩).trans (le_max_left _ _)
    · rw [List.mem_singleton.1 hr]
      exact le_max_right _ _

theorem extend_spec {l : List V3} {b : Option (V3 × V3)} (h : IsExtents l b) (p : V3) : IsExtents (l ++ [p]) (extend b p) := by
  obtain ⟨h1, h2⟩ := h
  cases b with
  | none =>
    rw [h1.1 rfl]
    refine ⟨by simp [extend], fun lo hi h => ?_⟩
    simp only [extend, Option.some.injEq, Prod.mk.injEq] at h
    obtain ⟨rfl, rfl⟩ := h
    simp [IsLeast, IsGreatest, lowerBounds, upperBounds]
  | some b =>
    obtain ⟨lo, hi⟩ := b
    obtain ⟨a1, a2, a3, a4, a5, a6⟩ := h2 lo hi rfl
    refine ⟨by simp [extend], fun lo' hi' h => ?_⟩
    simp only [extend, Option.some.injEq, Prod.mk.injEq] at h
    obtain ⟨rfl, rfl⟩ := h
    exact ⟨least_extend a1 p, least_extend a2 p, least_extend a3 p, greatest_extend a4 p, greatest_extend a5 p, greatest_extend a6 p⟩

/-- C120: the extents are the smallest box that contains all points, and empty if there is none -/
theorem C120_extents (c : PC) : IsExtents c.vertices (extents c) := by
  unfold extents
  have : ∀ (l m : List V3) (b : Option (V3 × V3)), IsExtents m b → IsExtents (m ++ l) (l.foldl extend b) := by
    intro l
    induction l with
    | nil => intro m b h; simpa using h
    | cons p l ih =>
      intro m b h
      have := ih (m ++ [p]) (extend b p) (extend_spec h p)
      simpa using this
  simpa using this c.vertices [] none ⟨by simp, fun _ _ h => by cases h⟩

/-- the move by one along x is not near to the identity -/
def shift : Aff := ⟨fun i j => if (i : Nat) = j then 1 else if i = 0 ∧ j = 3 then 1 else 0⟩

example : Clearable blank ∧ 4 / 10 ^ 24 < distance shift ∧ shift.apply (1, 2, 3) = (2, 2, 3) := by
  refine ⟨blank_clearable, ?_, ?_⟩
  · simp [distance, shift, Fin.sum_univ_three, Fin.sum_univ_four]
    norm_num
  · simp [Aff.apply, Aff.row, shift, coord, Fin.sum_univ_four]
    norm_num

end

end Envire.CloudCopy

#print axioms Envire.CloudCopy.C120_copy_partial
#print axioms Envire.CloudCopy.C120_sample
#print axioms Envire.CloudCopy.C120_sample_save
#print axioms Envire.CloudCopy.C120_data
#print axioms Envire.CloudCopy.C120_copy_save
#print axioms Envire.CloudCopy.C120_self
#print axioms Envire.CloudCopy.C120_undefined
#print axioms Envire.CloudCopy.C120_extents
