import Verif.Grid.FitModel
import Mathlib.LinearAlgebra.Matrix.ToLinearEquiv
import Mathlib.LinearAlgebra.Matrix.Determinant.Basic
import Mathlib.Tactic.LinearCombination
import Mathlib.Tactic.FieldSimp
import Mathlib.Tactic.Linarith
import Mathlib.Tactic.NormNum

/-! C191: patches with slope. -/

namespace Envire.Fit

noncomputable section

/-! ### specification -/

/-- a measurement: a place in the cell, a height and its deviation -/
structure Meas where
  x : ℝ
  y : ℝ
  z : ℝ
  s : ℝ

/-- the weighted sum of the squared distances from a plane -/
def cost (l : List Meas) (p : Plane) : ℝ := (l.map fun m => (m.z - p.at m.x m.y) ^ 2 / m.s ^ 2).sum

/-- three of the measurements are not on a line, seen from above -/
def Spread (l : List Meas) : Prop := ∃ m ∈ l, ∃ m' ∈ l, ∃ m'' ∈ l, (m'.x - m.x) * (m''.y - m.y) ≠ (m'.y - m.y) * (m''.x - m.x)

/-- measurements and the way in which they are merged -/
inductive Tree where
  | one (m : Meas)
  | join (a b : Tree)

def Tree.list : Tree → List Meas
  | .one m => [m]
  | .join a b => a.list ++ b.list

/-- the patch that results from the merges, if all of them succeed -/
inductive Gives (S : Solver) (gap : ℝ) : Tree → Patch → Prop
  | one {m : Meas} : 0 < m.s → Gives S gap (.one m) (Patch.make S m.x m.y m.z m.s)
  | join {a b : Tree} {p o : Patch} : Gives S gap a p → Gives S gap b o → (p.merge S gap o).1 = true → Gives S gap (.join a b) (p.merge S gap o).2

/-! ### sums -/

/-- the sums of a list -/
def sums (l : List Meas) : Sums := (l.map fun m => Sums.one m.x m.y m.z (1 / m.s ^ 2)).foldr Sums.add Sums.zero

theorem zero_add' (s : Sums) : Sums.zero.add s = s := by ext <;> simp [Sums.add, Sums.zero]
theorem add_zero' (s : Sums) : s.add Sums.zero = s := by ext <;> simp [Sums.add, Sums.zero]
theorem add_assoc' (s t u : Sums) : (s.add t).add u = s.add (t.add u) := by ext <;> simp [Sums.add, add_assoc]
theorem add_comm' (s t : Sums) : s.add t = t.add s := by ext <;> simp [Sums.add, add_comm]

theorem sums_nil : sums [] = Sums.zero := rfl

theorem sums_cons (m : Meas) (l : List Meas) : sums (m :: l) = (Sums.one m.x m.y m.z (1 / m.s ^ 2)).add (sums l) := rfl

theorem sums_append (l l' : List Meas) : sums (l ++ l') = (sums l).add (sums l') := by
  induction l with
  | nil => rw [List.nil_append, sums_nil, zero_add']
  | cons m l ih => rw [List.cons_append, sums_cons, sums_cons, ih, add_assoc']

theorem sums_perm {l l' : List Meas} (h : l.Perm l') : sums l = sums l' := by
  induction h with
  | nil => rfl
  | cons m _ ih => rw [sums_cons, sums_cons, ih]
  | swap m m' l => rw [sums_cons, sums_cons, sums_cons, sums_cons, ← add_assoc', ← add_assoc', add_comm' (Sums.one m'.x m'.y m'.z _)]
  | trans _ _ i1 i2 => exact i1.trans i2

theorem residuals_add (s t : Sums) (p : Plane) : (s.add t).residuals p = s.residuals p + t.residuals p := by
  simp only [Sums.residuals, Sums.add]; ring

theorem residuals_sums (l : List Meas) (p : Plane) : (sums l).residuals p = cost l p := by
  induction l with
  | nil => simp [sums_nil, Sums.residuals, Sums.zero, cost]
  | cons m l ih =>
    rw [sums_cons, residuals_add, ih]
    simp only [cost, List.map_cons, List.sum_cons, add_left_inj]
    simp only [Sums.residuals, Sums.one, Plane.at]
    ring

/-- the patch holds the measurements -/
structure Holds (S : Solver) (p : Patch) (l : List Meas) : Prop where
  plane : p.plane = sums l
  n : p.n = l.length
  normsq : p.normsq = (l.map fun m => 1 / m.s ^ 4).sum
  lo : (∀ m ∈ l, p.min ≤ m.z) ∧ ∃ m ∈ l, m.z = p.min
  hi : (∀ m ∈ l, m.z ≤ p.max) ∧ ∃ m ∈ l, m.z = p.max
  mean : p.mean = (p.updatePlane S).mean
  stdev : p.stdev = (p.updatePlane S).stdev
  rest : p.height = 0 ∧ p.updateIdx = 0 ∧ p.kind = .horizontal
  pos : (∀ m ∈ l, 0 < m.s) ∧ l ≠ []

theorem updatePlane_eq (S : Solver) (p : Patch) : p.updatePlane S = { p with mean := (p.updatePlane S).mean, stdev := (p.updatePlane S).stdev } := by
  unfold Patch.updatePlane Patch.updateSum
  split <;> rfl

theorem updatePlane_congr (S : Solver) (p q : Patch) (h1 : p.plane = q.plane) (h2 : p.n = q.n) (h3 : p.normsq = q.normsq) :
    (p.updatePlane S).mean = (q.updatePlane S).mean ∧ (p.updatePlane S).stdev = (q.updatePlane S).stdev := by
  unfold Patch.updatePlane Patch.updateSum
  rw [h1, h2, h3]
  split <;> exact ⟨rfl, rfl⟩

theorem gives_holds {S : Solver} {gap : ℝ} {t : Tree} {p : Patch} (h : Gives S gap t p) : Holds S p t.list := by
  induction h with
  | @one m hs =>
    unfold Patch.make
    rw [updatePlane_eq]
    refine ⟨?_, by simp [Tree.list], by simp [Tree.list], by simp [Tree.list], by simp [Tree.list], ?_, ?_, ⟨rfl, rfl, rfl⟩, by simpa [Tree.list] using hs, by simp [Tree.list]⟩
    · simp [Tree.list, sums_cons, sums_nil, add_zero']
    · exact (updatePlane_congr S _ _ (by rfl) (by rfl) (by rfl)).1
    · exact (updatePlane_congr S _ _ (by rfl) (by rfl) (by rfl)).2
  | @join a b p o _ _ hm iha ihb =>
    unfold Patch.merge at hm ⊢
    by_cases hov : Envire.Patch.overlap (p.min - gap) (p.max + gap) o.min o.max
    · rw [if_pos hov]
      dsimp only
      rw [updatePlane_eq]
      refine ⟨?_, ?_, ?_, ?_, ?_, ?_, ?_, ?_, ?_⟩
      · show p.plane.add o.plane = _
        rw [iha.plane, ihb.plane, ← sums_append]; rfl
      · show p.n + o.n = _
        rw [iha.n, ihb.n]; simp [Tree.list]
      · show p.normsq + o.normsq = _
        rw [iha.normsq, ihb.normsq]; simp [Tree.list]
      · obtain ⟨h1, x, hx, hxe⟩ := iha.lo
        obtain ⟨h1', x', hx', hxe'⟩ := ihb.lo
        refine ⟨?_, ?_⟩
        · intro y hy
          rcases List.mem_append.1 hy with hy | hy
          · exact (min_le_left _ _).trans (h1 y hy)
          · exact (min_le_right _ _).trans (h1' y hy)
        · rcases le_total p.min o.min with hle | hle
          · exact ⟨x, List.mem_append_left _ hx, hxe.trans (min_eq_left hle).symm⟩
          · exact ⟨x', List.mem_append_right _ hx', hxe'.trans (min_eq_right hle).symm⟩
      · obtain ⟨h1, x, hx, hxe⟩ := iha.hi
        obtain ⟨h1', x', hx', hxe'⟩ := ihb.hi
        refine ⟨?_, ?_⟩
        · intro y hy
          rcases List.mem_append.1 hy with hy | hy
          · exact (h1 y hy).trans (le_max_left _ _)
          · exact (h1' y hy).trans (le_max_right _ _)
        · rcases le_total p.max o.max with hle | hle
          · exact ⟨x', List.mem_append_right _ hx', hxe'.trans (max_eq_right hle).symm⟩
          · exact ⟨x, List.mem_append_left _ hx, hxe.trans (max_eq_left hle).symm⟩
      · dsimp only; exact (updatePlane_congr S _ _ (by rfl) (by rfl) (by rfl)).1
      · dsimp only; exact (updatePlane_congr S _ _ (by rfl) (by rfl) (by rfl)).2
      · obtain ⟨r1, r2, r3⟩ := iha.rest
        obtain ⟨-, r2', -⟩ := ihb.rest
        exact ⟨r1, by show max p.updateIdx o.updateIdx = 0; rw [r2, r2']; rfl, r3⟩
      · refine ⟨fun m hm => ?_, fun he => iha.pos.2 (List.append_eq_nil_iff.1 he).1⟩
        rcases List.mem_append.1 hm with hm | hm
        · exact iha.pos.1 m hm
        · exact ihb.pos.1 m hm
    · rw [if_neg hov] at hm
      simp at hm

/-! ### the plane -/

theorem normal_unique {s : Sums} {p q : Plane} (hd : s.det ≠ 0) (hp : Normal s p) (hq : Normal s q) : p = q := by
  obtain ⟨p1, p2, p3⟩ := hp
  obtain ⟨q1, q2, q3⟩ := hq
  have d1 : s.xx * (p.a - q.a) + s.xy * (p.b - q.b) + s.x * (p.c - q.c) = 0 := by linear_combination p1 - q1
  have d2 : s.xy * (p.a - q.a) + s.yy * (p.b - q.b) + s.y * (p.c - q.c) = 0 := by linear_combination p2 - q2
  have d3 : s.x * (p.a - q.a) + s.y * (p.b - q.b) + s.n * (p.c - q.c) = 0 := by linear_combination p3 - q3
  have ea : s.det * (p.a - q.a) = 0 := by
    unfold Sums.det
    linear_combination (s.yy * s.n - s.y * s.y) * d1 - (s.xy * s.n - s.x * s.y) * d2 + (s.xy * s.y - s.yy * s.x) * d3
  have eb : s.det * (p.b - q.b) = 0 := by
    unfold Sums.det
    linear_combination -(s.xy * s.n - s.x * s.y) * d1 + (s.xx * s.n - s.x * s.x) * d2 - (s.xx * s.y - s.xy * s.x) * d3
  have ec : s.det * (p.c - q.c) = 0 := by
    unfold Sums.det
    linear_combination (s.xy * s.y - s.yy * s.x) * d1 - (s.xx * s.y - s.xy * s.x) * d2 + (s.xx * s.yy - s.xy * s.xy) * d3
  have ha := (mul_eq_zero.1 ea).resolve_left hd
  have hb := (mul_eq_zero.1 eb).resolve_left hd
  have hc := (mul_eq_zero.1 ec).resolve_left hd
  ext <;> linarith

/-- the quadratic form of the normal equations -/
theorem form (l : List Meas) (a b c : ℝ) :
    a ^ 2 * (sums l).xx + b ^ 2 * (sums l).yy + c ^ 2 * (sums l).n + 2 * a * b * (sums l).xy + 2 * a * c * (sums l).x + 2 * b * c * (sums l).y =
      (l.map fun m => (a * m.x + b * m.y + c) ^ 2 / m.s ^ 2).sum := by
  induction l with
  | nil => simp [sums_nil, Sums.zero]
  | cons m l ih =>
    rw [List.map_cons, List.sum_cons, ← ih, sums_cons]
    simp only [Sums.add, Sums.one]
    ring

theorem form_nonneg (l : List Meas) (a b c : ℝ) : 0 ≤ (l.map fun m => (a * m.x + b * m.y + c) ^ 2 / m.s ^ 2).sum := by
  refine List.sum_nonneg fun x hx => ?_
  obtain ⟨m, -, rfl⟩ := List.mem_map.1 hx
  positivity

theorem sum_zero {l : List ℝ} (h0 : ∀ x ∈ l, 0 ≤ x) (h : l.sum = 0) : ∀ x ∈ l, x = 0 := by
  induction l with
  | nil => simp
  | cons a l ih =>
    have ha := h0 a (List.mem_cons_self ..)
    have hl : 0 ≤ l.sum := List.sum_nonneg fun x hx => h0 x (List.mem_cons_of_mem _ hx)
    rw [List.sum_cons] at h
    intro x hx
    rcases List.mem_cons.1 hx with rfl | hx
    · linarith
    · exact ih (fun x hx => h0 x (List.mem_cons_of_mem _ hx)) (by linarith) x hx

theorem det_ne {l : List Meas} (hs : ∀ m ∈ l, 0 < m.s) (h : Spread l) : (sums l).det ≠ 0 := by
  intro hd
  let A : Matrix (Fin 3) (Fin 3) ℝ := !![(sums l).xx, (sums l).xy, (sums l).x; (sums l).xy, (sums l).yy, (sums l).y; (sums l).x, (sums l).y, (sums l).n]
  have hA : A.det = 0 := by
    rw [Matrix.det_fin_three]
    rw [← hd]
    simp [A, Sums.det]
    ring
  obtain ⟨v, hv, hAv⟩ := Matrix.exists_mulVec_eq_zero_iff.2 hA
  have e0 : (sums l).xx * v 0 + (sums l).xy * v 1 + (sums l).x * v 2 = 0 := by
    have := congrFun hAv 0
    simpa [A, Matrix.mulVec, dotProduct, Fin.sum_univ_three] using this
  have e1 : (sums l).xy * v 0 + (sums l).yy * v 1 + (sums l).y * v 2 = 0 := by
    have := congrFun hAv 1
    simpa [A, Matrix.mulVec, dotProduct, Fin.sum_univ_three] using this
  have e2 : (sums l).x * v 0 + (sums l).y * v 1 + (sums l).n * v 2 = 0 := by
    have := congrFun hAv 2
    simpa [A, Matrix.mulVec, dotProduct, Fin.sum_univ_three] using this
  have hq : (l.map fun m => (v 0 * m.x + v 1 * m.y + v 2) ^ 2 / m.s ^ 2).sum = 0 := by
    rw [← form]
    linear_combination v 0 * e0 + v 1 * e1 + v 2 * e2
  have hz : ∀ m ∈ l, v 0 * m.x + v 1 * m.y + v 2 = 0 := by
    intro m hm
    have := sum_zero (fun x hx => by obtain ⟨m, -, rfl⟩ := List.mem_map.1 hx; positivity) hq _ (List.mem_map_of_mem hm)
    have hs' := pow_pos (hs m hm) 2
    rw [div_eq_zero_iff] at this
    exact pow_eq_zero_iff (two_ne_zero) |>.1 (this.resolve_right hs'.ne')
  obtain ⟨m, hm, m', hm', m'', hm'', hne⟩ := h
  have z1 := hz m hm
  have z2 := hz m' hm'
  have z3 := hz m'' hm''
  have k0 : v 0 * ((m'.x - m.x) * (m''.y - m.y) - (m'.y - m.y) * (m''.x - m.x)) = 0 := by
    linear_combination (m''.y - m.y) * (z2 - z1) - (m'.y - m.y) * (z3 - z1)
  have k1 : v 1 * ((m'.x - m.x) * (m''.y - m.y) - (m'.y - m.y) * (m''.x - m.x)) = 0 := by
    linear_combination -(m''.x - m.x) * (z2 - z1) + (m'.x - m.x) * (z3 - z1)
  have v0 := (mul_eq_zero.1 k0).resolve_right (sub_ne_zero.2 hne)
  have v1 := (mul_eq_zero.1 k1).resolve_right (sub_ne_zero.2 hne)
  have v2 : v 2 = 0 := by rw [v0, v1] at z1; linarith
  refine hv ?_
  funext i
  fin_cases i
  · exact v0
  · exact v1
  · exact v2

theorem normal_exact {l : List Meas} {q : Plane} (h : ∀ m ∈ l, m.z = q.at m.x m.y) : Normal (sums l) q := by
  induction l with
  | nil => simp [sums_nil, Normal, Sums.zero]
  | cons m l ih =>
    obtain ⟨h1, h2, h3⟩ := ih fun m hm => h m (List.mem_cons_of_mem _ hm)
    have hz := h m (List.mem_cons_self ..)
    unfold Plane.at at hz
    rw [sums_cons]
    simp only [Normal, Sums.add, Sums.one]
    refine ⟨?_, ?_, ?_⟩
    · rw [hz]; linear_combination h1
    · rw [hz]; linear_combination h2
    · rw [hz]; linear_combination h3

/-- a fit of measurements on a plane is the plane -/
theorem fit_exact (S : Solver) {l : List Meas} (hs : ∀ m ∈ l, 0 < m.s) (hl : Spread l) {q : Plane} (h : ∀ m ∈ l, m.z = q.at m.x m.y) : S.coeffs (sums l) = q :=
  normal_unique (det_ne hs hl) (S.solves _ (det_ne hs hl)) (normal_exact h)

theorem cost_split {l : List Meas} {p : Plane} (hp : Normal (sums l) p) (q : Plane) :
    cost l q = cost l p + (l.map fun m => ((q.a - p.a) * m.x + (q.b - p.b) * m.y + (q.c - p.c)) ^ 2 / m.s ^ 2).sum := by
  obtain ⟨h1, h2, h3⟩ := hp
  rw [← residuals_sums, ← residuals_sums, ← form]
  unfold Sums.residuals
  linear_combination 2 * (q.a - p.a) * h1 + 2 * (q.b - p.b) * h2 + 2 * (q.c - p.c) * h3

/-! ### properties -/

/-- C191: a patch made of any number of measurements, merged in any order, has their number and their lowest and highest height; it depends on nothing else than the measurements. -/
theorem C191_merged (S : Solver) (gap : ℝ) (t : Tree) (p : Patch) (h : Gives S gap t p) :
    p.n = t.list.length ∧ (∀ m ∈ t.list, p.min ≤ m.z ∧ m.z ≤ p.max) ∧ (∃ m ∈ t.list, m.z = p.min) ∧ (∃ m ∈ t.list, m.z = p.max) ∧
    ∀ (gap' : ℝ) (t' : Tree) (p' : Patch), Gives S gap' t' p' → t.list.Perm t'.list → p' = p := by
  have hh := gives_holds h
  refine ⟨hh.n, fun m hm => ⟨hh.lo.1 m hm, hh.hi.1 m hm⟩, hh.lo.2, hh.hi.2, ?_⟩
  intro gap' t' p' h' hp
  have hh' := gives_holds h'
  have e1 : p'.plane = p.plane := by rw [hh.plane, hh'.plane, sums_perm hp]
  have e2 : p'.n = p.n := by rw [hh.n, hh'.n, hp.length_eq]
  have e3 : p'.normsq = p.normsq := by rw [hh.normsq, hh'.normsq, (hp.map _).sum_eq]
  obtain ⟨f1, f2⟩ := updatePlane_congr S p' p e1 e2 e3
  have e4 : p'.mean = p.mean := by rw [hh.mean, hh'.mean, f1]
  have e5 : p'.stdev = p.stdev := by rw [hh.stdev, hh'.stdev, f2]
  obtain ⟨r1, r2, r3⟩ := hh.rest
  obtain ⟨r1', r2', r3'⟩ := hh'.rest
  have e6 : p'.min = p.min := by
    obtain ⟨h1, x, hx, hxe⟩ := hh.lo
    obtain ⟨h1', x', hx', hxe'⟩ := hh'.lo
    exact le_antisymm (by rw [← hxe]; exact h1' x (hp.mem_iff.1 hx)) (by rw [← hxe']; exact h1 x' (hp.mem_iff.2 hx'))
  have e7 : p'.max = p.max := by
    obtain ⟨h1, x, hx, hxe⟩ := hh.hi
    obtain ⟨h1', x', hx', hxe'⟩ := hh'.hi
    exact le_antisymm (by rw [← hxe']; exact h1 x' (hp.mem_iff.2 hx')) (by rw [← hxe]; exact h1' x (hp.mem_iff.1 hx))
  cases p
  cases p'
  simp only at e1 e2 e3 e4 e5 e6 e7 r1 r2 r3 r1' r2' r3'
  subst e1 e2 e3 e4 e5 e6 e7 r1 r2 r3 r1' r2' r3'
  rfl

/-- C191 (partial: measurements that are not on a line) The heights of the patch are those of the plane with the least sum of squared distances from the measurements, weighted by their
deviations: every other plane has a larger one. -/
theorem C191_least_partial (S : Solver) (gap : ℝ) (t : Tree) (p : Patch) (h : Gives S gap t p) (hl : Spread t.list) :
    ∃ q : Plane, (∀ x y, p.getHeight S x y = q.at x y) ∧ (∀ q' : Plane, cost t.list q ≤ cost t.list q') ∧ ∀ q' : Plane, cost t.list q' = cost t.list q → q' = q := by
  have hh := gives_holds h
  have hd := det_ne hh.pos.1 hl
  refine ⟨S.coeffs p.plane, fun _ _ => rfl, ?_, ?_⟩
  · intro q'
    rw [hh.plane, cost_split (S.solves _ hd) q']
    linarith [form_nonneg t.list (q'.a - (S.coeffs (sums t.list)).a) (q'.b - (S.coeffs (sums t.list)).b) (q'.c - (S.coeffs (sums t.list)).c)]
  · intro q' he
    rw [hh.plane] at he ⊢
    rw [cost_split (S.solves _ hd) q', add_eq_left] at he
    set d := S.coeffs (sums t.list)
    have hz : ∀ m ∈ t.list, (q'.a - d.a) * m.x + (q'.b - d.b) * m.y + (q'.c - d.c) = 0 := by
      intro m hm
      have := sum_zero (fun x hx => by obtain ⟨m, -, rfl⟩ := List.mem_map.1 hx; positivity) he _ (List.mem_map_of_mem hm)
      have hs' := pow_pos (hh.pos.1 m hm) 2
      rw [div_eq_zero_iff] at this
      exact pow_eq_zero_iff (two_ne_zero) |>.1 (this.resolve_right hs'.ne')
    obtain ⟨m, hm, m', hm', m'', hm'', hne⟩ := hl
    have z1 := hz m hm
    have z2 := hz m' hm'
    have z3 := hz m'' hm''
    have k0 : (q'.a - d.a) * ((m'.x - m.x) * (m''.y - m.y) - (m'.y - m.y) * (m''.x - m.x)) = 0 := by
      linear_combination (m''.y - m.y) * (z2 - z1) - (m'.y - m.y) * (z3 - z1)
    have k1 : (q'.b - d.b) * ((m'.x - m.x) * (m''.y - m.y) - (m'.y - m.y) * (m''.x - m.x)) = 0 := by
      linear_combination -(m''.x - m.x) * (z2 - z1) + (m'.x - m.x) * (z3 - z1)
    have v0 := (mul_eq_zero.1 k0).resolve_right (sub_ne_zero.2 hne)
    have v1 := (mul_eq_zero.1 k1).resolve_right (sub_ne_zero.2 hne)
    have v2 : q'.c - d.c = 0 := by rw [v0, v1] at z1; linarith
    ext <;> linarith

/-- C191 (partial: measurements that are not on a line) Measurements on a plane give the heights of the plane at all places, also through MLSGrid::get, the normal of the plane and its
slope. -/
theorem C191_plane_partial (S : Solver) (gap : ℝ) (t : Tree) (p : Patch) (h : Gives S gap t p) (hl : Spread t.list) (q : Plane) (hq : ∀ m ∈ t.list, m.z = q.at m.x m.y) :
    (∀ x y, p.getHeight S x y = q.at x y) ∧
    (∀ (x y scalex scaley offsetx offsety : ℝ) (xi yi : Nat), got S p x y scalex scaley offsetx offsety xi yi = q.at (x - (offsetx + xi * scalex)) (y - (offsety + yi * scaley))) ∧
    (∃ k : ℝ, 0 < k ∧ p.getNormal S = (k * -q.a, k * -q.b, k * 1) ∧ (p.getNormal S).1 ^ 2 + (p.getNormal S).2.1 ^ 2 + (p.getNormal S).2.2 ^ 2 = 1) ∧
    p.cosSlope S = 1 / √(1 + q.a ^ 2 + q.b ^ 2) := by
  have hh := gives_holds h
  have e : S.coeffs p.plane = q := by rw [hh.plane]; exact fit_exact S hh.pos.1 hl hq
  have hpos : 0 < q.a ^ 2 + q.b ^ 2 + 1 := by positivity
  have hsq : √(q.a ^ 2 + q.b ^ 2 + 1) ^ 2 = q.a ^ 2 + q.b ^ 2 + 1 := Real.sq_sqrt hpos.le
  have hne := (Real.sqrt_pos.2 hpos).ne'
  refine ⟨?_, ?_, ⟨1 / √(q.a ^ 2 + q.b ^ 2 + 1), one_div_pos.2 (Real.sqrt_pos.2 hpos), ?_, ?_⟩, ?_⟩
  · intro x y
    unfold Patch.getHeight
    rw [e]
  · intro x y scalex scaley offsetx offsety xi yi
    unfold got Patch.getHeight inCell
    rw [e, add_comm (xi * scalex), add_comm (yi * scaley)]
  · unfold Patch.getNormal
    dsimp only
    rw [e]
    refine Prod.ext ?_ (Prod.ext ?_ ?_) <;> dsimp only <;> ring
  · unfold Patch.getNormal
    dsimp only
    rw [e]
    field_simp
    rw [hsq]
  · unfold Patch.cosSlope Patch.getNormal
    dsimp only
    rw [e, show 1 + q.a ^ 2 + q.b ^ 2 = q.a ^ 2 + q.b ^ 2 + 1 by ring]

/-- C191 (partial: more than three measurements with the same deviation, not on a line) The deviation of the patch is the estimate without bias: the sum of the squared distances from the
plane divided by the number of measurements less three, but at least a millimetre. -/
theorem C191_deviation_partial (S : Solver) (gap : ℝ) (t : Tree) (p : Patch) (h : Gives S gap t p) (s : ℝ) (hs : ∀ m ∈ t.list, m.s = s) (hn : 3 < t.list.length) :
    p.stdev = √(max ((1 / 1000) ^ 2) ((t.list.map fun m => (m.z - p.getHeight S m.x m.y) ^ 2).sum / (t.list.length - 3))) := by
  have hh := gives_holds h
  have hs0 : 0 < s := by
    obtain ⟨m, hm⟩ := List.exists_mem_of_ne_nil _ hh.pos.2
    exact hs m hm ▸ hh.pos.1 m hm
  have hn' : (3 : ℝ) < t.list.length := by exact_mod_cast hn
  have hsum : ∀ l : List Meas, (∀ m ∈ l, m.s = s) → (sums l).n = l.length / s ^ 2 := by
    intro l hl
    induction l with
    | nil => simp [sums_nil, Sums.zero]
    | cons m l ih =>
      rw [sums_cons]
      show 1 / m.s ^ 2 + (sums l).n = _
      rw [ih fun m hm => hl m (List.mem_cons_of_mem _ hm), hl m (List.mem_cons_self ..), List.length_cons]
      push_cast
      ring
  have hnq : ∀ l : List Meas, (∀ m ∈ l, m.s = s) → (l.map fun m => 1 / m.s ^ 4).sum = l.length / s ^ 4 := by
    intro l hl
    induction l with
    | nil => simp
    | cons m l ih =>
      rw [List.map_cons, List.sum_cons, ih fun m hm => hl m (List.mem_cons_of_mem _ hm), hl m (List.mem_cons_self ..), List.length_cons]
      push_cast
      ring
  have hcost : ∀ (l : List Meas) (q : Plane), (∀ m ∈ l, m.s = s) → cost l q = (l.map fun m => (m.z - q.at m.x m.y) ^ 2).sum / s ^ 2 := by
    intro l q hl
    induction l with
    | nil => simp [cost]
    | cons m l ih =>
      have := ih fun m hm => hl m (List.mem_cons_of_mem _ hm)
      unfold cost at this ⊢
      rw [List.map_cons, List.sum_cons, this, hl m (List.mem_cons_self ..), List.map_cons, List.sum_cons]
      ring
  rw [hh.stdev]
  unfold Patch.updatePlane
  rw [if_neg (by rw [hh.n]; exact not_le.2 hn')]
  dsimp only
  unfold Patch.getHeight
  rw [hh.normsq, hnq _ hs, hh.plane, residuals_sums, hcost _ _ hs, hsum _ hs]
  congr 2
  · norm_num
  · have h3 : (t.list.length : ℝ) - 3 ≠ 0 := by linarith
    have h0 : (t.list.length : ℝ) ≠ 0 := by linarith
    have hd : ((t.list.length : ℝ) / s ^ 2) ^ 2 - 3 * (t.list.length / s ^ 4) = t.list.length * (t.list.length - 3) / s ^ 4 := by
      field_simp
    rw [hd]
    field_simp

/-- C191: up to three measurements the mean of the patch is their weighted mean -/
theorem C191_few (S : Solver) (gap : ℝ) (t : Tree) (p : Patch) (h : Gives S gap t p) (hn : t.list.length ≤ 3) :
    p.mean = (t.list.map fun m => m.z / m.s ^ 2).sum / (t.list.map fun m => 1 / m.s ^ 2).sum := by
  have hh := gives_holds h
  have hz : ∀ l : List Meas, (sums l).z = (l.map fun m => m.z / m.s ^ 2).sum ∧ (sums l).n = (l.map fun m => 1 / m.s ^ 2).sum := by
    intro l
    induction l with
    | nil => simp [sums_nil, Sums.zero]
    | cons m l ih =>
      rw [sums_cons, List.map_cons, List.map_cons, List.sum_cons, List.sum_cons, ← ih.1, ← ih.2]
      exact ⟨by show m.z * (1 / m.s ^ 2) + (sums l).z = _; ring, rfl⟩
  rw [hh.mean]
  unfold Patch.updatePlane
  rw [if_pos (by rw [hh.n]; exact_mod_cast hn)]
  show p.plane.z / p.plane.n = _
  rw [hh.plane, (hz _).1, (hz _).2]

/-- four measurements at the same distance from the corner, one after the other -/
def four (a b c d : Meas) : Tree := .join (.join (.join (.one a) (.one b)) (.one c)) (.one d)

/-- all merges succeed for a wide gap -/
theorem four_gives (S : Solver) (a b c d : Meas) (ha : 0 < a.s) (hb : 0 < b.s) (hc : 0 < c.s) (hd : 0 < d.s) : ∃ gap p, Gives S gap (four a b c d) p := by
  let gap := |a.z| + |b.z| + |c.z| + |d.z| + 1
  have hmin : ∀ (t : Tree) (p : Patch), Gives S gap t p → t.list.length ≤ 3 → (∀ m ∈ t.list, m = a ∨ m = b ∨ m = c ∨ m = d) → ∀ m : Meas, 0 < m.s → (m = a ∨ m = b ∨ m = c ∨ m = d) →
      (a ∈ t.list) → ∃ q, Gives S gap (.join t (.one m)) q := by
    intro t p hp _ _ m hm hm' hat
    have hh := gives_holds hp
    refine ⟨_, Gives.join hp (Gives.one hm) ?_⟩
    have hlo := hh.lo.1 a hat
    have hhi := hh.hi.1 a hat
    have ho := gives_holds (S := S) (gap := gap) (Gives.one (m := m) hm)
    have e1 : (Patch.make S m.x m.y m.z m.s).min = m.z := by obtain ⟨x, hx, hxe⟩ := ho.lo.2; rw [← hxe, List.mem_singleton.1 hx]
    have e2 : (Patch.make S m.x m.y m.z m.s).max = m.z := by obtain ⟨x, hx, hxe⟩ := ho.hi.2; rw [← hxe, List.mem_singleton.1 hx]
    unfold Patch.merge
    rw [if_pos]
    unfold Envire.Patch.overlap
    left
    rw [e2]
    have a1 := neg_abs_le a.z
    have a2 := le_abs_self a.z
    have b1 := neg_abs_le m.z
    have b2 := le_abs_self m.z
    have n1 := abs_nonneg a.z
    have n2 := abs_nonneg b.z
    have n3 := abs_nonneg c.z
    have n4 := abs_nonneg d.z
    have hs : |m.z| + |a.z| ≤ 2 * |a.z| + |b.z| + |c.z| + |d.z| := by
      rcases hm' with rfl | rfl | rfl | rfl <;> linarith
    rcases hm' with rfl | rfl | rfl | rfl <;> constructor <;> simp only [gap] <;> linarith
  obtain ⟨p2, h2⟩ := hmin (.one a) _ (Gives.one ha) (by simp [Tree.list]) (by simp [Tree.list]) b hb (by simp) (by simp [Tree.list])
  obtain ⟨p3, h3⟩ := hmin _ _ h2 (by simp [Tree.list]) (by simp [Tree.list]) c hc (by simp) (by simp [Tree.list])
  obtain ⟨p4, h4⟩ := hmin _ _ h3 (by simp [Tree.list]) (by simp [Tree.list]) d hd (by simp) (by simp [Tree.list])
  exact ⟨gap, p4, h4⟩

/-- C191, the code violates the property: from the fourth measurement on the mean is the height of the plane at the corner of the cell; it may be below all the measurements, here by at
least 8, though the plane is met exactly -/
theorem C191_corner_deviation (S : Solver) : ∃ gap t p, Gives S gap t p ∧ (∀ m ∈ t.list, 0 ≤ m.x ∧ m.x ≤ 1 ∧ 0 ≤ m.y ∧ m.y ≤ 1 ∧ m.z = 10 * m.x ∧ 8 ≤ m.z) ∧ p.mean = 0 := by
  obtain ⟨gap, p, h⟩ := four_gives S ⟨4 / 5, 0, 8, 1⟩ ⟨1, 0, 10, 1⟩ ⟨4 / 5, 1, 8, 1⟩ ⟨1, 1, 10, 1⟩ one_pos one_pos one_pos one_pos
  have hh := gives_holds h
  refine ⟨gap, _, p, h, ?_, ?_⟩
  · intro m hm
    simp only [four, Tree.list, List.cons_append, List.nil_append, List.mem_cons, List.not_mem_nil, or_false] at hm
    rcases hm with rfl | rfl | rfl | rfl <;> norm_num
  · have e : S.coeffs (sums (four ⟨4 / 5, 0, 8, 1⟩ ⟨1, 0, 10, 1⟩ ⟨4 / 5, 1, 8, 1⟩ ⟨1, 1, 10, 1⟩).list) = ⟨10, 0, 0⟩ := by
      refine fit_exact S hh.pos.1 ?_ ?_
      · refine ⟨⟨4 / 5, 0, 8, 1⟩, by simp [four, Tree.list], ⟨1, 0, 10, 1⟩, by simp [four, Tree.list], ⟨1, 1, 10, 1⟩, by simp [four, Tree.list], by norm_num⟩
      · intro m hm
        simp only [four, Tree.list, List.cons_append, List.nil_append, List.mem_cons, List.not_mem_nil, or_false] at hm
        rcases hm with rfl | rfl | rfl | rfl <;> norm_num [Plane.at]
    rw [hh.mean]
    unfold Patch.updatePlane
    rw [if_neg (by rw [hh.n]; simp [four, Tree.list]; norm_num)]
    show (S.coeffs p.plane).c = 0
    rw [hh.plane, e]

/-- C191, the code violates the property: with different deviations the factor may be negative; the deviation of the patch is then a millimetre, however far the measurements are from any plane -/
theorem C191_weights_deviation (S : Solver) (H : ℝ) : ∃ gap t p, Gives S gap t p ∧ p.stdev = 1 / 1000 ∧ ∀ q : Plane, ∃ m ∈ t.list, H ≤ |m.z - q.at m.x m.y| := by
  obtain ⟨gap, p, h⟩ := four_gives S ⟨0, 0, 4 * |H|, 1 / 3⟩ ⟨1, 0, 0, 1⟩ ⟨0, 1, 0, 1⟩ ⟨1, 1, 4 * |H|, 1⟩ (by norm_num) one_pos one_pos one_pos
  have hh := gives_holds h
  refine ⟨gap, _, p, h, ?_, ?_⟩
  · rw [hh.stdev]
    unfold Patch.updatePlane
    rw [if_neg (by rw [hh.n]; simp [four, Tree.list]; norm_num)]
    dsimp only
    rw [hh.normsq, hh.plane, residuals_sums]
    have hn : (sums (four ⟨0, 0, 4 * |H|, 1 / 3⟩ ⟨1, 0, 0, 1⟩ ⟨0, 1, 0, 1⟩ ⟨1, 1, 4 * |H|, 1⟩).list).n = 12 := by
      simp [four, Tree.list, sums_cons, sums_nil, Sums.add, Sums.one, Sums.zero]; norm_num
    have hq : ((four ⟨0, 0, 4 * |H|, 1 / 3⟩ ⟨1, 0, 0, 1⟩ ⟨0, 1, 0, 1⟩ ⟨1, 1, 4 * |H|, 1⟩).list.map fun m => 1 / m.s ^ 4).sum = 84 := by
      simp [four, Tree.list]; norm_num
    rw [hn, hq]
    have hc : 0 ≤ cost (four ⟨0, 0, 4 * |H|, 1 / 3⟩ ⟨1, 0, 0, 1⟩ ⟨0, 1, 0, 1⟩ ⟨1, 1, 4 * |H|, 1⟩).list
        (S.coeffs (sums (four ⟨0, 0, 4 * |H|, 1 / 3⟩ ⟨1, 0, 0, 1⟩ ⟨0, 1, 0, 1⟩ ⟨1, 1, 4 * |H|, 1⟩).list)) := by
      refine List.sum_nonneg fun x hx => ?_
      obtain ⟨m, -, rfl⟩ := List.mem_map.1 hx
      positivity
    rw [max_eq_left (by
      have : (12 : ℝ) / (12 ^ 2 - 3 * 84) < 0 := by norm_num
      nlinarith), show (1 : ℝ) / 1000000 = (1 / 1000) ^ 2 by norm_num, Real.sqrt_sq (by norm_num)]
  · intro q
    by_contra hne
    push Not at hne
    have m1 := hne ⟨0, 0, 4 * |H|, 1 / 3⟩ (by simp [four, Tree.list])
    have m2 := hne ⟨1, 0, 0, 1⟩ (by simp [four, Tree.list])
    have m3 := hne ⟨0, 1, 0, 1⟩ (by simp [four, Tree.list])
    have m4 := hne ⟨1, 1, 4 * |H|, 1⟩ (by simp [four, Tree.list])
    simp only [Plane.at, abs_lt] at m1 m2 m3 m4
    have hH := le_abs_self H
    have hH0 := abs_nonneg H
    nlinarith

/-- C191, the code violates the property: MLSGrid::merge raises the mean of a patch with slope only; the next measurement that is merged makes the offset disappear: the result is the
same for all offsets -/
theorem C191_offset_deviation (S : Solver) (gap dz dstdev : ℝ) (p o : Patch) (h : (p.merge S gap o).1 = true) :
    ((taken p dz dstdev 0).merge S gap o).1 = true ∧ ((taken p dz dstdev 0).merge S gap o).2.mean = (p.merge S gap o).2.mean ∧
      (∀ x y, ((taken p dz dstdev 0).merge S gap o).2.getHeight S x y = (p.merge S gap o).2.getHeight S x y) ∧
      ∀ x y, (taken p dz dstdev 0).getHeight S x y = p.getHeight S x y := by
  unfold Patch.merge at h ⊢
  by_cases hov : Envire.Patch.overlap (p.min - gap) (p.max + gap) o.min o.max
  · have hov' : Envire.Patch.overlap ((taken p dz dstdev 0).min - gap) ((taken p dz dstdev 0).max + gap) o.min o.max := hov
    rw [if_pos hov, if_pos hov']
    refine ⟨rfl, ?_, ?_, fun _ _ => rfl⟩
    · dsimp only; exact (updatePlane_congr S _ _ (by rfl) (by rfl) (by rfl)).1
    · intro x y
      have hpl : ∀ q : Patch, (q.updatePlane S).plane = q.plane := fun q => by rw [updatePlane_eq]
      unfold Patch.getHeight
      dsimp only
      rw [hpl, hpl]
      rfl
  · rw [if_neg hov] at h
    simp at h

/-- C191, the code violates the property: a patch that is given to MLSGrid::update becomes a horizontal one without height, of a single measurement -/
theorem C191_update_deviation (S : Solver) (x y scalex scaley offsetx offsety : ℝ) (xi yi : Nat) (p : Patch) :
    (updated S x y scalex scaley offsetx offsety xi yi p).kind = .horizontal ∧ (updated S x y scalex scaley offsetx offsety xi yi p).height = 0 ∧
      (updated S x y scalex scaley offsetx offsety xi yi p).n = 1 ∧ (updated S x y scalex scaley offsetx offsety xi yi p).updateIdx = 0 := by
  unfold updated Patch.make
  rw [updatePlane_eq]
  exact ⟨rfl, rfl, rfl, rfl⟩

/-! ### examples -/

/-- the normal equations can be solved -/
theorem solver_exists : Nonempty Solver := by
  classical
  have key : ∀ s : Sums, s.det ≠ 0 → ∃ p, Normal s p := by
    intro s hd
    refine ⟨⟨((s.yy * s.n - s.y * s.y) * s.xz - (s.xy * s.n - s.x * s.y) * s.yz + (s.xy * s.y - s.yy * s.x) * s.z) / s.det,
      (-(s.xy * s.n - s.x * s.y) * s.xz + (s.xx * s.n - s.x * s.x) * s.yz - (s.xx * s.y - s.xy * s.x) * s.z) / s.det,
      ((s.xy * s.y - s.yy * s.x) * s.xz - (s.xx * s.y - s.xy * s.x) * s.yz + (s.xx * s.yy - s.xy * s.xy) * s.z) / s.det⟩, ?_, ?_, ?_⟩ <;>
      dsimp only <;> field_simp <;> unfold Sums.det <;> ring
  exact ⟨⟨fun s => if h : s.det ≠ 0 then (key s h).choose else ⟨0, 0, 0⟩, fun s h => by rw [dif_pos h]; exact (key s h).choose_spec⟩⟩

/-- four measurements that are not on a line, as in the theorems -/
example (S : Solver) : ∃ gap t p, Gives S gap t p ∧ Spread t.list ∧ 3 < t.list.length ∧ (∀ m ∈ t.list, m.s = 1) ∧ ∀ m ∈ t.list, m.z = Plane.at ⟨1, 2, 3⟩ m.x m.y := by
  obtain ⟨gap, p, h⟩ := four_gives S ⟨0, 0, 3, 1⟩ ⟨1, 0, 4, 1⟩ ⟨0, 1, 5, 1⟩ ⟨1, 1, 6, 1⟩ one_pos one_pos one_pos one_pos
  refine ⟨gap, _, p, h, ⟨⟨0, 0, 3, 1⟩, by simp [four, Tree.list], ⟨1, 0, 4, 1⟩, by simp [four, Tree.list], ⟨0, 1, 5, 1⟩, by simp [four, Tree.list], by norm_num⟩,
    by simp [four, Tree.list], ?_, ?_⟩ <;>
  · intro m hm
    simp only [four, Tree.list, List.cons_append, List.nil_append, List.mem_cons, List.not_mem_nil, or_false] at hm
    rcases hm with rfl | rfl | rfl | rfl <;> norm_num [Plane.at]

end

#print axioms C191_merged
#print axioms C191_least_partial
#print axioms C191_plane_partial
#print axioms C191_deviation_partial
#print axioms C191_few
#print axioms C191_corner_deviation
#print axioms C191_weights_deviation
#print axioms C191_offset_deviation
#print axioms C191_update_deviation

end Envire.Fit
