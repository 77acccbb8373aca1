import Verif.Tools.BresenhamModel
import Mathlib.Data.List.Nodup
import Mathlib.Data.List.Range
import Mathlib.Algebra.Order.Ring.Abs
import Mathlib.Tactic.Linarith
import Mathlib.Tactic.Ring
/-! Property C32: the line of cells from one cell to another. -/
namespace Envire.Bresenham

/-- the state after u steps in x and v steps in y direction -/
def mk (X0 Y0 X1 Y1 a b sx sy u v : Int) : State :=
  { x0 := X0 + sx * u, y0 := Y0 + sy * v, x1 := X1, y1 := Y1, dx := a, dy := -b, sx := sx, sy := sy, err := a - b + (a * v - b * u), hasP := true }

theorem chk_some {n : Int} (h : -2 ^ 31 ≤ n ∧ n < 2 ^ 31) : chk n = some n := by
  unfold chk
  rw [if_pos h]

theorem chk_bind {A : Type} {n : Int} (h : -2 ^ 31 ≤ n ∧ n < 2 ^ 31) (f : Int → Option A) : (chk n).bind f = f n := by
  rw [chk_some h]
  rfl

/-- numbers that do not overflow, for coordinates up to 2^28 -/
structure Small (X0 Y0 X1 Y1 a b sx sy : Int) : Prop where
  bX0 : -2 ^ 28 ≤ X0 ∧ X0 ≤ 2 ^ 28
  bY0 : -2 ^ 28 ≤ Y0 ∧ Y0 ≤ 2 ^ 28
  ba : 0 ≤ a ∧ a ≤ 2 ^ 29
  bb : 0 ≤ b ∧ b ≤ 2 ^ 29
  hx : X1 = X0 + sx * a
  hy : Y1 = Y0 + sy * b
  bsx : sx = 1 ∨ sx = -1
  bsy : sy = 1 ∨ sy = -1

theorem stepX_eq {X0 Y0 X1 Y1 a b sx sy : Int} (hs : Small X0 Y0 X1 Y1 a b sx sy) {u v : Int} {e2 : Int} (hu : 0 ≤ u ∧ u ≤ a)
    (hd : -2 ^ 29 ≤ a * v - b * u ∧ a * v - b * u ≤ 2 ^ 29) :
    stepX e2 (mk X0 Y0 X1 Y1 a b sx sy u v) = some (mk X0 Y0 X1 Y1 a b sx sy (if e2 > -b then u + 1 else u) v) := by
  have h1 := hs.bX0
  have h3 := hs.ba
  have h4 := hs.bb
  have hsx := hs.bsx
  unfold stepX
  by_cases h : e2 > (mk X0 Y0 X1 Y1 a b sx sy u v).dy
  · have h' : e2 > -b := h
    rw [if_pos h, if_pos h']
    rw [chk_bind (by dsimp only [mk]; constructor <;> linarith [hd.1, hd.2]),
      chk_bind (by dsimp only [mk]; rcases hsx with rfl | rfl <;> constructor <;> linarith [hu.1, hu.2])]
    unfold mk
    congr 2 <;> ring
  · have h' : ¬ e2 > -b := h
    rw [if_neg h, if_neg h']

theorem stepY_eq {X0 Y0 X1 Y1 a b sx sy : Int} (hs : Small X0 Y0 X1 Y1 a b sx sy) {u v : Int} {e2 : Int} (hv : 0 ≤ v ∧ v ≤ b)
    (hd : -2 ^ 30 ≤ a * v - b * u ∧ a * v - b * u ≤ 2 ^ 29) :
    stepY e2 (mk X0 Y0 X1 Y1 a b sx sy u v) = some (mk X0 Y0 X1 Y1 a b sx sy u (if e2 < a then v + 1 else v)) := by
  have h1 := hs.bY0
  have h3 := hs.ba
  have h4 := hs.bb
  have hsy := hs.bsy
  unfold stepY
  by_cases h : e2 < (mk X0 Y0 X1 Y1 a b sx sy u v).dx
  · have h' : e2 < a := h
    rw [if_pos h, if_pos h']
    rw [chk_bind (by dsimp only [mk]; constructor <;> linarith [hd.1, hd.2]),
      chk_bind (by dsimp only [mk]; rcases hsy with rfl | rfl <;> constructor <;> linarith [hv.1, hv.2])]
    unfold mk
    congr 2 <;> dsimp only <;> ring
  · have h' : ¬ e2 < a := h
    rw [if_neg h, if_neg h']

/-- one call of getNextPoint inside of the line -/
theorem next_eq {X0 Y0 X1 Y1 a b sx sy : Int} (hs : Small X0 Y0 X1 Y1 a b sx sy) {u v : Int} (hu : 0 ≤ u ∧ u ≤ a) (hv : 0 ≤ v ∧ v ≤ b)
    (hd : -2 ^ 28 ≤ a * v - b * u ∧ a * v - b * u ≤ 2 ^ 28) (hne : u < a ∨ v < b) :
    next (mk X0 Y0 X1 Y1 a b sx sy u v) = some (some ((X0 + sx * u, Y0 + sy * v), mk X0 Y0 X1 Y1 a b sx sy
      (if 2 * (a - b + (a * v - b * u)) > -b then u + 1 else u) (if 2 * (a - b + (a * v - b * u)) < a then v + 1 else v))) := by
  have h3 := hs.ba
  have h4 := hs.bb
  unfold next
  rw [if_neg (by simp [mk])]
  rw [if_neg (by
    rintro ⟨he1, he2⟩
    dsimp only [mk] at he1 he2
    rw [hs.hx] at he1
    rw [hs.hy] at he2
    rcases hs.bsx with h | h <;> rcases hs.bsy with h' | h' <;> rw [h] at he1 <;> rw [h'] at he2 <;> omega)]
  rw [chk_bind (by dsimp only [mk]; constructor <;> linarith [hd.1, hd.2])]
  rw [stepX_eq hs hu ⟨by linarith [hd.1], by linarith [hd.2]⟩]
  change (stepY _ (mk X0 Y0 X1 Y1 a b sx sy _ v)).bind _ = _
  rw [stepY_eq hs hv (by split <;> constructor <;> linarith [hd.1, hd.2])]
  rfl

theorem next_end {X0 Y0 X1 Y1 a b sx sy : Int} (hs : Small X0 Y0 X1 Y1 a b sx sy) :
    ∃ s, s.hasP = false ∧ next (mk X0 Y0 X1 Y1 a b sx sy a b) = some (some ((X0 + sx * a, Y0 + sy * b), s)) := by
  refine ⟨{ mk X0 Y0 X1 Y1 a b sx sy a b with hasP := false }, rfl, ?_⟩
  unfold next
  rw [if_neg (by simp [mk]), if_pos ⟨hs.hx.symm, hs.hy.symm⟩]
  rfl

theorem line_end {X0 Y0 X1 Y1 a b sx sy : Int} (hs : Small X0 Y0 X1 Y1 a b sx sy) (fuel : Nat) :
    getLine (fuel + 2) (mk X0 Y0 X1 Y1 a b sx sy a b) = some [(X0 + sx * a, Y0 + sy * b)] := by
  obtain ⟨s, h1, h2⟩ := next_end hs
  have h3 : getLine (fuel + 1) s = some [] := by
    unfold getLine next
    rw [if_pos h1]
    rfl
  unfold getLine
  rw [h2]
  dsimp only [Option.bind_some]
  rw [h3]
  rfl

/-- lines with a slope of at most one: the error term says that the ideal line is at most half a cell away -/
theorem flat {X0 Y0 X1 Y1 a b sx sy : Int} (hs : Small X0 Y0 X1 Y1 a b sx sy) (hab : b ≤ a) (ha : 0 < a) (m : Nat) : ∀ (u v : Int),
    0 ≤ u → u + m = a → -a ≤ 2 * (a * v - b * u) → 2 * (a * v - b * u) < a →
    ∃ f : Nat → Int, f 0 = v ∧ f m = b ∧ (∀ i < m, f (i + 1) = f i ∨ f (i + 1) = f i + 1) ∧
      (∀ i ≤ m, -a ≤ 2 * (a * f i - b * (u + i)) ∧ 2 * (a * f i - b * (u + i)) < a ∧ 0 ≤ f i ∧ f i ≤ b) ∧
      ∀ fuel, m + 2 ≤ fuel → getLine fuel (mk X0 Y0 X1 Y1 a b sx sy u v) = some ((List.range (m + 1)).map fun i => (X0 + sx * (u + (i : Nat)), Y0 + sy * f i)) := by
  have ha2 := hs.ba
  have hb2 := hs.bb
  induction m with
  | zero =>
    intro u v h0 hu h1 h2
    have hu : u = a := by simpa using hu
    subst hu
    have hv : v = b := by
      have h3 : -u ≤ u * (2 * (v - b)) := by linarith
      have h4 : u * (2 * (v - b)) < u := by linarith
      rcases lt_trichotomy v b with h | h | h
      · have : u * (2 * (v - b)) ≤ u * (-2) := mul_le_mul_of_nonneg_left (by omega) ha.le
        omega
      · exact h
      · have : u * 2 ≤ u * (2 * (v - b)) := mul_le_mul_of_nonneg_left (by omega) ha.le
        omega
    subst hv
    refine ⟨fun _ => v, rfl, rfl, fun i hi => absurd hi (Nat.not_lt_zero _), ?_, ?_⟩
    · intro i hi
      obtain rfl : i = 0 := by omega
      refine ⟨by simpa using h1, by simpa using h2, hb2.1, Int.le_refl _⟩
    · intro fuel hf
      obtain ⟨k, rfl⟩ : ∃ k, fuel = k + 2 := ⟨fuel - 2, by omega⟩
      rw [line_end hs]
      simp
  | succ m ih =>
    intro u v h0 hu h1 h2
    push_cast at hu
    have hv : 0 ≤ v ∧ v ≤ b := by
      constructor
      · by_contra hc
        have h3 : a * v ≤ a * (-1) := mul_le_mul_of_nonneg_left (by omega) ha.le
        have h4 : 0 ≤ b * u := mul_nonneg hb2.1 h0
        linarith
      · by_contra hc
        have h3 : a * (b + 1) ≤ a * v := mul_le_mul_of_nonneg_left (by omega) ha.le
        have h4 : b * u ≤ b * a := mul_le_mul_of_nonneg_left (by omega) hb2.1
        linarith
    -- the step in x direction is always made
    have hx : 2 * (a - b + (a * v - b * u)) > -b := by
      by_contra hc
      have h3 : a = b := by omega
      subst h3
      have h4 : a * (2 * (v - u) + 1) = 0 := by
        have : 2 * (a * v - a * u) = -a := by omega
        linarith
      rcases mul_eq_zero.1 h4 with h | h <;> omega
    have hn := next_eq hs (u := u) (v := v) ⟨h0, by omega⟩ hv (by constructor <;> omega) (Or.inl (by omega))
    rw [if_pos hx] at hn
    obtain ⟨v', hv', hstep, hi1, hi2⟩ : ∃ v', (if 2 * (a - b + (a * v - b * u)) < a then v + 1 else v) = v' ∧ (v' = v ∨ v' = v + 1) ∧
        -a ≤ 2 * (a * v' - b * (u + 1)) ∧ 2 * (a * v' - b * (u + 1)) < a := by
      refine ⟨_, rfl, ?_, ?_, ?_⟩ <;> split <;> rename_i hc
      · exact Or.inr rfl
      · exact Or.inl rfl
      · linarith
      · linarith
      · linarith
      · linarith
    rw [hv'] at hn
    obtain ⟨f, hf0, hfm, hfs, hfi, hfl⟩ := ih (u + 1) v' (by omega) (by omega) hi1 hi2
    refine ⟨fun i => match i with | 0 => v | i + 1 => f i, rfl, hfm, ?_, ?_, ?_⟩
    · intro i hi
      cases i with
      | zero => rw [← hf0] at hstep; exact hstep
      | succ i => exact hfs i (by omega)
    · intro i hi
      cases i with
      | zero => exact ⟨by simpa using h1, by simpa using h2, hv⟩
      | succ i =>
        have := hfi i (by omega)
        push_cast
        rw [show u + ((i : Int) + 1) = u + 1 + i by ring]
        exact this
    · intro fuel hf
      obtain ⟨k, rfl⟩ : ∃ k, fuel = k + 1 := ⟨fuel - 1, by omega⟩
      unfold getLine
      rw [hn]
      dsimp only [Option.bind_some]
      rw [hfl k (by omega), List.range_succ_eq_map (n := m + 1)]
      simp only [Option.bind_some, List.map_cons, List.map_map]
      refine congrArg some (List.cons_eq_cons.2 ⟨?_, ?_⟩)
      · simp
      · apply List.map_congr_left
        intro i _
        simp only [Function.comp]
        congr 1
        push_cast
        ring

/-- lines with a slope of more than one -/
theorem steep {X0 Y0 X1 Y1 a b sx sy : Int} (hs : Small X0 Y0 X1 Y1 a b sx sy) (hab : a < b) (m : Nat) : ∀ (u v : Int),
    0 ≤ v → v + m = b → -b < 2 * (a * v - b * u) → 2 * (a * v - b * u) ≤ b →
    ∃ f : Nat → Int, f 0 = u ∧ f m = a ∧ (∀ i < m, f (i + 1) = f i ∨ f (i + 1) = f i + 1) ∧
      (∀ i ≤ m, -b < 2 * (a * (v + i) - b * f i) ∧ 2 * (a * (v + i) - b * f i) ≤ b ∧ 0 ≤ f i ∧ f i ≤ a) ∧
      ∀ fuel, m + 2 ≤ fuel → getLine fuel (mk X0 Y0 X1 Y1 a b sx sy u v) = some ((List.range (m + 1)).map fun i => (X0 + sx * f i, Y0 + sy * (v + (i : Nat)))) := by
  have ha2 := hs.ba
  have hb2 := hs.bb
  have hb : 0 < b := by omega
  induction m with
  | zero =>
    intro u v h0 hv h1 h2
    have hv : v = b := by simpa using hv
    subst hv
    have hu : u = a := by
      have h3 : -v < v * (2 * (a - u)) := by linarith
      have h4 : v * (2 * (a - u)) ≤ v := by linarith
      rcases lt_trichotomy u a with h | h | h
      · have : v * 2 ≤ v * (2 * (a - u)) := mul_le_mul_of_nonneg_left (by omega) hb.le
        omega
      · exact h
      · have : v * (2 * (a - u)) ≤ v * (-2) := mul_le_mul_of_nonneg_left (by omega) hb.le
        omega
    subst hu
    refine ⟨fun _ => u, rfl, rfl, fun i hi => absurd hi (Nat.not_lt_zero _), ?_, ?_⟩
    · intro i hi
      obtain rfl : i = 0 := by omega
      refine ⟨by simpa using h1, by simpa using h2, ha2.1, Int.le_refl _⟩
    · intro fuel hf
      obtain ⟨k, rfl⟩ : ∃ k, fuel = k + 2 := ⟨fuel - 2, by omega⟩
      rw [line_end hs]
      simp
  | succ m ih =>
    intro u v h0 hv h1 h2
    push_cast at hv
    have hu : 0 ≤ u ∧ u ≤ a := by
      constructor
      · by_contra hc
        have h3 : b * u ≤ b * (-1) := mul_le_mul_of_nonneg_left (by omega) hb.le
        have h4 : 0 ≤ a * v := mul_nonneg ha2.1 h0
        linarith
      · by_contra hc
        have h3 : b * (a + 1) ≤ b * u := mul_le_mul_of_nonneg_left (by omega) hb.le
        have h4 : a * v ≤ a * b := mul_le_mul_of_nonneg_left (by omega) ha2.1
        linarith
    -- the step in y direction is always made
    have hy : 2 * (a - b + (a * v - b * u)) < a := by omega
    have hn := next_eq hs (u := u) (v := v) hu ⟨h0, by omega⟩ (by constructor <;> omega) (Or.inr (by omega))
    rw [if_pos hy] at hn
    obtain ⟨u', hu', hstep, hi1, hi2⟩ : ∃ u', (if 2 * (a - b + (a * v - b * u)) > -b then u + 1 else u) = u' ∧ (u' = u ∨ u' = u + 1) ∧
        -b < 2 * (a * (v + 1) - b * u') ∧ 2 * (a * (v + 1) - b * u') ≤ b := by
      refine ⟨_, rfl, ?_, ?_, ?_⟩ <;> split <;> rename_i hc
      · exact Or.inr rfl
      · exact Or.inl rfl
      · linarith
      · linarith
      · linarith
      · linarith
    rw [hu'] at hn
    obtain ⟨f, hf0, hfm, hfs, hfi, hfl⟩ := ih u' (v + 1) (by omega) (by omega) hi1 hi2
    refine ⟨fun i => match i with | 0 => u | i + 1 => f i, rfl, hfm, ?_, ?_, ?_⟩
    · intro i hi
      cases i with
      | zero => rw [← hf0] at hstep; exact hstep
      | succ i => exact hfs i (by omega)
    · intro i hi
      cases i with
      | zero => exact ⟨by simpa using h1, by simpa using h2, hu⟩
      | succ i =>
        have := hfi i (by omega)
        push_cast
        rw [show v + ((i : Int) + 1) = v + 1 + i by ring]
        exact this
    · intro fuel hf
      obtain ⟨k, rfl⟩ : ∃ k, fuel = k + 1 := ⟨fuel - 1, by omega⟩
      unfold getLine
      rw [hn]
      dsimp only [Option.bind_some]
      rw [hfl k (by omega), List.range_succ_eq_map (n := m + 1)]
      simp only [Option.bind_some, List.map_cons, List.map_map]
      refine congrArg some (List.cons_eq_cons.2 ⟨?_, ?_⟩)
      · simp
      · apply List.map_congr_left
        intro i _
        simp only [Function.comp]
        congr 1
        push_cast
        ring

/-- what a line of cells from p to q is -/
structure IsLine (p q : Int × Int) (l : List (Int × Int)) : Prop where
  first : l.head? = some p
  last : l.getLast? = some q
  length : (l.length : Int) = max |q.1 - p.1| |q.2 - p.2| + 1
  distinct : l.Nodup
  connected : ∀ i c d, l[i]? = some c → l[i + 1]? = some d → |d.1 - c.1| ≤ 1 ∧ |d.2 - c.2| ≤ 1
  /-- every step goes towards the end -/
  towards : ∀ i c d, l[i]? = some c → l[i + 1]? = some d → 0 ≤ (d.1 - c.1) * (q.1 - p.1) ∧ 0 ≤ (d.2 - c.2) * (q.2 - p.2)
  box : ∀ c ∈ l, min p.1 q.1 ≤ c.1 ∧ c.1 ≤ max p.1 q.1 ∧ min p.2 q.2 ≤ c.2 ∧ c.2 ≤ max p.2 q.2
  /-- at most half a cell from the ideal line, measured along the shorter side -/
  straight : ∀ c ∈ l, 2 * |(q.1 - p.1) * (c.2 - p.2) - (q.2 - p.2) * (c.1 - p.1)| ≤ max |q.1 - p.1| |q.2 - p.2|

/-- coordinates of a size for which the arithmetic cannot overflow -/
def Fits (p : Int × Int) : Prop := |p.1| ≤ 2 ^ 28 ∧ |p.2| ≤ 2 ^ 28

theorem sgn (x0 x1 : Int) : x1 = x0 + (if x0 < x1 then 1 else -1) * |x1 - x0| := by
  split
  · rw [abs_of_pos (by omega)]; omega
  · rw [abs_of_nonpos (by omega)]; omega

theorem init_eq {p q : Int × Int} (hp : Fits p) (hq : Fits q) :
    Small p.1 p.2 q.1 q.2 |q.1 - p.1| |q.2 - p.2| (if p.1 < q.1 then 1 else -1) (if p.2 < q.2 then 1 else -1) ∧
    init p.1 p.2 q.1 q.2 = some (mk p.1 p.2 q.1 q.2 |q.1 - p.1| |q.2 - p.2| (if p.1 < q.1 then 1 else -1) (if p.2 < q.2 then 1 else -1) 0 0) := by
  obtain ⟨a, b⟩ := hp
  obtain ⟨c, d⟩ := hq
  rw [abs_le] at a b c d
  refine ⟨⟨a, b, ⟨abs_nonneg _, abs_le.2 ⟨by omega, by omega⟩⟩, ⟨abs_nonneg _, abs_le.2 ⟨by omega, by omega⟩⟩, sgn _ _, sgn _ _, ?_, ?_⟩, ?_⟩
  · split <;> simp
  · split <;> simp
  · unfold init
    rw [chk_bind ⟨by omega, by omega⟩, chk_bind ⟨by omega, by omega⟩, chk_bind ⟨by omega, by omega⟩, chk_bind ⟨by omega, by omega⟩, chk_bind ⟨by omega, by omega⟩]
    unfold mk
    simp only [Int.natCast_natAbs]
    congr 2 <;> simp
    ring

theorem abs_step {s x y x' y' : Int} (hs : s = 1 ∨ s = -1) (h : y = x ∨ y = x + 1) (h1 : x' = s * x) (h2 : y' = s * y) : |y' - x'| ≤ 1 := by
  subst h1 h2
  rcases hs with rfl | rfl <;> rcases h with rfl | rfl <;> rw [abs_le] <;> constructor <;> omega

theorem towards_step {s x y k x' y' P Q : Int} (hs : s = 1 ∨ s = -1) (h : y = x ∨ y = x + 1) (hk : 0 ≤ k) (h1 : x' = s * x) (h2 : y' = s * y)
    (hq : Q = P + s * k) : 0 ≤ (y' - x') * (Q - P) := by
  subst h1 h2 hq
  have : (s * y - s * x) * (P + s * k - P) = (s * s) * ((y - x) * k) := by ring
  rw [this]
  have h3 : s * s = 1 := by rcases hs with rfl | rfl <;> rfl
  rw [h3, one_mul]
  exact mul_nonneg (by omega) hk

theorem range_get {A : Type} {n i : Nat} {f : Nat → A} {c : A} (h : ((List.range n).map f)[i]? = some c) : i < n ∧ c = f i := by
  rw [List.getElem?_map] at h
  by_cases hi : i < n
  · rw [List.getElem?_range hi] at h
    exact ⟨hi, by simpa using h.symm⟩
  · rw [List.getElem?_eq_none (by simpa using hi)] at h
    cases h

/-- **C32** The line iterator terminates, without overflow, and gives a line of cells from p to q. -/
theorem C32_bresenham_line (p q : Int × Int) (hp : Fits p) (hq : Fits q) :
    ∃ l, IsLine p q l ∧ ∀ fuel : Nat, max |q.1 - p.1| |q.2 - p.2| + 2 ≤ fuel → lineBresenham fuel p q = some l := by
  obtain ⟨hs, hi⟩ := init_eq hp hq
  generalize ha : |q.1 - p.1| = a at hs hi ⊢
  generalize hb : |q.2 - p.2| = b at hs hi ⊢
  generalize hsx : (if p.1 < q.1 then (1 : Int) else -1) = sx at hs hi
  generalize hsy : (if p.2 < q.2 then (1 : Int) else -1) = sy at hs hi
  have hq1 := hs.hx
  have hq2 := hs.hy
  have ha2 := hs.ba.1
  have hb2 := hs.bb.1
  have hss : sx * sx = 1 ∧ sy * sy = 1 := by
    constructor
    · rcases hs.bsx with h | h <;> rw [h] <;> rfl
    · rcases hs.bsy with h | h <;> rw [h] <;> rfl
  have hdist : ∀ u v : Int, |(q.1 - p.1) * (p.2 + sy * v - p.2) - (q.2 - p.2) * (p.1 + sx * u - p.1)| = |a * v - b * u| := by
    intro u v
    have : (q.1 - p.1) * (p.2 + sy * v - p.2) - (q.2 - p.2) * (p.1 + sx * u - p.1) = (sx * sy) * (a * v - b * u) := by
      rw [hq1, hq2]; ring
    rw [this, abs_mul]
    have : |sx * sy| = 1 := by rcases hs.bsx with h | h <;> rcases hs.bsy with h' | h' <;> rw [h, h'] <;> rfl
    rw [this, one_mul]
  have hbox : ∀ u v : Int, 0 ≤ u → u ≤ a → 0 ≤ v → v ≤ b →
      min p.1 q.1 ≤ p.1 + sx * u ∧ p.1 + sx * u ≤ max p.1 q.1 ∧ min p.2 q.2 ≤ p.2 + sy * v ∧ p.2 + sy * v ≤ max p.2 q.2 := by
    intro u v h1 h2 h3 h4
    rcases hs.bsx with h | h <;> rcases hs.bsy with h' | h' <;> rw [h] at hq1 ⊢ <;> rw [h'] at hq2 ⊢ <;>
      refine ⟨?_, ?_, ?_, ?_⟩ <;> omega
  by_cases h00 : a = 0 ∧ b = 0
  · obtain ⟨h1, h2⟩ := h00
    subst h1 h2
    have hpq : q = p := by
      apply Prod.ext <;> [rw [hq1]; rw [hq2]] <;> ring
    refine ⟨[p], ⟨rfl, by rw [hpq]; rfl, by rw [ha, hb]; rfl, by simp, ?_, ?_, ?_, ?_⟩, ?_⟩
    · intro i c d _ h
      rw [List.getElem?_eq_none (by simp)] at h
      cases h
    · intro i c d _ h
      rw [List.getElem?_eq_none (by simp)] at h
      cases h
    · intro c hc
      rw [List.mem_singleton] at hc
      subst hc
      rw [hpq]
      simp
    · intro c hc
      rw [List.mem_singleton] at hc
      subst hc
      rw [hpq]
      simp
    · intro fuel hf
      obtain ⟨k, rfl⟩ : ∃ k, fuel = k + 2 := ⟨fuel - 2, by simp only [max_self] at hf; omega⟩
      unfold lineBresenham
      rw [hi]
      change getLine (k + 2) _ = _
      rw [line_end hs]
      simp
  by_cases hab : b ≤ a
  · have hapos : 0 < a := by omega
    obtain ⟨f, hf0, hfm, hfs, hfi, hfl⟩ := flat hs hab hapos a.toNat 0 0 (Int.le_refl _) (by omega) (by simp; omega) (by simpa using hapos)
    have hmax : max a b = a := max_eq_left hab
    refine ⟨(List.range (a.toNat + 1)).map fun i => (p.1 + sx * (0 + (i : Nat)), p.2 + sy * f i), ⟨?_, ?_, ?_, ?_, ?_, ?_, ?_, ?_⟩, ?_⟩
    · rw [List.range_succ_eq_map]
      simp [hf0]
    · rw [List.range_succ]
      simp only [List.map_append, List.map_cons, List.map_nil, List.getLast?_concat, hfm]
      congr 1
      apply Prod.ext
      · rw [hq1]; simp [Int.toNat_of_nonneg ha2]
      · rw [hq2]
    · rw [ha, hb, hmax]
      simp [ha2]
    · refine List.Nodup.map_on ?_ List.nodup_range
      intro i _ j _ hij
      have h1 := congrArg Prod.fst hij
      dsimp only at h1
      rcases hs.bsx with h | h <;> rw [h] at h1 <;> omega
    · intro i c d hc hd
      obtain ⟨h1, rfl⟩ := range_get hc
      obtain ⟨h2, rfl⟩ := range_get hd
      dsimp only
      constructor
      · rw [add_sub_add_left_eq_sub]
        exact abs_step hs.bsx (x := 0 + (i : Int)) (y := 0 + ((i + 1 : Nat) : Int)) (Or.inr (by push_cast; ring)) rfl rfl
      · rw [add_sub_add_left_eq_sub]
        exact abs_step hs.bsy (hfs i (by omega)) rfl rfl
    · intro i c d hc hd
      obtain ⟨h1, rfl⟩ := range_get hc
      obtain ⟨h2, rfl⟩ := range_get hd
      dsimp only
      constructor
      · rw [add_sub_add_left_eq_sub]
        exact towards_step hs.bsx (x := 0 + (i : Int)) (y := 0 + ((i + 1 : Nat) : Int)) (Or.inr (by push_cast; ring)) ha2 rfl rfl hq1
      · rw [add_sub_add_left_eq_sub]
        exact towards_step hs.bsy (hfs i (by omega)) hb2 rfl rfl hq2
    · intro c hc
      obtain ⟨i, hi', rfl⟩ := List.mem_map.1 hc
      rw [List.mem_range] at hi'
      have := hfi i (by omega)
      exact hbox _ _ (by omega) (by omega) this.2.2.1 this.2.2.2
    · intro c hc
      obtain ⟨i, hi', rfl⟩ := List.mem_map.1 hc
      rw [List.mem_range] at hi'
      have := hfi i (by omega)
      dsimp only
      rw [hdist, ha, hb, hmax, ← abs_two, ← abs_mul, abs_le]
      exact ⟨this.1, this.2.1.le⟩
    · intro fuel hf
      rw [hmax] at hf
      unfold lineBresenham
      rw [hi]
      exact hfl fuel (by omega)
  · have hab' : a < b := by omega
    obtain ⟨f, hf0, hfm, hfs, hfi, hfl⟩ := steep hs hab' b.toNat 0 0 (Int.le_refl _) (by omega) (by simp; omega) (by simp; omega)
    have hmax : max a b = b := max_eq_right hab'.le
    refine ⟨(List.range (b.toNat + 1)).map fun i => (p.1 + sx * f i, p.2 + sy * (0 + (i : Nat))), ⟨?_, ?_, ?_, ?_, ?_, ?_, ?_, ?_⟩, ?_⟩
    · rw [List.range_succ_eq_map]
      simp [hf0]
    · rw [List.range_succ]
      simp only [List.map_append, List.map_cons, List.map_nil, List.getLast?_concat, hfm]
      congr 1
      apply Prod.ext
      · rw [hq1]
      · rw [hq2]; simp [Int.toNat_of_nonneg hb2]
    · rw [ha, hb, hmax]
      simp [hb2]
    · refine List.Nodup.map_on ?_ List.nodup_range
      intro i _ j _ hij
      have h1 := congrArg Prod.snd hij
      dsimp only at h1
      rcases hs.bsy with h | h <;> rw [h] at h1 <;> omega
    · intro i c d hc hd
      obtain ⟨h1, rfl⟩ := range_get hc
      obtain ⟨h2, rfl⟩ := range_get hd
      dsimp only
      constructor
      · rw [add_sub_add_left_eq_sub]
        exact abs_step hs.bsx (hfs i (by omega)) rfl rfl
      · rw [add_sub_add_left_eq_sub]
        exact abs_step hs.bsy (x := 0 + (i : Int)) (y := 0 + ((i + 1 : Nat) : Int)) (Or.inr (by push_cast; ring)) rfl rfl
    · intro i c d hc hd
      obtain ⟨h1, rfl⟩ := range_get hc
      obtain ⟨h2, rfl⟩ := range_get hd
      dsimp only
      constructor
      · rw [add_sub_add_left_eq_sub]
        exact towards_step hs.bsx (hfs i (by omega)) ha2 rfl rfl hq1
      · rw [add_sub_add_left_eq_sub]
        exact towards_step hs.bsy (x := 0 + (i : Int)) (y := 0 + ((i + 1 : Nat) : Int)) (Or.inr (by push_cast; ring)) hb2 rfl rfl hq2
    · intro c hc
      obtain ⟨i, hi', rfl⟩ := List.mem_map.1 hc
      rw [List.mem_range] at hi'
      have := hfi i (by omega)
      exact hbox _ _ this.2.2.1 this.2.2.2 (by omega) (by omega)
    · intro c hc
      obtain ⟨i, hi', rfl⟩ := List.mem_map.1 hc
      rw [List.mem_range] at hi'
      have := hfi i (by omega)
      dsimp only
      rw [hdist, ha, hb, hmax, ← abs_two, ← abs_mul, abs_le]
      exact ⟨this.1.le, this.2.1⟩
    · intro fuel hf
      rw [hmax] at hf
      unfold lineBresenham
      rw [hi]
      exact hfl fuel (by omega)

/-- a line of eight cells to the upper left -/
example : Fits (3, -2) ∧ Fits (-4, 1) ∧ lineBresenham 9 (3, -2) (-4, 1) = some [(3, -2), (2, -2), (1, -1), (0, -1), (-1, 0), (-2, 0), (-3, 1), (-4, 1)] := by
  refine ⟨⟨by decide, by decide⟩, ⟨by decide, by decide⟩, by decide +kernel⟩

/-- C32, why the coordinates are limited: long lines overflow -/
theorem C32_overflow : lineBresenham 5 (-2 ^ 30, 0) (2 ^ 30, 1) = none ∧ lineBresenham 5 (-2 ^ 30 - 1, 0) (2 ^ 30 - 1, 0) = none := by decide +kernel

end Envire.Bresenham

#print axioms Envire.Bresenham.C32_bresenham_line
#print axioms Envire.Bresenham.C32_overflow
