import Verif.Ops.GrowModel
import Mathlib.Tactic.Linarith
import Mathlib.Tactic.Positivity
import Mathlib.Tactic.FieldSimp
import Mathlib.Tactic.NormNum
import Mathlib.Data.List.Basic

/-!
C44, C66, C67: growing over a radius. See GrowModel.lean.
-/

namespace Envire.Grow

/-! ### specification -/

/-- the cell is in the grid -/
def Geo.In (g : Geo) (c : Cell) : Prop := c.1 < g.w ∧ c.2 < g.h

/-- the centres of the cells are less than the radius apart -/
def Geo.Near (g : Geo) (c t : Cell) : Prop :=
  0 < g.r ∧ (((t.1 : ℚ) - c.1) * g.sx) ^ 2 + (((t.2 : ℚ) - c.2) * g.sy) ^ 2 < g.r ^ 2

/-! ### lemmas -/

theorem mem_irange {a b i : ℤ} : i ∈ irange a b ↔ a ≤ i ∧ i ≤ b := by
  unfold irange
  rw [List.mem_map]
  constructor
  · rintro ⟨k, hk, rfl⟩
    rw [List.mem_range] at hk
    omega
  · rintro ⟨h1, h2⟩
    refine ⟨(i - a).toNat, ?_, by omega⟩
    rw [List.mem_range]
    omega

theorem mem_offsets {wx wy : ℤ} {o : ℤ × ℤ} : o ∈ offsets wx wy ↔ (-wx ≤ o.1 ∧ o.1 ≤ wx) ∧ -wy ≤ o.2 ∧ o.2 ≤ wy := by
  unfold offsets
  rw [List.mem_flatMap]
  constructor
  · rintro ⟨y, hy, h⟩
    obtain ⟨x, hx, rfl⟩ := List.mem_map.1 h
    exact ⟨mem_irange.1 hx, mem_irange.1 hy⟩
  · rintro ⟨h1, h2⟩
    exact ⟨o.2, mem_irange.2 h2, List.mem_map.2 ⟨o.1, mem_irange.2 h1, rfl⟩⟩

theorem mem_cells {w h : Nat} {c : Cell} : c ∈ cells w h ↔ c.1 < w ∧ c.2 < h := by
  unfold cells
  rw [List.mem_flatMap]
  constructor
  · rintro ⟨y, hy, h⟩
    obtain ⟨x, hx, rfl⟩ := List.mem_map.1 h
    exact ⟨List.mem_range.1 hx, List.mem_range.1 hy⟩
  · rintro ⟨h1, h2⟩
    exact ⟨c.2, List.mem_range.2 h2, List.mem_map.2 ⟨c.1, List.mem_range.2 h1, rfl⟩⟩

theorem target_some {g : Geo} {c t : Cell} {o : ℤ × ℤ} :
    g.target c o = some t ↔ (o.1 * g.sx) ^ 2 + (o.2 * g.sy) ^ 2 < g.r ^ 2 ∧ g.In t ∧ (t.1 : ℤ) = c.1 + o.1 ∧ (t.2 : ℤ) = c.2 + o.2 := by
  unfold Geo.target Geo.In
  dsimp only
  split
  next h =>
    obtain ⟨h1, ⟨h2, h3⟩, h4, h5⟩ := h
    rw [Option.some.injEq, Prod.ext_iff]
    dsimp only
    constructor
    · rintro ⟨e1, e2⟩
      refine ⟨h1, ?_, ?_, ?_⟩ <;> omega
    · rintro ⟨_, _, e1, e2⟩
      omega
  next h =>
    constructor
    · intro e
      cases e
    · rintro ⟨h1, ⟨h2, h3⟩, h4, h5⟩
      exact absurd ⟨h1, ⟨by omega, by omega⟩, by omega, by omega⟩ h

/-- an offset inside of the radius is inside of the loop bounds -/
theorem abs_le_trunc {r s : ℚ} {k : ℤ} (hs : 0 < s) (hr : 0 < r) (h : ((k : ℚ) * s) ^ 2 < r ^ 2) : -trunc (r / s) ≤ k ∧ k ≤ trunc (r / s) := by
  have h1 := abs_lt_of_sq_lt_sq h hr.le
  rw [abs_lt] at h1
  have hq : 0 ≤ r / s := by positivity
  unfold trunc
  rw [if_pos hq]
  have e : r / s * s = r := by field_simp
  constructor
  · have h2 : (-k : ℤ) ≤ ⌊r / s⌋ := by
      rw [Int.le_floor]
      by_contra hn
      rw [not_le] at hn
      have := mul_lt_mul_of_pos_right hn hs
      push_cast at this
      rw [e] at this
      linarith [h1.1]
    omega
  · rw [Int.le_floor]
    by_contra hn
    rw [not_le] at hn
    have := mul_lt_mul_of_pos_right hn hs
    rw [e] at this
    linarith [h1.2]

theorem abs_le_trunc' {r s : ℚ} {k : ℤ} (hs : 0 < s) (hr : 0 < r) (h : ((k : ℚ) * s) ^ 2 < r ^ 2) :
    -trunc (r / s + 1) ≤ k ∧ k ≤ trunc (r / s + 1) := by
  have h1 := abs_le_trunc hs hr h
  have hq : 0 ≤ r / s := by positivity
  have : trunc (r / s) ≤ trunc (r / s + 1) := by
    unfold trunc
    rw [if_pos hq, if_pos (by linarith)]
    exact Int.floor_mono (by linarith)
  omega

/-- with a radius that is not positive the window has at most the cell itself -/
theorem window_nonpos {r s : ℚ} {k : ℤ} (hs : 0 < s) (hr : r < 0) (h : -trunc (r / s + 1) ≤ k ∧ k ≤ trunc (r / s + 1)) : k = 0 := by
  have hq : r / s < 0 := div_neg_of_neg_of_pos hr hs
  have : trunc (r / s + 1) ≤ 0 := by
    unfold trunc
    split
    next h0 =>
      have : ⌊r / s + 1⌋ < 1 := by
        rw [Int.floor_lt]
        push_cast
        linarith
      omega
    next h0 =>
      rw [not_le] at h0
      rw [Int.ceil_le]
      push_cast
      exact h0.le
  omega

/-- the targets that one source cell reaches -/
theorem target_window {g : Geo} (hx : 0 < g.sx) (hy : 0 < g.sy) {c t : Cell} (ht : g.In t) :
    ((∃ o ∈ g.window, g.target c o = some t) → c = t ∨ g.Near c t) ∧ (g.Near c t → ∃ o ∈ g.window, g.target c o = some t) := by
  constructor
  · rintro ⟨o, ho, h⟩
    obtain ⟨h1, h2, h3, h4⟩ := target_some.1 h
    unfold Geo.window at ho
    rw [mem_offsets] at ho
    have e3 : ((t.1 : ℚ) - c.1) = o.1 := by
      have : ((t.1 : ℤ) : ℚ) = ((c.1 + o.1 : ℤ) : ℚ) := by rw [h3]
      push_cast at this
      linarith
    have e4 : ((t.2 : ℚ) - c.2) = o.2 := by
      have : ((t.2 : ℤ) : ℚ) = ((c.2 + o.2 : ℤ) : ℚ) := by rw [h4]
      push_cast at this
      linarith
    rcases lt_trichotomy g.r 0 with hr | hr | hr
    · left
      have k1 := window_nonpos hx hr ho.1
      have k2 := window_nonpos hy hr ho.2
      rw [Prod.ext_iff]
      omega
    · exfalso
      rw [hr] at h1
      have : (0 : ℚ) ≤ (o.1 * g.sx) ^ 2 + (o.2 * g.sy) ^ 2 := by positivity
      linarith
    · right
      refine ⟨hr, ?_⟩
      rw [e3, e4]
      exact h1
  · rintro ⟨hr, hn⟩
    refine ⟨((t.1 : ℤ) - c.1, (t.2 : ℤ) - c.2), ?_, ?_⟩
    · unfold Geo.window
      rw [mem_offsets]
      have p1 : (0 : ℚ) ≤ (((t.1 : ℚ) - c.1) * g.sx) ^ 2 := by positivity
      have p2 : (0 : ℚ) ≤ (((t.2 : ℚ) - c.2) * g.sy) ^ 2 := by positivity
      refine ⟨abs_le_trunc' hx hr ?_, abs_le_trunc' hy hr ?_⟩
      · push_cast
        linarith
      · push_cast
        linarith
    · rw [target_some]
      refine ⟨?_, ht, ?_, ?_⟩
      · push_cast
        exact hn
      · dsimp only
        omega
      · dsimp only
        omega

/-- the same for the smaller window -/
theorem target_windowExact {g : Geo} (hx : 0 < g.sx) (hy : 0 < g.sy) (hr : 0 < g.r) {c t : Cell} (ht : g.In t) :
    (∃ o ∈ g.windowExact, g.target c o = some t) ↔ g.Near c t := by
  constructor
  · rintro ⟨o, ho, h⟩
    obtain ⟨h1, h2, h3, h4⟩ := target_some.1 h
    have e3 : ((t.1 : ℚ) - c.1) = o.1 := by
      have : ((t.1 : ℤ) : ℚ) = ((c.1 + o.1 : ℤ) : ℚ) := by rw [h3]
      push_cast at this
      linarith
    have e4 : ((t.2 : ℚ) - c.2) = o.2 := by
      have : ((t.2 : ℤ) : ℚ) = ((c.2 + o.2 : ℤ) : ℚ) := by rw [h4]
      push_cast at this
      linarith
    refine ⟨hr, ?_⟩
    rw [e3, e4]
    exact h1
  · rintro ⟨_, hn⟩
    refine ⟨((t.1 : ℤ) - c.1, (t.2 : ℤ) - c.2), ?_, ?_⟩
    · unfold Geo.windowExact
      rw [mem_offsets]
      have p1 : (0 : ℚ) ≤ (((t.1 : ℚ) - c.1) * g.sx) ^ 2 := by positivity
      have p2 : (0 : ℚ) ≤ (((t.2 : ℚ) - c.2) * g.sy) ^ 2 := by positivity
      refine ⟨abs_le_trunc hx hr ?_, abs_le_trunc hy hr ?_⟩
      · push_cast
        linarith
      · push_cast
        linarith
    · rw [target_some]
      refine ⟨?_, ht, ?_, ?_⟩
      · push_cast
        exact hn
      · dsimp only
        omega
      · dsimp only
        omega

/-- a fold that may fail but does not -/
theorem foldlM_some {σ α : Type} {f : σ → α → Option σ} {k : σ → α → σ} {I : σ → Prop} : ∀ (L : List α) (d : σ), I d →
    (∀ d x, I d → x ∈ L → f d x = some (k d x) ∧ I (k d x)) → L.foldlM f d = some (L.foldl k d) ∧ I (L.foldl k d)
  | [], d, hd, _ => ⟨rfl, hd⟩
  | x :: L, d, hd, h => by
    obtain ⟨h1, h2⟩ := h d x hd List.mem_cons_self
    rw [List.foldlM_cons, h1]
    exact foldlM_some L _ h2 fun d y hd hy => h d y hd (List.mem_cons_of_mem _ hy)

section
variable {A : Type} (B : A → A → Prop) [DecidableRel B]

/-- writes a value if it is bigger -/
def put (d : Cell → A) (u : Cell × A) : Cell → A := if B u.2 (d u.1) then Function.update d u.1 u.2 else d

theorem foldl_put (t : Cell) : ∀ (L : List (Cell × A)) (d : Cell → A),
    L.foldl (put B) d t = ((L.filter fun u => decide (u.1 = t)).map (·.2)).foldl (fun a v => if B v a then v else a) (d t)
  | [], _ => rfl
  | u :: L, d => by
    rw [List.foldl_cons, foldl_put t L]
    by_cases e : u.1 = t
    · rw [List.filter_cons_of_pos (by simpa using e), List.map_cons, List.foldl_cons]
      congr 1
      unfold put
      subst e
      split
      · exact Function.update_self ..
      · rfl
    · rw [List.filter_cons_of_neg (by simpa using e)]
      congr 1
      unfold put
      split
      · exact Function.update_of_ne (Ne.symm e) ..
      · rfl

/-- a fold that keeps the bigger value ends with a biggest value -/
theorem foldl_biggest {S : A → Prop} (irr : ∀ a, S a → ¬B a a) (tr : ∀ a b c, S a → S b → S c → B a b → B b c → B a c)
    (ntr : ∀ a b c, S a → S b → S c → ¬B a b → ¬B b c → ¬B a c) : ∀ (L : List A) (a : A), S a → (∀ v ∈ L, S v) →
    let r := L.foldl (fun a v => if B v a then v else a) a
    (r = a ∨ r ∈ L) ∧ (∀ v ∈ a :: L, ¬B v r) ∧ (r = a ∨ B r a)
  | [], a, ha, _ => ⟨.inl rfl, by simpa using irr a ha, .inl rfl⟩
  | v :: L, a, ha, hL => by
    have hv := hL v List.mem_cons_self
    have hL' := fun u hu => hL u (List.mem_cons_of_mem v hu)
    rw [List.foldl_cons]
    by_cases h : B v a
    · rw [if_pos h]
      obtain ⟨h1, h2, h3⟩ := foldl_biggest irr tr ntr L v hv hL'
      set r := L.foldl (fun a v => if B v a then v else a) v
      have hr : S r := by
        rcases h1 with h1 | h1
        · rw [h1]; exact hv
        · exact hL' r h1
      have hra : B r a := by
        rcases h3 with h3 | h3
        · rw [h3]; exact h
        · exact tr r v a hr hv ha h3 h
      refine ⟨?_, ?_, .inr hra⟩
      · rcases h1 with h1 | h1
        · right; rw [h1]; exact List.mem_cons_self
        · right; exact List.mem_cons_of_mem _ h1
      · intro u hu
        rcases List.mem_cons.1 hu with rfl | hu
        · exact fun hb => irr u ha (tr u r u ha hr ha hb hra)
        · exact h2 u hu
    · rw [if_neg h]
      obtain ⟨h1, h2, h3⟩ := foldl_biggest irr tr ntr L a ha hL'
      set r := L.foldl (fun a v => if B v a then v else a) a
      have hr : S r := by
        rcases h1 with h1 | h1
        · rw [h1]; exact ha
        · exact hL' r h1
      refine ⟨?_, ?_, h3⟩
      · rcases h1 with h1 | h1
        · left; exact h1
        · right; exact List.mem_cons_of_mem _ h1
      · intro u hu
        rcases List.mem_cons.1 hu with rfl | hu
        · exact h2 u List.mem_cons_self
        · rcases List.mem_cons.1 hu with rfl | hu
          · exact ntr u a r hv ha hr h (h2 a List.mem_cons_self)
          · exact h2 u (List.mem_cons_of_mem _ hu)

end

/-- pure version of the loops: for every source cell that takes part its value is put to all targets -/
def pureGrow {A : Type} (B : A → A → Prop) [DecidableRel B] (g : Geo) (src : Cell → Bool) (orig : Cell → A) : Cell → A :=
  (cells g.w g.h).foldl (fun d c => if src c then (g.window.filterMap (g.target c)).foldl (fun d t => put B d (t, orig c)) d else d) orig

/-- all updates in order -/
def updates {A : Type} (g : Geo) (src : Cell → Bool) (orig : Cell → A) (L : List Cell) : List (Cell × A) :=
  (L.filter src).flatMap fun c => (g.window.filterMap (g.target c)).map fun t => (t, orig c)

theorem pureGrow_eq {A : Type} (B : A → A → Prop) [DecidableRel B] (g : Geo) (src : Cell → Bool) (orig : Cell → A) (L : List Cell)
    (d : Cell → A) :
    L.foldl (fun d c => if src c then (g.window.filterMap (g.target c)).foldl (fun d t => put B d (t, orig c)) d else d) d =
      (updates g src orig L).foldl (put B) d := by
  induction L generalizing d with
  | nil => rfl
  | cons c L ih =>
    rw [List.foldl_cons, ih]
    unfold updates
    cases hs : src c with
    | true =>
      rw [List.filter_cons_of_pos hs, List.flatMap_cons, List.foldl_append, List.foldl_map]
      rfl
    | false =>
      rw [List.filter_cons_of_neg (by rw [hs]; decide)]
      rfl

theorem pureGrow_spec {A : Type} (B : A → A → Prop) [DecidableRel B] (g : Geo) (hx : 0 < g.sx) (hy : 0 < g.sy) (src : Cell → Bool)
    (orig : Cell → A) {S : A → Prop} (hS : ∀ c, g.In c → S (orig c)) (irr : ∀ a, S a → ¬B a a)
    (tr : ∀ a b c, S a → S b → S c → B a b → B b c → B a c) (ntr : ∀ a b c, S a → S b → S c → ¬B a b → ¬B b c → ¬B a c)
    (t : Cell) (ht : g.In t) :
    let r := pureGrow B g src orig t
    (r = orig t ∨ ∃ c, g.In c ∧ src c = true ∧ (c = t ∨ g.Near c t) ∧ r = orig c) ∧ ¬B (orig t) r ∧
    (∀ c, g.In c → src c = true → g.Near c t → ¬B (orig c) r) ∧ (r = orig t ∨ B r (orig t)) := by
  intro r
  have hr : r = ((updates g src orig (cells g.w g.h)).foldl (put B) orig) t := by
    show pureGrow B g src orig t = _
    unfold pureGrow
    rw [pureGrow_eq]
  rw [foldl_put] at hr
  set L := ((updates g src orig (cells g.w g.h)).filter fun u => decide (u.1 = t)).map (·.2) with hL
  have memL : ∀ v, v ∈ L ↔ ∃ c, g.In c ∧ src c = true ∧ (∃ o ∈ g.window, g.target c o = some t) ∧ v = orig c := by
    intro v
    rw [hL, List.mem_map]
    constructor
    · rintro ⟨u, hu, rfl⟩
      obtain ⟨h1, h2⟩ := List.mem_filter.1 hu
      obtain ⟨c, hc, h3⟩ := List.mem_flatMap.1 h1
      obtain ⟨hc1, hc2⟩ := List.mem_filter.1 hc
      obtain ⟨t', h4, rfl⟩ := List.mem_map.1 h3
      obtain ⟨o, h5, h6⟩ := List.mem_filterMap.1 h4
      have e : t' = t := by simpa using h2
      subst e
      exact ⟨c, mem_cells.1 hc1, hc2, ⟨o, h5, h6⟩, rfl⟩
    · rintro ⟨c, h1, h2, ⟨o, h3, h4⟩, rfl⟩
      refine ⟨(t, orig c), List.mem_filter.2 ⟨List.mem_flatMap.2 ⟨c, List.mem_filter.2 ⟨mem_cells.2 h1, h2⟩,
        List.mem_map.2 ⟨t, List.mem_filterMap.2 ⟨o, h3, h4⟩, rfl⟩⟩, ?_⟩, rfl⟩
      simp
  have := foldl_biggest B irr tr ntr L (orig t) (hS t ht) (by
    intro v hv
    obtain ⟨c, hc, _, _, rfl⟩ := (memL v).1 hv
    exact hS c hc)
  rw [← hr] at this
  obtain ⟨h1, h2, h3⟩ := this
  refine ⟨?_, h2 _ List.mem_cons_self, ?_, h3⟩
  · rcases h1 with h1 | h1
    · exact .inl h1
    · obtain ⟨c, k1, k2, k3, k4⟩ := (memL _).1 h1
      exact .inr ⟨c, k1, k2, (target_window hx hy ht).1 k3, k4⟩
  · intro c k1 k2 k3
    exact h2 _ (List.mem_cons_of_mem _ ((memL _).2 ⟨c, k1, k2, (target_window hx hy ht).2 k3, rfl⟩))

/-- step that is left out if there is no target -/
def onSome {σ α β : Type} (f : α → Option β) (k : σ → β → σ) (d : σ) (x : α) : σ :=
  match f x with
  | none => d
  | some y => k d y

theorem foldl_filterMap' {σ α β : Type} (f : α → Option β) (k : σ → β → σ) : ∀ (L : List α) (d : σ),
    L.foldl (onSome f k) d = (L.filterMap f).foldl k d
  | [], _ => rfl
  | x :: L, d => by
    rw [List.foldl_cons, foldl_filterMap' f k L]
    unfold onSome
    cases e : f x with
    | none => rw [List.filterMap_cons_none e]
    | some y => rw [List.filterMap_cons_some e]; rfl

/-! ### C44 -/

/-- the policy is a strict total order on the values below its `maxValue` -/
structure Policy.Order (p : Policy) : Prop where
  irr : ∀ a, a < p.maxValue → p.table a a = false
  tr : ∀ a b c, a < p.maxValue → b < p.maxValue → c < p.maxValue → p.table a b = true → p.table b c = true → p.table a c = true
  tot : ∀ a b, a < p.maxValue → b < p.maxValue → a ≠ b → p.table a b = true ∨ p.table b a = true

theorem growLoop_pure (p : Policy) (g : Geo) (orig : Cell → Nat) (hv : ∀ c, g.In c → orig c < p.maxValue) :
    growLoop p g orig = some (pureGrow (fun a b => p.table a b = true) g (fun _ => true) orig) := by
  unfold growLoop pureGrow
  refine (foldlM_some (I := fun d => ∀ c, g.In c → d c < p.maxValue) _ _ hv ?_).1
  intro d c hd hc
  have hc' := hv c (mem_cells.1 hc)
  have key := foldlM_some (f := growStep p g orig c) (I := fun d => ∀ c, g.In c → d c < p.maxValue)
    (k := onSome (g.target c) fun d t => put (fun a b => p.table a b = true) d (t, orig c)) g.window d hd (by
      intro d o hd _
      unfold growStep onSome
      cases ht : g.target c o with
      | none => exact ⟨rfl, hd⟩
      | some t =>
        have hti := (target_some.1 ht).2.1
        dsimp only
        unfold Policy.isBigger
        rw [if_pos ⟨hc', hd t hti⟩]
        refine ⟨rfl, ?_⟩
        intro e he
        unfold put
        split
        · by_cases h : e = t
          · subst h
            rw [Function.update_self]
            exact hc'
          · rw [Function.update_of_ne h]
            exact hd e he
        · exact hd e he)
  rw [foldl_filterMap'] at key
  exact key

/-- **C44 (partial)**: for values below the `maxValue` of the policy, a policy that is a strict total order and maps of the same
extents, growObjects succeeds; the result of a cell is the input value of the cell itself or of a cell within the radius, and no
input value of these is bigger. What is missing: the value `maxValue` itself, see `C44_maxValue`. -/
theorem C44_grow_partial (p : Policy) (hp : p.Order) (g : Geo) (hx : 0 < g.sx) (hy : 0 < g.sy) (orig : Cell → Nat)
    (hv : ∀ c, g.In c → orig c < p.maxValue) : ∃ out, growObjects p g orig g.w g.h = .ok out ∧ ∀ t, g.In t →
    (∃ c, g.In c ∧ (c = t ∨ g.Near c t) ∧ out t = orig c) ∧
    (∀ c, g.In c → c = t ∨ g.Near c t → out t = orig c ∨ p.table (out t) (orig c) = true) := by
  refine ⟨pureGrow (fun a b => p.table a b = true) g (fun _ => true) orig, ?_, ?_⟩
  · unfold growObjects
    rw [if_neg (by simp), if_neg (by simp), growLoop_pure p g orig hv]
  · intro t ht
    obtain ⟨h1, h2, h3, h4⟩ := pureGrow_spec (fun a b => p.table a b = true) g hx hy (fun _ => true) orig (S := fun a => a < p.maxValue) hv
      (fun a ha => by rw [hp.irr a ha]; decide) hp.tr (by
        intro a b c ha hb hc n1 n2 n3
        by_cases e : a = b
        · subst e
          exact n2 n3
        · rcases hp.tot a b ha hb e with h | h
          · exact n1 h
          · exact n2 (hp.tr b a c hb ha hc h n3)) t ht
    set r := pureGrow (fun a b => p.table a b = true) g (fun _ => true) orig t
    have h1' : ∃ c, g.In c ∧ (c = t ∨ g.Near c t) ∧ r = orig c := by
      rcases h1 with h1 | ⟨c, k1, _, k2, k3⟩
      · exact ⟨t, ht, .inl rfl, h1⟩
      · exact ⟨c, k1, k2, k3⟩
    refine ⟨h1', ?_⟩
    intro c hc hct
    have hr : r < p.maxValue := by
      obtain ⟨c', k1, _, k3⟩ := h1'
      rw [k3]
      exact hv c' k1
    by_cases e : r = orig c
    · exact .inl e
    · right
      rcases hp.tot r (orig c) hr (hv c hc) e with h | h
      · exact h
      · exfalso
        rcases hct with rfl | hn
        · exact h2 h
        · exact h3 c hc rfl hn h

/-- maps with different numbers of cells are rejected -/
theorem C44_sizes (p : Policy) (g : Geo) (orig : Cell → Nat) (wo ho : Nat) (h : g.w * g.h ≠ wo * ho) : growObjects p g orig wo ho = .throw :=
  if_pos h

/-- A policy for values up to 1, a map that contains the value 1: the table has only one row and one column, every call with a
positive radius reads outside of it. -/
theorem C44_maxValue (tab : Nat → Nat → Bool) : growObjects ⟨1, tab⟩ ⟨1, 1, 1, 1, 1⟩ (fun _ => 1) 1 1 = .ub := by
  unfold growObjects
  rw [if_neg (by decide), if_neg (by decide)]
  have : growLoop ⟨1, tab⟩ ⟨1, 1, 1, 1, 1⟩ (fun _ => 1) = none := by
    unfold growLoop
    rw [show cells 1 1 = [(0, 0)] by decide, show Geo.window ⟨1, 1, 1, 1, 1⟩ = offsets 2 2 by decide +kernel]
    have key : ∀ (L : List (ℤ × ℤ)) (d : Cell → Nat), (∀ c, d c = 1) → (∃ o ∈ L, (Geo.target ⟨1, 1, 1, 1, 1⟩ (0, 0) o).isSome = true) →
        L.foldlM (growStep ⟨1, tab⟩ ⟨1, 1, 1, 1, 1⟩ (fun _ => 1) (0, 0)) d = none := by
      intro L
      induction L with
      | nil => rintro d _ ⟨o, h, _⟩; cases h
      | cons o L ih =>
        rintro d hd ⟨o', ho', hs⟩
        rw [List.foldlM_cons]
        unfold growStep
        cases ht : Geo.target ⟨1, 1, 1, 1, 1⟩ (0, 0) o with
        | none =>
          refine ih d hd ⟨o', ?_, hs⟩
          rcases List.mem_cons.1 ho' with rfl | h
          · rw [ht] at hs; cases hs
          · exact h
        | some t => rfl
    rw [List.foldlM_cons, key _ _ (fun _ => rfl) ⟨(0, 0), by decide, by decide +kernel⟩]
    rfl
  rw [this]

/-- the bigger number wins; the value 5 grows to the direct neighbours (radius 1.5) of a row of five cells -/
def exPolicy : Policy := ⟨10, fun a b => decide (b < a)⟩

theorem exPolicy_order : exPolicy.Order :=
  ⟨fun a _ => by simp [exPolicy], fun a b c _ _ _ => by simp only [exPolicy, decide_eq_true_eq]; omega,
    fun a b _ _ h => by simp only [exPolicy, decide_eq_true_eq]; omega⟩

example : (growLoop exPolicy ⟨5, 1, 1, 1, 3 / 2⟩ (fun c => if c.1 = 1 then 5 else if c.1 = 4 then 3 else 0)).map
    (fun d => (cells 5 1).map d) = some [5, 5, 5, 3, 3] := by decide +kernel

/-! ### C66 -/

/-- drivability of a class number -/
def driv (classes : List ℚ) (e : Entry) : ℚ := classes.getD e.klass 0

/-- the order of `growTerrains`: a known entry beats an unknown one, and one with a higher drivability -/
def Worse (classes : List ℚ) (v d : Entry) : Prop := v.unknown = false ∧ (d.unknown = true ∨ driv classes v < driv classes d)

instance (classes : List ℚ) : DecidableRel (Worse classes) := fun _ _ => inferInstanceAs (Decidable (_ ∧ _))

theorem growTerrains_pure (classes : List ℚ) (g : Geo) (orig : Cell → Entry) (hv : ∀ c, g.In c → (orig c).klass < classes.length) :
    growTerrains classes g orig = some (pureGrow (Worse classes) g (fun c => !(orig c).unknown) orig) := by
  unfold growTerrains pureGrow
  refine (foldlM_some (I := fun d => ∀ c, g.In c → (d c).klass < classes.length) _ _ hv ?_).1
  intro d c hd hc
  have hc' := hv c (mem_cells.1 hc)
  unfold terrainCell
  dsimp only
  by_cases hu : (orig c).unknown = true
  · rw [if_pos hu, if_neg (by rw [hu]; decide)]
    exact ⟨rfl, hd⟩
  · rw [Bool.not_eq_true] at hu
    rw [if_neg (by rw [hu]; decide), if_pos (by rw [hu]; decide), List.getElem?_eq_getElem hc']
    have hdc : classes[(orig c).klass] = driv classes (orig c) := by unfold driv; rw [List.getD_eq_getElem?_getD, List.getElem?_eq_getElem hc']; rfl
    have key := foldlM_some (f := terrainStep classes g c (orig c) classes[(orig c).klass]) (I := fun d => ∀ c, g.In c → (d c).klass < classes.length)
      (k := onSome (g.target c) fun d t => put (Worse classes) d (t, orig c)) g.window d hd (by
        intro d o hd _
        unfold terrainStep onSome
        cases ht : g.target c o with
        | none => exact ⟨rfl, hd⟩
        | some t =>
          have hti := hd t (target_some.1 ht).2.1
          have hdt : classes[(d t).klass] = driv classes (d t) := by unfold driv; rw [List.getD_eq_getElem?_getD, List.getElem?_eq_getElem hti]; rfl
          dsimp only
          rw [List.getElem?_eq_getElem hti, Option.map_some, hdc, hdt]
          constructor
          · unfold put
            congr 1
            have : Worse classes (orig c) (d t) ↔ ((d t).unknown = true ∨ driv classes (orig c) < driv classes (d t)) :=
              ⟨fun h => h.2, fun h => ⟨hu, h⟩⟩
            by_cases h : Worse classes (orig c) (d t)
            · rw [if_pos h, if_pos (this.1 h)]
            · rw [if_neg h, if_neg fun h' => h (this.2 h')]
          · intro e he
            unfold put
            split
            · by_cases h : e = t
              · subst h
                rw [Function.update_self]
                exact hc'
              · rw [Function.update_of_ne h]
                exact hd e he
            · exact hd e he)
    rw [foldl_filterMap'] at key
    exact key

/-- the cells that count as unknown are those with the stored probability 0 -/
theorem C66_unknown (e : Entry) : e.unknown = true ↔ e.prob = 0 := by
  unfold Entry.unknown
  rw [decide_eq_true_eq]
  constructor
  · intro h
    by_contra hn
    have : (1 : ℚ) ≤ e.prob := by exact_mod_cast Nat.one_le_iff_ne_zero.2 hn
    have h2 : (1 : ℚ) / 255 ≤ e.prob / 255 := by linarith
    norm_num at h h2
    linarith
  · intro h
    rw [h]
    norm_num

/-- **C66**: for every map whose class numbers are all registered, growTerrains gives every cell the class and probability of a
known cell within the radius (or of itself) with the lowest drivability; without any known cell it stays as it is. -/
theorem C66_grow_classes (classes : List ℚ) (g : Geo) (hx : 0 < g.sx) (hy : 0 < g.sy) (orig : Cell → Entry)
    (hv : ∀ c, g.In c → (orig c).klass < classes.length) : ∃ out, growTerrains classes g orig = some out ∧ ∀ t, g.In t →
    ((∀ c, g.In c → c = t ∨ g.Near c t → (orig c).unknown = true) → out t = orig t) ∧
    ((∃ c, g.In c ∧ (c = t ∨ g.Near c t) ∧ (orig c).unknown = false) →
      (∃ c, g.In c ∧ (c = t ∨ g.Near c t) ∧ (orig c).unknown = false ∧ out t = orig c) ∧
      (∀ c, g.In c → c = t ∨ g.Near c t → (orig c).unknown = false → driv classes (out t) ≤ driv classes (orig c))) := by
  refine ⟨_, growTerrains_pure classes g orig hv, ?_⟩
  intro t ht
  have hspec := pureGrow_spec (Worse classes) g hx hy (fun c => !(orig c).unknown) orig (S := fun _ => True) (fun _ _ => trivial)
    (by
      rintro a - ⟨h1, h2 | h2⟩
      · rw [h1] at h2; cases h2
      · exact lt_irrefl _ h2)
    (by
      rintro a b c - - - ⟨h1, h2⟩ ⟨h3, h4⟩
      refine ⟨h1, ?_⟩
      rcases h4 with h4 | h4
      · exact .inl h4
      · rcases h2 with h2 | h2
        · rw [h3] at h2; cases h2
        · exact .inr (h2.trans h4))
    (by
      rintro a b c - - - n1 n2 ⟨h1, h2⟩
      have k1 : ¬(b.unknown = true ∨ driv classes a < driv classes b) := fun h => n1 ⟨h1, h⟩
      rw [not_or, Bool.not_eq_true, not_lt] at k1
      refine n2 ⟨k1.1, ?_⟩
      rcases h2 with h2 | h2
      · exact .inl h2
      · exact .inr (k1.2.trans_lt h2)) t ht
  set r := pureGrow (Worse classes) g (fun c => !(orig c).unknown) orig t
  obtain ⟨h1, h2, h3, h4⟩ := hspec
  constructor
  · intro hall
    rcases h1 with h1 | ⟨c, k1, k2, k3, k4⟩
    · exact h1
    · rw [hall c k1 k3] at k2
      cases k2
  · rintro ⟨c0, hc0, hn0, hk0⟩
    have hlow : ∀ c, g.In c → c = t ∨ g.Near c t → (orig c).unknown = false → r.unknown = false ∧ driv classes r ≤ driv classes (orig c) := by
      intro c hc hn hk
      have : ¬Worse classes (orig c) r := by
        rcases hn with rfl | hn
        · exact h2
        · exact h3 c hc (by rw [hk]; rfl) hn
      have k1 : ¬(r.unknown = true ∨ driv classes (orig c) < driv classes r) := fun h => this ⟨hk, h⟩
      rw [not_or, Bool.not_eq_true, not_lt] at k1
      exact k1
    refine ⟨?_, fun c hc hn hk => (hlow c hc hn hk).2⟩
    have hr := (hlow c0 hc0 hn0 hk0).1
    rcases h1 with h1 | ⟨c, k1, k2, k3, k4⟩
    · exact ⟨t, ht, .inl rfl, by rw [← h1]; exact hr, h1⟩
    · exact ⟨c, k1, k3, by rw [← k4]; exact hr, k4⟩

/-- a known cell whose class is not registered reads outside of the class table -/
theorem C66_unregistered : growTerrains [1] ⟨1, 1, 1, 1, 1⟩ (fun _ => ⟨1, 255⟩) = none := by decide +kernel

/-- unknown, bad, good, unknown, unknown with radius 1.5 -/
example : (growTerrains [1, 0, 1 / 2] ⟨5, 1, 1, 1, 3 / 2⟩ (fun c => if c.1 = 1 then ⟨1, 100⟩ else if c.1 = 2 then ⟨2, 200⟩ else ⟨0, 0⟩)).map
    (fun d => (cells 5 1).map d) = some [⟨1, 100⟩, ⟨1, 100⟩, ⟨1, 100⟩, ⟨2, 200⟩, ⟨0, 0⟩] := by decide +kernel

/-! ### C67 -/

theorem obstacle_inner (ob : Nat) (g : Geo) (c : Cell) : ∀ (L : List (ℤ × ℤ)) (s : (Cell → Nat) × (Cell → Nat)),
    (∀ t, (L.foldl (obstacleStep ob g c) s).1 t = if ∃ o ∈ L, g.target c o = some t then ob else s.1 t) ∧
    (∀ t, (L.foldl (obstacleStep ob g c) s).2 t = if t = c ∧ ∃ o ∈ L, (g.target c o).isSome = true then 255 else s.2 t)
  | [], s => ⟨fun t => by simp, fun t => by simp⟩
  | o :: L, s => by
    rw [List.foldl_cons]
    obtain ⟨h1, h2⟩ := obstacle_inner ob g c L (obstacleStep ob g c s o)
    constructor
    · intro t
      rw [h1 t]
      unfold obstacleStep
      by_cases hL : ∃ o ∈ L, g.target c o = some t
      · rw [if_pos hL, if_pos]
        obtain ⟨o', ho', e⟩ := hL
        exact ⟨o', List.mem_cons_of_mem _ ho', e⟩
      · rw [if_neg hL]
        cases ht : g.target c o with
        | none =>
          rw [if_neg]
          rintro ⟨o', ho', e⟩
          rcases List.mem_cons.1 ho' with rfl | ho'
          · rw [ht] at e; cases e
          · exact hL ⟨o', ho', e⟩
        | some u =>
          dsimp only
          by_cases e : t = u
          · subst e
            rw [Function.update_self, if_pos ⟨o, List.mem_cons_self, ht⟩]
          · rw [Function.update_of_ne e, if_neg]
            rintro ⟨o', ho', e'⟩
            rcases List.mem_cons.1 ho' with rfl | ho'
            · rw [ht] at e'
              exact e (Option.some.inj e').symm
            · exact hL ⟨o', ho', e'⟩
    · intro t
      rw [h2 t]
      unfold obstacleStep
      by_cases hL : t = c ∧ ∃ o ∈ L, (g.target c o).isSome = true
      · rw [if_pos hL, if_pos]
        obtain ⟨e, o', ho', e'⟩ := hL
        exact ⟨e, o', List.mem_cons_of_mem _ ho', e'⟩
      · rw [if_neg hL]
        cases ht : g.target c o with
        | none =>
          rw [if_neg]
          rintro ⟨e, o', ho', e'⟩
          rcases List.mem_cons.1 ho' with rfl | ho'
          · rw [ht] at e'; cases e'
          · exact hL ⟨e, o', ho', e'⟩
        | some u =>
          dsimp only
          by_cases e : t = c
          · subst e
            rw [Function.update_self, if_pos ⟨rfl, o, List.mem_cons_self, by rw [ht]; rfl⟩]
          · rw [Function.update_of_ne e, if_neg fun h => e h.1]

theorem obstacle_outer (ob : Nat) (g : Geo) (orig : Cell → Nat) : ∀ (L : List Cell) (s : (Cell → Nat) × (Cell → Nat)),
    let f := L.foldl (fun s c => if orig c = ob then g.windowExact.foldl (obstacleStep ob g c) s else s) s
    (∀ t, f.1 t = if ∃ c ∈ L, orig c = ob ∧ ∃ o ∈ g.windowExact, g.target c o = some t then ob else s.1 t) ∧
    (∀ t, f.2 t = if t ∈ L ∧ orig t = ob ∧ ∃ o ∈ g.windowExact, (g.target t o).isSome = true then 255 else s.2 t)
  | [], s => ⟨fun t => by simp, fun t => by simp⟩
  | c :: L, s => by
    rw [List.foldl_cons]
    obtain ⟨h1, h2⟩ := obstacle_outer ob g orig L (if orig c = ob then g.windowExact.foldl (obstacleStep ob g c) s else s)
    obtain ⟨k1, k2⟩ := obstacle_inner ob g c g.windowExact s
    constructor
    · intro t
      rw [h1 t]
      by_cases hL : ∃ c ∈ L, orig c = ob ∧ ∃ o ∈ g.windowExact, g.target c o = some t
      · rw [if_pos hL, if_pos]
        obtain ⟨c', hc', h⟩ := hL
        exact ⟨c', List.mem_cons_of_mem _ hc', h⟩
      · rw [if_neg hL]
        by_cases hc : orig c = ob
        · rw [if_pos hc, k1]
          by_cases ht : ∃ o ∈ g.windowExact, g.target c o = some t
          · rw [if_pos ht, if_pos ⟨c, List.mem_cons_self, hc, ht⟩]
          · rw [if_neg ht, if_neg]
            rintro ⟨c', hc', h⟩
            rcases List.mem_cons.1 hc' with rfl | hc'
            · exact ht h.2
            · exact hL ⟨c', hc', h⟩
        · rw [if_neg hc, if_neg]
          rintro ⟨c', hc', h⟩
          rcases List.mem_cons.1 hc' with rfl | hc'
          · exact hc h.1
          · exact hL ⟨c', hc', h⟩
    · intro t
      rw [h2 t]
      by_cases hL : t ∈ L ∧ orig t = ob ∧ ∃ o ∈ g.windowExact, (g.target t o).isSome = true
      · rw [if_pos hL, if_pos ⟨List.mem_cons_of_mem _ hL.1, hL.2⟩]
      · rw [if_neg hL]
        by_cases hc : orig c = ob
        · rw [if_pos hc, k2]
          by_cases ht : t = c ∧ ∃ o ∈ g.windowExact, (g.target c o).isSome = true
          · obtain ⟨rfl, ht⟩ := ht
            rw [if_pos ⟨rfl, ht⟩, if_pos ⟨List.mem_cons_self, hc, ht⟩]
          · rw [if_neg ht, if_neg]
            rintro ⟨hm, h⟩
            rcases List.mem_cons.1 hm with rfl | hm
            · exact ht ⟨rfl, h.2⟩
            · exact hL ⟨hm, h⟩
        · rw [if_neg hc, if_neg]
          rintro ⟨hm, h⟩
          rcases List.mem_cons.1 hm with rfl | hm
          · exact hc h.1
          · exact hL ⟨hm, h⟩

theorem near_self {g : Geo} (hr : 0 < g.r) (c : Cell) : g.Near c c := by
  refine ⟨hr, ?_⟩
  rw [sub_self, sub_self]
  have := pow_pos hr 2
  linarith

/-- **C67 (partial)**: after growObstacles a cell is an obstacle exactly if there was an obstacle within the clearance, all other
cells keep their class; the probability of the old obstacles becomes the maximum, that of all other cells is kept. What is
missing: the probability of the new obstacles, see `C67_new_obstacle_improbable`. -/
theorem C67_grow_obstacles_partial (ob : Nat) (g : Geo) (hx : 0 < g.sx) (hy : 0 < g.sy) (hr : 0 < g.r) (orig prob : Cell → Nat) (t : Cell)
    (ht : g.In t) :
    (((growObstacles ob g orig prob).1 t = ob ↔ ∃ c, g.In c ∧ orig c = ob ∧ g.Near c t)) ∧
    ((growObstacles ob g orig prob).1 t ≠ ob → (growObstacles ob g orig prob).1 t = orig t) ∧
    (orig t = ob → (growObstacles ob g orig prob).2 t = 255) ∧ (orig t ≠ ob → (growObstacles ob g orig prob).2 t = prob t) := by
  obtain ⟨h1, h2⟩ := obstacle_outer ob g orig (cells g.w g.h) (orig, prob)
  have e : (∃ c ∈ cells g.w g.h, orig c = ob ∧ ∃ o ∈ g.windowExact, g.target c o = some t) ↔ ∃ c, g.In c ∧ orig c = ob ∧ g.Near c t := by
    constructor
    · rintro ⟨c, hc, h, h'⟩
      exact ⟨c, mem_cells.1 hc, h, (target_windowExact hx hy hr ht).1 h'⟩
    · rintro ⟨c, hc, h, h'⟩
      exact ⟨c, mem_cells.2 hc, h, (target_windowExact hx hy hr ht).2 h'⟩
  unfold growObstacles
  rw [h1 t, h2 t]
  refine ⟨?_, ?_, ?_, ?_⟩
  · by_cases hc : ∃ c ∈ cells g.w g.h, orig c = ob ∧ ∃ o ∈ g.windowExact, g.target c o = some t
    · rw [if_pos hc]
      exact ⟨fun _ => e.1 hc, fun _ => rfl⟩
    · rw [if_neg hc]
      refine ⟨fun h => ⟨t, ht, h, near_self hr t⟩, fun h => absurd (e.2 h) hc⟩
  · intro hne
    by_cases hc : ∃ c ∈ cells g.w g.h, orig c = ob ∧ ∃ o ∈ g.windowExact, g.target c o = some t
    · rw [if_pos hc] at hne
      exact absurd rfl hne
    · rw [if_neg hc]
  · intro ho
    obtain ⟨o, ho', h'⟩ := (target_windowExact hx hy hr ht).2 (near_self hr t)
    rw [if_pos ⟨mem_cells.2 ht, ho, o, ho', by rw [h']; rfl⟩]
  · intro ho
    rw [if_neg fun h => ho h.2.1]

/-- A grown obstacle in an unknown area has probability 0: the code writes the probability of the source cell. -/
theorem C67_new_obstacle_improbable :
    (fun s : (Cell → Nat) × (Cell → Nat) => (s.1 (0, 0), s.2 (0, 0))) (growObstacles 1 ⟨2, 1, 1, 1, 3 / 2⟩ (fun c => if c.1 = 1 then 1 else 0) (fun _ => 0)) = (1, 0) := by
  decide +kernel

#print axioms C44_grow_partial
#print axioms C44_sizes
#print axioms C44_maxValue
#print axioms C66_unknown
#print axioms C66_grow_classes
#print axioms C66_unregistered
#print axioms C67_grow_obstacles_partial
#print axioms C67_new_obstacle_improbable

end Envire.Grow
