import Verif.Tools.MlsToolModel
import Verif.Grid.GridProps
import Mathlib.Data.Fintype.Basic
import Mathlib.Tactic.FinCases

/-!
C160: the extents of a map in another frame. C161: the grid that env_mls and env_dem make for the clouds.
-/

namespace Envire.MlsTool

open Envire.Grid

variable {K : Type} [Field K] [LinearOrder K] [IsStrictOrderedRing K]

/-! ### specification -/

/-- the point lies in the box -/
def Has (b : Box K) (p : V K) : Prop := ∀ i, b.lo i ≤ p i ∧ p i ≤ b.hi i

/-- the same for the first two coordinates -/
def Has2 (b : Box K) (p : V K) : Prop := ∀ i, i ≠ 2 → b.lo i ≤ p i ∧ p i ≤ b.hi i

/-- one box inside of another one -/
def Inside (b c : Box K) : Prop := ∀ i, c.lo i ≤ b.lo i ∧ b.hi i ≤ c.hi i

def Inside2 (b c : Box K) : Prop := ∀ i, i ≠ 2 → c.lo i ≤ b.lo i ∧ b.hi i ≤ c.hi i

/-- a point of the clouds, in coordinates of the root -/
def PointOf (cs : List (Cloud K)) (p : V K) : Prop := ∃ c ∈ cs, ∃ v ∈ c.vertices, p = c.toRoot.apply v

/-! ### boxes -/

theorem fold_spec (i : Fin 3) : ∀ (l : List (V K)) (r : Box K),
    ((l.foldl Box.extend r).lo i ≤ r.lo i ∧ r.hi i ≤ (l.foldl Box.extend r).hi i) ∧
    (∀ p ∈ l, (l.foldl Box.extend r).lo i ≤ p i ∧ p i ≤ (l.foldl Box.extend r).hi i) ∧
    ((l.foldl Box.extend r).lo i = r.lo i ∨ ∃ p ∈ l, (l.foldl Box.extend r).lo i = p i) ∧
    ((l.foldl Box.extend r).hi i = r.hi i ∨ ∃ p ∈ l, (l.foldl Box.extend r).hi i = p i)
  | [], r => ⟨⟨le_refl _, le_refl _⟩, fun p hp => (List.not_mem_nil hp).elim, .inl rfl, .inl rfl⟩
  | q :: l, r => by
    obtain ⟨⟨a1, a2⟩, a3, a4, a5⟩ := fold_spec i l (r.extend q)
    rw [List.foldl_cons]
    have e1 : (r.extend q).lo i = min (r.lo i) (q i) := rfl
    have e2 : (r.extend q).hi i = max (r.hi i) (q i) := rfl
    rw [e1] at a1 a4
    rw [e2] at a2 a5
    refine ⟨⟨a1.trans (min_le_left _ _), (le_max_left _ _).trans a2⟩, ?_, ?_, ?_⟩
    · intro p hp
      rcases List.mem_cons.1 hp with rfl | hp
      · exact ⟨a1.trans (min_le_right _ _), (le_max_right _ _).trans a2⟩
      · exact a3 p hp
    · rcases a4 with h | ⟨p, hp, h⟩
      · rcases min_choice (r.lo i) (q i) with h2 | h2
        · exact .inl (h.trans h2)
        · exact .inr ⟨q, List.mem_cons_self .., h.trans h2⟩
      · exact .inr ⟨p, List.mem_cons_of_mem _ hp, h⟩
    · rcases a5 with h | ⟨p, hp, h⟩
      · rcases max_choice (r.hi i) (q i) with h2 | h2
        · exact .inl (h.trans h2)
        · exact .inr ⟨q, List.mem_cons_self .., h.trans h2⟩
      · exact .inr ⟨p, List.mem_cons_of_mem _ hp, h⟩

theorem corner_of (b : Box K) (a0 a1 a2 : Bool) : ∃ k < 8, corner b k = ![bif a0 then b.lo 0 else b.hi 0, bif a1 then b.lo 1 else b.hi 1, bif a2 then b.lo 2 else b.hi 2] := by
  have h : ∀ k, k < 8 → k.testBit 0 = a0 → k.testBit 1 = a1 → k.testBit 2 = a2 → ∃ k < 8, corner b k = ![bif a0 then b.lo 0 else b.hi 0, bif a1 then b.lo 1 else b.hi 1, bif a2 then b.lo 2 else b.hi 2] := by
    intro k hk h0 h1 h2
    refine ⟨k, hk, ?_⟩
    funext j
    fin_cases j
    · show (if k.testBit 0 = true then b.lo 0 else b.hi 0) = _
      rw [h0]; cases a0 <;> rfl
    · show (if k.testBit 1 = true then b.lo 1 else b.hi 1) = _
      rw [h1]; cases a1 <;> rfl
    · show (if k.testBit 2 = true then b.lo 2 else b.hi 2) = _
      rw [h2]; cases a2 <;> rfl
  cases a0 <;> cases a1 <;> cases a2
  · exact h 0 (by decide) rfl rfl rfl
  · exact h 4 (by decide) rfl rfl rfl
  · exact h 2 (by decide) rfl rfl rfl
  · exact h 6 (by decide) rfl rfl rfl
  · exact h 1 (by decide) rfl rfl rfl
  · exact h 5 (by decide) rfl rfl rfl
  · exact h 3 (by decide) rfl rfl rfl
  · exact h 7 (by decide) rfl rfl rfl

/-- of an interval the end where a product is smallest, and where it is largest -/
theorem ends {m lo p hi : K} (h1 : lo ≤ p) (h2 : p ≤ hi) : ∃ a : Bool, m * (bif a then lo else hi) ≤ m * p ∧ m * p ≤ m * (bif !a then lo else hi) := by
  rcases le_total 0 m with h | h
  · exact ⟨true, mul_le_mul_of_nonneg_left h1 h, mul_le_mul_of_nonneg_left h2 h⟩
  · exact ⟨false, mul_le_mul_of_nonpos_left h2 h, mul_le_mul_of_nonpos_left h1 h⟩

theorem between {b : Box K} {p : V K} (h : Has b p) (t : Aff K) (i : Fin 3) :
    (∃ k < 8, t.apply (corner b k) i ≤ t.apply p i) ∧ ∃ k < 8, t.apply p i ≤ t.apply (corner b k) i := by
  obtain ⟨a0, u0, v0⟩ := ends (m := t.m i 0) (h 0).1 (h 0).2
  obtain ⟨a1, u1, v1⟩ := ends (m := t.m i 1) (h 1).1 (h 1).2
  obtain ⟨a2, u2, v2⟩ := ends (m := t.m i 2) (h 2).1 (h 2).2
  obtain ⟨k, hk, e⟩ := corner_of b a0 a1 a2
  obtain ⟨k', hk', e'⟩ := corner_of b (!a0) (!a1) (!a2)
  refine ⟨⟨k, hk, ?_⟩, k', hk', ?_⟩
  · rw [e]
    show t.m i 0 * _ + t.m i 1 * _ + t.m i 2 * _ + t.t i ≤ _
    simp only [Aff.apply]
    show t.m i 0 * (bif a0 then b.lo 0 else b.hi 0) + t.m i 1 * (bif a1 then b.lo 1 else b.hi 1) + t.m i 2 * (bif a2 then b.lo 2 else b.hi 2) + t.t i ≤ _
    linarith
  · rw [e']
    simp only [Aff.apply]
    show _ ≤ t.m i 0 * (bif !a0 then b.lo 0 else b.hi 0) + t.m i 1 * (bif !a1 then b.lo 1 else b.hi 1) + t.m i 2 * (bif !a2 then b.lo 2 else b.hi 2) + t.t i
    linarith

theorem mem_corners (t : Aff K) (b : Box K) {k : Nat} (hk : k < 8) : t.apply (corner b k) ∈ (corners b).map t.apply :=
  List.mem_map_of_mem (List.mem_map_of_mem (List.mem_range.2 hk))

theorem of_corners {t : Aff K} {b : Box K} {q : V K} (h : q ∈ (corners b).map t.apply) : ∃ k < 8, q = t.apply (corner b k) := by
  obtain ⟨c, hc, rfl⟩ := List.mem_map.1 h
  obtain ⟨k, hk, rfl⟩ := List.mem_map.1 hc
  exact ⟨k, List.mem_range.1 hk, rfl⟩

theorem extendBy_has (r : Box K) (t : Aff K) {b : Box K} {p : V K} (h : Has b p) : Has (extendBy r t b) (t.apply p) := by
  intro i
  obtain ⟨⟨k, hk, e⟩, k', hk', e'⟩ := between h t i
  have := (fold_spec i ((corners b).map t.apply) r).2.1
  exact ⟨((this _ (mem_corners t b hk)).1).trans e, e'.trans (this _ (mem_corners t b hk')).2⟩

theorem corner_has {b : Box K} (h : ∀ i, b.lo i ≤ b.hi i) (k : Nat) : Has b (corner b k) := by
  intro i
  simp only [corner]
  split
  · exact ⟨le_refl _, h i⟩
  · exact ⟨h i, le_refl _⟩

/-! ### C160 -/

/-- **C160** every point of the map, transformed, lies in the box that `getExtentsTransformed` returns -/
theorem C160_contains (big : K) (t : Aff K) {b : Box K} {p : V K} (h : Has b p) : Has (transformed big t b) (t.apply p) := extendBy_has _ t h

/-- **C160** no smaller box would do: every box that contains the transformed map contains the returned one. The corners are finite numbers. -/
theorem C160_smallest (big : K) (t : Aff K) {b : Box K} (hb : ∀ i, b.lo i ≤ b.hi i) (hbig : ∀ k i, |t.apply (corner b k) i| ≤ big) (c : Box K)
    (hc : ∀ p, Has b p → Has c (t.apply p)) : Inside (transformed big t b) c := by
  intro i
  have hk : ∀ k, c.lo i ≤ t.apply (corner b k) i ∧ t.apply (corner b k) i ≤ c.hi i := fun k => hc _ (corner_has hb k) i
  obtain ⟨-, -, h1, h2⟩ := fold_spec i ((corners b).map t.apply) (Box.empty big)
  constructor
  · rcases h1 with h | ⟨q, hq, h⟩
    · refine le_trans ((hk 0).1.trans (abs_le.1 (hbig 0 i)).2) (le_of_eq h.symm)
    · obtain ⟨k, -, rfl⟩ := of_corners hq
      exact le_of_le_of_eq (hk k).1 h.symm
  · rcases h2 with h | ⟨q, hq, h⟩
    · exact (le_of_eq h).trans ((abs_le.1 (hbig 0 i)).1.trans (hk 0).2)
    · obtain ⟨k, -, rfl⟩ := of_corners hq
      exact le_of_eq_of_le h (hk k).2

/-- **C160** for clouds: the box contains every vertex in the other frame -/
theorem C160_cloud (big : K) (t : Aff K) (vertices : List (V K)) {v : V K} (h : v ∈ vertices) : Has (transformed big t (cloudExtents big vertices)) (t.apply v) :=
  C160_contains big t fun i => (fold_spec i vertices (Box.empty big)).2.1 v h

theorem transformed_nonempty (big : K) (t : Aff K) (b : Box K) (i : Fin 3) : (transformed big t b).lo i ≤ (transformed big t b).hi i := by
  have := (fold_spec i ((corners b).map t.apply) (Box.empty big)).2.1 _ (mem_corners t b (k := 0) (by decide))
  exact this.1.trans this.2

/-- **C160, deviation** the box of a map without content is empty, but in any other frame (or the same one) it is not; in its own frame it is everything -/
theorem C160_empty_deviation {big : K} (hbig : 0 < big) (t : Aff K) :
    (cloudExtents big []).isEmpty = true ∧ (transformed big t (cloudExtents big [])).isEmpty = false ∧
    ∀ p : V K, (∀ i, |p i| ≤ big) → Has (transformed big ⟨fun i j => if i = j then 1 else 0, fun _ => 0⟩ (cloudExtents big [])) p := by
  refine ⟨?_, ?_, ?_⟩
  · have : -big < big := by linarith
    simp [cloudExtents, Box.empty, Box.isEmpty, this]
  · simp only [Box.isEmpty, Bool.or_eq_false_iff, decide_eq_false_iff_not, not_lt]
    exact ⟨⟨transformed_nonempty big t _ 0, transformed_nonempty big t _ 1⟩, transformed_nonempty big t _ 2⟩
  · intro p hp i
    have h := (fold_spec i ((corners (Box.empty big)).map (Aff.apply ⟨fun i j => if i = j then 1 else 0, fun _ => 0⟩)) (Box.empty big)).2.1
    have h0 := h _ (mem_corners _ _ (k := 0) (by decide))
    have h7 := h _ (mem_corners _ _ (k := 7) (by decide))
    have e0 : Aff.apply ⟨fun i j => if i = j then 1 else 0, fun _ => 0⟩ (corner (Box.empty big) 0) i = -big := by
      fin_cases i <;> simp [Aff.apply, corner, Box.empty]
    have e7 : Aff.apply ⟨fun i j => if i = j then 1 else 0, fun _ => 0⟩ (corner (Box.empty big) 7) i = big := by
      fin_cases i <;> simp [Aff.apply, corner, Box.empty, show Nat.testBit 7 1 = true from rfl, show Nat.testBit 7 2 = true from rfl]
    exact ⟨(h0.1.trans (le_of_eq e0)).trans (abs_le.1 (hp i)).1, (abs_le.1 (hp i)).2.trans ((le_of_eq e7.symm).trans h7.2)⟩

/-! maps of dimension 2 -/

theorem corner2_of (b : Box K) (junk : Nat → K) (a0 a1 : Bool) : ∃ k < 4, corner2 b junk k 0 = (bif a0 then b.lo 0 else b.hi 0) ∧ corner2 b junk k 1 = (bif a1 then b.lo 1 else b.hi 1) := by
  cases a0 <;> cases a1
  · exact ⟨0, by decide, rfl, rfl⟩
  · exact ⟨2, by decide, rfl, rfl⟩
  · exact ⟨1, by decide, rfl, rfl⟩
  · exact ⟨3, by decide, rfl, rfl⟩

theorem mem_corners2 (t : Aff K) (b : Box K) (junk : Nat → K) {k : Nat} (hk : k < 4) : t.apply (corner2 b junk k) ∈ ((List.range 4).map (corner2 b junk)).map t.apply :=
  List.mem_map_of_mem (List.mem_map_of_mem (List.mem_range.2 hk))

theorem of_corners2 {t : Aff K} {b : Box K} {junk : Nat → K} {q : V K} (h : q ∈ ((List.range 4).map (corner2 b junk)).map t.apply) : ∃ k < 4, q = t.apply (corner2 b junk k) := by
  obtain ⟨c, hc, rfl⟩ := List.mem_map.1 h
  obtain ⟨k, hk, rfl⟩ := List.mem_map.1 hc
  exact ⟨k, List.mem_range.1 hk, rfl⟩

/-- **C160** maps of dimension 2: if the transform does not mix the height into the other coordinates the box contains the map and is the smallest one. Missing: other transforms, see
`C160_flat_deviation` -/
theorem C160_flat_partial (big : K) (junk : Nat → K) {t : Aff K} (ht : ∀ i, i ≠ 2 → t.m i 2 = 0) {b : Box K} :
    (∀ p, Has2 b p → Has2 (transformed2 big junk t b) (t.apply p)) ∧
    ((∀ i, b.lo i ≤ b.hi i) → (∀ k i, |t.apply (corner2 b junk k) i| ≤ big) → ∀ c, (∀ p, Has2 b p → Has2 c (t.apply p)) → Inside2 (transformed2 big junk t b) c) := by
  constructor
  · intro p h i hi
    obtain ⟨a0, u0, v0⟩ := ends (m := t.m i 0) (h 0 (by decide)).1 (h 0 (by decide)).2
    obtain ⟨a1, u1, v1⟩ := ends (m := t.m i 1) (h 1 (by decide)).1 (h 1 (by decide)).2
    obtain ⟨k, hk, e0, e1⟩ := corner2_of b junk a0 a1
    obtain ⟨k', hk', e0', e1'⟩ := corner2_of b junk (!a0) (!a1)
    have hf := (fold_spec i (((List.range 4).map (corner2 b junk)).map t.apply) (Box.empty big)).2.1
    refine ⟨(hf _ (mem_corners2 t b junk hk)).1.trans ?_, le_trans ?_ (hf _ (mem_corners2 t b junk hk')).2⟩
    · simp only [Aff.apply, ht i hi, e0, e1]
      linarith
    · simp only [Aff.apply, ht i hi, e0', e1']
      linarith
  · intro hb hbig c hc i hi
    have hk : ∀ k, c.lo i ≤ t.apply (corner2 b junk k) i ∧ t.apply (corner2 b junk k) i ≤ c.hi i := by
      intro k
      refine hc _ (fun j hj => ?_) i hi
      simp only [corner2, if_neg hj]
      exact corner_has hb k j
    obtain ⟨-, -, h1, h2⟩ := fold_spec i (((List.range 4).map (corner2 b junk)).map t.apply) (Box.empty big)
    constructor
    · rcases h1 with h | ⟨q, hq, h⟩
      · refine le_trans ((hk 0).1.trans (abs_le.1 (hbig 0 i)).2) (le_of_eq h.symm)
      · obtain ⟨k, -, rfl⟩ := of_corners2 hq
        exact le_of_le_of_eq (hk k).1 h.symm
    · rcases h2 with h | ⟨q, hq, h⟩
      · exact (le_of_eq h).trans ((abs_le.1 (hbig 0 i)).1.trans (hk 0).2)
      · obtain ⟨k, -, rfl⟩ := of_corners2 hq
        exact le_of_eq_of_le h (hk k).2

/-- **C160, deviation** for every transform that tilts the map the result depends on memory that was never written: for every point of the map there is a content of this memory such that the box does not contain it -/
theorem C160_flat_deviation (big : K) {t : Aff K} (ht : t.m 0 2 ≠ 0) (b : Box K) (p : V K) (hp : t.apply p 0 < big) : ∃ junk, ¬ Has2 (transformed2 big junk t b) (t.apply p) := by
  refine ⟨fun k => (big - t.m 0 0 * corner b k 0 - t.m 0 1 * corner b k 1 - t.t 0) / t.m 0 2, fun h => ?_⟩
  have h0 := (h 0 (by decide)).1
  rcases (fold_spec 0 (((List.range 4).map (corner2 b fun k => (big - t.m 0 0 * corner b k 0 - t.m 0 1 * corner b k 1 - t.t 0) / t.m 0 2)).map t.apply) (Box.empty big)).2.2.1 with e | ⟨q, hq, e⟩
  · exact absurd (lt_of_le_of_lt (le_of_eq_of_le e.symm h0) hp) (lt_irrefl _)
  · obtain ⟨k, -, rfl⟩ := of_corners2 hq
    have : t.apply (corner2 b (fun k => (big - t.m 0 0 * corner b k 0 - t.m 0 1 * corner b k 1 - t.t 0) / t.m 0 2) k) 0 = big := by
      show t.m 0 0 * corner b k 0 + t.m 0 1 * corner b k 1 + t.m 0 2 * ((big - t.m 0 0 * corner b k 0 - t.m 0 1 * corner b k 1 - t.t 0) / t.m 0 2) + t.t 0 = big
      field_simp
      ring
    rw [this] at e
    exact absurd (lt_of_le_of_lt (le_of_eq_of_le e.symm h0) hp) (lt_irrefl _)

/-! examples: a box turned by 90 degrees and shifted -/

def turn : Aff ℚ := ⟨![![0, -1, 0], ![1, 0, 0], ![0, 0, 1]], ![10, 0, 0]⟩

example : Has (⟨![0, 0, 0], ![2, 1, 1]⟩ : Box ℚ) ![2, 1, 0] := by intro i; fin_cases i <;> decide +kernel

example : (fun i => ((transformed 1000 turn ⟨![0, 0, 0], ![2, 1, 1]⟩).lo i, (transformed 1000 turn ⟨![0, 0, 0], ![2, 1, 1]⟩).hi i)) = ![(9, 10), (0, 2), (0, 1)] := by
  funext i; fin_cases i <;> decide +kernel

example : ∀ i, i ≠ 2 → turn.m i 2 = 0 := by decide +kernel

/-! ### C161: the grid -/

section
variable [FloorRing K]

theorem place_cell {conv : Int → Nat} (hc : ConvOk conv) {res : K} (hr : 0 < res) {e : Box K} (hs : ∀ i, e.hi i - e.lo i < 2 ^ 63 * res) {p : V K} (hp : Has2 e p)
    (h0 : p 0 + res ≤ e.hi 0) (h1 : p 1 + res ≤ e.hi 1) :
    ∃ c, (place conv res e).cell conv p = some c ∧ e.lo 0 + c.1 * res ≤ p 0 ∧ p 0 < e.lo 0 + (c.1 + 1) * res ∧ e.lo 1 + c.2 * res ≤ p 1 ∧ p 1 < e.lo 1 + (c.2 + 1) * res := by
  have size : ∀ i : Fin 3, i ≠ 2 → p i + res ≤ e.hi i → (p i - e.lo i - 0 < (conv ⌊(e.hi i - e.lo i) / res⌋ : K) * res) ∧ conv ⌊(e.hi i - e.lo i) / res⌋ ≤ 2 ^ 63 := by
    intro i hi h
    have hd : 0 ≤ e.hi i - e.lo i := by linarith [(hp i hi).1, (hp i hi).2]
    have hf0 : 0 ≤ ⌊(e.hi i - e.lo i) / res⌋ := Int.floor_nonneg.2 (div_nonneg hd hr.le)
    have hf1 : ⌊(e.hi i - e.lo i) / res⌋ < 2 ^ 63 := by
      rw [Int.floor_lt, div_lt_iff₀ hr]
      have := hs i
      norm_num at this ⊢
      exact this
    have he := hc.exact _ hf0 (by omega)
    constructor
    · have hcast : (conv ⌊(e.hi i - e.lo i) / res⌋ : K) = (⌊(e.hi i - e.lo i) / res⌋ : K) := by
        have := congrArg (Int.cast (R := K)) he
        push_cast at this
        exact this
      rw [hcast]
      have := Int.lt_floor_add_one ((e.hi i - e.lo i) / res)
      rw [div_lt_iff₀ hr] at this
      linarith
    · omega
  obtain ⟨s0, n0⟩ := size 0 (by decide) h0
  obtain ⟨s1, n1⟩ := size 1 (by decide) h1
  have a0 := (hp 0 (by decide)).1
  have a1 := (hp 1 (by decide)).1
  have p64 : ((2 : K) ^ 63) * res ≤ 2 ^ 64 * res := mul_le_mul_of_nonneg_right (by norm_num) hr.le
  have l0 : -2 ^ 63 * res ≤ p 0 - e.lo 0 - 0 := by nlinarith [show (0 : K) ≤ 2 ^ 63 * res by positivity]
  have l1 : -2 ^ 63 * res ≤ p 1 - e.lo 1 - 0 := by nlinarith [show (0 : K) ≤ 2 ^ 63 * res by positivity]
  have A0 := axis hc hr n0 l0 (by linarith [hs 0])
  have A1 := axis hc hr n1 l1 (by linarith [hs 1])
  have c0 := A0.1.2 ⟨by linarith, s0⟩
  have c1 := A1.1.2 ⟨by linarith, s1⟩
  have b0 := A0.2 c0
  have b1 := A1.2 c1
  refine ⟨(conv ⌊(p 0 - e.lo 0 - 0) / res⌋, conv ⌊(p 1 - e.lo 1 - 0) / res⌋), ?_, by linarith [b0.1], by linarith [b0.2], by linarith [b1.1], by linarith [b1.2]⟩
  have hsome : (((place conv res e).grid).toGrid conv (p 0 - e.lo 0) (p 1 - e.lo 1)).isSome = true := toGrid_isSome.2 ⟨c0, c1⟩
  obtain ⟨r, h⟩ := Option.isSome_iff_exists.1 hsome
  show (((place conv res e).grid).toGrid conv (p 0 - e.lo 0) (p 1 - e.lo 1)).map _ = _
  rw [h, (toGrid_eq h).1]
  rfl

theorem clouds_fold (P : Cloud K → V K → Prop) (i : Fin 3) (big : K) (hP : ∀ c, ∀ q ∈ (corners (cloudExtents big c.vertices)).map c.toRoot.apply, P c q) : ∀ (cs : List (Cloud K)) (r : Box K),
    let e := cs.foldl (fun r c => extendBy r c.toRoot (cloudExtents big c.vertices)) r
    (e.lo i ≤ r.lo i ∧ r.hi i ≤ e.hi i) ∧ (∀ c ∈ cs, ∀ v ∈ c.vertices, e.lo i ≤ c.toRoot.apply v i ∧ c.toRoot.apply v i ≤ e.hi i) ∧
    (e.lo i = r.lo i ∨ ∃ c ∈ cs, ∃ q, P c q ∧ e.lo i = q i) ∧ (e.hi i = r.hi i ∨ ∃ c ∈ cs, ∃ q, P c q ∧ e.hi i = q i)
  | [], r => ⟨⟨le_refl _, le_refl _⟩, fun _ h => (List.not_mem_nil h).elim, .inl rfl, .inl rfl⟩
  | d :: cs, r => by
    obtain ⟨⟨a1, a2⟩, a3, a4, a5⟩ := clouds_fold P i big hP cs (extendBy r d.toRoot (cloudExtents big d.vertices))
    obtain ⟨⟨b1, b2⟩, -, b4, b5⟩ := fold_spec i ((corners (cloudExtents big d.vertices)).map d.toRoot.apply) r
    dsimp only
    rw [List.foldl_cons]
    refine ⟨⟨a1.trans b1, b2.trans a2⟩, ?_, ?_, ?_⟩
    · intro c hc v hv
      rcases List.mem_cons.1 hc with rfl | hc
      · have := extendBy_has r c.toRoot (b := cloudExtents big c.vertices) (p := v) (fun i => (fold_spec i c.vertices (Box.empty big)).2.1 v hv) i
        exact ⟨a1.trans this.1, this.2.trans a2⟩
      · exact a3 c hc v hv
    · rcases a4 with h | ⟨c, hc, q, hq, h⟩
      · rcases b4 with h2 | ⟨q, hq, h2⟩
        · exact .inl (h.trans h2)
        · exact .inr ⟨d, List.mem_cons_self .., q, hP d q hq, h.trans h2⟩
      · exact .inr ⟨c, List.mem_cons_of_mem _ hc, q, hq, h⟩
    · rcases a5 with h | ⟨c, hc, q, hq, h⟩
      · rcases b5 with h2 | ⟨q, hq, h2⟩
        · exact .inl (h.trans h2)
        · exact .inr ⟨d, List.mem_cons_self .., q, hP d q hq, h.trans h2⟩
      · exact .inr ⟨c, List.mem_cons_of_mem _ hc, q, hq, h⟩

theorem clouds_has (big : K) (cs : List (Cloud K)) {p : V K} (h : PointOf cs p) : Has (cloudsExtents big cs) p := by
  obtain ⟨c, hc, v, hv, rfl⟩ := h
  intro i
  exact (clouds_fold (fun _ _ => True) i big (fun _ _ _ => trivial) cs (Box.empty big)).2.1 c hc v hv

/-- **C161** the tool finds an area as soon as there is a point, and every point of the clouds that is at least one cell away from the upper ends of the clouds is projected, to the cell that it lies in.
Missing: the points that are less than one cell away from the upper ends, see `C161_last_deviation` -/
theorem C161_cell_partial {conv : Int → Nat} (hc : ConvOk conv) {big res : K} (hr : 0 < res) {cs : List (Cloud K)} (hs : ∀ i, (cloudsExtents big cs).hi i - (cloudsExtents big cs).lo i < 2 ^ 63 * res)
    {p q q' : V K} (hp : PointOf cs p) (hq : PointOf cs q) (hq' : PointOf cs q') (h0 : p 0 + res ≤ q 0) (h1 : p 1 + res ≤ q' 1) :
    ∃ g, envMls conv big res none cs = some g ∧ g.grid.sx = res ∧ g.grid.sy = res ∧
      ∃ c, g.cell conv p = some c ∧ g.x + c.1 * res ≤ p 0 ∧ p 0 < g.x + (c.1 + 1) * res ∧ g.y + c.2 * res ≤ p 1 ∧ p 1 < g.y + (c.2 + 1) * res := by
  have hh := clouds_has big cs hp
  obtain ⟨c, h⟩ := place_cell hc hr hs (p := p) (fun i _ => hh i) (h0.trans (clouds_has big cs hq 0).2) (h1.trans (clouds_has big cs hq' 1).2)
  refine ⟨place conv res (cloudsExtents big cs), ?_, rfl, rfl, c, h⟩
  have hn : (cloudsExtents big cs).isEmpty = false := by
    simp only [Box.isEmpty, Bool.or_eq_false_iff, decide_eq_false_iff_not, not_lt]
    exact ⟨⟨(hh 0).1.trans (hh 0).2, (hh 1).1.trans (hh 1).2⟩, (hh 2).1.trans (hh 2).2⟩
  simp only [envMls, extents, hn]
  rfl

/-- **C161, deviation** whatever the clouds are (not turned, not empty), there is a point that the tool does not project: the last one along x -/
theorem C161_last_deviation (conv : Int → Nat) {big res : K} {cs : List (Cloud K)} (hne : cs ≠ []) (hv : ∀ c ∈ cs, c.vertices ≠ []) (hm : ∀ c ∈ cs, c.toRoot.m = fun i j => if i = j then 1 else 0)
    (hb : ∀ c ∈ cs, ∀ v ∈ c.vertices, |v 0| ≤ big ∧ |c.toRoot.apply v 0| ≤ big) :
    ∃ g p, envMls conv big res none cs = some g ∧ PointOf cs p ∧ g.cell conv p = none := by
  have hat : ∃ p, PointOf cs p ∧ p 0 = (cloudsExtents big cs).hi 0 := by
    obtain ⟨-, h2, -, h4⟩ := clouds_fold (fun c q => ∃ k, q = c.toRoot.apply (corner (cloudExtents big c.vertices) k)) 0 big (fun c q hq => by obtain ⟨k, -, e⟩ := of_corners hq; exact ⟨k, e⟩) cs (Box.empty big)
    rcases h4 with h | ⟨c, hc, q, ⟨k, rfl⟩, h⟩
    · obtain ⟨c, cs', rfl⟩ := List.exists_cons_of_ne_nil hne
      obtain ⟨v, vs, e⟩ := List.exists_cons_of_ne_nil (hv c (List.mem_cons_self ..))
      have hvm : v ∈ c.vertices := by rw [e]; exact List.mem_cons_self ..
      refine ⟨c.toRoot.apply v, ⟨c, List.mem_cons_self .., v, hvm, rfl⟩, ?_⟩
      refine le_antisymm (h2 c (List.mem_cons_self ..) v hvm).2 ?_
      refine (le_of_eq h).trans ?_
      exact (abs_le.1 (hb c (List.mem_cons_self ..) v hvm).2).1
    · have hap : ∀ v : V K, c.toRoot.apply v 0 = v 0 + c.toRoot.t 0 := by
        intro v
        simp only [Aff.apply, hm c hc]
        simp
      have hvx : ∃ v ∈ c.vertices, corner (cloudExtents big c.vertices) k 0 = v 0 := by
        obtain ⟨-, f2, f3, f4⟩ := fold_spec 0 c.vertices (Box.empty big)
        obtain ⟨v, vs, e⟩ := List.exists_cons_of_ne_nil (hv c hc)
        have hvm : v ∈ c.vertices := by rw [e]; exact List.mem_cons_self ..
        simp only [corner]
        split
        · rcases f3 with f | ⟨w, hw, f⟩
          · refine ⟨v, hvm, le_antisymm (f2 v hvm).1 ?_⟩
            exact ((abs_le.1 (hb c hc v hvm).1).2).trans (le_of_eq f.symm)
          · exact ⟨w, hw, f⟩
        · rcases f4 with f | ⟨w, hw, f⟩
          · refine ⟨v, hvm, le_antisymm ?_ (f2 v hvm).2⟩
            exact (le_of_eq f).trans (abs_le.1 (hb c hc v hvm).1).1
          · exact ⟨w, hw, f⟩
      obtain ⟨v, hvm, e⟩ := hvx
      refine ⟨c.toRoot.apply v, ⟨c, hc, v, hvm, rfl⟩, ?_⟩
      rw [hap, ← e, ← hap]
      exact h.symm
  obtain ⟨p, hp, e⟩ := hat
  have hh := clouds_has big cs hp
  refine ⟨place conv res (cloudsExtents big cs), p, ?_, hp, ?_⟩
  · have hn : (cloudsExtents big cs).isEmpty = false := by
      simp only [Box.isEmpty, Bool.or_eq_false_iff, decide_eq_false_iff_not, not_lt]
      exact ⟨⟨(hh 0).1.trans (hh 0).2, (hh 1).1.trans (hh 1).2⟩, (hh 2).1.trans (hh 2).2⟩
    simp only [envMls, extents, hn]
    rfl
  · unfold Placed.cell
    rw [Option.map_eq_none_iff, ← Option.not_isSome_iff_eq_none, toGrid_isSome]
    rintro ⟨h, -⟩
    change conv ⌊(p 0 - (cloudsExtents big cs).lo 0 - 0) / res⌋ < conv ⌊((cloudsExtents big cs).hi 0 - (cloudsExtents big cs).lo 0) / res⌋ at h
    rw [e, sub_zero] at h
    exact lt_irrefl _ h

/-! #### env_dem -/

theorem merge_fold : ∀ (l : List (V K)) (r e : Box K), r.merge (l.foldl Box.extend e) = l.foldl Box.extend (r.merge e)
  | [], _, _ => rfl
  | p :: l, r, e => by
    rw [List.foldl_cons, List.foldl_cons, merge_fold l]
    congr 1
    simp only [Box.merge, Box.extend, min_assoc, max_assoc]

/-- **C161** env_dem takes the same area as env_mls, but does not check whether there is any -/
theorem C161_dem (conv : Int → Nat) (big res : K) (cs : List (Cloud K)) :
    envDem conv big res cs = place conv res (cloudsExtents big cs) ∧ ((cloudsExtents big cs).isEmpty = false → envMls conv big res none cs = some (envDem conv big res cs)) := by
  have h : ∀ (cs : List (Cloud K)) (r : Box K), (∀ i, r.lo i ≤ big ∧ -big ≤ r.hi i) →
      cs.foldl (fun r c => r.merge (transformed big c.toRoot (cloudExtents big c.vertices))) r = cs.foldl (fun r c => extendBy r c.toRoot (cloudExtents big c.vertices)) r := by
    intro cs
    induction cs with
    | nil => intro r _; rfl
    | cons c cs ih =>
      intro r hr
      rw [List.foldl_cons, List.foldl_cons]
      have e : r.merge (transformed big c.toRoot (cloudExtents big c.vertices)) = extendBy r c.toRoot (cloudExtents big c.vertices) := by
        unfold transformed extendBy
        rw [merge_fold]
        congr 1
        obtain ⟨lo, hi⟩ := r
        simp only [Box.merge, Box.empty, Box.mk.injEq]
        exact ⟨funext fun i => min_eq_left (hr i).1, funext fun i => max_eq_left (hr i).2⟩
      rw [e]
      apply ih
      intro i
      have := (fold_spec i ((corners (cloudExtents big c.vertices)).map c.toRoot.apply) r).1
      exact ⟨this.1.trans (hr i).1, (hr i).2.trans this.2⟩
  have e : envDem conv big res cs = place conv res (cloudsExtents big cs) := by
    unfold envDem demExtents cloudsExtents
    rw [h cs _ fun _ => ⟨le_refl _, le_refl _⟩]
  refine ⟨e, fun hn => ?_⟩
  rw [e]
  simp only [envMls, extents, hn]
  rfl

/-! #### clouds without points -/

/-- **C161, deviation** one cloud without points (in the frame of the root) and the area is everything, as wide as the numbers are -/
theorem C161_empty_deviation (big : K) {cs : List (Cloud K)} {c : Cloud K} (hc : c ∈ cs) (hv : c.vertices = []) (ht : c.toRoot = ⟨fun i j => if i = j then 1 else 0, fun _ => 0⟩) (i : Fin 3) :
    (cloudsExtents big cs).lo i ≤ -big ∧ big ≤ (cloudsExtents big cs).hi i := by
  obtain ⟨l1, l2, rfl⟩ := List.append_of_mem hc
  unfold cloudsExtents
  rw [List.foldl_append, List.foldl_cons]
  have h := (clouds_fold (fun _ _ => True) i big (fun _ _ _ => trivial) l2 (extendBy (l1.foldl (fun r c => extendBy r c.toRoot (cloudExtents big c.vertices)) (Box.empty big)) c.toRoot (cloudExtents big c.vertices))).1
  have f := (fold_spec i ((corners (cloudExtents big c.vertices)).map c.toRoot.apply) (l1.foldl (fun r c => extendBy r c.toRoot (cloudExtents big c.vertices)) (Box.empty big))).2.1
  have f0 := f _ (mem_corners _ _ (k := 0) (by decide))
  have f7 := f _ (mem_corners _ _ (k := 7) (by decide))
  have e0 : c.toRoot.apply (corner (cloudExtents big c.vertices) 0) i = -big := by
    rw [hv, ht]
    fin_cases i <;> simp [Aff.apply, corner, Box.empty, cloudExtents]
  have e7 : c.toRoot.apply (corner (cloudExtents big c.vertices) 7) i = big := by
    rw [hv, ht]
    fin_cases i <;> simp [Aff.apply, corner, Box.empty, cloudExtents, show Nat.testBit 7 1 = true from rfl, show Nat.testBit 7 2 = true from rfl]
  exact ⟨h.1.trans (f0.1.trans (le_of_eq e0)), (le_of_eq e7.symm).trans (f7.2.trans h.2)⟩

/-- **C161** without clouds the tool stops -/
theorem C161_no_clouds (conv : Int → Nat) {big : K} (hbig : 0 < big) (res : K) : envMls conv big res none [] = none := by
  have h : -big < big := by linarith
  simp [envMls, extents, cloudsExtents, Box.isEmpty, Box.empty, h]

/-! #### the area argument -/

/-- **C161** with an area the grid begins at its smallest corner, and every place of the area that is at least one cell away from the upper ends has a cell -/
theorem C161_area_partial {conv : Int → Nat} (hc : ConvOk conv) {big res : K} (hr : 0 < res) (cs : List (Cloud K)) {x0 y0 x1 y1 : K} (more : List (Option K))
    (hx : x1 - x0 < 2 ^ 63 * res) (hy : y1 - y0 < 2 ^ 63 * res) (h1 : 1 < 2 ^ 63 * res) {p : V K} (px0 : x0 ≤ p 0) (px1 : p 0 + res ≤ x1) (py0 : y0 ≤ p 1) (py1 : p 1 + res ≤ y1) :
    ∃ g, envMls conv big res (some (some x0 :: some y0 :: some x1 :: some y1 :: more)) cs = some g ∧ g.x = x0 ∧ g.y = y0 ∧
      ∃ c, g.cell conv p = some c ∧ x0 + c.1 * res ≤ p 0 ∧ p 0 < x0 + (c.1 + 1) * res ∧ y0 + c.2 * res ≤ p 1 ∧ p 1 < y0 + (c.2 + 1) * res := by
  have e : readArea big (some x0 :: some y0 :: some x1 :: some y1 :: more) = ⟨![x0, y0, 0], ![x1, y1, 1]⟩ := rfl
  have hn : Box.isEmpty (⟨![x0, y0, 0], ![x1, y1, 1]⟩ : Box K) = false := by
    simp only [Box.isEmpty, Bool.or_eq_false_iff, decide_eq_false_iff_not, not_lt]
    refine ⟨⟨?_, ?_⟩, ?_⟩
    · show x0 ≤ x1
      linarith
    · show y0 ≤ y1
      linarith
    · show (0 : K) ≤ 1
      exact zero_le_one
  refine ⟨place conv res ⟨![x0, y0, 0], ![x1, y1, 1]⟩, ?_, rfl, rfl, ?_⟩
  · simp only [envMls, extents, e, hn]
    rfl
  · refine place_cell hc hr ?_ ?_ px1 py1
    · intro i
      fin_cases i
      · exact hx
      · exact hy
      · show (1 : K) - 0 < _
        linarith
    · intro i hi
      fin_cases i
      · exact ⟨px0, show p 0 ≤ x1 by linarith⟩
      · exact ⟨py0, show p 1 ≤ y1 by linarith⟩
      · exact absurd rfl hi

/-- **C161** an area of less than four numbers: nothing is written -/
theorem C161_area_short (conv : Int → Nat) {big : K} (res : K) (cs : List (Cloud K)) {ws : List K} (hl : ws.length < 4) (hw : ∀ w ∈ ws, -big < w) (hbig : 0 < big) : envMls conv big res (some (ws.map some)) cs = none := by
  have hb : -big < big := by linarith
  have : (readArea big (ws.map some)).isEmpty = true := by
    match ws, hl, hw with
    | [], _, _ => simp [readArea, Words.read, Box.empty, Box.isEmpty, hb]
    | [a], _, _ => simp [readArea, Words.read, Box.empty, Box.isEmpty, hb]
    | [a, b], _, hw => simp [readArea, Words.read, Box.empty, Box.isEmpty, hw a (by simp), hw b (by simp)]
    | [a, b, c], _, hw => simp [readArea, Words.read, Box.empty, Box.isEmpty, hw b (by simp)]
    | _ :: _ :: _ :: _ :: _, hl, _ => exact absurd hl (by simp only [List.length_cons]; omega)
  simp only [envMls, extents, this]
  rfl

/-- **C161, deviation** a last word that is not a number is taken for 0 -/
theorem C161_area_deviation (conv : Int → Nat) (big res : K) (cs : List (Cloud K)) (x0 y0 x1 : K) :
    envMls conv big res (some [some x0, some y0, some x1, none]) cs = envMls conv big res (some [some x0, some y0, some x1, some 0]) cs := rfl

end

/-! examples: two clouds -/

def still : Aff ℚ := ⟨fun i j => if i = j then 1 else 0, ![1, 0, 0]⟩

def two : List (Cloud ℚ) := [⟨[![0, 0, 0], ![3, 1, 1]], still⟩, ⟨[![0, 2, 0], ![1, 5 / 2, 1]], turn⟩]

example : ((envMls x86ToSize 1000 (1 / 2) none two).map fun g => (g.x, g.y, g.grid.nx, g.grid.ny)) = some (1, 0, 14, 2) := by decide +kernel

example : (envMls x86ToSize 1000 (1 / 2) none two).bind (fun g => g.cell x86ToSize ![5 / 4, 1 / 2, 0]) = some (0, 1) := by decide +kernel

example : PointOf two ![1, 0, 0] ∧ PointOf two ![8, 0, 0] ∧ PointOf two ![4, 1, 1] := by
  refine ⟨⟨_, List.mem_cons_self .., ![0, 0, 0], List.mem_cons_self .., ?_⟩, ⟨_, List.mem_cons_of_mem _ (List.mem_cons_self ..), ![0, 2, 0], List.mem_cons_self .., ?_⟩,
    ⟨_, List.mem_cons_self .., ![3, 1, 1], List.mem_cons_of_mem _ (List.mem_cons_self ..), ?_⟩⟩
  · funext i; fin_cases i <;> decide +kernel
  · funext i; fin_cases i <;> decide +kernel
  · funext i; fin_cases i <;> decide +kernel

example : ∀ i, (cloudsExtents 1000 two).hi i - (cloudsExtents 1000 two).lo i < 2 ^ 63 * (1 / 2) := by decide +kernel

#print axioms Envire.MlsTool.C160_contains
#print axioms Envire.MlsTool.C160_smallest
#print axioms Envire.MlsTool.C160_cloud
#print axioms Envire.MlsTool.C160_empty_deviation
#print axioms Envire.MlsTool.C160_flat_partial
#print axioms Envire.MlsTool.C160_flat_deviation
#print axioms Envire.MlsTool.C161_cell_partial
#print axioms Envire.MlsTool.C161_last_deviation
#print axioms Envire.MlsTool.C161_dem
#print axioms Envire.MlsTool.C161_empty_deviation
#print axioms Envire.MlsTool.C161_no_clouds
#print axioms Envire.MlsTool.C161_area_partial
#print axioms Envire.MlsTool.C161_area_short
#print axioms Envire.MlsTool.C161_area_deviation

end Envire.MlsTool
