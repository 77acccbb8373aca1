import Verif.Ops.KindleModel
import Verif.Ops.GrassfireProps
import Verif.Maps.TravProps

/-! C202: start, probabilities and result of the grassfire. -/
namespace Envire.Kindle

open Envire.Grassfire Envire.Trav

/-- specification: number of steps between two cells, diagonal steps included -/
def steps (c d : Cell) : Nat := max ((c.1 : Int) - d.1).natAbs ((c.2 : Int) - d.2).natAbs

/-- specification: a patch of the cell on which a robot at this height would stand -/
def Stands (cfg : Config) (g : Cells) (z : ℚ) (c : Cell) (p : Patch) : Prop := ∃ n o, nearest cfg z (g c) n = some (some (p, o))

theorem climb_more {cfg : Config} {z : ℚ} {l : List Patch} : ∀ {n m : Nat} {p : Patch} {r}, climb cfg z l n p = some r → n ≤ m → climb cfg z l m p = some r := by
  intro n
  induction n with
  | zero => intro m p r h; simp [climb] at h
  | succ n ih =>
    intro m p r h hm
    obtain ⟨m, rfl⟩ : ∃ k, m = k + 1 := ⟨m - 1, by omega⟩
    unfold climb at h ⊢
    split
    · rename_i ht; rw [if_pos ht] at h; exact h
    · rename_i ht
      rw [if_neg ht] at h
      cases hc : ceiling cfg l p with
      | none => rw [hc] at h; exact h
      | some q => rw [hc] at h; exact ih h (by omega)

theorem nearest_more {cfg : Config} {z : ℚ} {l : List Patch} {n m : Nat} {r} (h : nearest cfg z l n = some r) (hm : n ≤ m) : nearest cfg z l m = some r := by
  unfold nearest at h ⊢
  cases hs : scan cfg z l none with
  | inl p => rw [hs] at h; exact h
  | inr b =>
    rw [hs] at h
    cases b with
    | none => exact h
    | some p =>
      dsimp only at h ⊢
      obtain ⟨q, hq, rfl⟩ := Option.map_eq_some_iff.1 h
      rw [climb_more hq hm]
      rfl

theorem fits_iff {cfg : Config} {g : Cells} (hs : ∀ c, ∀ q ∈ g c, 0 ≤ q.stdev) {z : ℚ} {c : Cell} {p : Patch} : (∃ o, fits cfg g z c = some (p, o)) ↔ Stands cfg g z c p := by
  obtain ⟨r, hr, -⟩ := C65_robot_fits cfg z (g c) (hs c) ((g c).length + 1) (by omega)
  unfold fits Stands
  constructor
  · rintro ⟨o, ho⟩
    refine ⟨(g c).length + 1, o, ?_⟩
    rw [hr] at ho ⊢
    simpa using ho
  · rintro ⟨n, o, ho⟩
    refine ⟨o, ?_⟩
    have h1 := nearest_more ho (le_max_left n ((g c).length + 1))
    have h2 := nearest_more hr (le_max_right n ((g c).length + 1))
    rw [h1] at h2
    cases h2
    rw [hr]
    rfl

theorem max_abs {a b : Int} {i : Nat} : max a.natAbs b.natAbs = i ↔ (a.natAbs = i ∨ b.natAbs = i) ∧ a.natAbs ≤ i ∧ b.natAbs ≤ i := by
  generalize a.natAbs = x
  generalize b.natAbs = y
  omega

theorem mem_rim {i : Nat} {o : Int × Int} : o ∈ rim i ↔ max o.1.natAbs o.2.natAbs = i := by
  obtain ⟨a, b⟩ := o
  unfold rim
  simp only [List.mem_filter, List.mem_flatMap, List.mem_map, List.mem_range, Prod.mk.injEq, Bool.or_eq_true, beq_iff_eq]
  rw [max_abs]
  constructor
  · rintro ⟨⟨y, ⟨k, hk, rfl⟩, x, ⟨k', hk', rfl⟩, rfl, rfl⟩, h⟩
    omega
  · intro h
    exact ⟨⟨b, ⟨(b + i).toNat, by omega, by omega⟩, a, ⟨(a + i).toNat, by omega, by omega⟩, rfl, rfl⟩, by omega⟩

theorem shift_some {w h : Nat} {c d : Cell} {xi yi : Int} : shift w h c xi yi = some d ↔ (d.1 : Int) = c.1 + xi ∧ (d.2 : Int) = c.2 + yi ∧ d.1 < w ∧ d.2 < h := by
  obtain ⟨dx, dy⟩ := d
  unfold shift
  dsimp only
  split
  · simp only [Option.some.injEq, Prod.mk.injEq]
    omega
  · simp only [reduceCtorEq, false_iff]
    omega

theorem mem_found {cfg : Config} {g : Cells} (hs : ∀ c, ∀ q ∈ g c, 0 ≤ q.stdev) {w h : Nat} {z : ℚ} {c : Cell} {i : Nat} {d : Cell} {p : Patch} :
    (d, p) ∈ found cfg g w h z c i ↔ d.1 < w ∧ d.2 < h ∧ steps c d = i ∧ Stands cfg g z d p := by
  unfold found
  rw [List.mem_filterMap, ← fits_iff hs]
  unfold steps
  rw [max_abs]
  constructor
  · rintro ⟨o, ho, hb⟩
    obtain ⟨e, he, hm⟩ := Option.bind_eq_some_iff.1 hb
    obtain ⟨⟨q, ob⟩, hq, hqe⟩ := Option.map_eq_some_iff.1 hm
    cases hqe
    obtain ⟨h1, h2, h3, h4⟩ := shift_some.1 he
    have := max_abs.1 (mem_rim.1 ho)
    exact ⟨h3, h4, by omega, ob, hq⟩
  · rintro ⟨h1, h2, h3, o, ho⟩
    refine ⟨((d.1 : Int) - c.1, (d.2 : Int) - c.2), mem_rim.2 (max_abs.2 (by dsimp only; omega)), ?_⟩
    rw [(shift_some (d := d)).2 ⟨by omega, by omega, h1, h2⟩]
    show Option.map _ _ = _
    rw [ho]
    rfl

theorem foldl_pick (z : ℚ) (l : List (Cell × Patch)) : ∀ b, (∃ r, l.foldl (pick z) (some b) = some r ∧ (r = b ∨ r ∈ l) ∧ diff z r.2 ≤ diff z b.2 ∧ ∀ x ∈ l, diff z r.2 ≤ diff z x.2) := by
  induction l with
  | nil => intro b; exact ⟨b, rfl, Or.inl rfl, le_refl _, fun x h => by cases h⟩
  | cons a l ih =>
    intro b
    rw [List.foldl_cons]
    show ∃ r, l.foldl (pick z) (if diff z a.2 < diff z b.2 then some a else some b) = some r ∧ _
    split
    · rename_i hlt
      obtain ⟨r, h1, h2, h3, h4⟩ := ih a
      refine ⟨r, h1, Or.inr ?_, le_trans h3 hlt.le, ?_⟩
      · rcases h2 with rfl | h2
        · exact List.mem_cons_self
        · exact List.mem_cons_of_mem _ h2
      · intro x hx
        rcases List.mem_cons.1 hx with rfl | hx
        · exact h3
        · exact h4 x hx
    · rename_i hlt
      obtain ⟨r, h1, h2, h3, h4⟩ := ih b
      refine ⟨r, h1, h2.imp id (List.mem_cons_of_mem _), h3, ?_⟩
      intro x hx
      rcases List.mem_cons.1 hx with rfl | hx
      · exact le_trans h3 (not_lt.1 hlt)
      · exact h4 x hx

theorem pick_spec (z : ℚ) (l : List (Cell × Patch)) :
    (l = [] ∧ l.foldl (pick z) none = none) ∨ ∃ r, l.foldl (pick z) none = some r ∧ r ∈ l ∧ ∀ x ∈ l, diff z r.2 ≤ diff z x.2 := by
  cases l with
  | nil => exact Or.inl ⟨rfl, rfl⟩
  | cons a l =>
    refine Or.inr ?_
    obtain ⟨r, h1, h2, h3, h4⟩ := foldl_pick z l a
    refine ⟨r, h1, ?_, ?_⟩
    · rcases h2 with rfl | h2
      · exact List.mem_cons_self
      · exact List.mem_cons_of_mem _ h2
    · intro x hx
      rcases List.mem_cons.1 hx with rfl | hx
      · exact h3
      · exact h4 x hx

theorem rounds_spec {cfg : Config} {g : Cells} (hs : ∀ c, ∀ q ∈ g c, 0 ≤ q.stdev) {w h : Nat} {z : ℚ} {c : Cell} : ∀ n i,
    (∀ d p, rounds cfg g w h z c i n = some (d, p) → d.1 < w ∧ d.2 < h ∧ i ≤ steps c d ∧ steps c d < i + n ∧ Stands cfg g z d p ∧
      (∀ e q, e.1 < w → e.2 < h → i ≤ steps c e → Stands cfg g z e q → steps c d ≤ steps c e ∧ (steps c e = steps c d → diff z p ≤ diff z q))) ∧
    (rounds cfg g w h z c i n = none → ∀ e q, e.1 < w → e.2 < h → i ≤ steps c e → steps c e < i + n → ¬ Stands cfg g z e q) := by
  intro n
  induction n with
  | zero =>
    intro i
    exact ⟨fun d p h => by simp [rounds] at h, fun _ e q _ _ h1 h2 => by omega⟩
  | succ n ih =>
    intro i
    rcases pick_spec z (found cfg g w h z c i) with ⟨he, hf⟩ | ⟨r, hf, hm, hle⟩
    · have hr : rounds cfg g w h z c i (n + 1) = rounds cfg g w h z c (i + 1) n := by
        rw [rounds, hf]
      have hnone : ∀ e q, e.1 < w → e.2 < h → steps c e = i → ¬ Stands cfg g z e q := by
        intro e q h1 h2 h3 h4
        have := (mem_found hs (c := c) (i := i)).2 ⟨h1, h2, h3, h4⟩
        rw [he] at this
        cases this
      rw [hr]
      constructor
      · intro d p h
        obtain ⟨h1, h2, h3, h4, h5, h6⟩ := (ih (i + 1)).1 d p h
        refine ⟨h1, h2, by omega, by omega, h5, ?_⟩
        intro e q g1 g2 g3 g4
        have : steps c e ≠ i := fun h => hnone e q g1 g2 h g4
        exact h6 e q g1 g2 (by omega) g4
      · intro h e q g1 g2 g3 g4 g5
        have : steps c e ≠ i := fun h => hnone e q g1 g2 h g5
        exact (ih (i + 1)).2 h e q g1 g2 (by omega) (by omega) g5
    · have hr : rounds cfg g w h z c i (n + 1) = some r := by
        rw [rounds, hf]
      rw [hr]
      constructor
      · intro d p h
        cases h
        obtain ⟨h1, h2, h3, h4⟩ := (mem_found hs).1 hm
        refine ⟨h1, h2, by omega, by omega, h4, ?_⟩
        intro e q g1 g2 g3 g4
        refine ⟨by omega, fun h => ?_⟩
        exact hle (e, q) ((mem_found hs).2 ⟨g1, g2, by omega, g4⟩)
      · intro h
        cases h

/-- **C202 (start)** If the start is in the map, the search begins at a cell of the map that is at most nine steps away, on a patch where the robot stands, and no cell that is nearer has such a patch.
If it does not begin then there is no such patch within nine steps. Of the cells with the same number of steps, if the deviations are zero and the frame of the map is not higher or lower than the
root, it takes the patch whose surface is nearest to the start. Missing: other deviations and frames, see below. -/
theorem C202_start_partial (cfg : Config) (g : Cells) (hs : ∀ c, ∀ q ∈ g c, 0 ≤ q.stdev) (w h : Nat) (toMap : Pos → Pos) (cellOf : ℚ → ℚ → Option Cell) (s : Pos) (c : Cell)
    (hc : cellOf (toMap s).1 (toMap s).2.1 = some c) (hz : (toMap s).2.2 = s.2.2) :
    ∃ r, begins cfg g w h toMap cellOf s = some r ∧
    (∀ d p, r = some (d, p) → d.1 < w ∧ d.2 < h ∧ steps c d ≤ 9 ∧ Stands cfg g (toMap s).2.2 d p ∧
      (∀ e q, e.1 < w → e.2 < h → Stands cfg g (toMap s).2.2 e q → steps c d ≤ steps c e ∧
        (steps c e = steps c d → p.stdev = 0 → q.stdev = 0 → |p.mean + p.stdev - (toMap s).2.2| ≤ |q.mean + q.stdev - (toMap s).2.2|))) ∧
    (r = none → ∀ e q, e.1 < w → e.2 < h → steps c e ≤ 9 → ¬ Stands cfg g (toMap s).2.2 e q) := by
  rw [hz]
  refine ⟨rounds cfg g w h s.2.2 c 0 10, ?_, ?_, ?_⟩
  · unfold begins
    dsimp only
    rw [hc]
    rfl
  · intro d p hr
    obtain ⟨h1, h2, -, h4, h5, h6⟩ := (rounds_spec hs 10 0).1 d p hr
    refine ⟨h1, h2, by omega, h5, ?_⟩
    intro e q g1 g2 g3
    obtain ⟨a, b⟩ := h6 e q g1 g2 (by omega) g3
    refine ⟨a, fun hse hp hq => ?_⟩
    have hb := b hse
    unfold diff at hb
    rw [hp, hq, add_zero, add_zero] at hb
    rw [hp, hq, add_zero, add_zero, abs_sub_comm, abs_sub_comm q.mean]
    exact hb
  · intro hr e q g1 g2 g3
    exact (rounds_spec hs 10 0).2 hr e q g1 g2 (by omega) (by omega)

/-- **C202 (surface, deviation)** The deviation is added with the wrong sign: of two cells beside the start the one is taken whose surface is one metre away, though the surface of the other one has
exactly the height of the start. -/
theorem C202_surface_deviation : ∃ (cfg : Config) (g : Cells) (p q : Patch), 0 ≤ p.stdev ∧ 0 ≤ q.stdev ∧ g (0, 0) = [p] ∧ g (2, 0) = [q] ∧ q.mean + q.stdev = 0 ∧ p.mean + p.stdev = 1 ∧
    Stands cfg g 0 (2, 0) q ∧ begins cfg g 3 1 id (fun _ _ => some (1, 0)) (0, 0, 0) = some (some ((0, 0), p)) := by
  refine ⟨⟨2, 3, 0, 1⟩, fun c => if c = (0, 0) then [⟨1 / 2, 1 / 2, 1⟩] else if c = (2, 0) then [⟨-1 / 2, 1 / 2, 1⟩] else [], ⟨1 / 2, 1 / 2, 1⟩, ⟨-1 / 2, 1 / 2, 1⟩, ?_, ?_, rfl, rfl, ?_, ?_,
    ⟨2, false, ?_⟩, ?_⟩ <;> decide +kernel

/-- **C202 (height, deviation)** The height of the start is not taken to the frame of the map: in a map five metres above the root, with a floor at 0 and a ceiling at 5, a robot on the floor is put on
the ceiling. -/
theorem C202_height_deviation : ∃ (cfg : Config) (g : Cells) (toMap : Pos → Pos) (s : Pos) (floor roof : Patch), (∀ a, toMap a = (a.1, a.2.1, a.2.2 - 5)) ∧ g (0, 0) = [floor, roof] ∧
    floor.mean = (toMap s).2.2 ∧ floor.stdev = 0 ∧ Stands cfg g (toMap s).2.2 (0, 0) floor ∧ begins cfg g 1 1 toMap (fun _ _ => some (0, 0)) s = some (some ((0, 0), roof)) := by
  refine ⟨⟨1 / 2, 1, 0, 1⟩, fun _ => [⟨0, 0, 1⟩, ⟨5, 0, 1⟩], fun a => (a.1, a.2.1, a.2.2 - 5), (0, 0, 5), ⟨0, 0, 1⟩, ⟨5, 0, 1⟩, fun _ => rfl, rfl, ?_, ?_, ⟨3, false, ?_⟩, ?_⟩ <;> decide +kernel

theorem mem_cells {w h : Nat} {c : Cell} : c ∈ cells w h ↔ c.1 < w ∧ c.2 < h := by
  obtain ⟨x, y⟩ := c
  unfold cells
  simp only [List.mem_flatMap, List.mem_map, List.mem_range, Prod.mk.injEq]
  constructor
  · rintro ⟨b, hb, a, ha, rfl, rfl⟩
    exact ⟨ha, hb⟩
  · rintro ⟨ha, hb⟩
    exact ⟨y, hb, x, ha, rfl, rfl⟩

theorem writeAll_ok {tw th : Nat} {f : Cell → Res Nat} : ∀ {l : List Cell} {m : Cell → Nat}, (∀ c ∈ l, (c.1 < tw ∧ c.2 < th) ∧ ∃ v, f c = .ok v) →
    ∃ m', writeAll tw th f l m = .ok m' ∧ (∀ c ∈ l, f c = .ok (m' c)) ∧ ∀ c, c ∉ l → m' c = m c := by
  intro l
  induction l with
  | nil => intro m _; exact ⟨m, rfl, fun c h => (by cases h), fun _ _ => rfl⟩
  | cons a l ih =>
    intro m h
    obtain ⟨hb, v, hv⟩ := h a List.mem_cons_self
    obtain ⟨m', h1, h2, h3⟩ := ih (m := fun d => if d = a then v else m d) fun c hc => h c (List.mem_cons_of_mem _ hc)
    refine ⟨m', ?_, ?_, ?_⟩
    · rw [writeAll, if_pos hb, hv]
      exact h1
    · intro c hc
      by_cases hl : c ∈ l
      · exact h2 c hl
      · rcases List.mem_cons.1 hc with rfl | hc
        · rw [h3 _ hl, if_pos rfl]
          exact hv
        · exact absurd hc hl
    · intro c hc
      rw [h3 c fun hl => hc (List.mem_cons_of_mem _ hl), if_neg (fun he : c = a => hc (by rw [he]; exact List.mem_cons_self))]

theorem writeAll_outside {tw th : Nat} {f : Cell → Res Nat} (hf : ∀ c, f c ≠ .throws) : ∀ {l : List Cell} {m : Cell → Nat}, (∃ c ∈ l, ¬ (c.1 < tw ∧ c.2 < th)) → writeAll tw th f l m = .undefined := by
  intro l
  induction l with
  | nil => rintro m ⟨c, hc, -⟩; cases hc
  | cons a l ih =>
    rintro m ⟨c, hc, hn⟩
    rw [writeAll]
    by_cases hb : a.1 < tw ∧ a.2 < th
    · rw [if_pos hb]
      have : ∃ c ∈ l, ¬ (c.1 < tw ∧ c.2 < th) := by
        rcases List.mem_cons.1 hc with rfl | hc
        · exact absurd hb hn
        · exact ⟨c, hc, hn⟩
      cases hv : f a with
      | ok v => exact ih this
      | throws => exact absurd hv (hf a)
      | undefined => rfl
    · rw [if_neg hb]

/-- specification: the byte of a probability -/
def Byte (p : ℚ) (v : Nat) : Prop := v < 256 ∧ (v : ℚ) / 255 ≤ p ∧ p < (v : ℚ) / 255 + 1 / 255

theorem byte_of {p : ℚ} (h0 : 0 ≤ p) (h1 : p ≤ 1) : ∃ v, storeProb p = .ok v ∧ Byte p v := by
  obtain ⟨v, a, b, c, d⟩ := C42_probability.1 p h0 h1
  exact ⟨v, a, b, c, d⟩

theorem best_mem {cfg : Config} {g : Cells} (hs : ∀ c, ∀ q ∈ g c, 0 ≤ q.stdev) {z : ℚ} {c : Cell} {r : Patch × Bool} (h : fits cfg g z c = some r) : r.1 ∈ g c := by
  obtain ⟨x, hx, h1, h2, -⟩ := C65_robot_fits cfg z (g c) (hs c) ((g c).length + 1) (by omega)
  unfold fits at h
  rw [hx] at h
  have hxr : x = some r := by simpa using h
  obtain ⟨p, b⟩ := r
  cases b
  · exact (h1 p hxr).1
  · exact (h2 p hxr).1

/-- **C202 (probabilities)** When the search has a start each cell that it reached with a patch has the probability n / N, at most 1, of the n measurements of the patch, and each other cell has 0; N is
the nominal number, which must be positive. The patch is the one on which a robot stands that comes from the surface of the patch of a touching cell, which was reached too. If the start is outside nothing is written, if there is no patch near it all probabilities are 0. -/
theorem C202_probability (cfg : Config) (nominal : Int) (hN : 0 < nominal) (g : Cells) (hs : ∀ c, ∀ q ∈ g c, 0 ≤ q.stdev) (hn : ∀ c, ∀ q ∈ g c, 0 ≤ q.count) (w h : Nat) (toMap : Pos → Pos)
    (cellOf : ℚ → ℚ → Option Cell) (s : Pos) (old : Cell → Nat) :
    ∃ ret m, update cfg nominal g w h w h toMap cellOf s old = .ok (ret, m) ∧
    (cellOf (toMap s).1 (toMap s).2.1 = none → m = old) ∧
    (begins cfg g w h toMap cellOf s = some none → ∀ c, m c = 0) ∧
    (∀ c0 p0, begins cfg g w h toMap cellOf s = some (some (c0, p0)) →
      let f := final cfg g w h c0 p0
      (∀ c, c.1 < w → c.2 < h → (f.best c = none → m c = 0) ∧ ∀ p, f.best c = some p → p ∈ g c ∧ Byte (min 1 ((p.count : ℚ) / nominal)) (m c)) ∧
      (∀ c, f.visited c = false → c.1 < w → c.2 < h → m c = 0) ∧
      f.best c0 = some p0 ∧ ∀ c p, f.best c = some p → c ≠ c0 → ∃ d q, Adj w h d c ∧ f.best d = some q ∧ Stands cfg g (q.mean + q.stdev) c p) := by
  have hN' : (0 : ℚ) < nominal := by exact_mod_cast hN
  have hb : ∀ b : Option Patch, (∀ p, b = some p → 0 ≤ p.count) → ∃ v, byteOf nominal b = .ok v ∧ (b = none → v = 0) ∧ ∀ p, b = some p → Byte (min 1 ((p.count : ℚ) / nominal)) v := by
    intro b hp
    cases b with
    | none => exact ⟨0, show storeProb 0 = .ok 0 by decide +kernel, fun _ => rfl, fun p h => by cases h⟩
    | some p =>
      have h0 : (0 : ℚ) ≤ p.count := by exact_mod_cast hp p rfl
      unfold byteOf
      dsimp only
      by_cases hgt : p.count > nominal
      · rw [if_pos hgt]
        obtain ⟨v, h1, h2⟩ := byte_of (p := 1) (by norm_num) (le_refl _)
        refine ⟨v, h1, fun h => (by cases h), fun q h => ?_⟩
        cases h
        have : (1 : ℚ) ≤ (p.count : ℚ) / nominal := by
          rw [le_div_iff₀ hN', one_mul]
          exact_mod_cast hgt.le
        rw [min_eq_left this]
        exact h2
      · rw [if_neg hgt, if_neg (by omega)]
        have hle : (p.count : ℚ) / nominal ≤ 1 := by
          rw [div_le_one hN']
          exact_mod_cast not_lt.1 hgt
        obtain ⟨v, h1, h2⟩ := byte_of (p := (p.count : ℚ) / nominal) (div_nonneg h0 hN'.le) hle
        refine ⟨v, h1, fun h => (by cases h), fun q h => ?_⟩
        cases h
        rw [min_eq_right hle]
        exact h2
  unfold update
  cases hbg : begins cfg g w h toMap cellOf s with
  | none => exact ⟨false, old, rfl, fun _ => rfl, fun h => (by cases h), fun c0 p0 h => (by cases h)⟩
  | some r =>
    cases r with
    | none =>
      refine ⟨false, _, rfl, fun hc => ?_, fun _ _ => rfl, fun c0 p0 h => (by cases h)⟩
      unfold begins at hbg
      dsimp only at hbg
      rw [hc] at hbg
      cases hbg
    | some cp =>
      obtain ⟨c0, p0⟩ := cp
      have hcell : ∃ c, cellOf (toMap s).1 (toMap s).2.1 = some c ∧ rounds cfg g w h s.2.2 c 0 10 = some (c0, p0) := by
        unfold begins at hbg
        exact Option.map_eq_some_iff.1 hbg
      obtain ⟨c, hc, hr⟩ := hcell
      obtain ⟨g1, g2, -, -, g5, -⟩ := (rounds_spec hs 10 0).1 c0 p0 hr
      have hp0 : p0 ∈ g c0 := by
        obtain ⟨o, ho⟩ := (fits_iff hs).2 g5
        exact best_mem hs ho
      obtain ⟨-, -, hv, -, hor, hb0, hbe, hbn⟩ := C43_grassfire (w := w) (h := h) (fits := fun d o => fits cfg g o.top d) (c0 := c0) (p0 := p0) ⟨g1, g2⟩ (8 * (w * h)) (le_refl _)
      have hmem : ∀ d p, (final cfg g w h c0 p0).best d = some p → p ∈ g d := by
        intro d p hd
        unfold final at hd
        by_cases hvd : ((St.step w h fun d o => fits cfg g o.top d)^[8 * (w * h)] (start w h c0 p0)).visited d = true
        · rcases (hv d).1 hvd with rfl | hm
          · rw [hb0] at hd
            cases hd
            exact hp0
          · obtain ⟨⟨d', q⟩, hx, rfl⟩ := List.mem_map.1 hm
            rw [hbe d' q hx] at hd
            obtain ⟨r, hr, rfl⟩ := Option.map_eq_some_iff.1 hd
            exact best_mem hs hr
        · rw [hbn d (by simpa using hvd)] at hd
          cases hd
      have hcount : ∀ d p, (final cfg g w h c0 p0).best d = some p → 0 ≤ p.count := fun d p hd => hn d p (hmem d p hd)
      obtain ⟨m, hm, h2, -⟩ := writeAll_ok (tw := w) (th := h) (f := fun d => byteOf nominal ((final cfg g w h c0 p0).best d)) (l := cells w h) (m := fun _ => 0)
        fun d hd => ⟨mem_cells.1 hd, (hb _ (hcount d)).imp fun v hv => hv.1⟩
      have hcellp : ∀ d : Cell, d.1 < w → d.2 < h → ((final cfg g w h c0 p0).best d = none → m d = 0) ∧
          ∀ p, (final cfg g w h c0 p0).best d = some p → p ∈ g d ∧ Byte (min 1 ((p.count : ℚ) / nominal)) (m d) := by
        intro d hd1 hd2
        obtain ⟨v, k1, k2, k3⟩ := hb _ (hcount d)
        have := h2 d (mem_cells.2 ⟨hd1, hd2⟩)
        rw [k1] at this
        cases this
        exact ⟨k2, fun p hp => ⟨hmem d p hp, k3 p hp⟩⟩
      refine ⟨false, m, ?_, fun h => ?_, fun h => (by cases h), fun c0' p0' h => ?_⟩
      · dsimp only
        rw [hm]
      · rw [hc] at h
        cases h
      · cases h
        refine ⟨hcellp, fun d hd h1 h2 => (hcellp d h1 h2).1 (hbn d hd), hb0, ?_⟩
        intro d p hd hne
        unfold final at hd
        have hvd : ((St.step w h fun d o => fits cfg g o.top d)^[8 * (w * h)] (start w h c0 p0)).visited d = true := by
          by_contra hn
          rw [hbn d (by simpa using hn)] at hd
          cases hd
        rcases (hv d).1 hvd with rfl | hm
        · exact absurd rfl hne
        · obtain ⟨⟨d', q⟩, hx, rfl⟩ := List.mem_map.1 hm
          obtain ⟨e, hdr, ha, -⟩ := hor d' q hx
          refine ⟨e, q, ha, ?_, ?_⟩
          · unfold final
            rcases hdr with ⟨rfl, rfl⟩ | ⟨q', hq', hf⟩
            · exact hb0
            · rw [hbe e q' hq']
              dsimp only at hf
              rw [hf]
              rfl
          · rw [hbe d' q hx] at hd
            obtain ⟨⟨r, o⟩, hr, hrp⟩ := Option.map_eq_some_iff.1 hd
            cases hrp
            exact (fits_iff hs).1 ⟨o, hr⟩

/-- **C202 (result, deviation)** Whatever happens the operator says that it failed. -/
theorem C202_result_deviation (cfg : Config) (nominal : Int) (g : Cells) (w h tw th : Nat) (toMap : Pos → Pos) (cellOf : ℚ → ℚ → Option Cell) (s : Pos) (old : Cell → Nat) (ret : Bool)
    (m : Cell → Nat) (hu : update cfg nominal g w h tw th toMap cellOf s old = .ok (ret, m)) : ret = false := by
  unfold update at hu
  split at hu
  · cases hu; rfl
  · cases hu; rfl
  · split at hu
    · cases hu; rfl
    · cases hu
    · cases hu

theorem byteOf_throws (nominal : Int) (b : Option Patch) : byteOf nominal b ≠ .throws := by
  have hs : ∀ p, storeProb p ≠ .throws := by
    intro p
    unfold storeProb
    split <;> simp
  unfold byteOf
  split
  · exact hs _
  · split
    · exact hs _
    · split
      · simp
      · exact hs _

/-- **C202 (size, deviation)** The band of the classes is resized to the size of the surface map, that of the probabilities is not: if it has fewer columns or rows it is written outside. -/
theorem C202_size_deviation (cfg : Config) (nominal : Int) (g : Cells) (w h tw th : Nat) (toMap : Pos → Pos) (cellOf : ℚ → ℚ → Option Cell) (s : Pos) (old : Cell → Nat) (b : Cell × Patch)
    (hb : begins cfg g w h toMap cellOf s = some (some b)) (hw : 0 < w) (hh : 0 < h) (hsz : tw < w ∨ th < h) :
    update cfg nominal g w h tw th toMap cellOf s old = .undefined := by
  unfold update
  rw [hb]
  obtain ⟨c, p⟩ := b
  dsimp only
  rw [writeAll_outside (fun _ => byteOf_throws _ _) ⟨(w - 1, h - 1), mem_cells.2 ⟨by dsimp only; omega, by dsimp only; omega⟩, by dsimp only; omega⟩]

/-! ### examples -/

/-- ten of twenty measurements in the cell of the start, none in the other -/
example : (match update ⟨1 / 2, 1, 0, 1⟩ 20 (fun c => if c = (0, 0) then [⟨0, 0, 10⟩] else []) 2 1 2 1 id (fun _ _ => some (1, 0)) (0, 0, 0) (fun _ => 7) with
    | .ok (r, m) => (r, m (0, 0), m (1, 0)) | _ => (true, 0, 0)) = (false, 127, 0) := by decide +kernel

/-- no patch -/
example : begins ⟨1 / 2, 1, 0, 1⟩ (fun _ => []) 2 1 id (fun _ _ => some (1, 0)) (0, 0, 0) = some none := by decide +kernel

#print axioms C202_start_partial
#print axioms C202_surface_deviation
#print axioms C202_height_deviation
#print axioms C202_probability
#print axioms C202_result_deviation
#print axioms C202_size_deviation
end Envire.Kindle
