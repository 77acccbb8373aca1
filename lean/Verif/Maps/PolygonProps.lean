import Verif.Maps.PolygonModel
import Mathlib.Order.ConditionallyCompleteLattice.Basic
import Mathlib.Tactic.NormNum

/-!
Properties of polygon sets: C133 (queries), C134 (test for the inside).
-/

namespace Envire.Polygon

noncomputable section

/-! ### geometry -/

theorem minL_le (f : P → ℝ) (l : List P) : ∀ v ∈ l, minL f l ≤ f v := by
  induction l with
  | nil => intro v hv; cases hv
  | cons a l ih =>
    cases l with
    | nil =>
      intro v hv
      rw [List.mem_singleton.1 hv]
      exact le_refl _
    | cons b l =>
      intro v hv
      rcases List.mem_cons.1 hv with rfl | h
      · exact min_le_left _ _
      · exact (min_le_right _ _).trans (ih v h)

theorem le_maxL (f : P → ℝ) (l : List P) : ∀ v ∈ l, f v ≤ maxL f l := by
  induction l with
  | nil => intro v hv; cases hv
  | cons a l ih =>
    cases l with
    | nil =>
      intro v hv
      rw [List.mem_singleton.1 hv]
      exact le_refl _
    | cons b l =>
      intro v hv
      rcases List.mem_cons.1 hv with rfl | h
      · exact le_max_left _ _
      · exact (ih v h).trans (le_max_right _ _)

/-- the points of a hull are within the bounds of its vertices -/
theorem hull_bounds {shape : List P} {t : Pose} {q : P} (h : q ∈ hull shape t) :
    (minL Prod.fst (shape.map t.apply) ≤ q.1 ∧ q.1 ≤ maxL Prod.fst (shape.map t.apply)) ∧
      (minL Prod.snd (shape.map t.apply) ≤ q.2 ∧ q.2 ≤ maxL Prod.snd (shape.map t.apply)) := by
  let S : Set P := {q | (minL Prod.fst (shape.map t.apply) ≤ q.1 ∧ q.1 ≤ maxL Prod.fst (shape.map t.apply)) ∧
      (minL Prod.snd (shape.map t.apply) ≤ q.2 ∧ q.2 ≤ maxL Prod.snd (shape.map t.apply))}
  have hc : Convex ℝ S := by
    intro x hx y hy a b ha hb hab
    obtain ⟨⟨x1, x2⟩, x3, x4⟩ := hx
    obtain ⟨⟨y1, y2⟩, y3, y4⟩ := hy
    have e1 : (a • x + b • y).1 = a * x.1 + b * y.1 := rfl
    have e2 : (a • x + b • y).2 = a * x.2 + b * y.2 := rfl
    have hb' : b = 1 - a := by linarith
    refine ⟨⟨?_, ?_⟩, ?_, ?_⟩
    all_goals subst hb'
    · rw [e1]; nlinarith [mul_le_mul_of_nonneg_left x1 ha, mul_le_mul_of_nonneg_left y1 hb]
    · rw [e1]; nlinarith [mul_le_mul_of_nonneg_left x2 ha, mul_le_mul_of_nonneg_left y2 hb]
    · rw [e2]; nlinarith [mul_le_mul_of_nonneg_left x3 ha, mul_le_mul_of_nonneg_left y3 hb]
    · rw [e2]; nlinarith [mul_le_mul_of_nonneg_left x4 ha, mul_le_mul_of_nonneg_left y4 hb]
  have hs : {q | ∃ v ∈ shape, q = t.apply v} ⊆ S := by
    rintro q ⟨v, hv, rfl⟩
    have hm : t.apply v ∈ shape.map t.apply := List.mem_map.2 ⟨v, hv, rfl⟩
    exact ⟨⟨minL_le _ _ _ hm, le_maxL _ _ _ hm⟩, minL_le _ _ _ hm, le_maxL _ _ _ hm⟩
  exact convexHull_min hs hc h

theorem apply_mem {area : List P} {t : Pose} {v : P} (h : v ∈ convexHull ℝ {q | q ∈ area}) : t.apply v ∈ hull area t := by
  have hc : Convex ℝ {x : P | t.apply x ∈ hull area t} := by
    intro x hx y hy a b ha hb hab
    have : t.apply (a • x + b • y) = a • t.apply x + b • t.apply y := by
      unfold Pose.apply
      have hb' : b = 1 - a := by linarith
      ext
      · simp only [Prod.fst_add, Prod.snd_add, Prod.smul_fst, Prod.smul_snd, smul_eq_mul]
        rw [hb']
        ring
      · simp only [Prod.fst_add, Prod.snd_add, Prod.smul_fst, Prod.smul_snd, smul_eq_mul]
        rw [hb']
        ring
    show t.apply (a • x + b • y) ∈ hull area t
    rw [this]
    exact (convex_convexHull ℝ _) hx hy ha hb hab
  have hs : {q : P | q ∈ area} ⊆ {x : P | t.apply x ∈ hull area t} := by
    intro q hq
    exact subset_convexHull ℝ _ ⟨q, hq, rfl⟩
  exact convexHull_min hs hc h

theorem hull_mono {shape area : List P} (h : ∀ v ∈ shape, v ∈ convexHull ℝ {q | q ∈ area}) (t : Pose) : hull shape t ⊆ hull area t := by
  apply convexHull_min
  · rintro q ⟨v, hv, rfl⟩
    exact apply_mem (h v hv)
  · exact convex_convexHull ℝ _

theorem hull_nonempty {shape : List P} (h : shape ≠ []) (t : Pose) : (hull shape t).Nonempty := by
  obtain ⟨v, hv⟩ := List.exists_mem_of_ne_nil _ h
  exact ⟨_, subset_convexHull ℝ _ ⟨v, hv, rfl⟩⟩

theorem dist_nonneg (a b : P) : 0 ≤ dist a b := Real.sqrt_nonneg _

theorem abs_le_dist (a b : P) : |a.1 - b.1| ≤ dist a b ∧ |a.2 - b.2| ≤ dist a b := by
  constructor
  · rw [← Real.sqrt_sq_eq_abs]
    exact Real.sqrt_le_sqrt (by nlinarith [sq_nonneg (a.2 - b.2)])
  · rw [← Real.sqrt_sq_eq_abs]
    exact Real.sqrt_le_sqrt (by nlinarith [sq_nonneg (a.1 - b.1)])

/-- two sets have points closer than the radii of both shapes plus the tolerance of a collision -/
def Near (k : Consts) (a b : Set P) : Prop := ∃ p ∈ a, ∃ q ∈ b, dist p q < 2 * k.radius + k.eps

theorem distance_lt {k : Consts} (hk : 0 < k.eps) {a b : Set P} (ha : a.Nonempty) (hb : b.Nonempty) :
    distance k a b < k.eps ↔ Near k a b := by
  obtain ⟨p, hp⟩ := ha
  obtain ⟨q, hq⟩ := hb
  have hne : {d | ∃ p ∈ a, ∃ q ∈ b, d = dist p q}.Nonempty := ⟨_, p, hp, q, hq, rfl⟩
  have hbd : BddBelow {d | ∃ p ∈ a, ∃ q ∈ b, d = dist p q} := ⟨0, by rintro d ⟨p, -, q, -, rfl⟩; exact dist_nonneg p q⟩
  unfold distance Near
  rw [max_lt_iff]
  constructor
  · rintro ⟨-, h⟩
    have h' : sInf {d | ∃ p ∈ a, ∃ q ∈ b, d = dist p q} < 2 * k.radius + k.eps := by linarith
    obtain ⟨d, ⟨p, hp, q, hq, rfl⟩, hd⟩ := (csInf_lt_iff hbd hne).1 h'
    exact ⟨p, hp, q, hq, hd⟩
  · rintro ⟨p, hp, q, hq, hd⟩
    refine ⟨hk, ?_⟩
    have := (csInf_lt_iff hbd hne).2 ⟨_, ⟨p, hp, q, hq, rfl⟩, hd⟩
    linarith

/-- constants as those of Box2D -/
structure Sane (k : Consts) : Prop where
  radius : 0 ≤ k.radius
  eps : 0 < k.eps
  margin : k.eps ≤ k.margin

/-- a polygon with at least one vertex, an area that contains the polygon, and a box that is up to date -/
structure Ok (k : Consts) (p : Poly) : Prop where
  shape : p.shape ≠ []
  area : ∀ v ∈ p.shape, v ∈ convexHull ℝ {q | q ∈ p.area}
  box : p.box = aabb k p.area p.pose

theorem ok_create (k : Consts) {points : List P} (h : points ≠ []) : Ok k (.create k points) :=
  ⟨h, fun _ hv => subset_convexHull ℝ _ hv, rfl⟩

theorem ok_move {k : Consts} {p : Poly} (h : Ok k p) (t : Pose) : Ok k (p.move k t) := ⟨h.shape, h.area, rfl⟩

theorem ok_area {k : Consts} {p : Poly} (h : Ok k p) {points : List P} (ha : ∀ v ∈ p.shape, v ∈ convexHull ℝ {q | q ∈ points}) :
    Ok k (p.setArea k points) := ⟨h.shape, ha, rfl⟩

theorem ok_near {k : Consts} (hk : Sane k) {p q : Poly} (hp : Ok k p) (hq : Ok k q) (h : Near k p.hull q.hull) :
    p.box.meets (q.box.fat k) := by
  obtain ⟨x, hx, y, hy, hd⟩ := h
  have hx' := hull_bounds (hull_mono hp.area p.pose hx)
  have hy' := hull_bounds (hull_mono hq.area q.pose hy)
  obtain ⟨d1, d2⟩ := abs_le_dist x y
  have d1 := abs_le.1 d1
  have d2 := abs_le.1 d2
  have hm := hk.margin
  rw [hp.box, hq.box]
  unfold Box.meets Box.fat aabb
  dsimp only
  obtain ⟨⟨a1, a2⟩, a3, a4⟩ := hx'
  obtain ⟨⟨b1, b2⟩, b3, b4⟩ := hy'
  refine ⟨?_, ?_, ?_, ?_⟩ <;> linarith

/-! ### the callbacks -/

theorem callback_fields (k : Consts) (w : World) (i : Nat) (s : PSet) (j : Nat) :
    (s.callback k w i j).1.proxies = s.proxies ∧ (s.callback k w i j).1.cur = s.cur := by
  unfold PSet.callback
  dsimp only
  split <;> split <;> (try split) <;> exact ⟨rfl, rfl⟩

theorem callback_hit (k : Consts) (w : World) (i : Nat) (s : PSet) (j : Nat) (h : distance k (w i).hull (w j).hull < k.eps) :
    (s.callback k w i j).2 = false ∧ (s.callback k w i j).1.has = true ∧ (s.callback k w i j).1.coll = some j := by
  unfold PSet.callback
  dsimp only
  rw [decide_eq_true h, if_pos rfl]
  refine ⟨rfl, ?_⟩
  split <;> (try split) <;> exact ⟨rfl, rfl⟩

theorem callback_miss (k : Consts) (w : World) (i : Nat) (s : PSet) (j : Nat) (h : ¬ distance k (w i).hull (w j).hull < k.eps) :
    (s.callback k w i j).2 = true ∧ (s.callback k w i j).1.has = s.has ∧ (s.callback k w i j).1.coll = s.coll := by
  unfold PSet.callback
  dsimp only
  rw [decide_eq_false h, if_neg (by simp)]
  refine ⟨rfl, ?_⟩
  split <;> (try split) <;> exact ⟨rfl, rfl⟩

theorem callback_min (k : Consts) (w : World) (i : Nat) (s : PSet) (j : Nat) : ∃ d, (s.callback k w i j).1.minDist = some d ∧
    (d = distance k (w i).hull (w j).hull ∨ s.minDist = some d) ∧ d ≤ distance k (w i).hull (w j).hull ∧
      ∀ m, s.minDist = some m → d ≤ m := by
  unfold PSet.callback
  dsimp only
  by_cases h : distance k (w i).hull (w j).hull < k.eps
  · rw [decide_eq_true h, if_pos rfl]
    cases hm : s.minDist with
    | none => exact ⟨_, rfl, Or.inl rfl, le_refl _, fun m h => by cases h⟩
    | some m =>
      dsimp only
      by_cases hd : distance k (w i).hull (w j).hull < m
      · rw [if_pos hd]
        exact ⟨_, rfl, Or.inl rfl, le_refl _, fun m' h => by cases h; exact hd.le⟩
      · rw [if_neg hd]
        exact ⟨m, by first | rfl | exact hm, Or.inr rfl, not_lt.1 hd, fun m' h => by cases h; exact le_refl _⟩
  · rw [decide_eq_false h, if_neg (by simp)]
    cases hm : s.minDist with
    | none => exact ⟨_, rfl, Or.inl rfl, le_refl _, fun m h => by cases h⟩
    | some m =>
      dsimp only
      by_cases hd : distance k (w i).hull (w j).hull < m
      · rw [if_pos hd]
        exact ⟨_, rfl, Or.inl rfl, le_refl _, fun m' h => by cases h; exact hd.le⟩
      · rw [if_neg hd]
        exact ⟨m, by first | rfl | exact hm, Or.inr rfl, not_lt.1 hd, fun m' h => by cases h; exact le_refl _⟩

/-- the result of the callbacks of a list of polygons -/
structure Visited (k : Consts) (w : World) (i : Nat) (s r : PSet) (l : List Nat) : Prop where
  proxies : r.proxies = s.proxies
  cur : r.cur = s.cur
  has : r.has = true ↔ s.has = true ∨ ∃ j ∈ l, distance k (w i).hull (w j).hull < k.eps
  coll : r.has = true → s.has = true ∨ ∃ j ∈ l, distance k (w i).hull (w j).hull < k.eps ∧ r.coll = some j
  none : r.minDist = none ↔ s.minDist = none ∧ l = []
  some : ∀ d, r.minDist = some d → (s.minDist = some d ∨ ∃ j ∈ l, d = distance k (w i).hull (w j).hull) ∧
    (∀ m, s.minDist = some m → d ≤ m) ∧ (d < k.eps ∨ ∀ j ∈ l, d ≤ distance k (w i).hull (w j).hull)

theorem visit_spec (k : Consts) (w : World) (i : Nat) (l : List Nat) (s : PSet) : Visited k w i s (PSet.visit k w i s l) l := by
  induction l generalizing s with
  | nil =>
    refine ⟨rfl, rfl, by simp [PSet.visit], fun h => Or.inl h, by simp [PSet.visit], fun d hd => ⟨Or.inl hd, fun m hm => ?_, Or.inr (by simp)⟩⟩
    have : PSet.visit k w i s [] = s := rfl
    rw [this, hm] at hd
    cases hd
    exact le_refl _
  | cons j l ih =>
    obtain ⟨c1, c2⟩ := callback_fields k w i s j
    obtain ⟨d, m1, m2, m3, m4⟩ := callback_min k w i s j
    by_cases h : distance k (w i).hull (w j).hull < k.eps
    · obtain ⟨h1, h2, h3⟩ := callback_hit k w i s j h
      have hv : PSet.visit k w i s (j :: l) = (s.callback k w i j).1 := by
        rw [PSet.visit]
        split
        · rename_i s' heq
          rw [heq] at h1
          cases h1
        · rename_i s' heq
          rw [heq]
      rw [hv]
      refine ⟨c1, c2, ?_, ?_, ?_, ?_⟩
      · rw [h2]
        simp only [true_iff]
        exact Or.inr ⟨j, by simp, h⟩
      · exact fun _ => Or.inr ⟨j, by simp, h, h3⟩
      · rw [m1]
        simp
      · intro d' hd'
        rw [m1] at hd'
        cases hd'
        refine ⟨m2.elim (fun e => Or.inr ⟨j, by simp, e⟩) Or.inl, m4, Or.inl (lt_of_le_of_lt m3 h)⟩
    · obtain ⟨h1, h2, h3⟩ := callback_miss k w i s j h
      have hv : PSet.visit k w i s (j :: l) = PSet.visit k w i (s.callback k w i j).1 l := by
        rw [PSet.visit]
        split
        · rename_i s' heq
          rw [heq]
        · rename_i s' heq
          rw [heq] at h1
          cases h1
      rw [hv]
      have hi := ih (s.callback k w i j).1
      refine ⟨hi.proxies.trans c1, hi.cur.trans c2, ?_, ?_, ?_, ?_⟩
      · rw [hi.has, h2]
        simp [h]
      · intro hr
        rcases hi.coll hr with g | ⟨j', hj', g⟩
        · left; rw [← h2]; exact g
        · exact Or.inr ⟨j', by simp [hj'], g⟩
      · rw [hi.none, m1]
        simp
      · intro d' hd'
        obtain ⟨g1, g2, g3⟩ := hi.some d' hd'
        have hle := g2 d m1
        refine ⟨?_, fun m hm => hle.trans (m4 m hm), ?_⟩
        · rcases g1 with g | ⟨j', hj', g⟩
          · rw [m1] at g
            cases g
            exact m2.elim (fun e => Or.inr ⟨j, by simp, e⟩) Or.inl
          · exact Or.inr ⟨j', by simp [hj'], g⟩
        · rcases g3 with g | g
          · exact Or.inl g
          · refine Or.inr ?_
            intro j' hj'
            rcases List.mem_cons.1 hj' with rfl | hj'
            · exact hle.trans m3
            · exact g j' hj'

/-! ### C133 -/

/-- the polygons of a set -/
def PSet.members (s : PSet) : List Nat := s.proxies.map Prod.fst

/-- the claim of C133 for intersections: a polygon of the set is closer than the radii of the shapes and the tolerance -/
def Hits (k : Consts) (w : World) (s : PSet) (i : Nat) : Prop := ∃ j ∈ s.members, Near k (w i).hull (w j).hull

/-- the claim of C133 for distances: the smallest of the distances to the polygons whose box meets that of the area, or one
below the tolerance; `none` if there is no such polygon -/
def Smallest (k : Consts) (w : World) (s : PSet) (i : Nat) : Option ℝ → Prop
  | none => ∀ j ∈ s.members, ¬ (w i).box.meets ((w j).box.fat k)
  | some d => (∃ j ∈ s.members, d = distance k (w i).hull (w j).hull) ∧
      (d < k.eps ∨ ∀ j ∈ s.members, (w i).box.meets ((w j).box.fat k) → d ≤ distance k (w i).hull (w j).hull)

/-- the boxes of the set are those of its polygons -/
def Current (k : Consts) (w : World) (s : PSet) : Prop := ∀ x ∈ s.proxies, x.2 = (w x.1).box.fat k

/-- a query without a stored result -/
theorem fresh (k : Consts) (hk : Sane k) (br : Broad) (w : World) (s : PSet) (i : Nat) (hw : ∀ j, Ok k (w j)) (hc : Current k w s)
    (hf : ¬ (s.cur = some i ∧ (w i).moved = false)) :
    (s.doQuery k br w i).1 = Function.update w i { w i with moved := false } ∧ (s.doQuery k br w i).2.cur = some i ∧
      (s.doQuery k br w i).2.proxies = s.proxies ∧ ((s.doQuery k br w i).2.has = true ↔ Hits k w s i) ∧
      Smallest k w s i (s.doQuery k br w i).2.minDist ∧
      ((s.doQuery k br w i).2.has = true → ∃ j ∈ s.members, Near k (w i).hull (w j).hull ∧ (s.doQuery k br w i).2.coll = some j) := by
  unfold PSet.doQuery
  rw [if_neg hf]
  dsimp only
  have hv := visit_spec k w i (br.query s.proxies (w i).box) { s with has := false, minDist := none, cur := some i }
  have hmem : ∀ j, j ∈ br.query s.proxies (w i).box ↔ j ∈ s.members ∧ (w i).box.meets ((w j).box.fat k) := by
    intro j
    rw [br.mem]
    unfold PSet.members
    constructor
    · rintro ⟨c, hm, hb⟩
      refine ⟨List.mem_map.2 ⟨_, hm, rfl⟩, ?_⟩
      have := hc _ hm
      rw [← this]
      exact hb
    · rintro ⟨hm, hb⟩
      obtain ⟨⟨j', c⟩, hx, rfl⟩ := List.mem_map.1 hm
      refine ⟨c, hx, ?_⟩
      have := hc _ hx
      dsimp only at this
      rw [this]
      exact hb
  have hd : ∀ j, distance k (w i).hull (w j).hull < k.eps ↔ Near k (w i).hull (w j).hull :=
    fun j => distance_lt hk.eps (hull_nonempty (hw i).shape _) (hull_nonempty (hw j).shape _)
  refine ⟨rfl, hv.cur, hv.proxies, ?_, ?_, ?_⟩
  · rw [hv.has]
    unfold Hits
    constructor
    · rintro (h | ⟨j, hj, h⟩)
      · cases h
      · exact ⟨j, ((hmem j).1 hj).1, (hd j).1 h⟩
    · rintro ⟨j, hj, h⟩
      exact Or.inr ⟨j, (hmem j).2 ⟨hj, ok_near hk (hw i) (hw j) h⟩, (hd j).2 h⟩
  · cases hm : (PSet.visit k w i { s with has := false, minDist := none, cur := some i } (br.query s.proxies (w i).box)).minDist with
    | none =>
      have := (hv.none.1 hm).2
      intro j hj hb
      have h2 := (hmem j).2 ⟨hj, hb⟩
      rw [this] at h2
      cases h2
    | some d =>
      obtain ⟨g1, -, g3⟩ := hv.some d hm
      refine ⟨?_, ?_⟩
      · rcases g1 with g | ⟨j, hj, g⟩
        · cases g
        · exact ⟨j, ((hmem j).1 hj).1, g⟩
      · rcases g3 with g | g
        · exact Or.inl g
        · exact Or.inr fun j hj hb => g j ((hmem j).2 ⟨hj, hb⟩)
  · intro h
    rcases hv.coll h with g | ⟨j, hj, g1, g2⟩
    · cases g
    · exact ⟨j, ((hmem j).1 hj).1, (hd j).1 g1, g2⟩

/-- calls: a move of a polygon, or a query with one -/
inductive Call | move (i : Nat) (t : Pose) | ask (i : Nat)

/-- a call -/
def step (k : Consts) (br : Broad) : World × PSet → Call → World × PSet
  | (w, s), .move i t => (Function.update w i ((w i).move k t), s)
  | (w, s), .ask i => s.doQuery k br w i

/-- the state between the calls: the stored result, if it is used, is the right one -/
structure Inv (k : Consts) (w : World) (s : PSet) : Prop where
  ok : ∀ j, Ok k (w j)
  current : Current k w s
  cache : ∀ i, s.cur = some i → (w i).moved = false → (s.has = true ↔ Hits k w s i) ∧ Smallest k w s i s.minDist ∧
    (s.has = true → ∃ j ∈ s.members, Near k (w i).hull (w j).hull ∧ s.coll = some j)

/-- polygons of the set that are not changed, apart from the mark of the move -/
theorem same_claims {k : Consts} {w w' : World} {s : PSet} {i : Nat} (hi : (w' i).hull = (w i).hull ∧ (w' i).box = (w i).box)
    (h : ∀ j ∈ s.members, (w' j).hull = (w j).hull ∧ (w' j).box = (w j).box) (m : Option ℝ) :
    (Hits k w' s i ↔ Hits k w s i) ∧ (Smallest k w' s i m ↔ Smallest k w s i m) := by
  constructor
  · unfold Hits
    constructor
    · rintro ⟨j, hj, hn⟩
      exact ⟨j, hj, by rw [← hi.1, ← (h j hj).1]; exact hn⟩
    · rintro ⟨j, hj, hn⟩
      exact ⟨j, hj, by rw [hi.1, (h j hj).1]; exact hn⟩
  · cases m with
    | none =>
      constructor
      · intro g j hj hm
        exact g j hj (by rw [hi.2, (h j hj).2]; exact hm)
      · intro g j hj hm
        exact g j hj (by rw [← hi.2, ← (h j hj).2]; exact hm)
    | some d =>
      constructor
      · rintro ⟨⟨j, hj, e⟩, g⟩
        refine ⟨⟨j, hj, by rw [e, hi.1, (h j hj).1]⟩, g.imp_right fun g j hj hm => ?_⟩
        rw [← hi.1, ← (h j hj).1]
        exact g j hj (by rw [hi.2, (h j hj).2]; exact hm)
      · rintro ⟨⟨j, hj, e⟩, g⟩
        refine ⟨⟨j, hj, by rw [e, hi.1, (h j hj).1]⟩, g.imp_right fun g j hj hm => ?_⟩
        rw [hi.1, (h j hj).1]
        exact g j hj (by rw [← hi.2, ← (h j hj).2]; exact hm)

theorem ask_inv (k : Consts) (hk : Sane k) (br : Broad) (w : World) (s : PSet) (i : Nat) (h : Inv k w s) :
    Inv k (s.doQuery k br w i).1 (s.doQuery k br w i).2 ∧ (s.doQuery k br w i).2.proxies = s.proxies := by
  by_cases hf : s.cur = some i ∧ (w i).moved = false
  · unfold PSet.doQuery
    rw [if_pos hf]
    exact ⟨h, rfl⟩
  · obtain ⟨e1, e2, e3, e4, e5, e6⟩ := fresh k hk br w s i h.ok h.current hf
    have hmem : (s.doQuery k br w i).2.members = s.members := by unfold PSet.members; rw [e3]
    have hsame : ∀ j, ((Function.update w i { w i with moved := false }) j).hull = (w j).hull ∧
        ((Function.update w i { w i with moved := false }) j).box = (w j).box := by
      intro j
      by_cases hj : j = i
      · subst hj
        rw [Function.update_self]
        exact ⟨rfl, rfl⟩
      · rw [Function.update_of_ne hj]
        exact ⟨rfl, rfl⟩
    refine ⟨⟨?_, ?_, ?_⟩, e3⟩
    · intro j
      rw [e1]
      by_cases hj : j = i
      · subst hj
        rw [Function.update_self]
        exact ⟨(h.ok j).shape, (h.ok j).area, (h.ok j).box⟩
      · rw [Function.update_of_ne hj]
        exact h.ok j
    · intro x hx
      rw [e3] at hx
      rw [e1, (hsame x.1).2]
      exact h.current x hx
    · intro c hc _
      rw [e2] at hc
      cases hc
      have hs := fun m => same_claims (k := k) (s := s) (hsame i) (fun j _ => hsame j) m
      refine ⟨?_, ?_, ?_⟩
      · rw [e4, e1]
        have : Hits k (Function.update w i { w i with moved := false }) (s.doQuery k br w i).2 i ↔
            Hits k (Function.update w i { w i with moved := false }) s i := by
          unfold Hits
          rw [hmem]
        rw [this, (hs none).1]
      · rw [e1]
        have : ∀ m, Smallest k (Function.update w i { w i with moved := false }) (s.doQuery k br w i).2 i m ↔
            Smallest k (Function.update w i { w i with moved := false }) s i m := by
          intro m
          unfold Smallest
          rw [hmem]
        rw [this, (hs _).2]
        exact e5
      · intro hh
        obtain ⟨j, hj, hn, hcoll⟩ := e6 hh
        refine ⟨j, by rw [hmem]; exact hj, ?_, hcoll⟩
        rw [e1, (hsame i).1, (hsame j).1]
        exact hn

theorem step_inv (k : Consts) (hk : Sane k) (br : Broad) (w : World) (s : PSet) (h : Inv k w s) (c : Call)
    (hc : ∀ i t, c = .move i t → i ∉ s.members) :
    Inv k (step k br (w, s) c).1 (step k br (w, s) c).2 ∧ (step k br (w, s) c).2.proxies = s.proxies := by
  cases c with
  | ask i => exact ask_inv k hk br w s i h
  | move i t =>
    have hi := hc i t rfl
    refine ⟨⟨?_, ?_, ?_⟩, rfl⟩
    · intro j
      show Ok k (Function.update w i ((w i).move k t) j)
      by_cases hj : j = i
      · subst hj
        rw [Function.update_self]
        exact ok_move (h.ok j) t
      · rw [Function.update_of_ne hj]
        exact h.ok j
    · intro x hx
      show x.2 = (Function.update w i ((w i).move k t) x.1).box.fat k
      have : x.1 ≠ i := by
        rintro rfl
        exact hi (List.mem_map.2 ⟨x, hx, rfl⟩)
      rw [Function.update_of_ne this]
      exact h.current x hx
    · intro c hcur hm
      change (Function.update w i ((w i).move k t) c).moved = false at hm
      have hci : c ≠ i := by
        rintro rfl
        rw [Function.update_self] at hm
        cases hm
      rw [Function.update_of_ne hci] at hm
      obtain ⟨g1, g2, g3⟩ := h.cache c hcur hm
      have hs := same_claims (k := k) (s := s) (w := w) (w' := Function.update w i ((w i).move k t)) (i := c)
        (by rw [Function.update_of_ne hci]; exact ⟨rfl, rfl⟩)
        (fun j hj => by
          have : j ≠ i := by rintro rfl; exact hi hj
          rw [Function.update_of_ne this]
          exact ⟨rfl, rfl⟩) s.minDist
      refine ⟨g1.trans hs.1.symm, hs.2.2 g2, fun hh => ?_⟩
      obtain ⟨j, hj, hn, hcoll⟩ := g3 hh
      refine ⟨j, hj, ?_, hcoll⟩
      have : j ≠ i := by rintro rfl; exact hi hj
      show Near k (Function.update w i ((w i).move k t) c).hull (Function.update w i ((w i).move k t) j).hull
      rw [Function.update_of_ne hci, Function.update_of_ne this]
      exact hn

/-- calls that do not move the polygons of the set -/
def Allowed (members : List Nat) (c : Call) : Prop := ∀ i t, c = .move i t → i ∉ members

theorem run_inv (k : Consts) (hk : Sane k) (br : Broad) (cs : List Call) (w : World) (s : PSet) (h : Inv k w s)
    (hc : ∀ c ∈ cs, Allowed s.members c) :
    Inv k (cs.foldl (step k br) (w, s)).1 (cs.foldl (step k br) (w, s)).2 ∧ (cs.foldl (step k br) (w, s)).2.proxies = s.proxies := by
  induction cs generalizing w s with
  | nil => exact ⟨h, rfl⟩
  | cons c cs ih =>
    obtain ⟨h1, h2⟩ := step_inv k hk br w s h c (hc c (by simp))
    have hmem : (step k br (w, s) c).2.members = s.members := by unfold PSet.members; rw [h2]
    obtain ⟨g1, g2⟩ := ih (step k br (w, s) c).1 (step k br (w, s) c).2 h1 (fun c' hc' => by rw [hmem]; exact hc c' (by simp [hc']))
    exact ⟨g1, g2.trans h2⟩

/-- the answer of a query is that of its result -/
theorem answers (k : Consts) (hk : Sane k) (br : Broad) (w : World) (s : PSet) (i : Nat) (h : Inv k w s) :
    ((s.isIntersecting k br w i).1 = true ↔ Hits k w s i) ∧ Smallest k w s i (s.getMinimalDistance k br w i).1 := by
  by_cases hf : s.cur = some i ∧ (w i).moved = false
  · obtain ⟨g1, g2, -⟩ := h.cache i hf.1 hf.2
    unfold PSet.isIntersecting PSet.getMinimalDistance PSet.doQuery
    rw [if_pos hf]
    exact ⟨g1, g2⟩
  · obtain ⟨-, -, -, e4, e5, -⟩ := fresh k hk br w s i h.ok h.current hf
    exact ⟨e4, e5⟩

/-- C133: while the polygons of a set are not moved and none is added, after any moves of other polygons and any queries,
isIntersecting is true exactly if a polygon of the set is closer than the radii of the shapes and the tolerance, and
getMinimalDistance is the smallest distance to the polygons whose box meets that of the area, or one below the tolerance.

Missing: moves of polygons of the set, additions and changes of the area after a query, and several sets, see C133_stale_move,
C133_stale_add, C133_stale_area, C133_stale_set and C133_old_place -/
theorem C133_queries_partial (k : Consts) (hk : Sane k) (br : Broad) (w : World) (l : List Nat) (hw : ∀ j, Ok k (w j)) (cs : List Call)
    (hc : ∀ c ∈ cs, Allowed l c) (i : Nat) (e : World × PSet)
    (he : e = cs.foldl (step k br) (w, l.foldl (PSet.add k w) PSet.new)) :
    e.2.members = l ∧ ((e.2.isIntersecting k br e.1 i).1 = true ↔ ∃ j ∈ l, Near k (e.1 i).hull (e.1 j).hull) ∧
      Smallest k e.1 e.2 i (e.2.getMinimalDistance k br e.1 i).1 := by
  have hadd : ∀ (l : List Nat) (s : PSet), (l.foldl (PSet.add k w) s).members = s.members ++ l ∧
      (l.foldl (PSet.add k w) s).cur = s.cur ∧ (Current k w s → Current k w (l.foldl (PSet.add k w) s)) := by
    intro l
    induction l with
    | nil => intro s; exact ⟨by simp, rfl, id⟩
    | cons a l ih =>
      intro s
      obtain ⟨h1, h2, h3⟩ := ih (s.add k w a)
      refine ⟨?_, h2, fun hcur => h3 ?_⟩
      · rw [List.foldl_cons, h1]
        unfold PSet.members PSet.add
        simp
      · intro x hx
        rcases List.mem_append.1 hx with g | g
        · exact hcur x g
        · rw [List.mem_singleton.1 g]
  obtain ⟨h1, h2, h3⟩ := hadd l PSet.new
  have h1' : (l.foldl (PSet.add k w) PSet.new).members = l := h1
  have hinv : Inv k w (l.foldl (PSet.add k w) PSet.new) := by
    refine ⟨hw, h3 (fun x hx => by cases hx), fun c hcur => ?_⟩
    rw [h2] at hcur
    cases hcur
  obtain ⟨g1, g2⟩ := run_inv k hk br cs w _ hinv (by rw [h1']; exact hc)
  rw [← he] at g1 g2
  have hmem : e.2.members = l := by
    rw [← h1']
    unfold PSet.members
    rw [g2]
  obtain ⟨a1, a2⟩ := answers k hk br e.1 e.2 i g1
  refine ⟨hmem, ?_, a2⟩
  rw [a1]
  unfold Hits
  rw [hmem]

/-! #### wrong results -/

/-- a triangle -/
def tri : List P := [(0, 0), (1, 0), (0, 1)]

/-- a pose that is 100 away -/
def away : Pose := ⟨1, 0, (100, 0)⟩

/-- constants below 1 -/
structure Small (k : Consts) : Prop extends Sane k where
  radius1 : k.radius ≤ 1
  margin1 : k.margin ≤ 1

theorem not_meets {k : Consts} (hk : Small k) : ¬ (aabb k tri .one).meets ((aabb k tri away).fat k) := by
  rintro ⟨-, h, -, -⟩
  unfold Box.fat aabb tri away Pose.one Pose.apply at h
  simp [minL, maxL] at h
  have := hk.radius1
  have := hk.margin1
  norm_num at h
  linarith

theorem not_meets' {k : Consts} (hk : Small k) : ¬ (aabb k tri away).meets ((aabb k tri .one).fat k) := by
  rintro ⟨h, -, -, -⟩
  unfold Box.fat aabb tri away Pose.one Pose.apply at h
  simp [minL, maxL] at h
  have := hk.radius1
  have := hk.margin1
  norm_num at h
  linarith

/-- two triangles: number 0 is at the origin, all others are away -/
def two (k : Consts) : World := fun i => if i = 0 then .create k tri else (Poly.create k tri).move k away

theorem query_none (br : Broad) (l : List (Nat × Box)) (b : Box) (h : ∀ x ∈ l, ¬ b.meets x.2) : br.query l b = [] := by
  apply List.eq_nil_iff_forall_not_mem.2
  intro j hj
  obtain ⟨c, hc, hm⟩ := (br.mem _ _ _).1 hj
  exact h _ hc hm

theorem near_self {k : Consts} (hk : Sane k) {a : Set P} (h : a.Nonempty) : Near k a a := by
  obtain ⟨p, hp⟩ := h
  refine ⟨p, hp, p, hp, ?_⟩
  unfold dist
  simp
  linarith [hk.radius, hk.eps]

theorem tri_ne : tri ≠ [] := by unfold tri; simp

/-- the first query of triangle 0 in a set of triangle 1 -/
theorem first_query {k : Consts} (hk : Small k) (br : Broad) (s : PSet) (hs : s = PSet.new.add k (two k) 1) :
    (s.doQuery k br (two k) 0).1 = Function.update (two k) 0 { two k 0 with moved := false } ∧
      (s.doQuery k br (two k) 0).2 = { s with cur := some 0 } := by
  subst hs
  unfold PSet.doQuery
  rw [if_neg (by rintro ⟨h, -⟩; cases h)]
  refine ⟨rfl, ?_⟩
  dsimp only
  rw [query_none]
  · rfl
  · intro x hx
    have : x = (1, (two k 1).box.fat k) := by
      have : x ∈ [(1, (two k 1).box.fat k)] := hx
      exact List.mem_singleton.1 this
    rw [this]
    exact not_meets hk

theorem cached (k : Consts) (br : Broad) (w : World) (s : PSet) (i : Nat) (h : s.cur = some i) (hm : (w i).moved = false) :
    (s.isIntersecting k br w i).1 = s.has := by
  unfold PSet.isIntersecting PSet.doQuery
  rw [if_pos ⟨h, hm⟩]

/-- C133, wrong: after a query, a polygon of the set is moved onto the polygon of the query: the next query does not report it,
although both polygons are the same -/
theorem C133_stale_move (k : Consts) (hk : Small k) (br : Broad) : ∃ (w : World) (s : PSet) (i j : Nat), j ∈ s.members ∧
    (∀ l, Ok k (w l)) ∧ Current k w s ∧
    let r := (s.doQuery k br w i)
    let w' := Function.update r.1 j ((r.1 j).move k .one)
    (w' i).hull = (w' j).hull ∧ (w' i).hull.Nonempty ∧ (r.2.isIntersecting k br w' i).1 = false := by
  refine ⟨two k, PSet.new.add k (two k) 1, 0, 1, by simp [PSet.members, PSet.add, PSet.new], ?_, ?_, ?_⟩
  · intro l
    unfold two
    split
    · exact ok_create k tri_ne
    · exact ok_move (ok_create k tri_ne) _
  · intro x hx
    have : x ∈ [(1, (two k 1).box.fat k)] := hx
    rw [List.mem_singleton.1 this]
  · obtain ⟨e1, e2⟩ := first_query hk br _ rfl
    dsimp only
    rw [e1, e2]
    have h0 : (Function.update (Function.update (two k) 0 { two k 0 with moved := false }) 1
        ((Function.update (two k) 0 { two k 0 with moved := false } 1).move k .one)) 0 = { two k 0 with moved := false } := by
      rw [Function.update_of_ne (by decide), Function.update_self]
    refine ⟨?_, ?_, ?_⟩
    · rw [h0, Function.update_self, Function.update_of_ne (by decide)]
      rfl
    · rw [h0]
      exact hull_nonempty tri_ne _
    · rw [cached k br _ _ 0 rfl (by rw [h0])]
      rfl

/-- C133, wrong: a polygon that is added after a query is not found by the next query, although it is the same as the polygon of
the query -/
theorem C133_stale_add (k : Consts) (hk : Small k) (br : Broad) : ∃ (w : World) (s : PSet) (i j : Nat),
    (∀ l, Ok k (w l)) ∧ Current k w s ∧
    let r := (s.doQuery k br w i)
    (r.1 i).hull = (r.1 j).hull ∧ (r.1 i).hull.Nonempty ∧ j ∈ (r.2.add k r.1 j).members ∧
      ((r.2.add k r.1 j).isIntersecting k br r.1 i).1 = false := by
  refine ⟨two k, PSet.new.add k (two k) 1, 0, 0, ?_, ?_, ?_⟩
  · intro l
    unfold two
    split
    · exact ok_create k tri_ne
    · exact ok_move (ok_create k tri_ne) _
  · intro x hx
    have : x ∈ [(1, (two k 1).box.fat k)] := hx
    rw [List.mem_singleton.1 this]
  · obtain ⟨e1, e2⟩ := first_query hk br _ rfl
    dsimp only
    refine ⟨rfl, ?_, ?_, ?_⟩
    · rw [e1, Function.update_self]
      exact hull_nonempty tri_ne _
    · simp [PSet.members, PSet.add]
    · rw [e1, e2, cached k br _ _ 0 rfl (by rw [Function.update_self])]
      rfl

/-- C133, wrong: a new area for the distances does not change the distance of the next query, whatever it contains -/
theorem C133_stale_area (k : Consts) (br : Broad) (w : World) (s : PSet) (i : Nat) (points : List P) :
    let r := s.doQuery k br w i
    let w' := Function.update r.1 i ((r.1 i).setArea k points)
    (r.2.getMinimalDistance k br w' i).1 = (s.getMinimalDistance k br w i).1 := by
  intro r w'
  have h : r.2.cur = some i ∧ (r.1 i).moved = false := by
    show (s.doQuery k br w i).2.cur = some i ∧ ((s.doQuery k br w i).1 i).moved = false
    unfold PSet.doQuery
    by_cases hf : s.cur = some i ∧ (w i).moved = false
    · rw [if_pos hf]
      exact hf
    · rw [if_neg hf]
      refine ⟨(visit_spec k w i _ _).cur, ?_⟩
      dsimp only
      rw [Function.update_self]
  unfold PSet.getMinimalDistance
  dsimp only
  conv_lhs => unfold PSet.doQuery
  rw [if_pos ⟨h.1, by
    show (Function.update r.1 i ((r.1 i).setArea k points) i).moved = false
    rw [Function.update_self]
    exact h.2⟩]

/-- C133, wrong: a polygon is moved onto one of the set; a query in another set, which is empty, resets the mark of the move,
and the first set does not report the intersection -/
theorem C133_stale_set (k : Consts) (hk : Small k) (br : Broad) : ∃ (w : World) (s : PSet) (i j : Nat), j ∈ s.members ∧
    (∀ l, Ok k (w l)) ∧ Current k w s ∧
    let r := s.doQuery k br w i
    let w1 := Function.update r.1 i ((r.1 i).move k away)
    let w2 := (PSet.new.doQuery k br w1 i).1
    (w2 i).hull = (w2 j).hull ∧ (w2 i).hull.Nonempty ∧ (r.2.isIntersecting k br w2 i).1 = false := by
  refine ⟨two k, PSet.new.add k (two k) 1, 0, 1, by simp [PSet.members, PSet.add, PSet.new], ?_, ?_, ?_⟩
  · intro l
    unfold two
    split
    · exact ok_create k tri_ne
    · exact ok_move (ok_create k tri_ne) _
  · intro x hx
    have : x ∈ [(1, (two k 1).box.fat k)] := hx
    rw [List.mem_singleton.1 this]
  · obtain ⟨e1, e2⟩ := first_query hk br _ rfl
    dsimp only
    rw [e1, e2]
    have hq : ∀ w : World, (PSet.new.doQuery k br w 0).1 = Function.update w 0 { w 0 with moved := false } := by
      intro w
      unfold PSet.doQuery
      rw [if_neg (by rintro ⟨h, -⟩; cases h)]
    rw [hq]
    refine ⟨?_, ?_, ?_⟩
    · simp [Function.update, two, Poly.hull, Poly.move, Poly.create]
    · rw [Function.update_self]
      exact hull_nonempty tri_ne _
    · rw [cached k br _ _ 0 rfl (by rw [Function.update_self])]
      rfl

/-- C133, wrong: a polygon that was moved after it was added is searched at its old place, also by a query without a stored
result -/
theorem C133_old_place (k : Consts) (hk : Small k) (br : Broad) : ∃ (w : World) (s : PSet) (i j : Nat), j ∈ s.members ∧
    (∀ l, Ok k (w l)) ∧ Current k w s ∧ s.cur = none ∧
    let w' := Function.update w j ((w j).move k .one)
    (w' i).hull = (w' j).hull ∧ (w' i).hull.Nonempty ∧ (s.isIntersecting k br w' i).1 = false := by
  refine ⟨two k, PSet.new.add k (two k) 1, 0, 1, by simp [PSet.members, PSet.add, PSet.new], ?_, ?_, rfl, ?_⟩
  · intro l
    unfold two
    split
    · exact ok_create k tri_ne
    · exact ok_move (ok_create k tri_ne) _
  · intro x hx
    have : x ∈ [(1, (two k 1).box.fat k)] := hx
    rw [List.mem_singleton.1 this]
  · dsimp only
    refine ⟨?_, ?_, ?_⟩
    · rw [Function.update_self, Function.update_of_ne (by decide)]
      rfl
    · rw [Function.update_of_ne (by decide)]
      exact hull_nonempty tri_ne _
    · unfold PSet.isIntersecting PSet.doQuery
      rw [if_neg (by rintro ⟨h, -⟩; cases h)]
      dsimp only
      rw [query_none]
      · rfl
      · intro x hx
        have : x ∈ [(1, (two k 1).box.fat k)] := hx
        rw [List.mem_singleton.1 this, Function.update_of_ne (by decide)]
        exact not_meets hk

/-! ### C134 -/

theorem one_apply (v : P) : Pose.one.apply v = v := by unfold Pose.apply Pose.one; simp

theorem one_back (v : P) : Pose.one.back v = v := by unfold Pose.back Pose.one; simp

theorem hull_one (shape : List P) : hull shape .one = convexHull ℝ {q | q ∈ shape} := by
  unfold hull
  congr 1
  ext q
  simp [one_apply]

/-- C134: at the identity, a polygon that is reported as inside is contained in a polygon of the set.

Missing: other poses, see C134_moved; polygons that are contained but not reported, see C134_touching -/
theorem C134_inside_partial (k : Consts) (hk : Sane k) (br : Broad) (w : World) (s : PSet) (i : Nat) (h : Inv k w s)
    (hi : (w i).pose = .one) (hs : ∀ j ∈ s.members, (w j).pose = .one) (ht : (s.isInside k br w i).1 = true) :
    ∃ j ∈ s.members, (w i).hull ⊆ (w j).hull := by
  have key : ∃ j ∈ s.members, (s.doQuery k br w i).2.coll = some j := by
    unfold PSet.isInside at ht
    dsimp only at ht
    rw [Bool.and_eq_true] at ht
    by_cases hf : s.cur = some i ∧ (w i).moved = false
    · obtain ⟨-, -, g3⟩ := h.cache i hf.1 hf.2
      have e : s.doQuery k br w i = (w, s) := by unfold PSet.doQuery; rw [if_pos hf]
      rw [e] at ht ⊢
      obtain ⟨j, hj, -, hc⟩ := g3 ht.1
      exact ⟨j, hj, hc⟩
    · obtain ⟨-, -, -, -, -, e6⟩ := fresh k hk br w s i h.ok h.current hf
      obtain ⟨j, hj, -, hc⟩ := e6 ht.1
      exact ⟨j, hj, hc⟩
  obtain ⟨j, hj, hc⟩ := key
  refine ⟨j, hj, ?_⟩
  unfold PSet.isInside at ht
  dsimp only at ht
  rw [hc, Bool.and_eq_true] at ht
  have hall := List.all_eq_true.1 ht.2
  unfold Poly.hull
  rw [hi, hs j hj]
  apply hull_mono
  intro v hv
  have := hall v hv
  unfold testPoint at this
  rw [hi, one_back] at this
  simpa using this

/-- a triangle that contains `tri` -/
def big : List P := [(-1, -1), (9, -1), (-1, 9)]

/-- polygon 0 is the triangle, all others are the large one, all 100 away -/
def nested (k : Consts) : World := fun i => (Poly.create k (if i = 0 then tri else big)).move k away

theorem tri_in_big : ∀ v ∈ tri, v ∈ convexHull ℝ {q | q ∈ big} := by
  have hc := convex_convexHull ℝ {q : P | q ∈ big}
  have h1 : ((-1, -1) : P) ∈ convexHull ℝ {q : P | q ∈ big} := subset_convexHull ℝ _ (by simp [big])
  have h2 : ((9, -1) : P) ∈ convexHull ℝ {q : P | q ∈ big} := subset_convexHull ℝ _ (by simp [big])
  have h3 : ((-1, 9) : P) ∈ convexHull ℝ {q : P | q ∈ big} := subset_convexHull ℝ _ (by simp [big])
  have hx : ((0, -1) : P) ∈ convexHull ℝ {q : P | q ∈ big} := by
    have := hc h1 h2 (show (0 : ℝ) ≤ 9 / 10 by norm_num) (show (0 : ℝ) ≤ 1 / 10 by norm_num) (by norm_num)
    convert this using 1
    ext <;> norm_num
  have hx1 : ((1, -1) : P) ∈ convexHull ℝ {q : P | q ∈ big} := by
    have := hc h1 h2 (show (0 : ℝ) ≤ 8 / 10 by norm_num) (show (0 : ℝ) ≤ 2 / 10 by norm_num) (by norm_num)
    convert this using 1
    ext <;> norm_num
  have hy : ((0, 8) : P) ∈ convexHull ℝ {q : P | q ∈ big} := by
    have := hc h2 h3 (show (0 : ℝ) ≤ 1 / 10 by norm_num) (show (0 : ℝ) ≤ 9 / 10 by norm_num) (by norm_num)
    convert this using 1
    ext <;> norm_num
  have hy1 : ((1, 7) : P) ∈ convexHull ℝ {q : P | q ∈ big} := by
    have := hc h2 h3 (show (0 : ℝ) ≤ 2 / 10 by norm_num) (show (0 : ℝ) ≤ 8 / 10 by norm_num) (by norm_num)
    convert this using 1
    ext <;> norm_num
  intro v hv
  simp only [tri, List.mem_cons, List.not_mem_nil, or_false] at hv
  rcases hv with rfl | rfl | rfl
  · have := hc hx hy (show (0 : ℝ) ≤ 8 / 9 by norm_num) (show (0 : ℝ) ≤ 1 / 9 by norm_num) (by norm_num)
    convert this using 1
    ext <;> norm_num
  · have := hc hx1 hy1 (show (0 : ℝ) ≤ 7 / 8 by norm_num) (show (0 : ℝ) ≤ 1 / 8 by norm_num) (by norm_num)
    convert this using 1
    ext <;> norm_num
  · have := hc hx hy (show (0 : ℝ) ≤ 7 / 9 by norm_num) (show (0 : ℝ) ≤ 2 / 9 by norm_num) (by norm_num)
    convert this using 1
    ext <;> norm_num

/-- C134, wrong: a triangle within a larger one, both moved by the same pose, is not reported as inside. The points are not
moved, and the pose of the first polygon is taken for the second one -/
theorem C134_moved (k : Consts) (hk : Small k) (br : Broad) : ∃ (w : World) (s : PSet) (i j : Nat), s.members = [j] ∧
    (∀ l, Ok k (w l)) ∧ Current k w s ∧ (w i).hull ⊆ (w j).hull ∧ (s.isIntersecting k br w i).1 = true ∧
      (s.isInside k br w i).1 = false := by
  have hok : ∀ l, Ok k (nested k l) := by
    intro l
    unfold nested
    apply ok_move
    apply ok_create
    split
    · exact tri_ne
    · unfold big; simp
  have hcur : Current k (nested k) (PSet.new.add k (nested k) 1) := by
    intro x hx
    have : x ∈ [(1, (nested k 1).box.fat k)] := hx
    rw [List.mem_singleton.1 this]
  have hsub : (nested k 0).hull ⊆ (nested k 1).hull := hull_mono tri_in_big away
  have hinv : Inv k (nested k) (PSet.new.add k (nested k) 1) := ⟨hok, hcur, fun i hi => by cases hi⟩
  have hfresh := fresh k hk.toSane br (nested k) (PSet.new.add k (nested k) 1) 0 hok hcur (by rintro ⟨h, -⟩; cases h)
  have hhit : ((PSet.new.add k (nested k) 1).doQuery k br (nested k) 0).2.has = true := by
    refine hfresh.2.2.2.1.2 ⟨1, by simp [PSet.members, PSet.add, PSet.new], ?_⟩
    obtain ⟨p, hp⟩ := hull_nonempty tri_ne away
    refine ⟨p, hp, p, hsub hp, ?_⟩
    unfold dist
    simp
    linarith [hk.radius, hk.eps]
  refine ⟨nested k, PSet.new.add k (nested k) 1, 0, 1, rfl, hok, hcur, hsub, hhit, ?_⟩
  obtain ⟨j, hj, -, hc⟩ := hfresh.2.2.2.2.2 hhit
  have hj1 : j = 1 := by simpa [PSet.members, PSet.add, PSet.new] using hj
  subst hj1
  unfold PSet.isInside
  dsimp only
  rw [hc, hhit, Bool.true_and]
  rw [Bool.eq_false_iff]
  intro hall
  have h0 := List.all_eq_true.1 hall (0, 0) (by show (0, 0) ∈ tri; simp [tri])
  unfold testPoint at h0
  have h1 : away.back (0, 0) ∈ convexHull ℝ {q : P | q ∈ big} := (by simpa using h0 :
    (nested k 0).pose.back (0, 0) ∈ convexHull ℝ {q | q ∈ (nested k 1).shape})
  have h2 : away.back (0, 0) ∈ hull big .one := by rw [hull_one]; exact h1
  have h3 := (hull_bounds h2).1.1
  have h4 : minL Prod.fst (big.map Pose.one.apply) = -1 := by
    have : (big.map Pose.one.apply) = big := by
      conv_rhs => rw [← List.map_id big]
      exact List.map_congr_left fun v _ => one_apply v
    rw [this]
    unfold big minL minL minL
    norm_num
  rw [h4] at h3
  unfold Pose.back away at h3
  norm_num at h3

open Classical in
/-- a broad phase that calls back in the order of the additions -/
def inOrder : Broad where
  query l b := (l.filter fun x => decide (b.meets x.2)).map Prod.fst
  mem l b j := by
    simp only [List.mem_map, List.mem_filter, decide_eq_true_eq]
    constructor
    · rintro ⟨⟨j', c⟩, ⟨h1, h2⟩, rfl⟩
      exact ⟨c, h1, h2⟩
    · rintro ⟨c, h1, h2⟩
      exact ⟨(j, c), ⟨h1, h2⟩, rfl⟩

/-- a triangle that has one point in common with `tri` -/
def corner : List P := [(0, 0), (-1, 0), (0, -1)]

/-- polygon 0 is the triangle, polygon 1 the one at its corner, all others the large one, all at the identity -/
def three (k : Consts) : World := fun i => Poly.create k (if i = 0 then tri else if i = 1 then corner else big)

/-- C134, wrong: a triangle within a larger one is not reported as inside if another polygon of the set touches it and is
visited first -/
theorem C134_touching (k : Consts) (hk : Small k) : ∃ (br : Broad) (w : World) (s : PSet) (i j : Nat), j ∈ s.members ∧
    (∀ l, Ok k (w l) ∧ (w l).pose = .one) ∧ Current k w s ∧ (w i).hull ⊆ (w j).hull ∧ (s.isInside k br w i).1 = false := by
  have hok : ∀ l, Ok k (three k l) := by
    intro l
    unfold three
    apply ok_create
    split
    · exact tri_ne
    · split
      · unfold corner; simp
      · unfold big; simp
  let s := (PSet.new.add k (three k) 1).add k (three k) 2
  have hprox : s.proxies = [(1, (three k 1).box.fat k), (2, (three k 2).box.fat k)] := rfl
  have hcur : Current k (three k) s := by
    intro x hx
    rw [hprox] at hx
    rcases List.mem_cons.1 hx with rfl | hx
    · rfl
    · rw [List.mem_singleton.1 hx]
  have hnear : Near k (three k 0).hull (three k 1).hull := by
    have h0 : ((0, 0) : P) ∈ (three k 0).hull :=
      subset_convexHull ℝ _ ⟨(0, 0), by simp [three, Poly.create, tri], (one_apply _).symm⟩
    have h1 : ((0, 0) : P) ∈ (three k 1).hull :=
      subset_convexHull ℝ _ ⟨(0, 0), by simp [three, Poly.create, corner], (one_apply _).symm⟩
    refine ⟨_, h0, _, h1, ?_⟩
    unfold dist
    simp
    linarith [hk.radius, hk.eps]
  have hmeet := ok_near hk.toSane (hok 0) (hok 1) hnear
  have hdist := (distance_lt hk.eps (hull_nonempty (hok 0).shape _) (hull_nonempty (hok 1).shape _)).2 hnear
  refine ⟨inOrder, three k, s, 0, 2, by simp [PSet.members, hprox], fun l => ⟨hok l, rfl⟩, hcur, hull_mono tri_in_big _, ?_⟩
  obtain ⟨l, hl⟩ : ∃ l, inOrder.query s.proxies (three k 0).box = 1 :: l := by
    rw [hprox]
    unfold inOrder
    dsimp only
    rw [List.filter_cons_of_pos (by simpa using hmeet)]
    exact ⟨_, rfl⟩
  have hq : (s.doQuery k inOrder (three k) 0).2.has = true ∧ (s.doQuery k inOrder (three k) 0).2.coll = some 1 := by
    unfold PSet.doQuery
    rw [if_neg (by rintro ⟨h, -⟩; cases h)]
    dsimp only
    rw [hl, PSet.visit]
    obtain ⟨g1, g2, g3⟩ := callback_hit k (three k) 0 { s with has := false, minDist := none, cur := some 0 } 1 hdist
    split
    · rename_i s' heq
      rw [heq] at g1
      cases g1
    · rename_i s' heq
      rw [heq] at g2 g3
      exact ⟨g2, g3⟩
  unfold PSet.isInside
  dsimp only
  rw [hq.1, hq.2, Bool.true_and, Bool.eq_false_iff]
  intro hall
  have h0 := List.all_eq_true.1 hall (1, 0) (by show (1, 0) ∈ tri; simp [tri])
  unfold testPoint at h0
  have h1 : Pose.one.back (1, 0) ∈ convexHull ℝ {q : P | q ∈ corner} := (by simpa using h0 :
    (three k 0).pose.back (1, 0) ∈ convexHull ℝ {q | q ∈ (three k 1).shape})
  rw [one_back, ← hull_one] at h1
  have h3 := (hull_bounds h1).1.2
  have h4 : maxL Prod.fst (corner.map Pose.one.apply) = 0 := by
    have : (corner.map Pose.one.apply) = corner := by
      conv_rhs => rw [← List.map_id corner]
      exact List.map_congr_left fun v _ => one_apply v
    rw [this]
    unfold corner maxL maxL maxL
    norm_num
  rw [h4] at h3
  norm_num at h3

/-- constants as those of Box2D: radius 0.01, margin 0.1, and 10 times the precision of `float` -/
def box2d : Consts := ⟨1 / 100, 1 / 10, 12 / 10000000⟩

/-- the hypotheses of the theorems hold for the constants of Box2D -/
theorem box2d_small : Small box2d := by
  refine ⟨⟨?_, ?_, ?_⟩, ?_, ?_⟩ <;> (unfold box2d; norm_num)

/-- an example for C133_queries_partial: triangle 0 moves away, to the triangle of the set, after a first query -/
example : ∃ cs : List Call, cs.length = 2 ∧ (∀ c ∈ cs, Allowed [1] c) ∧
    let e := cs.foldl (step box2d inOrder) (two box2d, [1].foldl (PSet.add box2d (two box2d)) PSet.new)
    (e.2.isIntersecting box2d inOrder e.1 0).1 = true := by
  refine ⟨[.ask 0, .move 0 away], rfl, ?_, ?_⟩
  · intro c hc i t he
    subst he
    have : i = 0 := by simp at hc; exact hc.1
    rw [this]
    decide
  · dsimp only
    refine (C133_queries_partial box2d box2d_small.toSane inOrder (two box2d) [1] (fun l => ?_) [.ask 0, .move 0 away] ?_ 0 _ rfl).2.1.2 ?_
    · unfold two
      split
      · exact ok_create _ tri_ne
      · exact ok_move (ok_create _ tri_ne) _
    · intro c hc i t he
      subst he
      have : i = 0 := by simp at hc; exact hc.1
      rw [this]
      decide
    · refine ⟨1, by simp, ?_⟩
      have e1 := (first_query box2d_small inOrder _ rfl).1
      simp only [List.foldl_cons, List.foldl_nil, step]
      rw [e1]
      have : ∀ a b : Set P, a = b → b.Nonempty → Near box2d a b := by
        rintro a b rfl h
        exact near_self box2d_small.toSane h
      apply this
      · simp [Function.update, two, Poly.hull, Poly.move, Poly.create]
      · simp [Function.update, two, Poly.hull, Poly.move, Poly.create]
        exact hull_nonempty tri_ne _

/-- an example for C134_inside_partial: the triangle within the large one -/
example : ∃ (w : World) (s : PSet), Inv box2d w s ∧ (w 0).pose = .one ∧ (∀ j ∈ s.members, (w j).pose = .one) ∧
    (s.isInside box2d inOrder w 0).1 = true := by
  let w : World := fun i => Poly.create box2d (if i = 0 then tri else big)
  let s := PSet.new.add box2d w 1
  have hok : ∀ l, Ok box2d (w l) := by
    intro l
    apply ok_create
    split
    · exact tri_ne
    · unfold big; simp
  have hcur : Current box2d w s := by
    intro x hx
    have : x ∈ [(1, (w 1).box.fat box2d)] := hx
    rw [List.mem_singleton.1 this]
  have hfresh := fresh box2d box2d_small.toSane inOrder w s 0 hok hcur (by rintro ⟨h, -⟩; cases h)
  have hhit : (s.doQuery box2d inOrder w 0).2.has = true := by
    refine hfresh.2.2.2.1.2 ⟨1, by simp [s, PSet.members, PSet.add, PSet.new], ?_⟩
    obtain ⟨p, hp⟩ := hull_nonempty tri_ne .one
    refine ⟨p, hp, p, hull_mono tri_in_big _ hp, ?_⟩
    unfold dist
    simp
    linarith [box2d_small.radius, box2d_small.eps]
  refine ⟨w, s, ⟨hok, hcur, fun i hi => by cases hi⟩, rfl, fun j _ => rfl, ?_⟩
  obtain ⟨j, hj, -, hc⟩ := hfresh.2.2.2.2.2 hhit
  have hj1 : j = 1 := by simpa [s, PSet.members, PSet.add, PSet.new] using hj
  subst hj1
  unfold PSet.isInside
  dsimp only
  rw [hc, hhit, Bool.true_and]
  refine List.all_eq_true.2 fun v hv => ?_
  have : Pose.one.back v ∈ convexHull ℝ {q : P | q ∈ big} := by
    rw [one_back]
    exact tri_in_big v hv
  have h' : (w 0).pose.back v ∈ convexHull ℝ {q | q ∈ (w 1).shape} := this
  unfold testPoint
  simpa using h'

end

#print axioms C133_queries_partial
#print axioms C133_stale_move
#print axioms C133_stale_add
#print axioms C133_stale_area
#print axioms C133_stale_set
#print axioms C133_old_place
#print axioms C134_inside_partial
#print axioms C134_moved
#print axioms C134_touching

end Envire.Polygon
