import Verif.Icp.EdgeModel
import Verif.Icp.AlignProps

/-! C190: pairs of points with edges and normals. -/

namespace Envire.Icp.Edge
open Envire.Icp

noncomputable section

/-! ### specification -/

def inner (u v : V3) : ℝ := u 0 * v 0 + u 1 * v 1 + u 2 * v 2

/-- `x` is the angle between two directions -/
def IsAngle (u v : V3) (x : ℝ) : Prop := 0 ≤ x ∧ x ≤ Real.pi ∧ inner u v = √(inner u u) * √(inner v v) * Real.cos x

/-! ### the filter -/

theorem accept_normals (a b : Node) {u v : V3} (hu : a.normal = some u) (hv : b.normal = some v) :
    accept a b = true ↔ a.edge = false ∧ b.edge = false ∧ Real.cos (Real.pi / 8) < inner u v := by
  have hpi : Real.pi / 8 ≤ Real.pi := by linarith [Real.pi_pos]
  have hp0 : 0 ≤ Real.pi / 8 := by linarith [Real.pi_pos]
  have e : Real.arccos (Real.cos (Real.pi / 8)) = Real.pi / 8 := Real.arccos_cos hp0 hpi
  have hc1 : Real.cos (Real.pi / 8) < 1 := by
    rw [← Real.cos_zero]
    exact Real.cos_lt_cos_of_nonneg_of_le_pi (le_refl 0) hpi (by linarith [Real.pi_pos])
  have hc0 := Real.neg_one_le_cos (Real.pi / 8)
  have key : ∀ x : ℝ, -1 ≤ x → x ≤ 1 → (Real.arccos x < Real.pi / 8 ↔ Real.cos (Real.pi / 8) < x) := by
    intro x h1 h2
    conv_lhs => rw [← e]
    exact Real.strictAntiOn_arccos.lt_iff_gt ⟨h1, h2⟩ ⟨hc0, hc1.le⟩
  have hd : dot a.normal b.normal = some (inner u v) := by rw [hu, hv]; rfl
  unfold accept
  rw [hd]
  unfold clamp
  dsimp only
  rw [Bool.and_eq_true]
  have fin : ∀ P : Prop, (P ↔ Real.cos (Real.pi / 8) < inner u v) →
      ((!(a.edge || b.edge)) = true ∧ P ↔ a.edge = false ∧ b.edge = false ∧ Real.cos (Real.pi / 8) < inner u v) := by
    intro P hP
    rw [hP]
    cases a.edge <;> cases b.edge <;> simp
  refine fin _ ?_
  · by_cases h1 : inner u v < 1
    · rw [if_pos h1]
      unfold acos
      by_cases h2 : inner u v < -1
      · rw [if_pos (.inl h2)]
        exact ⟨fun h => absurd h (by simp), fun h => absurd (lt_of_le_of_lt hc0 h) (not_lt.2 h2.le)⟩
      · rw [if_neg (by push Not; exact ⟨not_lt.1 h2, h1.le⟩)]
        simp only [decide_eq_true_eq]
        exact key _ (not_lt.1 h2) h1.le
    · rw [if_neg h1]
      unfold acos
      rw [if_neg (by norm_num)]
      simp only [decide_eq_true_eq]
      exact (key 1 (by norm_num) (le_refl 1)).trans ⟨fun _ => lt_of_lt_of_le hc1 (not_lt.1 h1), fun _ => hc1⟩

/-- C190 (partial: normals of length one) Two points may form a pair exactly if none of them is at an edge and the angle between their normals is less than an eighth of a half turn. -/
theorem C190_accept_partial (a b : Node) (u v : V3) (hu : a.normal = some u) (hv : b.normal = some v) (h1 : inner u u = 1) (h2 : inner v v = 1) (x : ℝ) (hx : IsAngle u v x) :
    accept a b = true ↔ a.edge = false ∧ b.edge = false ∧ x < Real.pi / 8 := by
  obtain ⟨hx0, hx1, hx2⟩ := hx
  rw [h1, h2, Real.sqrt_one, one_mul, one_mul] at hx2
  rw [accept_normals a b hu hv, hx2]
  have : Real.cos (Real.pi / 8) < Real.cos x ↔ x < Real.pi / 8 :=
    Real.strictAntiOn_cos.lt_iff_gt ⟨by linarith [Real.pi_pos], by linarith [Real.pi_pos]⟩ ⟨hx0, hx1⟩
  rw [this]

/-- C190: the decision does not depend on the order of the points -/
theorem C190_symmetric (a b : Node) : accept a b = accept b a := by
  have h : dot a.normal b.normal = dot b.normal a.normal := by
    unfold dot
    cases a.normal with
    | none => cases b.normal <;> rfl
    | some u =>
      cases b.normal with
      | none => rfl
      | some v => exact congrArg some (by ring)
  unfold accept
  rw [h, Bool.or_comm]

/-- C190: nor on a rotation of both clouds -/
theorem C190_rotated (R : M3) (hR : R.transpose * R = 1) (a b : Node) :
    accept { a with normal := a.normal.map R.mulVec } { b with normal := b.normal.map R.mulVec } = accept a b := by
  have h : dot (a.normal.map R.mulVec) (b.normal.map R.mulVec) = dot a.normal b.normal := by
    cases a.normal with
    | none => cases b.normal <;> rfl
    | some u =>
      cases b.normal with
      | none => rfl
      | some v =>
        show some (inner (R.mulVec u) (R.mulVec v)) = some (inner u v)
        have e : ∀ u v : V3, inner u v = u ⬝ᵥ v := fun u v => by simp [inner, dotProduct, Fin.sum_univ_three]
        rw [e, e, Matrix.dotProduct_mulVec, Matrix.vecMul_mulVec, hR, Matrix.vecMul_one]
  unfold accept
  dsimp only
  rw [h]

/-- C190, the code violates the property: normals of length 2 that differ by 60 degrees are accepted -/
theorem C190_length_deviation (p q : V3) :
    ∃ u v : V3, IsAngle u v (Real.pi / 3) ∧ accept ⟨p, some u, false⟩ ⟨q, some v, false⟩ = true := by
  refine ⟨![2, 0, 0], ![1, √3, 0], ⟨by linarith [Real.pi_pos], by linarith [Real.pi_pos], ?_⟩, ?_⟩
  · have h3 : √3 * √3 = (3 : ℝ) := Real.mul_self_sqrt (by norm_num)
    simp only [inner, Real.cos_pi_div_three]
    have h4 : √(4 : ℝ) = 2 := by rw [show (4 : ℝ) = 2 ^ 2 by norm_num]; exact Real.sqrt_sq (by norm_num)
    simp [h3]
    norm_num [h4]
  · rw [accept_normals _ _ rfl rfl]
    refine ⟨rfl, rfl, lt_of_le_of_lt (Real.cos_le_one _) ?_⟩
    simp [inner]

/-- C190, the code violates the property: a normal that is not a number fits to every other -/
theorem C190_nan_deviation (p q : V3) (n : Option V3) : accept ⟨p, none, false⟩ ⟨q, n, false⟩ = true := by
  unfold accept dot clamp acos
  simp only [Bool.or_self, Bool.not_false, Bool.true_and]
  rw [if_neg (by norm_num)]
  simp [maxDev, Real.pi_pos]

/-! ### the adapter -/

/-- C190 (partial: normals and attributes for all vertices) A pass over a cloud gives a node for each vertex that the plain adapter visits, with its position and its normal in the
global frame and the bit of the attributes that marks an edge. -/
theorem C190_nodes_partial (t : Affine) (c : Cloud) (d : ℝ) (hd : 0 < d) (h1 : c.normals.length = c.vertices.length) (h2 : c.attrs.length = c.vertices.length) :
    ∃ l, nodes t c d = some l ∧ l.length = ⌈(c.vertices.length : ℝ) * d⌉₊ ∧ ∀ k (h : k < l.length), ∃ (i : Nat) (hi : i < c.vertices.length), i = ⌊(k : ℝ) / d⌋₊ ∧
      l[k].point = t.linear.mulVec c.vertices[i] + t.shift ∧ l[k].normal = (c.normals[i]'(h1 ▸ hi)).map t.linear.mulVec ∧ l[k].edge = (c.attrs[i]'(h2 ▸ hi)).testBit 1 := by
  have hv : visit c.vertices.length d (⌈c.vertices.length * d⌉₊ + 1) 0 = (List.range ⌈c.vertices.length * d⌉₊).map fun k : Nat => ⌊(k : ℝ) * (1 / d)⌋₊ := by
    have h0 : (0 : ℝ) = ((0 : Nat) : ℝ) * (1 / d) := by simp
    rw [h0, visit_eq hd, Nat.sub_zero, min_eq_right (Nat.le_succ _), List.range_eq_range']
  let f : Nat → Node := fun i => ⟨t.linear.mulVec (c.vertices.getD i 0) + t.shift, (c.normals.getD i none).map t.linear.mulVec, (c.attrs.getD i 0).testBit 1⟩
  have hnode : ∀ i, i < c.vertices.length → node t c i = some (f i) := by
    intro i hi
    unfold node
    rw [List.getElem?_eq_getElem hi, List.getElem?_eq_getElem (h2 ▸ hi), List.getElem?_eq_getElem (h1 ▸ hi)]
    simp [f, List.getD_eq_getElem?_getD, List.getElem?_eq_getElem hi, List.getElem?_eq_getElem (h2 ▸ hi : i < c.attrs.length), List.getElem?_eq_getElem (h1 ▸ hi : i < c.normals.length)]
  have hall : ∀ l : List Nat, (∀ i ∈ l, i < c.vertices.length) → l.mapM (node t c) = some (l.map f) := by
    intro l hl
    induction l with
    | nil => rfl
    | cons a l ih =>
      rw [List.mapM_cons, hnode a (hl a (List.mem_cons_self ..)), ih fun i hi => hl i (List.mem_cons_of_mem _ hi)]
      rfl
  have hlt : ∀ i ∈ (List.range ⌈c.vertices.length * d⌉₊).map (fun k : Nat => ⌊(k : ℝ) * (1 / d)⌋₊), i < c.vertices.length := by
    intro i hi
    obtain ⟨k, hk, rfl⟩ := List.mem_map.1 hi
    exact (floor_lt_iff hd k).2 (List.mem_range.1 hk)
  refine ⟨((List.range ⌈c.vertices.length * d⌉₊).map fun k : Nat => ⌊(k : ℝ) * (1 / d)⌋₊).map f, ?_, by simp, ?_⟩
  · unfold nodes
    rw [hv]
    exact hall _ hlt
  · intro k hk
    have hk' : k < ⌈(c.vertices.length : ℝ) * d⌉₊ := by simpa using hk
    have hi : ⌊(k : ℝ) / d⌋₊ < c.vertices.length := by
      have := (floor_lt_iff hd k).2 hk'
      rwa [mul_one_div] at this
    refine ⟨⌊(k : ℝ) / d⌋₊, hi, rfl, ?_⟩
    simp [f, List.getElem_map, List.getElem_range, List.getD_eq_getElem?_getD, div_eq_mul_inv]
    simp only [div_eq_mul_inv] at hi
    rw [List.getElem?_eq_getElem hi, List.getElem?_eq_getElem (h1 ▸ hi : _ < c.normals.length), List.getElem?_eq_getElem (h2 ▸ hi : _ < c.attrs.length)]
    simp

/-- C190, the code violates the property: a cloud with points but without normals or attributes is read out of range -/
theorem C190_missing_deviation (t : Affine) (c : Cloud) (d : ℝ) (hv : c.vertices ≠ []) (h : c.normals = [] ∨ c.attrs = []) : nodes t c d = none := by
  have hpos : 0 < c.vertices.length := List.length_pos_iff.2 hv
  unfold nodes visit
  rw [if_pos (by simpa using hpos)]
  have hn : node t c ⌊(0 : ℝ)⌋₊ = none := by
    unfold node
    rcases h with h | h <;> rw [h] <;> cases c.vertices[⌊(0 : ℝ)⌋₊]? <;> simp
  rw [List.mapM_cons, hn]
  rfl

/-! ### pairs -/

/-- the pairs for one node -/
def pairOf (kd : Tree) (model : List Node) (d : Option ℝ) (p : Node) : List (Node × ℝ) :=
  match kd.nearest model p.point d with
  | some (a, r) => if accept p a then [(a, r)] else []
  | none => []

theorem findPairs_eq (kd : Tree) (model pts : List Node) (d : Option ℝ) (s : Pairs) :
    (findPairs kd model pts d s).x = s.x ++ pts.flatMap (fun p => (pairOf kd model d p).map fun a => a.1.point) ∧
    (findPairs kd model pts d s).p = s.p ++ pts.flatMap (fun p => (pairOf kd model d p).map fun _ => p.point) ∧
    (findPairs kd model pts d s).pairs.map Entry.distance = s.pairs.map Entry.distance ++ pts.flatMap (fun p => (pairOf kd model d p).map fun a => a.2) := by
  induction pts generalizing s with
  | nil => simp [findPairs]
  | cons p pts ih =>
    have e : findPairs kd model (p :: pts) d s = findPairs kd model pts d (match kd.nearest model p.point d with
      | some (a, r) => if accept p a then s.add a.point p.point r else s
      | none => s) := rfl
    rw [e]
    obtain ⟨i1, i2, i3⟩ := ih (match kd.nearest model p.point d with
      | some (a, r) => if accept p a then s.add a.point p.point r else s
      | none => s)
    rw [i1, i2, i3]
    simp only [List.flatMap_cons]
    unfold pairOf
    cases kd.nearest model p.point d with
    | none => simp
    | some ar =>
      obtain ⟨a, r⟩ := ar
      by_cases h : accept p a
      · simp [h, Pairs.add]
      · simp [h]

/-- C190: the pairs that are added are, in the order of the points, those of a point and a nearest node of the model, at most as far as the bound, that the filter accepts, with
their distance -/
theorem C190_pairs (kd : Tree) (model pts : List Node) (d : Option ℝ) (s : Pairs) :
    ∃ l : List (Node × Node × ℝ), (findPairs kd model pts d s).x = s.x ++ l.map (fun a => a.2.1.point) ∧ (findPairs kd model pts d s).p = s.p ++ l.map (fun a => a.1.point) ∧
      (findPairs kd model pts d s).pairs.map Entry.distance = s.pairs.map Entry.distance ++ l.map (fun a => a.2.2) ∧ (l.map (·.1)).Sublist pts ∧
      (∀ a ∈ l, a.2.1 ∈ model ∧ a.2.2 = dist a.2.1.point a.1.point ∧ accept a.1 a.2.1 = true ∧ (∀ b ∈ model, a.2.2 ≤ dist b.point a.1.point) ∧ ∀ x, d = some x → a.2.2 ≤ x) ∧
      ∀ p ∈ pts, (∃ b ∈ model, ∀ x, d = some x → dist b.point p.point ≤ x) → (∀ b ∈ model, (∀ c ∈ model, dist b.point p.point ≤ dist c.point p.point) → accept p b = true) → p ∈ l.map (·.1) := by
  obtain ⟨h1, h2, h3⟩ := findPairs_eq kd model pts d s
  refine ⟨pts.flatMap fun p => (pairOf kd model d p).map fun a => (p, a), ?_, ?_, ?_, ?_, ?_, ?_⟩
  · rw [h1, List.map_flatMap]; simp [Function.comp_def]
  · rw [h2, List.map_flatMap]; simp [Function.comp_def]
  · rw [h3, List.map_flatMap]; simp [Function.comp_def]
  · rw [List.map_flatMap]
    clear h1 h2 h3
    induction pts with
    | nil => simp
    | cons p pts ih =>
      rw [List.flatMap_cons]
      have : ((pairOf kd model d p).map fun a => (p, a)).map (·.1) = [] ∨ ((pairOf kd model d p).map fun a => (p, a)).map (·.1) = [p] := by
        unfold pairOf
        cases kd.nearest model p.point d with
        | none => exact .inl rfl
        | some ar => by_cases h : accept p ar.1 <;> simp [h]
      rcases this with e | e <;> rw [e]
      · exact List.Sublist.cons p ih
      · exact ih.cons₂ p
  · intro a ha
    obtain ⟨p, -, ha⟩ := List.mem_flatMap.1 ha
    obtain ⟨b, hb, rfl⟩ := List.mem_map.1 ha
    unfold pairOf at hb
    cases hn : kd.nearest model p.point d with
    | none => rw [hn] at hb; exact absurd hb (by simp)
    | some ar =>
      obtain ⟨c, r⟩ := ar
      rw [hn] at hb
      dsimp only at hb
      by_cases h : accept p c
      · rw [if_pos h, List.mem_singleton] at hb
        subst hb
        obtain ⟨f1, f2, f3, f4⟩ := kd.found _ _ _ _ _ hn
        exact ⟨f1, f2, h, f3, f4⟩
      · simp [h] at hb
  · rintro p hp ⟨b, hb, hbx⟩ hacc
    rw [List.map_flatMap]
    refine List.mem_flatMap.2 ⟨p, hp, ?_⟩
    unfold pairOf
    cases hn : kd.nearest model p.point d with
    | none =>
      obtain ⟨x, hx, hlt⟩ := kd.none _ _ _ hn b hb
      exact absurd (hbx x hx) (not_le.2 hlt)
    | some ar =>
      obtain ⟨c, r⟩ := ar
      obtain ⟨f1, f2, f3, f4⟩ := kd.found _ _ _ _ _ hn
      have : accept p c = true := hacc c f1 fun e he => f2 ▸ f3 e he
      simp [this]

/-- C190, the code violates the property: a point whose nearest neighbour is at an edge gets no pair, even if there is another neighbour in reach that fits -/
theorem C190_lost_deviation (kd : Tree) (s : Pairs) : ∃ (model : List Node) (p q : Node), q ∈ model ∧ accept p q = true ∧ dist q.point p.point ≤ 3 ∧
    (findPairs kd model [p] (some 3) s).x = s.x := by
  let n : V3 := ![0, 0, 1]
  let p : Node := ⟨0, some n, false⟩
  let e : Node := ⟨![1, 0, 0], some n, true⟩
  let q : Node := ⟨![2, 0, 0], some n, false⟩
  have de : dist e.point p.point = 1 := by simp [dist, sq, e, p]
  have dq : dist q.point p.point = 2 := by
    have : √((2 : ℝ) ^ 2) = 2 := Real.sqrt_sq (by norm_num)
    simpa [dist, sq, q, p] using this
  refine ⟨[e, q], p, q, by simp, ?_, by rw [dq]; norm_num, ?_⟩
  · rw [accept_normals p q rfl rfl]
    refine ⟨rfl, rfl, ?_⟩
    have : inner n n = 1 := by simp [inner, n]
    rw [this, ← Real.cos_zero]
    exact Real.cos_lt_cos_of_nonneg_of_le_pi (le_refl 0) (by linarith [Real.pi_pos]) (by linarith [Real.pi_pos])
  · obtain ⟨h1, -⟩ := findPairs_eq kd [e, q] [p] (some 3) s
    rw [h1]
    have : pairOf kd [e, q] (some 3) p = [] := by
      unfold pairOf
      cases hn : kd.nearest [e, q] p.point (some 3) with
      | none => rfl
      | some ar =>
        obtain ⟨c, r⟩ := ar
        obtain ⟨f1, f2, f3, -⟩ := kd.found _ _ _ _ _ hn
        simp only [List.mem_cons, List.not_mem_nil, or_false] at f1
        rcases f1 with rfl | rfl
        · have : accept p e = false := by unfold accept; simp [e]
          simp [this]
        · have := f3 e (by simp)
          rw [f2, de, dq] at this
          norm_num at this
    simp [this]

/-! ### examples -/

theorem tree_exists : Nonempty Tree := by
  classical
  have key : ∀ (m : List Node) (p : V3), m ≠ [] → ∃ a ∈ m, ∀ b ∈ m, dist a.point p ≤ dist b.point p := by
    intro m p hm
    obtain ⟨a, ha, hmin⟩ := (m.toFinset).exists_min_image (fun a => dist a.point p) (by
      obtain ⟨a, ha⟩ := List.exists_mem_of_ne_nil m hm
      exact ⟨a, List.mem_toFinset.2 ha⟩)
    exact ⟨a, List.mem_toFinset.1 ha, fun b hb => hmin b (List.mem_toFinset.2 hb)⟩
  refine ⟨⟨fun m p d => if h : m ≠ [] then
      (if ∀ x, d = some x → dist (key m p h).choose.point p ≤ x then some ((key m p h).choose, dist (key m p h).choose.point p) else none)
      else none, ?_, ?_⟩⟩
  · intro m p d a r h
    by_cases hm : m ≠ []
    · rw [dif_pos hm] at h
      by_cases hx : ∀ x, d = some x → dist (key m p hm).choose.point p ≤ x
      · rw [if_pos hx] at h
        cases h
        exact ⟨(key m p hm).choose_spec.1, rfl, (key m p hm).choose_spec.2, hx⟩
      · rw [if_neg hx] at h; cases h
    · rw [dif_neg hm] at h; cases h
  · intro m p d h b hb
    have hm : m ≠ [] := List.ne_nil_of_mem hb
    rw [dif_pos hm] at h
    by_cases hx : ∀ x, d = some x → dist (key m p hm).choose.point p ≤ x
    · rw [if_pos hx] at h; cases h
    · push Not at hx
      obtain ⟨x, h1, h2⟩ := hx
      exact ⟨x, h1, lt_of_lt_of_le h2 ((key m p hm).choose_spec.2 b hb)⟩

/-- two unit normals with an angle, as in `C190_accept_partial` -/
example : inner ![1, 0, 0] ![1, 0, 0] = 1 ∧ inner ![0, 1, 0] ![0, 1, 0] = 1 ∧ IsAngle ![1, 0, 0] ![0, 1, 0] (Real.pi / 2) := by
  refine ⟨by simp [inner], by simp [inner], by linarith [Real.pi_pos], by linarith [Real.pi_pos], ?_⟩
  simp [inner]

end

#print axioms C190_accept_partial
#print axioms C190_symmetric
#print axioms C190_rotated
#print axioms C190_length_deviation
#print axioms C190_nan_deviation
#print axioms C190_nodes_partial
#print axioms C190_missing_deviation
#print axioms C190_pairs
#print axioms C190_lost_deviation

end Envire.Icp.Edge
