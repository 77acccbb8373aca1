import Verif.Ops.MeshLemmas
import Mathlib.Data.List.Nodup

/-!
C103: the mesh of a laser scan.
-/

namespace Envire.Mesh

variable {P C : Type}

/-! ### specification -/

/-- the vertex of the reading a.2 of line a.1 -/
def vertexAt (scan : List (List (Item P C))) (a : Nat × Nat) : Option P := scan[a.1]?.bind fun l => l[a.2]?.bind fun it => it.point

/-- the number of vertices of earlier readings -/
def number (scan : List (List (Item P C))) (a : Nat × Nat) : Nat := ((scan.take a.1).flatten ++ ((scan[a.1]?).getD []).take a.2).countP fun it => it.point.isSome

/-- a triangle (l, p, k): between the lines l and l + 1 and the readings p and p + 1, the corners in circular order without the corner k -/
def corners : Nat × Nat × Nat → (Nat × Nat) × (Nat × Nat) × (Nat × Nat)
  | (l, p, 0) => ((l, p + 1), (l + 1, p + 1), (l + 1, p))
  | (l, p, 1) => ((l, p), (l + 1, p + 1), (l + 1, p))
  | (l, p, 2) => ((l, p), (l, p + 1), (l + 1, p))
  | (l, p, _) => ((l, p), (l, p + 1), (l + 1, p + 1))

/-- both readings have vertices, which are closer than the limit -/
def Short (near : P → P → Bool) (scan : List (List (Item P C))) (a b : Nat × Nat) : Prop := ∃ x y, vertexAt scan a = some x ∧ vertexAt scan b = some y ∧ near x y = true

/-- all edges of the triangle are short -/
def Small (near : P → P → Bool) (scan : List (List (Item P C))) (t : Nat × Nat × Nat) : Prop :=
  t.2.2 < 4 ∧ Short near scan (corners t).1 (corners t).2.1 ∧ Short near scan (corners t).1 (corners t).2.2 ∧ Short near scan (corners t).2.1 (corners t).2.2

/-- the quad of the triangle has four readings (some of which may have no vertex) -/
def InQuad (scan : List (List (Item P C))) (t : Nat × Nat × Nat) : Prop := t.2.1 + 1 < ((scan[t.1 + 1]?).getD []).length

/-- two triangles of the same quad that have more than an edge in common: one is without a corner, the other one without the next corner -/
def Overlap (t u : Nat × Nat × Nat) : Prop := t.1 = u.1 ∧ t.2.1 = u.2.1 ∧ (t.2.2 + u.2.2) % 2 = 1

/-- the face of a triangle, reversed if it is marked so in its last reading -/
def faceSpec (scan : List (List (Item P C))) (t : Nat × Nat × Nat) : Int × Int × Int :=
  let n := fun a => (number scan a : Int)
  let c := corners t
  if ((scan[t.1 + 1]?.bind fun l => l[t.2.1 + 1]?).map (·.flip)) = some true then (n c.1, n c.2.2, n c.2.1) else (n c.1, n c.2.1, n c.2.2)

/-- the lines fit into the index lines, and no line is longer than the one before -/
def Lengths (ppl : Nat) (scan : List (List (Item P C))) : Prop := (∀ l ∈ scan, l.length ≤ ppl) ∧ scan.Pairwise fun l l' => l'.length ≤ l.length

/-- either all vertices have colours or none has -/
def Coloured (scan : List (List (Item P C))) : Prop := (∀ it ∈ scan.flatten, it.point.isSome = true → it.colour.isSome = true) ∨ ∀ it ∈ scan.flatten, it.point.isSome = true → it.colour = none

/-- on the border of the scan -/
def Border (scan : List (List (Item P C))) (a : Nat × Nat) : Prop := a.2 = 0 ∨ (∃ l, scan[a.1]? = some l ∧ a.2 + 1 = l.length) ∨ a.1 = 0 ∨ a.1 + 1 = scan.length

/-- directed edges of a face -/
def edges (f : Int × Int × Int) : List (Int × Int) := [(f.1, f.2.1), (f.2.1, f.2.2), (f.2.2, f.1)]

/-- whether the face has the vertices -/
def hasBoth (a b : Int) (f : Int × Int × Int) : Bool := (f.1 == a || f.2.1 == a || f.2.2 == a) && (f.1 == b || f.2.1 == b || f.2.2 == b)

/-! ### proofs -/

theorem row_eq (scan : List (List (Item P C))) (l : Nat) : row scan l = (scan[l]?).getD [] := by
  simp [row]

theorem pt_eq (scan : List (List (Item P C))) (a : Nat × Nat) : pt scan a = vertexAt scan a := by
  unfold pt vertexAt
  rw [row_eq]
  cases h : scan[a.1]? <;> simp

theorem number_eq (scan : List (List (Item P C))) (a : Nat × Nat) : (before scan a).length = number scan a := by
  unfold before number itemsBefore
  rw [row_eq, List.length_filterMap_eq_countP]

theorem quad_corner (l p k : Nat) (hk : k < 4) : (quadAt l p (corner k 0), quadAt l p (corner k 1), quadAt l p (corner k 2)) = corners (l, p, k) := by
  interval_cases k <;> rfl

theorem code_some {scan : List (List (Item P C))} {a : Nat × Nat} {x : P} (h : vertexAt scan a = some x) : code scan a = (number scan a : Int) := by
  unfold code
  rw [pt_eq, h, number_eq]
  rfl

theorem avail_iff (near : P → P → Bool) (scan : List (List (Item P C))) (l p k : Nat) (hk : k < 4) :
    avail near scan l p k = true ↔ Small near scan (l, p, k) ∧ 0 < number scan (corners (l, p, k)).1 ∧ 0 < number scan (corners (l, p, k)).2.1 ∧ 0 < number scan (corners (l, p, k)).2.2 := by
  unfold avail Small Short
  rw [← quad_corner l p k hk]
  simp only [pt_eq]
  generalize quadAt l p (corner k 0) = a
  generalize quadAt l p (corner k 1) = b
  generalize quadAt l p (corner k 2) = c
  cases ha : vertexAt scan a with
  | none => simp
  | some x =>
    cases hb : vertexAt scan b with
    | none => simp
    | some y =>
      cases hc : vertexAt scan c with
      | none => simp
      | some z =>
        simp only [code_some ha, code_some hb, code_some hc]
        simp
        tauto

theorem choose_avail {near : P → P → Bool} {scan : List (List (Item P C))} {l p k : Nat} (h : k ∈ choose (avail near scan l p)) : k < 4 ∧ avail near scan l p k = true := by
  refine ⟨choose_lt _ _ h, ?_⟩
  unfold choose at h
  split_ifs at h <;> simp at h
  all_goals
    rcases h with rfl | rfl <;> assumption

theorem choose_nodup (f : Nat → Bool) : (choose f).Nodup := by
  unfold choose
  split_ifs <;> decide

theorem choose_even (f : Nat → Bool) {k k' : Nat} (h : k ∈ choose f) (h' : k' ∈ choose f) : (k + k') % 2 = 0 := by
  unfold choose at h h'
  split_ifs at h h' <;> simp at h h' <;> omega

theorem choose_max (f : Nat → Bool) {k : Nat} (hk : k < 4) (h : f k = true) : k ∈ choose f ∨ ∃ k' ∈ choose f, (k + k') % 2 = 1 := by
  unfold choose
  interval_cases k <;> split_ifs <;> simp_all

/-- the order of the triangles -/
theorem mem_chosenAll {near : P → P → Bool} {scan : List (List (Item P C))} {n : Nat} {t : Nat × Nat × Nat} :
    t ∈ chosenAll near scan n ↔ t.1 + 1 < n ∧ t.2.1 + 1 < (row scan (t.1 + 1)).length ∧ t.2.2 ∈ choose (avail near scan t.1 t.2.1) := by
  obtain ⟨l, p, k⟩ := t
  simp only [chosenAll, chosenRow, List.mem_flatMap, List.mem_range, chosen]
  constructor
  · rintro ⟨i, hi, q, hq, hm⟩
    split_ifs at hm with h
    · simp at hm
      obtain ⟨hk', hl, hp⟩ := hm
      rw [← hl, ← hp]
      rw [show i - 1 + 1 = i by omega, show q - 1 + 1 = q by omega]
      exact ⟨hi, hq, hk'⟩
    · simp at hm
  · rintro ⟨h1, h2, h3⟩
    refine ⟨l + 1, h1, p + 1, h2, ?_⟩
    simp [h3]

theorem chosenAll_nodup (near : P → P → Bool) (scan : List (List (Item P C))) (n : Nat) : (chosenAll near scan n).Nodup := by
  have hc : ∀ l p, ∀ t ∈ chosen near scan l p, t.1 + 1 = l ∧ t.2.1 + 1 = p := by
    intro l p t ht
    unfold chosen at ht
    split_ifs at ht with h
    · simp at ht
      obtain ⟨k', hk', rfl⟩ := ht
      dsimp only
      omega
    · simp at ht
  have hr : ∀ l m, ∀ t ∈ chosenRow near scan l m, t.1 + 1 = l := by
    intro l m t ht
    simp only [chosenRow, List.mem_flatMap] at ht
    obtain ⟨q, -, hq⟩ := ht
    exact (hc _ _ _ hq).1
  unfold chosenAll
  rw [List.nodup_flatMap]
  constructor
  · intro l _
    unfold chosenRow
    rw [List.nodup_flatMap]
    constructor
    · intro p _
      unfold chosen
      split_ifs
      · exact (choose_nodup _).map fun a b h => by simpa using h
      · exact List.nodup_nil
    · refine List.nodup_range.imp_of_mem ?_
      intro p q _ _ hne t h h'
      exact hne (by rw [← (hc _ _ _ h).2, ← (hc _ _ _ h').2])
  · refine List.nodup_range.imp_of_mem ?_
    intro p q _ _ hne t h h'
    exact hne (by rw [← hr _ _ _ h, ← hr _ _ _ h'])

theorem faceOf_eq {near : P → P → Bool} {scan : List (List (Item P C))} {t : Nat × Nat × Nat} (h : Small near scan t) : faceOf scan t = faceSpec scan t := by
  obtain ⟨l, p, k⟩ := t
  obtain ⟨hk, ⟨x, y, hx, hy, -⟩, ⟨-, z, -, hz, -⟩, -⟩ := h
  have e := quad_corner l p k hk
  have e0 : quadAt l p (corner k 0) = (corners (l, p, k)).1 := by rw [← e]
  have e1 : quadAt l p (corner k 1) = (corners (l, p, k)).2.1 := by rw [← e]
  have e2 : quadAt l p (corner k 2) = (corners (l, p, k)).2.2 := by rw [← e]
  unfold faceOf faceSpec face
  dsimp only
  rw [e0, e1, e2, code_some hx, code_some hy, code_some hz, row_eq]
  have : ((((scan[l + 1]?).getD [])[p + 1]?).map (·.flip)).getD false = true ↔ ((scan[l + 1]?.bind fun l => l[p + 1]?).map (·.flip)) = some true := by
    cases h : scan[l + 1]? with
    | none => simp
    | some r =>
      cases h' : r[p + 1]? with
      | none => simp [h']
      | some it => simp [h']
  simp only [this]

theorem row_lengths {ppl : Nat} {scan : List (List (Item P C))} (h : Lengths ppl scan) : (∀ l, (row scan l).length ≤ ppl) ∧ ∀ k, k + 1 < scan.length → (row scan (k + 1)).length ≤ (row scan k).length := by
  constructor
  · intro l
    rw [row_eq]
    cases h' : scan[l]? with
    | none => simp
    | some r => exact h.1 r (List.mem_of_getElem? h')
  · intro k hk
    rw [row_mem hk, row_mem (by omega)]
    exact List.pairwise_iff_getElem.1 h.2 k (k + 1) (by omega) hk (by omega)

theorem lines_ok (near : P → P → Bool) {ppl : Nat} {scan : List (List (Item P C))} (h : Lengths ppl scan) :
    ∃ s, lines near scan.length 0 scan { points := [], colors := [], attrs := [], faces := [], idx := List.replicate ppl none, prev := List.replicate ppl none } = .ok s ∧ Inv near ppl scan scan.length 0 s := by
  refine lines_inv (row_lengths h).1 (row_lengths h).2 scan 0 _ ?_ rfl (Nat.zero_le _)
  exact { points := by simp [before, itemsBefore], colors := by simp [itemsBefore], attrs := by simp [attrsAll, attrsRow], faces := by simp [chosenAll, chosenRow], lenI := by simp, lenP := by simp,
          idx := by intro q hq; omega, prev := by intro k hk; omega }

/-- the attributes of the vertices before a reading -/
def attrsBefore (scan : List (List (Item P C))) (a : Nat × Nat) : List Nat := attrsAll scan a.1 ++ attrsRow scan a.1 a.2

theorem attrs_next (scan : List (List (Item P C))) (l : Nat) : attrsBefore scan (l + 1, 0) = attrsBefore scan (l, (row scan l).length) := by
  simp [attrsBefore, attrsAll, attrsRow, List.range_succ]

theorem attrs_succ (scan : List (List (Item P C))) (l p : Nat) : attrsBefore scan (l, p + 1) = attrsBefore scan (l, p) ++ ((pt scan (l, p)).map fun _ => attrOf scan l p).toList := by
  unfold attrsBefore attrsRow
  rw [List.range_succ, List.filterMap_append, List.append_assoc]
  simp only [List.filterMap_cons, List.filterMap_nil]
  cases pt scan (l, p) <;> rfl

theorem before_step (scan : List (List (Item P C))) (l p : Nat) : before scan (l, p + 1) = before scan (l, p) ++ (pt scan (l, p)).toList := by
  cases h : pt scan (l, p) with
  | some x => exact before_succ h
  | none =>
    unfold before
    cases h' : (row scan l)[p]? with
    | none =>
      have := List.getElem?_eq_none_iff.1 h'
      unfold itemsBefore
      simp only [Option.toList_none, List.append_nil]
      rw [List.take_of_length_le (l := row scan l) this, List.take_of_length_le (l := row scan l) (by omega)]
    | some it =>
      have : it.point = none := by simpa [pt, h'] using h
      simp [items_succ h', this]

theorem attrs_length (scan : List (List (Item P C))) : ∀ l ≤ scan.length, ∀ p, (attrsBefore scan (l, p)).length = (before scan (l, p)).length := by
  intro l
  induction l with
  | zero =>
    intro _ p
    induction p with
    | zero => simp [attrsBefore, attrsAll, attrsRow, before, itemsBefore]
    | succ p ih =>
      rw [attrs_succ, before_step, List.length_append, List.length_append, ih]
      cases pt scan (0, p) <;> rfl
  | succ l ihl =>
    intro hl p
    induction p with
    | zero =>
      rw [attrs_next, ihl (by omega)]
      unfold before
      rw [items_next (by omega)]
    | succ p ih =>
      rw [attrs_succ, before_step, List.length_append, List.length_append, ih]
      cases pt scan (l + 1, p) <;> rfl

theorem attrs_row (scan : List (List (Item P C))) (l p n : Nat) : attrsBefore scan (l, p) <+: attrsBefore scan (l, p + n) := by
  induction n with
  | zero => exact List.prefix_refl _
  | succ n ih =>
    rw [← Nat.add_assoc, attrs_succ]
    exact ih.trans (List.prefix_append _ _)

theorem attrs_prefix (scan : List (List (Item P C))) {l p : Nat} (hp : p ≤ (row scan l).length) : ∀ n, attrsBefore scan (l, p) <+: attrsBefore scan (l + 1 + n, 0) := by
  intro n
  induction n with
  | zero =>
    show _ <+: attrsBefore scan (l + 1, 0)
    rw [attrs_next]
    obtain ⟨d, hd⟩ := Nat.exists_eq_add_of_le hp
    rw [hd]
    exact attrs_row scan l p d
  | succ n ih =>
    refine ih.trans ?_
    rw [← Nat.add_assoc, attrs_next]
    have := attrs_row scan (l + 1 + n) 0 (row scan (l + 1 + n)).length
    rwa [Nat.zero_add] at this

theorem attrs_get {scan : List (List (Item P C))} {a : Nat × Nat} {x : P} (h : pt scan a = some x) : (attrsBefore scan (scan.length, 0))[(before scan a).length]? = some (attrOf scan a.1 a.2) := by
  have hl := pt_lt h
  obtain ⟨n, hn⟩ := Nat.exists_eq_add_of_lt hl.1
  have := attrs_prefix scan (l := a.1) (p := a.2 + 1) hl.2 n
  rw [show a.1 + 1 + n = scan.length by omega] at this
  obtain ⟨t, ht⟩ := this
  rw [← ht, attrs_succ, ← attrs_length scan a.1 hl.1.le]
  simp [h]

theorem attr_spec {scan : List (List (Item P C))} {a : Nat × Nat} {x : P} (h : pt scan a = some x) [Decidable (Border scan a)] : attrOf scan a.1 a.2 = if Border scan a then 2 else 0 := by
  have hl := pt_lt h
  have hb : (a.2 = 0 ∨ a.2 = (row scan a.1).length - 1 ∨ a.1 = 0 ∨ a.1 = scan.length - 1) ↔ Border scan a := by
    unfold Border
    have : (∃ l, scan[a.1]? = some l ∧ a.2 + 1 = l.length) ↔ a.2 + 1 = (row scan a.1).length := by
      rw [row_mem hl.1]
      simp [hl.1]
    rw [this]
    omega
  unfold attrOf
  simp only [hb]

theorem items_all (scan : List (List (Item P C))) : itemsBefore scan (scan.length, 0) = scan.flatten := by
  simp [itemsBefore]

open Classical in
/-- C103 for scans whose lines are not longer than `points_per_line` nor than the line before, and all or no vertices coloured: the vertices are those of the readings that pass the filters, in the order of the scan;
those on the border of the scan are marked; the faces are small triangles of neighbouring readings, without overlaps, and each small triangle that does not contain the first vertex is one of them or overlaps with one
of them. -/
theorem C103_mesh_partial (near : P → P → Bool) (ppl : Nat) (scan : List (List (Item P C))) (h : Lengths ppl scan) (hc : Coloured scan) :
    ∃ m, mesh near ppl scan = .ok m ∧
      m.points = scan.flatten.filterMap (·.point) ∧
      (∀ a x, vertexAt scan a = some x → m.points[number scan a]? = some x ∧ m.attrs[number scan a]? = some (if Border scan a then 2 else 0)) ∧
      m.attrs.length = m.points.length ∧
      (∀ cs, m.colors = some cs → cs = scan.flatten.filterMap (fun it => it.point.bind fun _ => it.colour) ∧ cs.length = m.points.length) ∧
      (m.colors = none → ∀ it ∈ scan.flatten, it.point.isSome = true → it.colour = none) ∧
      ∃ sel : List (Nat × Nat × Nat), m.faces = sel.map (faceSpec scan) ∧ sel.Nodup ∧ (∀ t ∈ sel, Small near scan t) ∧ (∀ t ∈ sel, ∀ u ∈ sel, ¬ Overlap t u) ∧
        ∀ t, Small near scan t → InQuad scan t → 0 < number scan (corners t).1 → 0 < number scan (corners t).2.1 → 0 < number scan (corners t).2.2 → t ∈ sel ∨ ∃ u ∈ sel, Overlap t u := by
  obtain ⟨s, e, hs⟩ := lines_ok near h
  have hp : s.points = scan.flatten.filterMap (·.point) := by rw [hs.points, before, items_all]
  have hcol : s.colors = scan.flatten.filterMap (fun it => it.point.bind fun _ => it.colour) := by
    rw [hs.colors, items_all, List.filterMap_eq_flatMap_toList]
    congr 1
    funext it
    unfold colourOf
    cases it.point <;> rfl
  have hcases : (s.colors.length = s.points.length ∨ s.colors = []) ∧ (s.colors = [] → ∀ it ∈ scan.flatten, it.point.isSome = true → it.colour = none) := by
    rw [hcol, hp]
    constructor
    · rcases hc with hc | hc
      · left
        rw [List.length_filterMap_eq_countP, List.length_filterMap_eq_countP]
        refine List.countP_congr fun it hit => ?_
        cases h' : it.point with
        | none => simp
        | some x => simpa [h'] using hc it hit
      · right
        rw [List.filterMap_eq_nil_iff]
        intro it hit
        cases h' : it.point with
        | none => rfl
        | some x => simpa [h'] using hc it hit
    · intro hnil it hit hsome
      rw [List.filterMap_eq_nil_iff] at hnil
      obtain ⟨x, hx⟩ := Option.isSome_iff_exists.1 hsome
      simpa [hx] using hnil it hit
  refine ⟨⟨s.points, if s.colors.isEmpty then none else some s.colors, s.attrs, s.faces⟩, ?_, hp, ?_, ?_, ?_, ?_, ?_⟩
  · unfold mesh
    rw [e]
    dsimp only
    rw [if_pos]
    rcases hcases.1 with h' | h'
    · simp [h']
    · simp [h']
  · intro a x hx
    rw [← pt_eq] at hx
    dsimp only
    constructor
    · rw [hs.points, ← number_eq]
      exact before_get hx (Or.inl (pt_lt hx).1) le_rfl
    · rw [← number_eq, hs.attrs]
      have := attrs_get hx
      rw [attr_spec hx] at this
      exact this
  · dsimp only
    rw [hs.attrs, hs.points]
    exact attrs_length scan _ le_rfl 0
  · intro cs hcs
    dsimp only at hcs ⊢
    by_cases h' : s.colors = []
    · simp [h'] at hcs
    · simp [h'] at hcs
      subst hcs
      exact ⟨hcol, hcases.1.resolve_right h'⟩
  · intro hcs
    dsimp only at hcs
    by_cases h' : s.colors = []
    · exact hcases.2 h'
    · simp [h'] at hcs
  · have hrow : chosenRow near scan scan.length 0 = [] := rfl
    have hsel : ∀ t ∈ chosenAll near scan scan.length, Small near scan t := by
      intro t ht
      have := choose_avail (mem_chosenAll.1 ht).2.2
      exact ((avail_iff near scan t.1 t.2.1 t.2.2 this.1).1 this.2).1
    refine ⟨chosenAll near scan scan.length, ?_, chosenAll_nodup _ _ _, hsel, ?_, ?_⟩
    · dsimp only
      rw [hs.faces, hrow, List.append_nil]
      exact List.map_congr_left fun t ht => faceOf_eq (hsel t ht)
    · intro t ht u hu ⟨h1, h2, h3⟩
      have h4 := (mem_chosenAll.1 ht).2.2
      have h5 := (mem_chosenAll.1 hu).2.2
      rw [← h1, ← h2] at h5
      have := choose_even _ h4 h5
      omega
    · intro t ht hq n1 n2 n3
      have hav := (avail_iff near scan t.1 t.2.1 t.2.2 ht.1).2 ⟨ht, n1, n2, n3⟩
      have hpos : t.1 + 1 < scan.length ∧ t.2.1 + 1 < (row scan (t.1 + 1)).length := by
        unfold InQuad at hq
        rw [← row_eq] at hq
        refine ⟨?_, hq⟩
        by_contra h'
        rw [row_eq, List.getElem?_eq_none (by omega)] at hq
        simp at hq
      rcases choose_max _ ht.1 hav with h' | ⟨k', hk', hodd⟩
      · exact .inl (mem_chosenAll.2 ⟨hpos.1, hpos.2, h'⟩)
      · exact .inr ⟨(t.1, t.2.1, k'), mem_chosenAll.2 ⟨hpos.1, hpos.2, hk'⟩, rfl, rfl, hodd⟩

/-! ### the surface -/

/-- the directed edges of a triangle, as readings -/
def posEdges (t : Nat × Nat × Nat) : List ((Nat × Nat) × (Nat × Nat)) := [((corners t).1, (corners t).2.1), ((corners t).2.1, (corners t).2.2), ((corners t).2.2, (corners t).1)]

theorem posEdges_unique {t u : Nat × Nat × Nat} (ht : t.2.2 < 4) (hu : u.2.2 < 4) {e : (Nat × Nat) × (Nat × Nat)} (h : e ∈ posEdges t) (h' : e ∈ posEdges u) : t = u ∨ Overlap t u := by
  obtain ⟨l, p, k⟩ := t
  obtain ⟨l', p', k'⟩ := u
  obtain ⟨⟨a, b⟩, c, d⟩ := e
  dsimp only at ht hu
  interval_cases k <;> interval_cases k' <;> simp [posEdges, corners, Overlap] at h h' ⊢ <;> omega

theorem posEdges_nodup {t : Nat × Nat × Nat} (ht : t.2.2 < 4) : (posEdges t).Nodup := by
  obtain ⟨l, p, k⟩ := t
  dsimp only at ht
  interval_cases k <;> simp [posEdges, corners]

theorem countP_unique {A B : Type} [DecidableEq B] (f : A → List B) (e : B) (l : List A) (hn : l.Nodup) (h : ∀ t ∈ l, ∀ u ∈ l, e ∈ f t → e ∈ f u → t = u) : l.countP (fun t => decide (e ∈ f t)) ≤ 1 := by
  induction l with
  | nil => simp
  | cons t l ih =>
    rw [List.countP_cons]
    rw [List.nodup_cons] at hn
    by_cases ht : e ∈ f t
    · have : l.countP (fun t => decide (e ∈ f t)) = 0 := by
        rw [List.countP_eq_zero]
        intro u hu
        simp only [decide_eq_true_eq]
        intro hu'
        exact hn.1 (h t (by simp) u (by simp [hu]) ht hu' ▸ hu)
      rw [this]
      split <;> omega
    · rw [if_neg (by simpa using ht)]
      exact ih hn.2 fun t ht u hu => h t (by simp [ht]) u (by simp [hu])

theorem number_inj {scan : List (List (Item P C))} {a b : Nat × Nat} {x y : P} (h : vertexAt scan a = some x) (h' : vertexAt scan b = some y) (he : number scan a = number scan b) : a = b := by
  rw [← pt_eq] at h h'
  rw [← number_eq, ← number_eq] at he
  exact rank_inj h h' he

/-- the vertices of a small triangle -/
theorem Small.vertices {near : P → P → Bool} {scan : List (List (Item P C))} {t : Nat × Nat × Nat} (h : Small near scan t) :
    ∃ x y z, vertexAt scan (corners t).1 = some x ∧ vertexAt scan (corners t).2.1 = some y ∧ vertexAt scan (corners t).2.2 = some z ∧ near x y = true ∧ near x z = true ∧ near y z = true := by
  obtain ⟨-, ⟨x, y, hx, hy, h1⟩, ⟨x', z, hx', hz, h2⟩, ⟨y', z', hy', hz', h3⟩⟩ := h
  rw [hx] at hx'
  rw [hy] at hy'
  rw [hz] at hz'
  cases hx'
  cases hy'
  cases hz'
  exact ⟨x, y, z, hx, hy, hz, h1, h2, h3⟩

/-- the directed edges of triangles without overlaps are different -/
theorem edges_unique {near : P → P → Bool} {scan : List (List (Item P C))} {sel : List (Nat × Nat × Nat)} (hs : ∀ t ∈ sel, Small near scan t) (ho : ∀ t ∈ sel, ∀ u ∈ sel, ¬ Overlap t u) {a b : Int} :
    ∀ t ∈ sel, ∀ u ∈ sel, (a, b) ∈ (posEdges t).map (fun e => ((number scan e.1 : Int), (number scan e.2 : Int))) → (a, b) ∈ (posEdges u).map (fun e => ((number scan e.1 : Int), (number scan e.2 : Int))) → t = u := by
  intro t ht u hu h h'
  rw [List.mem_map] at h h'
  obtain ⟨e, he, hab⟩ := h
  obtain ⟨e', he', hab'⟩ := h'
  have key : ∀ v ∈ sel, ∀ e ∈ posEdges v, (∃ x, vertexAt scan e.1 = some x) ∧ ∃ x, vertexAt scan e.2 = some x := by
    intro v hv e he
    obtain ⟨x, y, z, hx, hy, hz, -⟩ := (hs v hv).vertices
    simp only [posEdges, List.mem_cons, List.not_mem_nil, or_false] at he
    rcases he with rfl | rfl | rfl <;> exact ⟨⟨_, by assumption⟩, ⟨_, by assumption⟩⟩
  obtain ⟨⟨x, hx⟩, ⟨y, hy⟩⟩ := key t ht e he
  obtain ⟨⟨x', hx'⟩, ⟨y', hy'⟩⟩ := key u hu e' he'
  rw [← hab'] at hab
  simp only [Prod.mk.injEq, Int.natCast_inj] at hab
  have : e = e' := Prod.ext (number_inj hx hx' hab.1) (number_inj hy hy' hab.2)
  subst this
  exact (posEdges_unique (hs t ht).1 (hs u hu).1 he he').resolve_right (ho t ht u hu)

/-- C103, the surface, for the scans of `C103_mesh_partial`: the vertices of a face are different vertices of the mesh closer than the limit, and no two vertices have more than two faces in common. If no triangles are
reversed, all faces have the same orientation: no directed edge occurs twice. -/
theorem C103_surface_partial (near : P → P → Bool) (ppl : Nat) (scan : List (List (Item P C))) (h : Lengths ppl scan) (hc : Coloured scan) :
    ∃ m, mesh near ppl scan = .ok m ∧
      (∀ f ∈ m.faces, f.1 ≠ f.2.1 ∧ f.1 ≠ f.2.2 ∧ f.2.1 ≠ f.2.2 ∧ ∃ x y z, 0 ≤ f.1 ∧ 0 ≤ f.2.1 ∧ 0 ≤ f.2.2 ∧ m.points[f.1.toNat]? = some x ∧ m.points[f.2.1.toNat]? = some y ∧ m.points[f.2.2.toNat]? = some z ∧
        (near x y = true ∨ near y x = true) ∧ (near x z = true ∨ near z x = true) ∧ (near y z = true ∨ near z y = true)) ∧
      (∀ a b, a ≠ b → m.faces.countP (hasBoth a b) ≤ 2) ∧
      ((∀ it ∈ scan.flatten, it.flip = false) → (m.faces.flatMap edges).Nodup) := by
  obtain ⟨m, e, -, hv, -, -, -, sel, hf, hn, hs, ho, -⟩ := C103_mesh_partial near ppl scan h hc
  refine ⟨m, e, ?_, ?_, ?_⟩
  · intro f hfm
    rw [hf, List.mem_map] at hfm
    obtain ⟨t, ht, rfl⟩ := hfm
    obtain ⟨x, y, z, hx, hy, hz, n1, n2, n3⟩ := (hs t ht).vertices
    have hlt := (hs t ht).1
    have d12 : number scan (corners t).1 ≠ number scan (corners t).2.1 := by
      intro hh
      have := number_inj hx hy hh
      obtain ⟨l, p, k⟩ := t
      dsimp only at hlt
      interval_cases k <;> simp [corners] at this
    have d13 : number scan (corners t).1 ≠ number scan (corners t).2.2 := by
      intro hh
      have := number_inj hx hz hh
      obtain ⟨l, p, k⟩ := t
      dsimp only at hlt
      interval_cases k <;> simp [corners] at this
    have d23 : number scan (corners t).2.1 ≠ number scan (corners t).2.2 := by
      intro hh
      have := number_inj hy hz hh
      obtain ⟨l, p, k⟩ := t
      dsimp only at hlt
      interval_cases k <;> simp [corners] at this
    have hx' := (hv _ _ hx).1
    have hy' := (hv _ _ hy).1
    have hz' := (hv _ _ hz).1
    unfold faceSpec
    dsimp only
    split_ifs
    · refine ⟨by simpa using d13, by simpa using d12, by simpa using d23.symm, x, z, y, by simp, by simp, by simp, ?_⟩
      simp only [Int.toNat_natCast]
      exact ⟨hx', hz', hy', .inl n2, .inl n1, .inr n3⟩
    · refine ⟨by simpa using d12, by simpa using d13, by simpa using d23, x, y, z, by simp, by simp, by simp, ?_⟩
      simp only [Int.toNat_natCast]
      exact ⟨hx', hy', hz', .inl n1, .inl n2, .inl n3⟩
  · intro a b hab
    rw [hf, List.countP_map]
    let g : Nat × Nat × Nat → List (Int × Int) := fun t => (posEdges t).map (fun e => ((number scan e.1 : Int), (number scan e.2 : Int)))
    have h1 : sel.countP (fun t => decide ((a, b) ∈ g t)) ≤ 1 := by
      convert countP_unique g (a, b) sel hn (edges_unique hs ho)
    have h2 : sel.countP (fun t => decide ((b, a) ∈ g t)) ≤ 1 := by
      convert countP_unique g (b, a) sel hn (edges_unique hs ho)
    have hle : sel.countP (hasBoth a b ∘ faceSpec scan) ≤ sel.countP (fun t => decide ((a, b) ∈ g t)) + sel.countP (fun t => decide ((b, a) ∈ g t)) := by
      refine le_trans (List.countP_mono_left (q := fun t => decide ((a, b) ∈ g t) || decide ((b, a) ∈ g t)) ?_) ?_
      · intro t _ ht
        simp only [Function.comp, hasBoth, faceSpec] at ht
        simp only [Bool.or_eq_true, decide_eq_true_eq, g, posEdges, List.map_cons, List.map_nil, List.mem_cons, Prod.mk.injEq, List.not_mem_nil, or_false]
        generalize (number scan (corners t).1 : Int) = n1 at *
        generalize (number scan (corners t).2.1 : Int) = n2 at *
        generalize (number scan (corners t).2.2 : Int) = n3 at *
        split_ifs at ht <;> simp at ht <;> omega
      · clear * -
        induction sel with
        | nil => simp
        | cons t l ih =>
          simp only [List.countP_cons]
          split_ifs <;> simp_all <;> omega
    exact hle.trans (Nat.add_le_add h1 h2)
  · intro hflip
    have hedges : m.faces.flatMap edges = sel.flatMap fun t => (posEdges t).map (fun e => ((number scan e.1 : Int), (number scan e.2 : Int))) := by
      rw [hf, List.flatMap_map]
      congr 1
      funext t
      unfold faceSpec
      dsimp only
      rw [if_neg]
      · rfl
      · intro hh
        rw [Option.map_eq_some_iff] at hh
        obtain ⟨it, hit, hfl⟩ := hh
        rw [Option.bind_eq_some_iff] at hit
        obtain ⟨r, hr, hr'⟩ := hit
        have := hflip it (List.mem_flatten.2 ⟨r, List.mem_of_getElem? hr, List.mem_of_getElem? hr'⟩)
        rw [this] at hfl
        cases hfl
    rw [hedges, List.nodup_flatMap]
    constructor
    · intro t ht
      refine (posEdges_nodup (hs t ht).1).map_on ?_
      intro e he e' he' hee
      obtain ⟨x, y, z, hx, hy, hz, -⟩ := (hs t ht).vertices
      have key : ∀ e ∈ posEdges t, (∃ x, vertexAt scan e.1 = some x) ∧ ∃ x, vertexAt scan e.2 = some x := by
        intro e he
        simp only [posEdges, List.mem_cons, List.not_mem_nil, or_false] at he
        rcases he with rfl | rfl | rfl <;> exact ⟨⟨_, by assumption⟩, ⟨_, by assumption⟩⟩
      obtain ⟨⟨x, hx⟩, ⟨y, hy⟩⟩ := key e he
      obtain ⟨⟨x', hx'⟩, ⟨y', hy'⟩⟩ := key e' he'
      simp only [Prod.mk.injEq, Int.natCast_inj] at hee
      exact Prod.ext (number_inj hx hx' hee.1) (number_inj hy hy' hee.2)
    · refine hn.imp_of_mem ?_
      intro t u ht hu hne ⟨a, b⟩ h1 h2
      exact hne (edges_unique hs ho t ht u hu h1 h2)

/-- C103, colours: if some vertices have colours and some have not then the assertion fails -/
theorem C103_colours (near : P → P → Bool) (ppl : Nat) (scan : List (List (Item P C))) (h : Lengths ppl scan) (hc : ¬ Coloured scan) : mesh near ppl scan = .aborts := by
  obtain ⟨s, e, hs⟩ := lines_ok near h
  have hp : s.points = scan.flatten.filterMap (·.point) := by rw [hs.points, before, items_all]
  have hcol : s.colors = scan.flatten.filterMap (fun it => it.point.bind fun _ => it.colour) := by
    rw [hs.colors, items_all, List.filterMap_eq_flatMap_toList]
    congr 1
    funext it
    unfold colourOf
    cases it.point <;> rfl
  unfold mesh
  rw [e]
  dsimp only
  rw [if_neg]
  unfold Coloured at hc
  push Not at hc
  obtain ⟨⟨it, hit, h1, h2⟩, ⟨it', hit', h1', h2'⟩⟩ := hc
  simp only [Bool.or_eq_true, List.isEmpty_iff, beq_iff_eq, not_or]
  constructor
  · rw [hcol, List.filterMap_eq_nil_iff]
    intro hh
    obtain ⟨x, hx⟩ := Option.isSome_iff_exists.1 h1'
    exact h2' (by simpa [hx] using hh it' hit')
  · rw [hcol, hp, List.length_filterMap_eq_countP, List.length_filterMap_eq_countP]
    intro hh
    have : ∀ (l : List (Item P C)), it ∈ l → l.countP (fun it => (it.point.bind fun _ => it.colour).isSome) < l.countP (fun it => it.point.isSome) := by
      intro l hl
      induction l with
      | nil => cases hl
      | cons a l ih =>
        have hle : l.countP (fun it => (it.point.bind fun _ => it.colour).isSome) ≤ l.countP (fun it => it.point.isSome) := List.countP_mono_left fun a _ ha => by
          cases hap : a.point <;> simp_all
        rw [List.countP_cons, List.countP_cons]
        rcases List.mem_cons.1 hl with rfl | hl
        · obtain ⟨x, hx⟩ := Option.isSome_iff_exists.1 h1
          simp only [hx, Option.bind_some, h2]
          simp
          omega
        · have := ih hl
          cases hap : a.point
          · simpa [hap] using this
          · simp [hap]
            split <;> omega
    exact absurd hh (this _ hit).ne

/-- C103, the first vertex: no face uses it -/
theorem C103_first_vertex (near : P → P → Bool) (ppl : Nat) (scan : List (List (Item P C))) (h : Lengths ppl scan) (hc : Coloured scan) :
    ∃ m, mesh near ppl scan = .ok m ∧ ∀ f ∈ m.faces, f.1 ≠ 0 ∧ f.2.1 ≠ 0 ∧ f.2.2 ≠ 0 := by
  obtain ⟨m, e, -⟩ := C103_mesh_partial near ppl scan h hc
  refine ⟨m, e, ?_⟩
  obtain ⟨s, e', hs⟩ := lines_ok near h
  unfold mesh at e
  rw [e'] at e
  dsimp only at e
  have hm : m.faces = s.faces := by
    split_ifs at e <;> simp only [Res.ok.injEq] at e <;> rw [← e]
  rw [hm, hs.faces]
  intro f hf
  rw [List.mem_map] at hf
  obtain ⟨⟨tl, tp, tk⟩, ht, rfl⟩ := hf
  generalize ht0 : (tl, tp, tk) = t at *
  have ht' : t ∈ chosenAll near scan scan.length := by simpa [chosenRow] using ht
  have h1 := choose_avail (mem_chosenAll.1 ht').2.2
  have h2 := (avail_iff near scan t.1 t.2.1 t.2.2 h1.1).1 h1.2
  rw [faceOf_eq h2.1]
  obtain ⟨-, n1, n2, n3⟩ := h2
  subst ht0
  dsimp only at n1 n2 n3
  unfold faceSpec
  dsimp only
  split_ifs <;> dsimp only <;> refine ⟨?_, ?_, ?_⟩ <;> intro hh <;> simp at hh <;> omega

/-- points on a line; 2 is the limit of the edges -/
def nearInt (a b : Int) : Bool := (a - b).natAbs < 2

def item (x : Int) : Item Int Unit := ⟨some x, none, false⟩

/-- a reading that does not pass the filters -/
def gap : Item Int Unit := ⟨none, none, false⟩

/-- an example: three lines of three readings, one of which has no vertex -/
example : Lengths 3 [[item 0, item 1, item 1], [item 0, item 0, item 1], [item 0, gap, item 1]] ∧ Coloured [[item 0, item 1, item 1], [item 0, item 0, item 1], [item 0, gap, item 1]] ∧
    mesh nearInt 3 [[item 0, item 1, item 1], [item 0, item 0, item 1], [item 0, gap, item 1]] =
      .ok ⟨[0, 1, 1, 0, 0, 1, 0, 1], none, [2, 2, 2, 2, 0, 2, 2, 2], [(1, 4, 3), (2, 5, 4), (1, 2, 4), (3, 4, 6), (4, 5, 7)]⟩ := by
  refine ⟨by unfold Lengths; decide, .inr (by decide), by decide⟩

/-- an example for the reversed triangles and for colours -/
example : mesh nearInt 2 [[⟨some 9, some 1, false⟩, ⟨some 0, some 2, false⟩], [⟨some 1, some 3, false⟩, (⟨some 1, some 4, true⟩ : Item Int Nat)]] = .ok ⟨[9, 0, 1, 1], some [1, 2, 3, 4], [2, 2, 2, 2], [(1, 2, 3)]⟩ := by
  decide

/-- an example for `C103_colours` -/
example : mesh nearInt 2 [[⟨some 9, some 1, false⟩], [(⟨some 1, none, true⟩ : Item Int Nat)]] = .aborts := by
  decide

/-- the code violates C103: of a scan with four vertices next to each other the mesh has one triangle only -/
theorem C103_first_vertex_example : Lengths 2 [[item 0, item 0], [item 0, item 0]] ∧ mesh nearInt 2 [[item 0, item 0], [item 0, item 0]] = .ok ⟨[0, 0, 0, 0], none, [2, 2, 2, 2], [(1, 3, 2)]⟩ ∧
    Small nearInt [[item 0, item 0], [item 0, item 0]] (0, 0, 2) := by
  refine ⟨by unfold Lengths; decide, by decide, ?_⟩
  exact ⟨by decide, ⟨0, 0, by decide⟩, ⟨0, 0, by decide⟩, ⟨0, 0, by decide⟩⟩

/-- the code violates C103: a line with more readings than the last one of the scan had when it was loaded, or than the first one had, is written outside of the index line -/
theorem C103_long_line : mesh nearInt 1 [[item 0, item 0]] = .undefined := by
  decide

/-- the code violates C103: a line that is longer than the one before uses uninitialised indices -/
theorem C103_uninitialised : mesh nearInt 2 [[item 0], [item 0, item 0]] = .undefined := by
  decide

/-- the code violates C103: a line that is longer than the one before is connected with the third line before -/
theorem C103_stale : ∃ m, mesh nearInt 2 [[item 50, item 0], [gap, gap], [item 0], [item 0, item 0]] = .ok m ∧ (2, 1, 3) ∈ m.faces ∧
    number [[item 50, item 0], [gap, gap], [item 0], [item 0, item 0]] (0, 1) = 1 ∧ number [[item 50, item 0], [gap, gap], [item 0], [item 0, item 0]] (3, 0) = 3 := by
  exact ⟨⟨[50, 0, 0, 0, 0], none, [2, 2, 2, 2, 2], [(1, 4, 3), (2, 1, 3)]⟩, by decide⟩

#print axioms C103_mesh_partial
#print axioms C103_surface_partial
#print axioms C103_colours
#print axioms C103_first_vertex
#print axioms C103_first_vertex_example
#print axioms C103_long_line
#print axioms C103_uninitialised
#print axioms C103_stale

end Envire.Mesh
