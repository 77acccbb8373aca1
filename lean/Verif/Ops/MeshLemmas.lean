import Verif.Ops.MeshModel
import Mathlib.Tactic.IntervalCases

/-!
Lemmas about the model of ScanMeshing::updateAll.
-/

namespace Envire.Mesh

variable {P C : Type}

/-- the line l of a scan -/
def row (scan : List (List (Item P C))) (l : Nat) : List (Item P C) := scan.getD l []

/-- the vertex of the reading p of line l -/
def pt (scan : List (List (Item P C))) (a : Nat × Nat) : Option P := ((row scan a.1)[a.2]?).bind (·.point)

/-- the readings before the reading p of line l -/
def itemsBefore (scan : List (List (Item P C))) (a : Nat × Nat) : List (Item P C) := (scan.take a.1).flatten ++ (row scan a.1).take a.2

def before (scan : List (List (Item P C))) (a : Nat × Nat) : List P := (itemsBefore scan a).filterMap (·.point)

/-- the entry of the index line -/
def code (scan : List (List (Item P C))) (a : Nat × Nat) : Int := if (pt scan a).isSome then ((before scan a).length : Int) else -1

theorem row_mem {scan : List (List (Item P C))} {l : Nat} (h : l < scan.length) : row scan l = scan[l] := by
  simp [row, h]

theorem items_next {scan : List (List (Item P C))} {l : Nat} (h : l < scan.length) : itemsBefore scan (l + 1, 0) = itemsBefore scan (l, (row scan l).length) := by
  unfold itemsBefore
  dsimp only
  rw [row_mem h, List.take_length, List.take_zero, List.append_nil, List.take_add_one, List.getElem?_eq_getElem h]
  simp only [Option.toList_some, List.flatten_append, List.flatten_cons, List.flatten_nil, List.append_nil]

theorem items_succ {scan : List (List (Item P C))} {l p : Nat} {it : Item P C} (h : (row scan l)[p]? = some it) : itemsBefore scan (l, p + 1) = itemsBefore scan (l, p) ++ [it] := by
  simp [itemsBefore, List.take_add_one, h]

theorem items_row {scan : List (List (Item P C))} {l p q : Nat} (h : p ≤ q) : itemsBefore scan (l, p) <+: itemsBefore scan (l, q) := by
  unfold itemsBefore
  exact (List.prefix_append_right_inj _).2 (List.take_prefix_take_left h)

theorem items_full {scan : List (List (Item P C))} {l p : Nat} (h : l < scan.length) : itemsBefore scan (l, p) <+: itemsBefore scan (l + 1, 0) := by
  rw [items_next h]
  unfold itemsBefore
  refine (List.prefix_append_right_inj _).2 ?_
  dsimp only
  rw [List.take_length]
  exact List.take_prefix _ _

theorem items_start {scan : List (List (Item P C))} {l k : Nat} (h : l ≤ k) (hk : k ≤ scan.length) : itemsBefore scan (l, 0) <+: itemsBefore scan (k, 0) := by
  induction k with
  | zero =>
    rw [Nat.le_zero.1 h]
    exact List.prefix_refl _
  | succ k ih =>
    rcases Nat.lt_or_ge l (k + 1) with hl | hl
    · exact (ih (by omega) (by omega)).trans (items_full (by omega))
    · rw [show l = k + 1 by omega]
      exact List.prefix_refl _

/-- the order of the readings -/
def Lt (a b : Nat × Nat) : Prop := a.1 < b.1 ∨ a.1 = b.1 ∧ a.2 < b.2

theorem items_lt {scan : List (List (Item P C))} {a b : Nat × Nat} (h : Lt a b) (hb : b.1 ≤ scan.length) : itemsBefore scan (a.1, a.2 + 1) <+: itemsBefore scan b := by
  obtain ⟨a1, a2⟩ := a
  obtain ⟨b1, b2⟩ := b
  rcases h with h | ⟨h, h'⟩
  · exact ((items_full (by simp at *; omega)).trans (items_start (l := a1 + 1) (k := b1) h hb)).trans (items_row (Nat.zero_le _))
  · simp only at h h' ⊢
    subst h
    exact items_row h'

theorem pt_row {scan : List (List (Item P C))} {a : Nat × Nat} {x : P} (h : pt scan a = some x) : ∃ it, (row scan a.1)[a.2]? = some it ∧ it.point = some x := by
  unfold pt at h
  rw [Option.bind_eq_some_iff] at h
  exact h

theorem pt_lt {scan : List (List (Item P C))} {a : Nat × Nat} {x : P} (h : pt scan a = some x) : a.1 < scan.length ∧ a.2 < (row scan a.1).length := by
  obtain ⟨it, h, -⟩ := pt_row h
  have h2 := (List.getElem?_eq_some_iff.1 h).1
  refine ⟨?_, h2⟩
  by_contra h'
  unfold row at h2
  rw [List.getD_eq_getElem?_getD, List.getElem?_eq_none (by omega)] at h2
  simp at h2

theorem before_succ {scan : List (List (Item P C))} {a : Nat × Nat} {x : P} (h : pt scan a = some x) : before scan (a.1, a.2 + 1) = before scan a ++ [x] := by
  obtain ⟨it, h, h'⟩ := pt_row h
  simp [before, items_succ h, h']

theorem before_lt {scan : List (List (Item P C))} {a b : Nat × Nat} (h : Lt a b) (hb : b.1 ≤ scan.length) : before scan (a.1, a.2 + 1) <+: before scan b :=
  (items_lt h hb).filterMap _

/-- the vertex of an earlier reading is at its number -/
theorem before_get {scan : List (List (Item P C))} {a b : Nat × Nat} {x : P} (h : pt scan a = some x) (hl : Lt a b) (hb : b.1 ≤ scan.length) : (before scan b)[(before scan a).length]? = some x := by
  obtain ⟨t, ht⟩ := before_lt hl hb
  rw [← ht, before_succ h]
  simp

theorem rank_lt {scan : List (List (Item P C))} {a b : Nat × Nat} {x : P} (h : pt scan a = some x) (hl : Lt a b) (hb : b.1 ≤ scan.length) : (before scan a).length < (before scan b).length := by
  have := (before_lt hl hb).length_le
  rw [before_succ h] at this
  simp at this
  omega

theorem rank_inj {scan : List (List (Item P C))} {a b : Nat × Nat} {x y : P} (h : pt scan a = some x) (h' : pt scan b = some y) (he : (before scan a).length = (before scan b).length) : a = b := by
  have ha := pt_lt h
  have hb := pt_lt h'
  by_contra hne
  have : Lt a b ∨ Lt b a := by
    obtain ⟨a1, a2⟩ := a
    obtain ⟨b1, b2⟩ := b
    simp only [Prod.mk.injEq, Lt] at *
    omega
  rcases this with hl | hl
  · have := rank_lt h hl hb.1.le
    omega
  · have := rank_lt h' hl ha.1.le
    omega

/-! ### the triangles of a quad -/

/-- the triangles that are chosen if `ok` tells which ones are possible; a triangle has the number of the corner that it does not use -/
def choose (ok : Nat → Bool) : List Nat :=
  if ok 0 then 0 :: (if ok 2 then [2] else [])
  else if ok 1 then 1 :: (if ok 3 then [3] else [])
  else if ok 2 then [2] else if ok 3 then [3] else []

def face (flip : Bool) (poly : Nat → Int) (n : Nat) : Int × Int × Int :=
  if flip then (poly (corner n 0), poly (corner n 2), poly (corner n 1)) else (poly (corner n 0), poly (corner n 1), poly (corner n 2))

/-- whether the triangle n is possible -/
def possible (near : P → P → Bool) (points : List P) (poly : Nat → Int) (n : Nat) : Bool :=
  match points[(poly (corner n 0)).toNat]?, points[(poly (corner n 1)).toNat]?, points[(poly (corner n 2)).toNat]? with
  | some x, some y, some z => decide (poly (corner n 0) > 0) && decide (poly (corner n 1) > 0) && decide (poly (corner n 2) > 0) && near x y && near x z && near y z
  | _, _, _ => false

theorem triangle_eq (near : P → P → Bool) (flip : Bool) (poly : Nat → Int) (n : Nat) (s : St P C) (first : Int) (h : ∀ k < 4, poly k > 0 → (s.points[(poly k).toNat]?).isSome) (hn : n < 4) :
    triangle near flip poly n s first =
      if possible near s.points poly n && decide (first = -1 ∨ (first + n) % 2 = 0) then .ok ({ s with faces := s.faces ++ [face flip poly n] }, (n : Int)) else .ok (s, first) := by
  have hc : ∀ k < 3, corner n k < 4 := by
    intro k hk
    unfold corner
    split <;> omega
  have h0 := h _ (hc 0 (by omega))
  have h1 := h _ (hc 1 (by omega))
  have h2 := h _ (hc 2 (by omega))
  unfold triangle possible face
  dsimp only
  generalize poly (corner n 0) = a at *
  generalize poly (corner n 1) = b at *
  generalize poly (corner n 2) = c at *
  by_cases ha : a > 0
  · by_cases hb : b > 0
    · by_cases hc : c > 0
      · obtain ⟨x, hx⟩ := Option.isSome_iff_exists.1 (h0 ha)
        obtain ⟨y, hy⟩ := Option.isSome_iff_exists.1 (h1 hb)
        obtain ⟨z, hz⟩ := Option.isSome_iff_exists.1 (h2 hc)
        rw [hx, hy, hz]
        by_cases hf : first = -1 ∨ (first + n) % 2 = 0
        · simp only [ha, hb, hc, hf, decide_true, Bool.true_and, Bool.and_true, and_self, if_true]
        · simp only [ha, hb, hc, hf, decide_false, Bool.and_false, and_false, if_false, Bool.false_eq_true]
      · rw [if_neg (by tauto), if_neg]
        split <;> simp [hc]
    · rw [if_neg (by tauto), if_neg]
      split <;> simp [hb]
  · rw [if_neg (by tauto), if_neg]
    split <;> simp [ha]

theorem triangles_eq (near : P → P → Bool) (flip : Bool) (poly : Nat → Int) (s : St P C) (h : ∀ k < 4, poly k > 0 → (s.points[(poly k).toNat]?).isSome) :
    triangles near flip poly [0, 1, 2, 3] s (-1) = .ok { s with faces := s.faces ++ (choose (possible near s.points poly)).map (face flip poly) } := by
  have e : ∀ n < 4, ∀ (fs : List (Int × Int × Int)) first, triangle near flip poly n { s with faces := fs } first =
      if possible near s.points poly n && decide (first = -1 ∨ (first + n) % 2 = 0) then .ok ({ s with faces := fs ++ [face flip poly n] }, (n : Int)) else .ok ({ s with faces := fs }, first) :=
    fun n hn fs first => triangle_eq near flip poly n { s with faces := fs } first h hn
  obtain ⟨pts, cols, attrs, fs, idx, prev⟩ := s
  dsimp only at e h ⊢
  unfold choose
  cases h0 : possible near pts poly 0 <;> cases h1 : possible near pts poly 1 <;> cases h2 : possible near pts poly 2 <;> cases h3 : possible near pts poly 3 <;>
    simp [triangles, e, h0, h1, h2, h3]

/-! ### the faces of the mesh -/

/-- the corners of the quad between the lines l and l + 1 and the readings p and p + 1 -/
def quadAt (l p : Nat) (k : Nat) : Nat × Nat := if k = 0 then (l, p) else if k = 1 then (l, p + 1) else if k = 2 then (l + 1, p + 1) else (l + 1, p)

/-- whether the triangle of the quad without the corner k is possible for the code -/
def avail (near : P → P → Bool) (scan : List (List (Item P C))) (l p k : Nat) : Bool :=
  match pt scan (quadAt l p (corner k 0)), pt scan (quadAt l p (corner k 1)), pt scan (quadAt l p (corner k 2)) with
  | some x, some y, some z =>
    decide (code scan (quadAt l p (corner k 0)) > 0) && decide (code scan (quadAt l p (corner k 1)) > 0) && decide (code scan (quadAt l p (corner k 2)) > 0) && near x y && near x z && near y z
  | _, _, _ => false

/-- the chosen triangles of the quad that the reading p of line l completes -/
def chosen (near : P → P → Bool) (scan : List (List (Item P C))) (l p : Nat) : List (Nat × Nat × Nat) :=
  if l > 0 ∧ p > 0 then (choose (avail near scan (l - 1) (p - 1))).map fun k => (l - 1, p - 1, k) else []

def chosenRow (near : P → P → Bool) (scan : List (List (Item P C))) (l p : Nat) : List (Nat × Nat × Nat) := (List.range p).flatMap (chosen near scan l)

def chosenAll (near : P → P → Bool) (scan : List (List (Item P C))) (l : Nat) : List (Nat × Nat × Nat) := (List.range l).flatMap fun i => chosenRow near scan i (row scan i).length

/-- the face of a triangle of a quad -/
def faceOf (scan : List (List (Item P C))) (t : Nat × Nat × Nat) : Int × Int × Int :=
  face ((((row scan (t.1 + 1))[t.2.1 + 1]?).map (·.flip)).getD false) (fun k => code scan (quadAt t.1 t.2.1 k)) t.2.2

/-- the attribute of a reading -/
def attrOf (scan : List (List (Item P C))) (l p : Nat) : Nat := if p = 0 ∨ p = (row scan l).length - 1 ∨ l = 0 ∨ l = scan.length - 1 then 2 else 0

/-- the attributes of the vertices of the first p readings of line l -/
def attrsRow (scan : List (List (Item P C))) (l p : Nat) : List Nat := (List.range p).filterMap fun q => (pt scan (l, q)).map fun _ => attrOf scan l q

def attrsAll (scan : List (List (Item P C))) (l : Nat) : List Nat := (List.range l).flatMap fun i => attrsRow scan i (row scan i).length

def colourOf (it : Item P C) : List C := match it.point with
  | some _ => it.colour.toList
  | none => []

/-- the state before the reading p of line l -/
structure Inv (near : P → P → Bool) (ppl : Nat) (scan : List (List (Item P C))) (l p : Nat) (s : St P C) : Prop where
  points : s.points = before scan (l, p)
  colors : s.colors = (itemsBefore scan (l, p)).flatMap colourOf
  attrs : s.attrs = attrsAll scan l ++ attrsRow scan l p
  faces : s.faces = (chosenAll near scan l ++ chosenRow near scan l p).map (faceOf scan)
  lenI : s.idx.length = ppl
  lenP : s.prev.length = ppl
  idx : ∀ q < p, s.idx[q]? = some (some (code scan (l, q)))
  prev : ∀ k, l = k + 1 → ∀ q < (row scan k).length, s.prev[q]? = some (some (code scan (k, q)))

theorem avail_eq (near : P → P → Bool) {scan : List (List (Item P C))} {l p : Nat} (hl : l + 1 ≤ scan.length) (k : Nat) (hk : k < 4) :
    possible near (before scan (l + 1, p + 2)) (fun k => code scan (quadAt l p k)) k = avail near scan l p k := by
  have key : ∀ i < 4, (pt scan (quadAt l p i) = none ∧ code scan (quadAt l p i) = -1) ∨
      ∃ x, pt scan (quadAt l p i) = some x ∧ (before scan (l + 1, p + 2))[(code scan (quadAt l p i)).toNat]? = some x := by
    intro i hi
    cases h : pt scan (quadAt l p i) with
    | none => simp [code, h]
    | some x =>
      right
      refine ⟨x, rfl, ?_⟩
      have := before_get (b := (l + 1, p + 2)) h (by unfold quadAt Lt; split_ifs <;> simp) hl
      simpa [code, h] using this
  have hc : ∀ i < 3, corner k i < 4 := by
    intro i hi
    unfold corner
    split <;> omega
  unfold possible avail
  dsimp only
  have k0 := key _ (hc 0 (by omega))
  have k1 := key _ (hc 1 (by omega))
  have k2 := key _ (hc 2 (by omega))
  rcases k0 with ⟨e, e'⟩ | ⟨x, e, e'⟩
  · simp only [e, e']
    split <;> simp
  · rcases k1 with ⟨f, f'⟩ | ⟨y, f, f'⟩
    · simp only [f, f', e]
      split <;> simp
    · rcases k2 with ⟨g, g'⟩ | ⟨z, g, g'⟩
      · simp only [g, g', e, f]
        split <;> simp
      · simp only [e, e', f, f', g, g']

theorem choose_congr {f g : Nat → Bool} (h : ∀ k < 4, f k = g k) : choose f = choose g := by
  unfold choose
  rw [h 0 (by omega), h 1 (by omega), h 2 (by omega), h 3 (by omega)]

theorem choose_lt (f : Nat → Bool) : ∀ k ∈ choose f, k < 4 := by
  unfold choose
  intro k hk
  split_ifs at hk <;> simp at hk <;> omega

theorem vertex_inv {near : P → P → Bool} {ppl : Nat} {scan : List (List (Item P C))} {l p : Nat} {s : St P C} (h : Inv near ppl scan l p s) {it : Item P C} (hit : (row scan l)[p]? = some it) (hp : p < ppl) :
    ∃ s', vertex scan.length (row scan l).length l p it s = .ok s' ∧ s'.points = before scan (l, p + 1) ∧ s'.colors = (itemsBefore scan (l, p + 1)).flatMap colourOf ∧
      s'.attrs = attrsAll scan l ++ attrsRow scan l (p + 1) ∧ s'.faces = s.faces ∧ s'.idx.length = ppl ∧ s'.prev = s.prev ∧ ∀ q < p + 1, s'.idx[q]? = some (some (code scan (l, q))) := by
  unfold vertex
  rw [if_pos (by rw [h.lenI]; exact hp)]
  have hpt : pt scan (l, p) = it.point := by simp [pt, hit]
  have hidx : ∀ v, v = code scan (l, p) → ∀ q < p + 1, (s.idx.set p (some v))[q]? = some (some (code scan (l, q))) := by
    intro v hv q hq
    rw [List.getElem?_set]
    by_cases hqp : p = q
    · subst hqp
      rw [if_pos rfl, if_pos (by rw [h.lenI]; exact hp), hv]
    · rw [if_neg hqp]
      exact h.idx q (by omega)
  have hat : attrsRow scan l (p + 1) = attrsRow scan l p ++ (it.point.map fun _ => attrOf scan l p).toList := by
    unfold attrsRow
    rw [List.range_succ, List.filterMap_append]
    simp only [List.filterMap_cons, List.filterMap_nil, hpt]
    cases it.point <;> rfl
  have hb : before scan (l, p + 1) = before scan (l, p) ++ it.point.toList := by
    unfold before
    rw [items_succ hit]
    cases h' : it.point <;> simp [h']
  cases h' : it.point with
  | some x =>
    refine ⟨_, rfl, ?_, ?_, ?_, rfl, by simp [h.lenI], rfl, hidx _ ?_⟩
    · simp [hb, h', h.points]
    · simp [items_succ hit, h.colors, colourOf, h']
    · simp [hat, h', h.attrs, attrOf]
    · simp [code, hpt, h', h.points]
  | none =>
    refine ⟨_, rfl, ?_, ?_, ?_, rfl, by simp [h.lenI], rfl, hidx _ ?_⟩
    · simp [hb, h', h.points]
    · simp [items_succ hit, h.colors, colourOf, h']
    · simp [hat, h', h.attrs]
    · simp [code, hpt, h']

theorem reading_inv {near : P → P → Bool} {ppl : Nat} {scan : List (List (Item P C))} {l p : Nat} {s : St P C} (h : Inv near ppl scan l p s) {it : Item P C} (hit : (row scan l)[p]? = some it) (hp : p < ppl)
    (hl : l < scan.length) (hlen : ∀ k, l = k + 1 → p < (row scan k).length) :
    ∃ s' s'', vertex scan.length (row scan l).length l p it s = .ok s' ∧ quad near it.flip l p s' = .ok s'' ∧ Inv near ppl scan l (p + 1) s'' := by
  obtain ⟨s', e, h1, h2, h3, h4, h5, h6, h7⟩ := vertex_inv h hit hp
  have hrow : chosenRow near scan l (p + 1) = chosenRow near scan l p ++ chosen near scan l p := by
    simp [chosenRow, List.range_succ]
  by_cases hq : l > 0 ∧ p > 0
  · obtain ⟨k, rfl⟩ : ∃ k, l = k + 1 := ⟨l - 1, by omega⟩
    obtain ⟨q, rfl⟩ : ∃ q, p = q + 1 := ⟨p - 1, by omega⟩
    have hk := hlen k rfl
    let poly : Nat → Int := fun i => code scan (quadAt k q i)
    have hpoly : ∀ i < 4, poly i > 0 → (s'.points[(poly i).toNat]?).isSome := by
      intro i hi hpos
      cases hx : pt scan (quadAt k q i) with
      | none => simp [poly, code, hx] at hpos
      | some x =>
        have := before_get (b := (k + 1, q + 2)) hx (by unfold quadAt Lt; split_ifs <;> simp) hl.le
        simp [poly, code, hx, h1, this]
    have hquad : quad near it.flip (k + 1) (q + 1) s' = triangles near it.flip poly [0, 1, 2, 3] s' (-1) := by
      unfold quad
      rw [if_pos hq]
      rw [show q + 1 - 1 = q by omega, h6, h.prev k rfl q (by omega), h.prev k rfl (q + 1) hk, h7 (q + 1) (by omega), h7 q (by omega)]
      dsimp only
      congr 1
      funext i
      simp only [poly, quadAt]
      split_ifs <;> rfl
    rw [triangles_eq near it.flip poly s' hpoly] at hquad
    refine ⟨s', _, e, hquad, h1, h2, h3, ?_, h5, by rw [h6]; exact h.lenP, h7, by rw [h6]; exact h.prev⟩
    dsimp only
    have hc : choose (possible near s'.points poly) = choose (avail near scan k q) := choose_congr fun i hi => by
      rw [h1]
      exact avail_eq near hl.le i hi
    rw [hc, h4, h.faces, hrow]
    have hch : chosen near scan (k + 1) (q + 1) = (choose (avail near scan k q)).map fun i => (k, q, i) := by
      unfold chosen
      rw [if_pos hq]
      rfl
    rw [hch, ← List.append_assoc, List.map_append (l₁ := _ ++ _) (l₂ := List.map _ _), List.map_map]
    congr 1
    apply List.map_congr_left
    intro i _
    simp only [faceOf, Function.comp, hit, Option.map_some, Option.getD_some]
    rfl
  · refine ⟨s', s', e, ?_, h1, h2, h3, ?_, h5, by rw [h6]; exact h.lenP, h7, by rw [h6]; exact h.prev⟩
    · unfold quad
      rw [if_neg hq]
    · have : chosen near scan l p = [] := by
        unfold chosen
        rw [if_neg hq]
      rw [h4, h.faces, hrow, this, List.append_nil]

theorem readings_inv {near : P → P → Bool} {ppl : Nat} {scan : List (List (Item P C))} {l : Nat} (hl : l < scan.length) (hppl : (row scan l).length ≤ ppl)
    (hlen : ∀ k, l = k + 1 → (row scan l).length ≤ (row scan k).length) : ∀ (rest : List (Item P C)) (p : Nat) (s : St P C), Inv near ppl scan l p s → (row scan l).drop p = rest → p ≤ (row scan l).length →
    ∃ s', readings near scan.length (row scan l).length l p rest s = .ok s' ∧ Inv near ppl scan l (row scan l).length s' := by
  intro rest
  induction rest with
  | nil =>
    intro p s h hr hp
    refine ⟨s, rfl, ?_⟩
    rw [List.drop_eq_nil_iff] at hr
    rw [show (row scan l).length = p by omega]
    exact h
  | cons it rest ih =>
    intro p s h hr hp
    have hlt : p < (row scan l).length := by
      by_contra h'
      rw [List.drop_eq_nil_of_le (by omega)] at hr
      cases hr
    have hit : (row scan l)[p]? = some it := by
      rw [← List.head?_drop, hr]
      rfl
    obtain ⟨s', s'', e, e', h'⟩ := reading_inv h hit (by omega) hl (fun k hk => lt_of_lt_of_le hlt (hlen k hk))
    obtain ⟨s3, e3, h3⟩ := ih (p + 1) s'' h' (by rw [← List.drop_drop, hr]; rfl) hlt
    refine ⟨s3, ?_, h3⟩
    simp only [readings, e, e', e3]

theorem lines_inv {near : P → P → Bool} {ppl : Nat} {scan : List (List (Item P C))} (hppl : ∀ l, (row scan l).length ≤ ppl) (hlen : ∀ k, k + 1 < scan.length → (row scan (k + 1)).length ≤ (row scan k).length) :
    ∀ (rest : List (List (Item P C))) (l : Nat) (s : St P C), Inv near ppl scan l 0 s → scan.drop l = rest → l ≤ scan.length →
    ∃ s', lines near scan.length l rest s = .ok s' ∧ Inv near ppl scan scan.length 0 s' := by
  intro rest
  induction rest with
  | nil =>
    intro l s h hr hl
    refine ⟨s, rfl, ?_⟩
    rw [List.drop_eq_nil_iff] at hr
    rw [show scan.length = l by omega]
    exact h
  | cons it rest ih =>
    intro l s h hr hl
    have hlt : l < scan.length := by
      by_contra h'
      rw [List.drop_eq_nil_of_le (by omega)] at hr
      cases hr
    have hit : row scan l = it := by
      rw [row_mem hlt]
      have : scan[l]? = some it := by
        rw [← List.head?_drop, hr]
        rfl
      exact (List.getElem?_eq_some_iff.1 this).2
    obtain ⟨s', e, h'⟩ := readings_inv hlt (hppl l) (fun k hk => by subst hk; exact hlen k hlt) (row scan l) 0 s h rfl (Nat.zero_le _)
    have hnext : Inv near ppl scan (l + 1) 0 { s' with idx := s'.prev, prev := s'.idx } :=
      { points := by
          show s'.points = _
          unfold before
          rw [items_next hlt, h'.points]
          rfl
        colors := by
          show s'.colors = _
          rw [items_next hlt, h'.colors]
        attrs := by
          show s'.attrs = _
          simp [h'.attrs, attrsAll, attrsRow, List.range_succ]
        faces := by
          show s'.faces = _
          simp [h'.faces, chosenAll, chosenRow, List.range_succ]
        lenI := h'.lenP
        lenP := h'.lenI
        idx := by intro q hq; omega
        prev := by
          intro k hk q hq
          obtain rfl : l = k := by omega
          exact h'.idx q hq }
    obtain ⟨s3, e3, h3⟩ := ih (l + 1) _ hnext (by rw [← List.drop_drop, hr]; rfl) hlt
    refine ⟨s3, ?_, h3⟩
    rw [hit] at e
    simp only [lines, e, e3]

end Envire.Mesh
