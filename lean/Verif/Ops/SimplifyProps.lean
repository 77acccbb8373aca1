import Verif.Ops.SimplifyModel

/-!
C154: SimplifyPointcloud. See SimplifyModel.lean.
-/

namespace Envire.Simplify

/-! ### specification -/

/-- the function keeps some of the tuples, in any order -/
def Selects {V : Type} (f : Points V → Option (Points V)) : Prop :=
  ∀ p q, f p = some q → ∃ rest, (q ++ rest).Perm p

/-- the function keeps the tuples in their places and changes points only -/
def Moves {V : Type} (f : Points V → Option (Points V)) : Prop :=
  ∀ p q, f p = some q → q.map Prod.fst = p.map Prod.fst

/-- what is known of the functions of CGAL -/
structure Documented {V : Type} (g : Cgal V) : Prop where
  simplify : ∀ c, Selects (g.simplify c)
  outliers : ∀ k o, Selects (g.outliers k o)
  smooth : ∀ k, Moves (g.smooth k)

/-- each of the indices is that of an element of the list, and `out` consists of these elements -/
def Follows {V : Type} (ix : List Nat) (input out : Option (List V)) : Prop :=
  match input, out with
  | none, none => True
  | some l, some o => o.map some = ix.map (fun i => l[i]?)
  | _, _ => False

/-! ### the steps -/

theorem index_map {V : Type} (l : List V) (n : Nat) :
    (index n l).map Prod.snd = l ∧ (index n l).map Prod.fst = List.range' n l.length := by
  induction l generalizing n with
  | nil => exact ⟨rfl, rfl⟩
  | cons v l ih =>
    obtain ⟨h1, h2⟩ := ih (n + 1)
    constructor
    · rw [index, List.map_cons, h1]
    · rw [index, List.map_cons, h2, List.length_cons, List.range'_succ]

theorem index_mem {V : Type} (l : List V) (n : Nat) (i : Nat) (v : V) (h : (i, v) ∈ index n l) :
    n ≤ i ∧ l[i - n]? = some v := by
  induction l generalizing n with
  | nil => cases h
  | cons w l ih =>
    rw [index, List.mem_cons] at h
    cases h with
    | inl h =>
      cases h
      refine ⟨Nat.le_refl _, ?_⟩
      rw [Nat.sub_self, List.getElem?_cons_zero]
    | inr h =>
      obtain ⟨h1, h2⟩ := ih (n + 1) h
      refine ⟨by omega, ?_⟩
      have e : i - n = (i - (n + 1)) + 1 := by omega
      rw [e, List.getElem?_cons_succ, h2]

/-- tuples of distinct indices of the cloud -/
def Fine {V : Type} (l : List V) (p : Points V) : Prop :=
  (p.map Prod.fst).Nodup ∧ ∀ i ∈ p.map Prod.fst, i < l.length

/-- each tuple still has the point of its index -/
def Exact {V : Type} (l : List V) (p : Points V) : Prop := ∀ x ∈ p, l[x.1]? = some x.2

theorem fine_index {V : Type} (l : List V) : Fine l (index 0 l) ∧ Exact l (index 0 l) := by
  obtain ⟨-, h⟩ := index_map l 0
  refine ⟨⟨?_, ?_⟩, ?_⟩
  · rw [h]
    exact List.nodup_range'
  · intro i hi
    rw [h, List.mem_range'_1] at hi
    omega
  · intro x hx
    have := index_mem l 0 x.1 x.2 hx
    rw [Nat.sub_zero] at this
    exact this.2

theorem fine_select {V : Type} {l : List V} {p q : Points V} (h : ∃ rest, (q ++ rest).Perm p)
    (hp : Fine l p) : Fine l q := by
  obtain ⟨rest, h⟩ := h
  have h' := h.map Prod.fst
  rw [List.map_append] at h'
  constructor
  · have := h'.nodup_iff.2 hp.1
    exact (List.nodup_append.1 this).1
  · intro i hi
    exact hp.2 i (h'.subset (List.mem_append_left _ hi))

theorem exact_select {V : Type} {l : List V} {p q : Points V} (h : ∃ rest, (q ++ rest).Perm p)
    (hp : Exact l p) : Exact l q := by
  obtain ⟨rest, h⟩ := h
  exact fun x hx => hp x (h.subset (List.mem_append_left _ hx))

theorem bind_some {A B : Type} {o : Option A} {f : A → Option B} {b : B} (h : o.bind f = some b) :
    ∃ a, o = some a ∧ f a = some b := by
  cases o with
  | none => cases h
  | some a => exact ⟨a, rfl, h⟩

theorem steps_fine {V : Type} {g : Cgal V} (hg : Documented g) (s : Settings) (l : List V)
    (p : Points V) (h : steps g s l = some p) :
    Fine l p ∧ (s.smoothNeighbours = 0 → Exact l p) := by
  unfold steps at h
  obtain ⟨p3, h3, h4⟩ := bind_some h
  obtain ⟨p2, h2, h5⟩ := bind_some h3
  obtain ⟨p1, h1, h6⟩ := bind_some h2
  obtain ⟨f0, e0⟩ := fine_index l
  have a1 : Fine l p1 ∧ Exact l p1 := by
    unfold stepSimplify at h1
    split at h1
    · exact ⟨fine_select (hg.simplify _ _ _ h1) f0, exact_select (hg.simplify _ _ _ h1) e0⟩
    · cases h1
      exact ⟨f0, e0⟩
  have e2 : p2 = p1 := by
    unfold stepSpacing at h6
    split at h6
    · cases hs : g.spacing 6 p1 with
      | none => rw [hs] at h6; cases h6
      | some u => rw [hs] at h6; cases h6; rfl
    · cases h6; rfl
  subst e2
  have a3 : Fine l p3 ∧ Exact l p3 := by
    unfold stepOutliers at h5
    split at h5
    · exact ⟨fine_select (hg.outliers _ _ _ _ h5) a1.1, exact_select (hg.outliers _ _ _ _ h5) a1.2⟩
    · cases h5
      exact a1
  unfold stepSmooth at h4
  split at h4
  · have := hg.smooth _ _ _ h4
    refine ⟨?_, fun h0 => by omega⟩
    unfold Fine
    rw [this]
    exact a3.1
  · cases h4
    exact ⟨a3.1, fun _ => a3.2⟩

/-! ### copying back -/

/-- the data of the output grows by the elements of the indices -/
def Grown {V : Type} (ix : List Nat) (input out out' : Option (List V)) : Prop :=
  match input with
  | none => out' = out
  | some l => ∃ o new, out.getD [] = o ∧ out' = some (o ++ new) ∧ new.map some = ix.map (fun i => l[i]?)

theorem pushData_grown {V : Type} {input out n : Option (List V)} {i : Nat}
    (h : pushData input out i = some n) : Grown [i] input out n := by
  unfold pushData at h
  unfold Grown
  cases input with
  | none => exact (Option.some.inj h).symm
  | some l =>
    dsimp only at h ⊢
    cases hx : l[i]? with
    | none => rw [hx] at h; cases h
    | some x =>
      rw [hx] at h
      cases h
      exact ⟨_, [x], rfl, rfl, by simp [hx]⟩

theorem grown_trans {V : Type} {a b : List Nat} {input o1 o2 o3 : Option (List V)}
    (h1 : Grown a input o1 o2) (h2 : Grown b input o2 o3) : Grown (a ++ b) input o1 o3 := by
  unfold Grown at *
  cases input with
  | none => exact h2.trans h1
  | some l =>
    obtain ⟨x, n, e1, e2, e3⟩ := h1
    obtain ⟨y, m, e4, e5, e6⟩ := h2
    rw [e2] at e4
    dsimp only [Option.getD_some] at e4
    refine ⟨x, n ++ m, e1, ?_, ?_⟩
    · rw [e5, ← e4]
      simp
    · rw [List.map_append, List.map_append, e3, e6]

theorem touch_grown {V : Type} (input out : Option (List V)) : Grown [] input out (touch input out) := by
  unfold Grown touch
  cases input with
  | none => rfl
  | some l => exact ⟨_, [], rfl, by simp, rfl⟩

theorem copyBack_done {V : Type} (inp : Cloud V) (p : Points V) (out out' : Cloud V)
    (n c : Option (List V)) (ix : List Nat) (hn : Grown ix inp.normals n out.normals)
    (hc : Grown ix inp.colors c out.colors) (h : copyBack inp p out = .done out') :
    out'.vertices = out.vertices ++ p.map Prod.snd ∧
      Grown (ix ++ p.map Prod.fst) inp.normals n out'.normals ∧
      Grown (ix ++ p.map Prod.fst) inp.colors c out'.colors := by
  induction p generalizing out ix with
  | nil =>
    cases h
    simp [hn, hc]
  | cons x p ih =>
    obtain ⟨i, v⟩ := x
    rw [copyBack] at h
    dsimp only at h
    cases h1 : pushData inp.normals out.normals i with
    | none => rw [h1] at h; cases h
    | some m =>
      rw [h1] at h
      dsimp only at h
      cases h2 : pushData inp.colors out.colors i with
      | none => rw [h2] at h; cases h
      | some d =>
        rw [h2] at h
        dsimp only at h
        obtain ⟨a1, a2, a3⟩ := ih _ (ix ++ [i]) (grown_trans hn (pushData_grown h1))
          (grown_trans hc (pushData_grown h2)) h
        refine ⟨?_, ?_, ?_⟩
        · rw [a1]; simp
        · simpa using a2
        · simpa using a3

theorem run_done {V : Type} (g : Cgal V) (s : Settings) (inp out out' : Cloud V)
    (h : run g s inp out = .done out') :
    ∃ p, steps g s inp.vertices = some p ∧ out'.vertices = out.vertices ++ p.map Prod.snd ∧
      Grown (p.map Prod.fst) inp.normals out.normals out'.normals ∧
      Grown (p.map Prod.fst) inp.colors out.colors out'.colors := by
  unfold run at h
  cases hs : steps g s inp.vertices with
  | none => rw [hs] at h; cases h
  | some p =>
    rw [hs] at h
    dsimp only at h
    obtain ⟨h1, h2, h3⟩ := copyBack_done inp p _ out' out.normals out.colors []
      (touch_grown _ _) (touch_grown _ _) h
    exact ⟨p, rfl, h1, by simpa using h2, by simpa using h3⟩

theorem grown_follows {V : Type} {ix : List Nat} {input out' : Option (List V)}
    (h : Grown ix input none out') : Follows ix input out' := by
  unfold Grown at h
  unfold Follows
  cases input with
  | none => dsimp only at h; rw [h]; trivial
  | some l =>
    obtain ⟨o, new, rfl, e2, e3⟩ := h
    rw [e2]
    simpa using e3

/-- every index has an element -/
def Long {V : Type} (n : Nat) (o : Option (List V)) : Prop := ∀ l, o = some l → n ≤ l.length

theorem pushData_long {V : Type} {n i : Nat} {input : Option (List V)} (h : Long n input) (hi : i < n)
    (out : Option (List V)) : ∃ m, pushData input out i = some m := by
  unfold pushData
  cases input with
  | none => exact ⟨out, rfl⟩
  | some l =>
    have hl := h l rfl
    refine ⟨some (out.getD [] ++ [l[i]'(by omega)]), ?_⟩
    dsimp only
    rw [List.getElem?_eq_getElem (by omega)]
    rfl

theorem copyBack_long {V : Type} (inp : Cloud V) (n : Nat) (hn : Long n inp.normals)
    (hc : Long n inp.colors) (p : Points V) (hp : ∀ i ∈ p.map Prod.fst, i < n) (out : Cloud V) :
    ∃ out', copyBack inp p out = .done out' := by
  induction p generalizing out with
  | nil => exact ⟨out, rfl⟩
  | cons x p ih =>
    obtain ⟨i, v⟩ := x
    have hi : i < n := hp i (by simp)
    obtain ⟨m, h1⟩ := pushData_long hn hi out.normals
    obtain ⟨d, h2⟩ := pushData_long hc hi out.colors
    rw [copyBack]
    dsimp only
    rw [h1]
    dsimp only
    rw [h2]
    exact ih (fun j hj => hp j (by simp only [List.map_cons, List.mem_cons]; exact Or.inr hj)) _

/-! ### C154 -/

/-- C154: into a cloud without content, every new point comes from its own point of the input:
there is a list of different indices of the input such that the normals and the colours of the
output are those of these indices and, unless smoothing is on, so are the points. With at least
one normal and one colour per point, the only exceptions are those of CGAL, which leave the
output as it was. Missing: an output that has content already (C154_append, C154_stale); the
number of neighbours for smoothing (C154_neighbours). -/
theorem C154_subset_partial {V : Type} (g : Cgal V) (hg : Documented g) (s : Settings)
    (inp : Cloud V) (hn : Long inp.vertices.length inp.normals)
    (hc : Long inp.vertices.length inp.colors) :
    (∃ out ix, updateAll g s [inp] [⟨[], none, none⟩] = .done out ∧ ix.Nodup ∧
      (∀ i ∈ ix, i < inp.vertices.length) ∧ out.vertices.length = ix.length ∧
      Follows ix inp.normals out.normals ∧ Follows ix inp.colors out.colors ∧
      (s.smoothNeighbours = 0 → out.vertices.map some = ix.map (fun i => inp.vertices[i]?))) ∨
    (updateAll g s [inp] [⟨[], none, none⟩] = .thrown ⟨[], none, none⟩ ∧
      steps g s inp.vertices = none) := by
  show (∃ out ix, run g s inp ⟨[], none, none⟩ = .done out ∧ _) ∨
    (run g s inp ⟨[], none, none⟩ = .thrown ⟨[], none, none⟩ ∧ _)
  cases hs : steps g s inp.vertices with
  | none =>
    right
    refine ⟨?_, rfl⟩
    unfold run
    rw [hs]
  | some p =>
    left
    obtain ⟨⟨f1, f2⟩, ex⟩ := steps_fine hg s _ p hs
    have hd : ∃ out, run g s inp ⟨[], none, none⟩ = .done out := by
      unfold run
      rw [hs]
      exact copyBack_long inp _ hn hc p f2 _
    obtain ⟨out, hd⟩ := hd
    obtain ⟨p', hs', h1, h2, h3⟩ := run_done g s inp _ out hd
    rw [hs] at hs'
    cases hs'
    refine ⟨out, p.map Prod.fst, hd, f1, f2, by simp [h1], grown_follows h2, grown_follows h3, ?_⟩
    intro h0
    rw [h1, List.nil_append, List.map_map, List.map_map]
    exact List.map_congr_left fun x hx => (ex h0 x hx).symm

/-- C154: with all steps off the output is a copy of the input -/
theorem C154_copy {V : Type} (g : Cgal V) (inp : Cloud V)
    (hn : ∀ l, inp.normals = some l → l.length = inp.vertices.length)
    (hc : ∀ l, inp.colors = some l → l.length = inp.vertices.length) (c o : Rat) (hc0 : c ≤ 0)
    (ho : o ≤ 0) :
    updateAll g ⟨false, c, o, 0⟩ [inp] [⟨[], none, none⟩] = .done inp := by
  have hs : steps g ⟨false, c, o, 0⟩ inp.vertices = some (index 0 inp.vertices) := by
    unfold steps stepSimplify stepSpacing stepOutliers stepSmooth
    simp [Rat.not_lt.2 hc0, Rat.not_lt.2 ho]
  obtain ⟨⟨f1, f2⟩, -⟩ := fine_index inp.vertices
  have hd : ∃ out, run g ⟨false, c, o, 0⟩ inp ⟨[], none, none⟩ = .done out := by
    unfold run
    rw [hs]
    exact copyBack_long inp inp.vertices.length (fun l h => by rw [hn l h]; exact Nat.le_refl _)
      (fun l h => by rw [hc l h]; exact Nat.le_refl _) _ f2 _
  obtain ⟨out, hd⟩ := hd
  show run g ⟨false, c, o, 0⟩ inp ⟨[], none, none⟩ = .done inp
  rw [hd]
  obtain ⟨p', hs', h1, h2, h3⟩ := run_done _ _ inp _ out hd
  rw [hs] at hs'
  cases hs'
  obtain ⟨m1, m2⟩ := index_map inp.vertices 0
  rw [m1, List.nil_append] at h1
  rw [m2] at h2 h3
  have key : ∀ (a b : Option (List V)), (∀ l, a = some l → l.length = inp.vertices.length) →
      Grown (List.range' 0 inp.vertices.length) a none b → b = a := by
    intro a b ha h
    unfold Grown at h
    cases a with
    | none => exact h
    | some l =>
      obtain ⟨o, new, rfl, e2, e3⟩ := h
      have e : new = l := by
        have : new.map some = l.map some := by
          rw [e3, ← ha l rfl]
          apply List.ext_getElem?
          intro i
          by_cases hi : i < l.length
          · simp [hi]
          · simp [hi]
        exact (List.map_inj_right (fun _ _ h => Option.some.inj h)).1 this
      rw [e2, e]
      rfl
  have e1 := key _ _ hn h2
  have e2 := key _ _ hc h3
  cases out
  cases inp
  simp_all

theorem index_zip {V : Type} (l : List V) (n : Nat) :
    index n l = (List.range' n l.length).zip l := by
  induction l generalizing n with
  | nil => rfl
  | cons v l ih => rw [index, ih, List.length_cons, List.range'_succ, List.zip_cons_cons]

/-- C154: the points of the output are what CGAL makes of the points of the input, numbered from
0: simplified with the cell size if that is positive, then without outliers if their percentage is
positive, then smoothed if the number of neighbours is positive -/
theorem C154_stages {V : Type} (g : Cgal V) (s : Settings) (inp out : Cloud V)
    (h : updateAll g s [inp] [⟨[], none, none⟩] = .done out) :
    ∃ p1 p2 p3 : Points V,
      (if 0 < s.simplifyCellSize then
        g.simplify s.simplifyCellSize ((List.range inp.vertices.length).zip inp.vertices) = some p1
      else p1 = (List.range inp.vertices.length).zip inp.vertices) ∧
      (if 0 < s.outlierPercentage then g.outliers 24 s.outlierPercentage p1 = some p2
      else p2 = p1) ∧
      (if 0 < s.smoothNeighbours then g.smooth 24 p2 = some p3 else p3 = p2) ∧
      out.vertices = p3.map Prod.snd := by
  obtain ⟨p, hs, h1, -, -⟩ := run_done g s inp _ out h
  unfold steps at hs
  obtain ⟨p3, h3, h4⟩ := bind_some hs
  obtain ⟨p2, h2, h5⟩ := bind_some h3
  obtain ⟨p1, h6, h7⟩ := bind_some h2
  have e2 : p2 = p1 := by
    unfold stepSpacing at h7
    split at h7
    · cases hs : g.spacing 6 p1 with
      | none => rw [hs] at h7; cases h7
      | some u => rw [hs] at h7; cases h7; rfl
    · cases h7; rfl
  subst e2
  rw [List.range_eq_range', ← index_zip]
  refine ⟨p2, p3, p, ?_, ?_, ?_, h1⟩
  · unfold stepSimplify at h6
    split at h6
    · rw [if_pos (by assumption)]; exact h6
    · rw [if_neg (by assumption)]; exact (Option.some.inj h6).symm
  · unfold stepOutliers at h5
    split at h5
    · rw [if_pos (by assumption)]; exact h5
    · rw [if_neg (by assumption)]; exact (Option.some.inj h5).symm
  · unfold stepSmooth at h4
    split at h4
    · rw [if_pos (by assumption)]; exact h4
    · rw [if_neg (by assumption)]; exact (Option.some.inj h4).symm

/-- C154: what was in the output stays there, the new points are appended -/
theorem C154_append {V : Type} (g : Cgal V) (s : Settings) (inp out out' : Cloud V)
    (h : updateAll g s [inp] [out] = .done out') :
    ∃ p, steps g s inp.vertices = some p ∧ out'.vertices = out.vertices ++ p.map Prod.snd := by
  obtain ⟨p, h1, h2, -, -⟩ := run_done g s inp out out' h
  exact ⟨p, h1, h2⟩

/-- functions that do nothing -/
def idle : Cgal Nat where
  simplify _ p := some p
  spacing _ _ := some ()
  outliers _ _ p := some p
  smooth _ p := some p

/-- C154: a second run doubles the output; with points in the output that have no normals, the
normals of the input belong to the wrong points -/
theorem C154_stale :
    updateAll idle ⟨false, 1, 5, 24⟩ [⟨[1, 2], none, none⟩] [⟨[1, 2], none, none⟩] =
      .done ⟨[1, 2, 1, 2], none, none⟩ ∧
    updateAll idle ⟨false, 1, 5, 24⟩ [⟨[1, 2], some [10, 20], none⟩] [⟨[7], none, none⟩] =
      .done ⟨[7, 1, 2], some [10, 20], none⟩ := by
  constructor <;> decide +kernel

/-- C154: smoothing looks at 24 neighbours for every setting but 0 -/
theorem C154_neighbours {V : Type} (g : Cgal V) (b : Bool) (c o : Rat) (m n : Nat) (hm : 0 < m)
    (hn : 0 < n) (ins outs : List (Cloud V)) :
    updateAll g ⟨b, c, o, m⟩ ins outs = updateAll g ⟨b, c, o, n⟩ ins outs := by
  have h : stepSmooth g ⟨b, c, o, m⟩ = stepSmooth g ⟨b, c, o, n⟩ := by
    funext p
    unfold stepSmooth
    rw [if_pos hm, if_pos hn]
  unfold updateAll run steps
  rw [h]
  rfl

/-- C154: computing the spacing changes nothing unless CGAL throws -/
theorem C154_spacing {V : Type} (g : Cgal V) (hg : ∀ k p, g.spacing k p ≠ none) (c o : Rat)
    (n : Nat) (ins outs : List (Cloud V)) :
    updateAll g ⟨true, c, o, n⟩ ins outs = updateAll g ⟨false, c, o, n⟩ ins outs := by
  have h : stepSpacing g ⟨true, c, o, n⟩ = stepSpacing g ⟨false, c, o, n⟩ := by
    funext p
    unfold stepSpacing
    cases hs : g.spacing 6 p with
    | none => exact absurd hs (hg 6 p)
    | some u => rfl
  unfold updateAll run steps
  rw [h]
  rfl

/-- C154: with fewer normals than points there is an exception that leaves points in the output
without their normals -/
theorem C154_short :
    updateAll idle ⟨false, 0, 0, 0⟩ [⟨[1, 2, 3], some [10, 20], none⟩] [⟨[], none, none⟩] =
      .thrown ⟨[1, 2, 3], some [10, 20], none⟩ := by
  decide +kernel

/-- C154: without an input or an output the run is not defined -/
theorem C154_no_map {V : Type} (g : Cgal V) (s : Settings) (l : List (Cloud V)) :
    updateAll g s [] l = .undefined ∧ updateAll g s l [] = .undefined := by
  constructor
  · rfl
  · cases l <;> rfl

/-! ### an example -/

/-- keeps the tuples with an even index; moves points up -/
def sample : Cgal Nat where
  simplify _ p := some (p.filter fun x => x.1 % 2 = 0)
  spacing _ p := if p.isEmpty then none else some ()
  outliers _ _ p := if p.isEmpty then none else some (p.drop 1)
  smooth _ p := some (p.map fun x => (x.1, x.2 + 100))

theorem sample_documented : Documented sample where
  simplify c p q h := by
    cases h
    exact ⟨_, List.filter_append_perm (fun x => decide (x.1 % 2 = 0)) p⟩
  outliers k o p q h := by
    unfold sample at h
    dsimp only at h
    split at h
    · cases h
    · cases h
      refine ⟨p.take 1, ?_⟩
      have := List.perm_append_comm (l₁ := p.drop 1) (l₂ := p.take 1)
      rw [List.take_append_drop] at this
      exact this
  smooth k p q h := by
    cases h
    rw [List.map_map]
    rfl

example : Long 5 (some [10, 20, 30, 40, 50]) := fun l h => by cases h; decide

example : updateAll sample ⟨true, 1, 5, 3⟩ [⟨[1, 2, 3, 4, 5], some [10, 20, 30, 40, 50], none⟩]
    [⟨[], none, none⟩] = .done ⟨[103, 105], some [30, 50], none⟩ := by decide +kernel

example : updateAll sample ⟨true, 1, 5, 0⟩ [⟨[1, 2, 3, 4, 5], none, some [10, 20, 30, 40, 50]⟩]
    [⟨[], none, none⟩] = .done ⟨[3, 5], none, some [30, 50]⟩ := by decide +kernel

example : updateAll sample ⟨true, 1, 5, 0⟩ [⟨[], none, none⟩] [⟨[], none, none⟩] =
    .thrown ⟨[], none, none⟩ := by decide +kernel

#print axioms C154_subset_partial
#print axioms C154_copy
#print axioms C154_stages
#print axioms C154_append
#print axioms C154_stale
#print axioms C154_neighbours
#print axioms C154_spacing
#print axioms C154_short
#print axioms C154_no_map

end Envire.Simplify
