import Verif.Grid.ListGridModel
import Mathlib.Data.List.Nodup
import Mathlib.Data.List.Perm.Subperm
/-! Refinement of sequences per cell by the heap of items of a list grid. -/
namespace Envire.ListGrid

variable {V : Type}

/-- p points to the items of the list l, in order; the back pointers are right, the one of the first item if q is given -/
def Seg (items : Nat → Option (Item V)) : Option Loc → Option Nat → List (Nat × V) → Prop
  | _, p, [] => p = none
  | q, p, (a, v) :: l => ∃ it, p = some a ∧ items a = some it ∧ it.val = v ∧ (∀ c, q = some c → it.pthis = c) ∧ Seg items (some (.next a)) it.next l

theorem Seg.congr {items items' : Nat → Option (Item V)} {l : List (Nat × V)} : ∀ {q : Option Loc} {p : Option Nat},
    Seg items q p l → (∀ a ∈ l.map (·.1), items' a = items a) → Seg items' q p l := by
  induction l with
  | nil => intro q p h _; exact h
  | cons x l ih =>
    obtain ⟨a, v⟩ := x
    rintro q p ⟨it, h1, h2, h3, h4, h5⟩ h
    exact ⟨it, h1, by rw [h a (by simp), h2], h3, h4, ih h5 (fun b hb => h b (by simp at hb ⊢; exact Or.inr hb))⟩

theorem Seg.none_q {items : Nat → Option (Item V)} {l : List (Nat × V)} {q : Option Loc} {p : Option Nat} (h : Seg items q p l) :
    Seg items none p l := by
  cases l with
  | nil => exact h
  | cons x l =>
    obtain ⟨a, v⟩ := x
    obtain ⟨it, h1, h2, h3, h4, h5⟩ := h
    exact ⟨it, h1, h2, h3, fun c hc => (by cases hc), h5⟩

theorem Seg.live {items : Nat → Option (Item V)} {l : List (Nat × V)} : ∀ {q : Option Loc} {p : Option Nat},
    Seg items q p l → ∀ a ∈ l.map (·.1), items a ≠ none := by
  induction l with
  | nil => intro q p _ a ha; simp at ha
  | cons x l ih =>
    obtain ⟨a, v⟩ := x
    rintro q p ⟨it, h1, h2, h3, h4, h5⟩ b hb
    simp only [List.map_cons, List.mem_cons] at hb
    rcases hb with rfl | hb
    · rw [h2]; simp
    · exact ih h5 b hb

theorem Seg.collect {items : Nat → Option (Item V)} {l : List (Nat × V)} : ∀ {q : Option Loc} {p : Option Nat} {fuel : Nat},
    Seg items q p l → l.length < fuel → ListGrid.collect items fuel p = some (l.map (·.2)) := by
  induction l with
  | nil =>
    intro q p fuel h hf
    obtain ⟨k, rfl⟩ : ∃ k, fuel = k + 1 := ⟨fuel - 1, by omega⟩
    rw [show p = none from h]
    rfl
  | cons x l ih =>
    obtain ⟨a, v⟩ := x
    rintro q p fuel ⟨it, rfl, h2, h3, h4, h5⟩ hf
    obtain ⟨k, rfl⟩ : ∃ k, fuel = k + 1 := ⟨fuel - 1, by omega⟩
    unfold ListGrid.collect
    rw [h2]
    dsimp only [Option.bind_some]
    rw [ih h5 (by simp at hf; omega), h3]
    rfl

theorem Seg.lastLoop {items : Nat → Option (Item V)} {l : List (Nat × V)} : ∀ {q : Option Loc} {p last : Option Nat} {fuel : Nat},
    Seg items q p l → l.length < fuel → ListGrid.lastLoop items fuel last p = some ((l.getLast?.map (·.1)).or last) := by
  induction l with
  | nil =>
    intro q p last fuel h hf
    obtain ⟨k, rfl⟩ : ∃ k, fuel = k + 1 := ⟨fuel - 1, by omega⟩
    rw [show p = none from h]
    rfl
  | cons x l ih =>
    obtain ⟨a, v⟩ := x
    rintro q p last fuel ⟨it, rfl, h2, h3, h4, h5⟩ hf
    obtain ⟨k, rfl⟩ : ∃ k, fuel = k + 1 := ⟨fuel - 1, by omega⟩
    unfold ListGrid.lastLoop
    rw [h2]
    dsimp only [Option.bind_some]
    rw [ih h5 (by simp at hf; omega)]
    cases l with
    | nil => rfl
    | cons y l => simp [List.getLast?_cons]

theorem Seg.walk {items : Nat → Option (Item V)} (i : Nat) : ∀ {l : List (Nat × V)} {q : Option Loc} {p : Option Nat},
    Seg items q p l → i < l.length → ListGrid.walk items i p = some (l[i]?.map (·.1)) := by
  induction i with
  | zero =>
    intro l q p h hi
    cases l with
    | nil => simp at hi
    | cons x l =>
      obtain ⟨a, v⟩ := x
      obtain ⟨it, rfl, _⟩ := h
      rfl
  | succ i ih =>
    intro l q p h hi
    cases l with
    | nil => simp at hi
    | cons x l =>
      obtain ⟨a, v⟩ := x
      obtain ⟨it, rfl, h2, h3, h4, h5⟩ := h
      unfold ListGrid.walk
      rw [h2]
      dsimp only [Option.bind_some]
      rw [ih h5 (by simp at hi; omega)]
      simp

/-- the grid holds the items L, with addresses; `stale` says where the back pointer of the first item may be wrong -/
structure R (g : Grid V) (L : Nat → Nat → List (Nat × V)) (stale : Nat → Nat → Bool) : Prop where
  pool : g.pool = true
  seg : ∀ x y, Seg g.items (if stale x y then none else some (.cell x y)) (g.cells x y) (L x y)
  outside : ∀ x y, ¬ (x < g.w ∧ y < g.h) → L x y = []
  nodup : ∀ x y, ((L x y).map (·.1)).Nodup
  disj : ∀ x y x' y' a, a ∈ (L x y).map (·.1) → a ∈ (L x' y').map (·.1) → x = x' ∧ y = y'
  live : ∀ a, g.items a ≠ none → a ∈ g.live

/-- malloc gives an address that is not live -/
def AllocOk (alloc : Alloc) : Prop := ∀ t l, alloc t l ∉ l

theorem R.length_le {g : Grid V} {L stale} (h : R g L stale) (x y : Nat) : (L x y).length ≤ g.live.length := by
  have h1 : ((L x y).map (·.1)) ⊆ g.live := fun a ha => h.live a ((h.seg x y).live a ha)
  have := ((h.nodup x y).subperm h1).length_le
  simpa using this

theorem R.toList {g : Grid V} {L stale} (h : R g L stale) {x y : Nat} (hx : x < g.w) (hy : y < g.h) : g.toList x y = some ((L x y).map (·.2)) := by
  unfold Grid.toList
  rw [if_pos ⟨hx, hy⟩]
  exact (h.seg x y).collect (by have := h.length_le x y; omega)

theorem R.init (w h : Nat) : R (Grid.init w h : Grid V) (fun _ _ => []) (fun _ _ => false) where
  pool := rfl
  seg := fun _ _ => rfl
  outside := fun _ _ _ => rfl
  nodup := fun _ _ => by simp
  disj := fun x y x' y' a h => by simp at h
  live := fun a h => absurd rfl h

/-- change of one cell in a table -/
def upd {A : Type} (f : Nat → Nat → A) (x y : Nat) (v : A) : Nat → Nat → A := fun x' y' => if x' = x ∧ y' = y then v else f x' y'

theorem upd_same {A : Type} (f : Nat → Nat → A) (x y : Nat) (v : A) : upd f x y v x y = v := by simp [upd]

theorem upd_other {A : Type} (f : Nat → Nat → A) {x y x' y' : Nat} (v : A) (h : ¬ (x' = x ∧ y' = y)) : upd f x y v x' y' = f x' y' := by
  unfold upd
  rw [if_neg h]

/-- a change of one cell: what remains to be shown -/
theorem R.upd {g g' : Grid V} {L stale} (h : R g L stale) {x y : Nat} {l : List (Nat × V)} {st : Bool} (hxy : x < g.w ∧ y < g.h)
    (hw : g'.w = g.w) (hh : g'.h = g.h) (hp : g'.pool = true)
    (hc : g'.cells = setCell g.cells x y (g'.cells x y))
    (hs : Seg g'.items (if st then none else some (.cell x y)) (g'.cells x y) l)
    (hn : (l.map (·.1)).Nodup)
    (hd : ∀ x' y' a, ¬ (x' = x ∧ y' = y) → a ∈ l.map (·.1) → a ∉ (L x' y').map (·.1))
    (hi : ∀ x' y' a, ¬ (x' = x ∧ y' = y) → a ∈ (L x' y').map (·.1) → g'.items a = g.items a)
    (hl : ∀ a, g'.items a ≠ none → a ∈ g'.live) :
    R g' (upd L x y l) (upd stale x y st) where
  pool := hp
  seg := by
    intro x' y'
    by_cases he : x' = x ∧ y' = y
    · obtain ⟨rfl, rfl⟩ := he
      rw [upd_same, upd_same]
      exact hs
    · rw [upd_other _ _ he, upd_other _ _ he]
      have : g'.cells x' y' = g.cells x' y' := by rw [hc]; unfold setCell; rw [if_neg he]
      rw [this]
      exact (h.seg x' y').congr (fun a ha => hi x' y' a he ha)
  outside := by
    intro x' y' ho
    rw [hw, hh] at ho
    rw [upd_other _ _ (by rintro ⟨rfl, rfl⟩; exact ho hxy)]
    exact h.outside x' y' ho
  nodup := by
    intro x' y'
    by_cases he : x' = x ∧ y' = y
    · obtain ⟨rfl, rfl⟩ := he
      rw [upd_same]
      exact hn
    · rw [upd_other _ _ he]
      exact h.nodup x' y'
  disj := by
    intro x1 y1 x2 y2 a h1 h2
    by_cases he1 : x1 = x ∧ y1 = y
    · by_cases he2 : x2 = x ∧ y2 = y
      · exact ⟨he1.1.trans he2.1.symm, he1.2.trans he2.2.symm⟩
      · rw [he1.1, he1.2, upd_same] at h1
        rw [upd_other _ _ he2] at h2
        exact absurd h2 (hd x2 y2 a he2 h1)
    · rw [upd_other _ _ he1] at h1
      by_cases he2 : x2 = x ∧ y2 = y
      · rw [he2.1, he2.2, upd_same] at h2
        exact absurd h1 (hd x1 y1 a he1 h2)
      · rw [upd_other _ _ he2] at h2
        exact h.disj x1 y1 x2 y2 a h1 h2
  live := hl

theorem setItem_same (f : Nat → Option (Item V)) (a : Nat) (i : Option (Item V)) : setItem f a i a = i := by simp [setItem]

theorem setItem_other (f : Nat → Option (Item V)) {a b : Nat} (i : Option (Item V)) (h : b ≠ a) : setItem f a i b = f b := by
  unfold setItem
  rw [if_neg h]

theorem setCell_same (f : Nat → Nat → Option Nat) (x y : Nat) (p : Option Nat) : setCell f x y p x y = p := by simp [setCell]

theorem R.insertHead {alloc : Alloc} (ha : AllocOk alloc) {g : Grid V} {L stale} (h : R g L stale) {x y : Nat} (hx : x < g.w) (hy : y < g.h) (v : V) :
    ∃ g' n, g.insertHead alloc x y v = some g' ∧ g'.w = g.w ∧ g'.h = g.h ∧ R g' (ListGrid.upd L x y ((n, v) :: L x y)) (ListGrid.upd stale x y false) := by
  have hnl := ha g.time g.live
  generalize hn : alloc g.time g.live = n at hnl
  have hni : g.items n = none := by
    by_contra hc
    exact hnl (h.live n hc)
  have hnL : ∀ x' y', n ∉ (L x' y').map (·.1) := fun x' y' hm => (h.seg x' y').live n hm hni
  have hseg := h.seg x y
  unfold Grid.insertHead Grid.malloc
  rw [if_pos ⟨hx, hy⟩, if_neg (by rw [h.pool]; simp)]
  dsimp only [Option.bind_some]
  rw [hn]
  cases hL : L x y with
  | nil =>
    rw [hL] at hseg
    have hc : g.cells x y = none := hseg
    rw [hc]
    refine ⟨{ g with cells := setCell g.cells x y (some n), items := setItem g.items n (some { val := v, next := none, pthis := .cell x y }), live := n :: g.live, time := g.time + 1 }, n, ?_, rfl, rfl, ?_⟩
    · dsimp only [Option.bind_some, Grid.store]
      rw [if_pos ⟨hx, hy⟩]
    · refine h.upd ⟨hx, hy⟩ rfl rfl h.pool (by dsimp only; rw [setCell_same]) ?_ (by simp) ?_ ?_ ?_
      · dsimp only
        rw [setCell_same]
        exact ⟨_, rfl, setItem_same _ _ _, rfl, fun c hc => by cases hc; rfl, rfl⟩
      · intro x' y' a _ hm
        simp only [List.map_cons, List.map_nil, List.mem_singleton] at hm
        rw [hm]
        exact hnL x' y'
      · intro x' y' a _ hm
        exact setItem_other _ _ (fun he => hnL x' y' (he ▸ hm))
      · intro a hm
        by_cases hc : a = n
        · rw [hc]; simp
        · dsimp only at hm
          rw [setItem_other _ _ hc] at hm
          exact List.mem_cons_of_mem _ (h.live a hm)
  | cons b l =>
    obtain ⟨b, w⟩ := b
    rw [hL] at hseg
    obtain ⟨it, hc, hb, hw, _, hr⟩ := hseg
    have hbn : b ≠ n := fun he => hnL x y (by rw [hL, he]; simp)
    rw [hc]
    have hnd := h.nodup x y
    rw [hL] at hnd
    simp only [List.map_cons, List.nodup_cons] at hnd
    refine ⟨{ g with cells := setCell g.cells x y (some n), items := setItem (setItem g.items n (some { val := v, next := some b, pthis := .cell x y })) b (some { it with pthis := .next n }), live := n :: g.live, time := g.time + 1 }, n, ?_, rfl, rfl, ?_⟩
    · dsimp only [Grid.setPthis]
      rw [setItem_other _ _ hbn, hb]
      dsimp only [Option.bind_some, Grid.store]
      rw [if_pos ⟨hx, hy⟩]
    · refine h.upd ⟨hx, hy⟩ rfl rfl h.pool (by dsimp only; rw [setCell_same]) ?_ ?_ ?_ ?_ ?_
      · dsimp only
        rw [setCell_same]
        refine ⟨{ val := v, next := some b, pthis := .cell x y }, rfl, by rw [setItem_other _ _ (Ne.symm hbn), setItem_same], rfl, fun c hc => by cases hc; rfl, ?_⟩
        refine ⟨{ it with pthis := .next n }, rfl, setItem_same _ _ _, hw, fun c hc => by cases hc; rfl, ?_⟩
        refine hr.congr (fun a hm => ?_)
        rw [setItem_other _ _ (fun he : a = b => hnd.1 (he ▸ hm)), setItem_other _ _ (fun he : a = n => hnL x y (by rw [hL, ← he]; exact List.mem_cons_of_mem _ hm))]
      · have := hnL x y
        rw [hL] at this
        simp only [List.map_cons, List.nodup_cons]
        exact ⟨this, hnd⟩
      · intro x' y' a hne hm
        rw [List.map_cons, List.mem_cons] at hm
        rcases hm with rfl | hm
        · exact hnL x' y'
        · intro hm'
          rw [← hL] at hm
          exact hne (h.disj x' y' x y a hm' hm)
      · intro x' y' a hne hm
        dsimp only
        rw [setItem_other _ _ (fun he => hne (h.disj x' y' x y a hm (by rw [hL, he]; simp))), setItem_other _ _ (fun he : a = n => hnL x' y' (he ▸ hm))]
      · intro a hm
        dsimp only at hm ⊢
        by_cases hc : a = n
        · rw [hc]; simp
        · refine List.mem_cons_of_mem _ (h.live a ?_)
          by_cases hab : a = b
          · rw [hab, hb]; simp
          · rwa [setItem_other _ _ hab, setItem_other _ _ hc] at hm

/-- appending an item to a segment -/
theorem Seg.append {items : Nat → Option (Item V)} {n b : Nat} {v : V} (hn : items n = none) {l : List (Nat × V)} : ∀ {q : Option Loc} {p : Option Nat} {itb : Item V},
    Seg items q p l → (l.map (·.1)).Nodup → l.getLast?.map (·.1) = some b → items b = some itb →
    Seg (setItem (setItem items n (some { val := v, next := none, pthis := .next b })) b (some { itb with next := some n })) q p (l ++ [(n, v)]) := by
  induction l with
  | nil => intro q p itb _ _ h; simp at h
  | cons x l ih =>
    obtain ⟨a, w⟩ := x
    rintro q p itb ⟨it, h1, h2, h3, h4, h5⟩ hnd hl hb
    have hbn : b ≠ n := fun he => by rw [he, hn] at hb; cases hb
    simp only [List.map_cons, List.nodup_cons] at hnd
    cases l with
    | nil =>
      simp only [List.getLast?_singleton, Option.map_some, Option.some.injEq] at hl
      subst hl
      rw [h2] at hb
      cases hb
      refine ⟨{ itb with next := some n }, h1, setItem_same _ _ _, h3, h4, ?_⟩
      refine ⟨{ val := v, next := none, pthis := .next a }, rfl, by rw [setItem_other _ _ (Ne.symm hbn), setItem_same], rfl, fun c hc => by cases hc; rfl, rfl⟩
    | cons y l =>
      rw [List.getLast?_cons_cons] at hl
      have hbl : b ∈ (y :: l).map (·.1) := by
        obtain ⟨z, hz, rfl⟩ := Option.map_eq_some_iff.1 hl
        exact List.mem_map_of_mem (List.mem_of_getLast? hz)
      refine ⟨it, h1, ?_, h3, h4, ih h5 hnd.2 hl hb⟩
      rw [setItem_other _ _ (fun he : a = b => hnd.1 (he ▸ hbl)), setItem_other _ _ (fun he : a = n => by rw [he, hn] at h2; cases h2)]
      exact h2

theorem R.insertTail {alloc : Alloc} (ha : AllocOk alloc) {g : Grid V} {L stale} (h : R g L stale) {x y : Nat} (hx : x < g.w) (hy : y < g.h) (v : V) :
    ∃ g' n, g.insertTail alloc x y v = some g' ∧ g'.w = g.w ∧ g'.h = g.h ∧
      R g' (ListGrid.upd L x y (L x y ++ [(n, v)])) (ListGrid.upd stale x y (stale x y && !(L x y).isEmpty)) := by
  have hnl := ha g.time g.live
  generalize hn : alloc g.time g.live = n at hnl
  have hni : g.items n = none := by
    by_contra hc
    exact hnl (h.live n hc)
  have hnL : ∀ x' y', n ∉ (L x' y').map (·.1) := fun x' y' hm => (h.seg x' y').live n hm hni
  have hseg := h.seg x y
  unfold Grid.insertTail
  rw [if_pos ⟨hx, hy⟩, hseg.lastLoop (by have := h.length_le x y; omega)]
  dsimp only [Option.bind_some, Grid.malloc]
  cases hL : (L x y).getLast? with
  | none =>
    have hL : L x y = [] := List.getLast?_eq_none_iff.1 hL
    rw [hL] at hseg
    have hc : g.cells x y = none := hseg
    rw [hc, hL]
    dsimp only [Option.map_none, Option.or]
    rw [if_neg (by rw [h.pool]; simp)]
    refine ⟨{ g with cells := setCell g.cells x y (some n), items := setItem g.items n (some { val := v, next := none, pthis := .cell x y }), live := n :: g.live, time := g.time + 1 }, n, ?_, rfl, rfl, ?_⟩
    · dsimp only [Option.bind_some, Grid.store]
      rw [if_pos ⟨hx, hy⟩, hn]
    · refine h.upd ⟨hx, hy⟩ rfl rfl h.pool (by dsimp only; rw [setCell_same]) ?_ (by simp) ?_ ?_ ?_
      · dsimp only
        rw [setCell_same]
        simp only [List.isEmpty_nil, Bool.not_true, Bool.and_false, Bool.false_eq_true, if_false]
        exact ⟨_, rfl, setItem_same _ _ _, rfl, fun c hc => by cases hc; rfl, rfl⟩
      · intro x' y' a _ hm
        simp only [List.nil_append, List.map_cons, List.map_nil, List.mem_singleton] at hm
        rw [hm]
        exact hnL x' y'
      · intro x' y' a _ hm
        exact setItem_other _ _ (fun he => hnL x' y' (he ▸ hm))
      · intro a hm
        by_cases hc : a = n
        · rw [hc]; simp
        · dsimp only at hm
          rw [setItem_other _ _ hc] at hm
          exact List.mem_cons_of_mem _ (h.live a hm)
  | some b =>
    obtain ⟨b, w⟩ := b
    have hbm : b ∈ (L x y).map (·.1) := List.mem_map_of_mem (f := Prod.fst) (List.mem_of_getLast? hL)
    obtain ⟨itb, hb⟩ := Option.ne_none_iff_exists'.1 (hseg.live b hbm)
    have hbn : b ≠ n := fun he => hnL x y (he ▸ hbm)
    dsimp only [Option.map_some, Option.or]
    rw [if_neg (by rw [h.pool]; simp)]
    have hne : (L x y).isEmpty = false := by
      cases hl : L x y with
      | nil => rw [hl] at hL; cases hL
      | cons _ _ => rfl
    refine ⟨{ g with items := setItem (setItem g.items n (some { val := v, next := none, pthis := .next b })) b (some { itb with next := some n }), live := n :: g.live, time := g.time + 1 }, n, ?_, rfl, rfl, ?_⟩
    · dsimp only [Option.bind_some, Grid.store]
      rw [hn, setItem_other _ _ hbn, hb]
      rfl
    · refine h.upd ⟨hx, hy⟩ rfl rfl h.pool ?_ ?_ ?_ ?_ ?_ ?_
      · funext x' y'
        unfold setCell
        dsimp only
        split
        · rename_i he; rw [he.1, he.2]
        · rfl
      · rw [hne]
        simp only [Bool.not_false, Bool.and_true]
        exact hseg.append hni (h.nodup x y) (by rw [hL]; rfl) hb
      · rw [List.map_append, List.nodup_append]
        refine ⟨h.nodup x y, by simp, ?_⟩
        intro a ha' c hc he
        simp only [List.map_cons, List.map_nil, List.mem_singleton] at hc
        exact hnL x y (by rw [← hc, ← he]; exact ha')
      · intro x' y' a hne' hm
        rw [List.map_append, List.mem_append] at hm
        rcases hm with hm | hm
        · exact fun hm' => hne' (h.disj x' y' x y a hm' hm)
        · simp only [List.map_cons, List.map_nil, List.mem_singleton] at hm
          rw [hm]
          exact hnL x' y'
      · intro x' y' a hne' hm
        dsimp only
        rw [setItem_other _ _ (fun he : a = b => hne' (h.disj x' y' x y a hm (he ▸ hbm))), setItem_other _ _ (fun he : a = n => hnL x' y' (he ▸ hm))]
      · intro a hm
        dsimp only at hm ⊢
        by_cases hc : a = n
        · rw [hc]; simp
        · refine List.mem_cons_of_mem _ (h.live a ?_)
          by_cases hab : a = b
          · rw [hab, hb]; simp
          · rwa [setItem_other _ _ hab, setItem_other _ _ hc] at hm

theorem R.clear {g : Grid V} {L stale} (h : R g L stale) :
    ∃ g', g.clear = some g' ∧ g'.w = g.w ∧ g'.h = g.h ∧ R g' (fun _ _ => []) (fun _ _ => false) := by
  refine ⟨{ g with cells := fun _ _ => none, items := fun _ => none, live := [] }, ?_, rfl, rfl, ?_⟩
  · unfold Grid.clear
    rw [if_neg (by rw [h.pool]; simp)]
  · exact { pool := h.pool, seg := fun _ _ => rfl, outside := fun _ _ _ => rfl, nodup := fun _ _ => by simp, disj := fun x y x' y' a h => by simp at h, live := fun a h => absurd rfl h }

theorem R.resize {g : Grid V} {L stale} (h : R g L stale) (w' h' : Nat) :
    ∃ g', g.resize w' h' = some g' ∧ g'.w = w' ∧ g'.h = h' ∧ R g' (fun _ _ => []) (fun _ _ => false) := by
  obtain ⟨g1, e, _, _, r⟩ := h.clear
  refine ⟨{ g1 with w := w', h := h' }, ?_, rfl, rfl, ?_⟩
  · unfold Grid.resize
    rw [e]
    rfl
  · exact { pool := r.pool, seg := r.seg, outside := fun _ _ _ => rfl, nodup := r.nodup, disj := r.disj, live := r.live }

/-- what erase does to the items, as one function -/
def erased (items : Nat → Option (Item V)) (a : Nat) (it : Item V) : Nat → Option (Item V) := fun z =>
  if z = a then none
  else (items z).map fun i =>
    { i with pthis := if it.next = some z then it.pthis else i.pthis, next := if it.pthis = .next z then it.next else i.next }

/-- removing an item from a segment -/
theorem Seg.erase {items : Nat → Option (Item V)} {a : Nat} {v : V} {ita : Item V} {l2 : List (Nat × V)} (hita : items a = some ita) (l1 : List (Nat × V)) :
    ∀ {q : Option Loc} {p : Option Nat}, Seg items q p (l1 ++ (a, v) :: l2) → ((l1 ++ (a, v) :: l2).map (·.1)).Nodup →
      (∀ z, ita.pthis = .next z → z ∉ (l1.dropLast).map (·.1) ∧ z ∉ l2.map (·.1)) →
      Seg (erased items a ita) q (if l1.isEmpty then ita.next else p) (l1 ++ l2) := by
  induction l1 with
  | nil =>
    rintro q p ⟨it, h1, h2, h3, h4, h5⟩ hnd hz
    rw [hita] at h2
    cases h2
    simp only [List.nil_append, List.map_cons, List.nodup_cons] at hnd
    simp only [List.isEmpty_nil, if_true, List.nil_append]
    cases l2 with
    | nil => exact h5
    | cons x l3 =>
      obtain ⟨c, w⟩ := x
      obtain ⟨itc, k1, k2, k3, k4, k5⟩ := h5
      have hca : c ≠ a := fun he => hnd.1 (by rw [he]; simp)
      simp only [List.map_cons, List.nodup_cons] at hnd
      have key : ∀ z, z ≠ a → z ∈ ((c, w) :: l3).map (·.1) → ita.pthis ≠ .next z := fun z _ hm he => (hz z he).2 hm
      refine ⟨{ itc with pthis := ita.pthis }, k1, ?_, k3, h4, ?_⟩
      · unfold erased
        rw [if_neg hca, k2]
        simp only [Option.map_some]
        rw [if_pos k1, if_neg (key c hca (by simp))]
      · refine k5.congr (fun z hm => ?_)
        have hzc : z ≠ c := fun he => hnd.2.1 (he ▸ hm)
        have hza : z ≠ a := fun he => hnd.1 (by rw [← he]; exact List.mem_cons_of_mem _ hm)
        unfold erased
        rw [if_neg hza]
        cases hi : items z with
        | none => rfl
        | some i =>
          simp only [Option.map_some]
          rw [if_neg (show ¬ ita.next = some z by rw [k1]; intro he; cases he; exact hzc rfl), if_neg (key z hza (List.mem_cons_of_mem _ hm))]
  | cons x l1 ih =>
    obtain ⟨d, w⟩ := x
    rintro q p ⟨it, h1, h2, h3, h4, h5⟩ hnd hz
    simp only [List.isEmpty_cons, Bool.false_eq_true, if_false, List.cons_append]
    simp only [List.cons_append, List.map_cons, List.nodup_cons] at hnd
    have hda : d ≠ a := fun he => hnd.1 (by rw [he]; simp)
    have hdl2 : ∀ z, z ∈ l2.map (·.1) → d ≠ z := fun z hm he => hnd.1 (by rw [he, List.map_append, List.mem_append]; exact Or.inr (List.mem_cons_of_mem _ hm))
    -- the item behind the erased one is not d
    have hnx : ita.next ≠ some d := by
      have : ∀ (l1 : List (Nat × V)) {q : Option Loc} {p : Option Nat}, Seg items q p (l1 ++ (a, v) :: l2) → ∃ q', Seg items q' ita.next l2 := by
        intro l1
        induction l1 with
        | nil =>
          rintro q p ⟨it, _, k2, _, _, k5⟩
          rw [hita] at k2
          cases k2
          exact ⟨_, k5⟩
        | cons y l1 ih' =>
          rintro q p ⟨it, _, _, _, _, k5⟩
          exact ih' k5
      obtain ⟨q', k⟩ := this l1 h5
      cases l2 with
      | nil => rw [show ita.next = none from k]; simp
      | cons y l3 =>
        obtain ⟨c, w'⟩ := y
        obtain ⟨_, k1, _⟩ := k
        rw [k1]
        intro he
        cases he
        exact hdl2 d (by simp) rfl
    have hrec := ih h5 hnd.2 (fun z he => ⟨fun hm => (hz z he).1 (by
      cases l1 with
      | nil => simp at hm
      | cons y l1 => rw [List.dropLast_cons₂, List.map_cons]; exact List.mem_cons_of_mem _ hm), (hz z he).2⟩)
    cases l1 with
    | nil =>
      -- d is the item before the erased one
      obtain ⟨it', k1, k2, k3, k4, k5⟩ := h5
      rw [hita] at k2
      cases k2
      have hp : ita.pthis = .next d := k4 _ rfl
      refine ⟨{ it with next := ita.next }, h1, ?_, h3, h4, ?_⟩
      · unfold erased
        rw [if_neg hda, h2]
        simp only [Option.map_some]
        rw [if_neg hnx, if_pos hp]
      · simpa using hrec
    | cons y l1 =>
      have hp : ita.pthis ≠ .next d := fun he => (hz d he).1 (by rw [List.dropLast_cons₂]; simp)
      refine ⟨it, h1, ?_, h3, h4, ?_⟩
      · unfold erased
        rw [if_neg hda, h2]
        simp only [Option.map_some]
        rw [if_neg hnx, if_neg hp]
      · simpa using hrec

/-- the item of an inner element, its neighbours -/
theorem Seg.at {items : Nat → Option (Item V)} {a : Nat} {v : V} {l2 : List (Nat × V)} (l1 : List (Nat × V)) :
    ∀ {q : Option Loc} {p : Option Nat}, Seg items q p (l1 ++ (a, v) :: l2) →
      ∃ it, items a = some it ∧ it.val = v ∧ it.next = l2.head?.map (·.1) ∧
        (∀ c, (if l1.isEmpty then q else l1.getLast?.map fun b => Loc.next b.1) = some c → it.pthis = c) ∧ (l1 = [] → p = some a) := by
  induction l1 with
  | nil =>
    rintro q p ⟨it, h1, h2, h3, h4, h5⟩
    refine ⟨it, h2, h3, ?_, h4, fun _ => h1⟩
    cases l2 with
    | nil => exact h5
    | cons x l3 =>
      obtain ⟨c, w⟩ := x
      obtain ⟨_, k1, _⟩ := h5
      exact k1
  | cons x l1 ih =>
    obtain ⟨d, w⟩ := x
    rintro q p ⟨it, h1, h2, h3, h4, h5⟩
    obtain ⟨it', k1, k2, k3, k4, _⟩ := ih h5
    refine ⟨it', k1, k2, k3, ?_, by simp⟩
    cases l1 with
    | nil => simpa using k4
    | cons y l1 => simpa [List.getLast?_cons_cons] using k4

theorem Seg.head {items : Nat → Option (Item V)} {l : List (Nat × V)} {q : Option Loc} {p : Option Nat} (h : Seg items q p l) : p = l.head?.map (·.1) := by
  cases l with
  | nil => exact h
  | cons x l =>
    obtain ⟨it, h1, _⟩ := h
    exact h1

theorem Seg.suffix {items : Nat → Option (Item V)} {l1 l2 : List (Nat × V)} : ∀ {q : Option Loc} {p : Option Nat}, Seg items q p (l1 ++ l2) →
    Seg items none (l2.head?.map (·.1)) l2 := by
  induction l1 with
  | nil =>
    intro q p h
    have := h.head
    rw [List.nil_append] at this h
    rw [← this]
    exact h.none_q
  | cons x l1 ih =>
    rintro q p ⟨_, _, _, _, _, h⟩
    exact ih h

theorem R.erase {g : Grid V} {L stale} (h : R g L stale) {x y i : Nat} (hx : x < g.w) (hy : y < g.h) (hi : i < (L x y).length)
    (hst : i = 0 → stale x y = false) :
    ∃ g' r, g.erase x y i = some (r, g') ∧ g'.w = g.w ∧ g'.h = g.h ∧ R g' (ListGrid.upd L x y ((L x y).eraseIdx i)) stale ∧
      Seg g'.items none r ((L x y).drop (i + 1)) := by
  have hseg := h.seg x y
  have hnd := h.nodup x y
  -- split the list at the element
  obtain ⟨l1, a, v, l2, hL, hl1⟩ : ∃ l1 a v l2, L x y = l1 ++ (a, v) :: l2 ∧ l1.length = i := by
    refine ⟨(L x y).take i, ((L x y)[i]).1, ((L x y)[i]).2, (L x y).drop (i + 1), ?_, by rw [List.length_take]; omega⟩
    change _ = _ ++ ((L x y)[i]) :: _
    rw [← List.drop_eq_getElem_cons hi, List.take_append_drop]
  have hseg' := hseg
  rw [hL] at hseg hnd
  obtain ⟨it, hit, hv, hnx, hpt, hhead⟩ := hseg.at
  have hpth : it.pthis = if l1.isEmpty then Loc.cell x y else .next ((l1.getLast?.map (·.1)).getD 0) := by
    apply hpt
    cases l1 with
    | nil => simp [hst hl1.symm]
    | cons z l1 => simp [List.getLast?_cons]
  have hanl1 : a ∉ l1.map (·.1) ∧ a ∉ l2.map (·.1) ∧ (∀ z ∈ l1.map (·.1), z ∉ l2.map (·.1)) ∧ (l1.map (·.1)).Nodup := by
    rw [List.map_append, List.nodup_append] at hnd
    obtain ⟨n1, n2, n3⟩ := hnd
    simp only [List.map_cons, List.nodup_cons] at n2
    exact ⟨fun hm => n3 a hm a (by simp) rfl, n2.1, fun z hz hm => n3 z hz z (List.mem_cons_of_mem _ hm) rfl, n1⟩
  have hnextin : ∀ c, it.next = some c → c ∈ l2.map (·.1) := by
    intro c hc
    rw [hnx] at hc
    obtain ⟨z, hz, rfl⟩ := Option.map_eq_some_iff.1 hc
    exact List.mem_map_of_mem (List.mem_of_head? hz)
  -- the value of the pointer to the first item afterwards
  let p' : Option Nat := if l1.isEmpty then it.next else g.cells x y
  have heraseIdx : (L x y).eraseIdx i = l1 ++ l2 := by
    rw [hL, ← hl1, List.eraseIdx_append_of_length_le (Nat.le_refl _)]
    simp
  have hprevin : ∀ z, it.pthis = .next z → z ∈ l1.map (·.1) ∧ z ∉ (l1.dropLast).map (·.1) ∧ z ∉ l2.map (·.1) ∧ l1.isEmpty = false := by
    intro z hz
    rw [hpth] at hz
    cases hl : l1.getLast? with
    | none =>
      rw [List.getLast?_eq_none_iff.1 hl] at hz
      simp at hz
    | some b =>
      have hne : l1.isEmpty = false := by
        cases l1 with
        | nil => cases hl
        | cons _ _ => rfl
      rw [hl, hne] at hz
      simp only [Bool.false_eq_true, if_false, Option.map_some, Option.getD_some] at hz
      cases hz
      have hb : b ∈ l1 := List.mem_of_getLast? hl
      refine ⟨List.mem_map_of_mem hb, ?_, hanl1.2.2.1 _ (List.mem_map_of_mem hb), hne⟩
      intro hm
      have hsplit := List.dropLast_append_getLast? b hl
      have hnd1 := hanl1.2.2.2
      rw [← hsplit, List.map_append, List.nodup_append] at hnd1
      exact hnd1.2.2 _ hm b.1 (by simp) rfl
  have hfin : R { g with cells := setCell g.cells x y p', items := erased g.items a it, live := g.live.filter (· ≠ a) }
      (ListGrid.upd L x y ((L x y).eraseIdx i)) stale := by
    have hst' : stale = ListGrid.upd stale x y (stale x y) := by
      funext x' y'
      unfold ListGrid.upd
      split
      · rename_i he; rw [he.1, he.2]
      · rfl
    rw [hst', heraseIdx]
    have hother : ∀ z, z ≠ a → it.next ≠ some z → it.pthis ≠ .next z → erased g.items a it z = g.items z := by
      intro z h1 h2 h3
      unfold erased
      rw [if_neg h1]
      cases g.items z with
      | none => rfl
      | some i => simp only [Option.map_some, if_neg h2, if_neg h3]
    refine h.upd ⟨hx, hy⟩ rfl rfl h.pool (by dsimp only; rw [setCell_same]) ?_ ?_ ?_ ?_ ?_
    · dsimp only
      rw [setCell_same]
      exact hseg.erase hit _ (by rw [← hL]; exact h.nodup x y) (fun z hz => ⟨(hprevin z hz).2.1, (hprevin z hz).2.2.1⟩)
    · rw [List.map_append, List.nodup_append] at hnd ⊢
      refine ⟨hnd.1, ?_, ?_⟩
      · have := hnd.2.1
        simp only [List.map_cons, List.nodup_cons] at this
        exact this.2
      · intro z hz z' hz'
        exact hnd.2.2 z hz z' (List.mem_cons_of_mem _ hz')
    · intro x' y' z hne hm hm'
      refine hne (h.disj x' y' x y z hm' ?_)
      rw [hL]
      rw [List.map_append, List.mem_append] at hm ⊢
      rcases hm with hm | hm
      · exact Or.inl hm
      · exact Or.inr (List.mem_cons_of_mem _ hm)
    · intro x' y' z hne hm
      have hin : ∀ c ∈ (L x y).map (·.1), z ≠ c := fun c hc he => hne (h.disj x' y' x y z hm (he ▸ hc))
      refine hother z (hin a (by rw [hL]; simp)) ?_ ?_
      · intro he
        exact hin z (by rw [hL, List.map_append, List.mem_append]; exact Or.inr (List.mem_cons_of_mem _ (hnextin z he))) rfl
      · intro he
        exact hin z (by rw [hL, List.map_append, List.mem_append]; exact Or.inl (hprevin z he).1) rfl
    · intro z hz
      dsimp only at hz ⊢
      unfold erased at hz
      by_cases hza : z = a
      · rw [if_pos hza] at hz; exact absurd rfl hz
      · rw [if_neg hza] at hz
        rw [List.mem_filter]
        refine ⟨h.live z ?_, by simpa using hza⟩
        intro hn
        rw [hn] at hz
        exact hz rfl
  refine ⟨{ g with cells := setCell g.cells x y p', items := erased g.items a it, live := g.live.filter (· ≠ a) }, it.next, ?_, rfl, rfl, hfin, ?_⟩
  swap
  · have h1 := hfin.seg x y
    rw [upd_same, heraseIdx] at h1
    rw [show (L x y).drop (i + 1) = l2 by rw [hL, ← hl1]; simp, hnx]
    exact h1.suffix
  unfold Grid.erase
  rw [if_pos ⟨hx, hy⟩, hseg'.walk i hi]
  have hget : (L x y)[i]? = some (a, v) := by
    rw [hL, ← hl1]
    simp
  rw [hget]
  dsimp only [Option.map_some, Option.bind_some]
  unfold Grid.eraseAt
  rw [hit]
  dsimp only [Option.bind_some]
  -- the writes, one after the other
  by_cases hemp : l1.isEmpty = true
  · -- first element
    have hpt' : it.pthis = .cell x y := by rw [hpth, if_pos hemp]
    rw [hpt']
    dsimp only [Grid.store]
    rw [if_pos ⟨hx, hy⟩]
    dsimp only [Option.bind_some]
    cases hnx' : it.next with
    | none =>
      dsimp only [Option.bind_some, Grid.free]
      rw [hit]
      dsimp only [Option.bind_some]
      congr 3
      · funext x' y'
        unfold setCell
        simp only [p', hemp, if_true, hnx']
      · funext z
        unfold setItem erased
        split
        · rfl
        · rw [hnx', hpt']
          cases g.items z <;> simp
    | some c =>
      have hc := hnextin c hnx'
      have hcl : c ∈ (L x y).map (·.1) := by rw [hL, List.map_append, List.mem_append]; exact Or.inr (List.mem_cons_of_mem _ hc)
      obtain ⟨itc, hitc⟩ := Option.ne_none_iff_exists'.1 (hseg'.live c hcl)
      have hac : a ≠ c := fun he => hanl1.2.1 (he ▸ hc)
      dsimp only [Option.bind_some, Grid.setPthis]
      rw [hitc]
      dsimp only [Option.bind_some, Grid.free]
      rw [setItem_other _ _ hac, hit]
      dsimp only [Option.bind_some]
      congr 3
      · funext x' y'
        unfold setCell
        simp only [p', hemp, if_true, hnx']
      · funext z
        unfold setItem erased
        split
        · rfl
        · rw [hnx', hpt']
          by_cases hzc : z = c
          · rw [hzc, if_pos rfl, hitc]; simp
          · rw [if_neg hzc]
            have : ¬ (some c = some z) := fun he => by cases he; exact hzc rfl
            cases g.items z <;> simp [Ne.symm hzc]
  · have hemp : l1.isEmpty = false := by simpa using hemp
    obtain ⟨b, hb⟩ : ∃ b, it.pthis = .next b := ⟨_, by rw [hpth, hemp]; rfl⟩
    have hbin := hprevin b hb
    have hbl : b ∈ (L x y).map (·.1) := by rw [hL, List.map_append, List.mem_append]; exact Or.inl hbin.1
    obtain ⟨itb, hitb⟩ := Option.ne_none_iff_exists'.1 (hseg'.live b hbl)
    have hab : a ≠ b := fun he => hanl1.1 (he ▸ hbin.1)
    rw [hb]
    dsimp only [Grid.store]
    rw [hitb]
    dsimp only [Option.bind_some]
    have hcells : g.cells = setCell g.cells x y p' := by
      funext x' y'
      unfold setCell
      split
      · rename_i he; rw [he.1, he.2]; simp only [p', hemp, Bool.false_eq_true, if_false]
      · rfl
    cases hnx' : it.next with
    | none =>
      dsimp only [Option.bind_some, Grid.free]
      rw [setItem_other _ _ hab, hit]
      dsimp only [Option.bind_some]
      congr 3
      · funext z
        unfold setItem erased
        split
        · rfl
        · rw [hnx', hb]
          by_cases hzb : z = b
          · rw [hzb, if_pos rfl, hitb]; simp
          · rw [if_neg hzb]
            cases g.items z <;> simp [Ne.symm hzb]
    | some c =>
      have hc := hnextin c hnx'
      have hcl : c ∈ (L x y).map (·.1) := by rw [hL, List.map_append, List.mem_append]; exact Or.inr (List.mem_cons_of_mem _ hc)
      obtain ⟨itc, hitc⟩ := Option.ne_none_iff_exists'.1 (hseg'.live c hcl)
      have hac : a ≠ c := fun he => hanl1.2.1 (he ▸ hc)
      have hcb : c ≠ b := fun he => hbin.2.2.1 (he ▸ hc)
      dsimp only [Option.bind_some, Grid.setPthis]
      rw [setItem_other _ _ hcb, hitc]
      dsimp only [Option.bind_some, Grid.free]
      rw [setItem_other _ _ hac, setItem_other _ _ hab, hit]
      dsimp only [Option.bind_some]
      congr 3
      · funext z
        unfold setItem erased
        split
        · rfl
        · rw [hnx', hb]
          by_cases hzc : z = c
          · rw [hzc, if_pos rfl, hitc]; simp [Ne.symm hcb]
          · rw [if_neg hzc]
            by_cases hzb : z = b
            · rw [hzb, if_pos rfl, hitb]; simp [hcb]
            · rw [if_neg hzb]
              cases g.items z <;> simp [Ne.symm hzb, Ne.symm hzc]

end Envire.ListGrid
