import Verif.Grid.ListGridLemmas
import Mathlib.Data.List.Range
/-! List grid: moving and copying whole grids. -/
namespace Envire.ListGrid

variable {V : Type}

theorem R.weaken {g : Grid V} {L} {stale stale' : Nat → Nat → Bool} (h : R g L stale) (hs : ∀ x y, stale x y = true → stale' x y = true) : R g L stale' :=
  { h with
    seg := by
      intro x y
      have := h.seg x y
      by_cases hc : stale' x y = true
      · rw [if_pos hc]; exact this.none_q
      · have : ¬ stale x y = true := fun he => hc (hs x y he)
        rw [if_neg hc]
        have h2 := h.seg x y
        rw [if_neg this] at h2
        exact h2 }

theorem mem_cellsOf {w h : Nat} {c : Nat × Nat} : c ∈ cellsOf w h ↔ c.1 < w ∧ c.2 < h := by
  unfold cellsOf
  obtain ⟨x, y⟩ := c
  simp only [List.mem_flatMap, List.mem_range, List.mem_map, Prod.mk.injEq]
  constructor
  · rintro ⟨a, ha, b, hb, rfl, rfl⟩; exact ⟨ha, hb⟩
  · rintro ⟨ha, hb⟩; exact ⟨x, ha, y, hb, rfl, rfl⟩

theorem nodup_cellsOf (w h : Nat) : (cellsOf w h).Nodup :=
  show ((List.range w).product (List.range h)).Nodup from List.Nodup.product List.nodup_range List.nodup_range

theorem freeChain_ok {l : List (Nat × V)} : ∀ {g : Grid V} {q : Option Loc} {p : Option Nat} {fuel : Nat}, Seg g.items q p l → (l.map (·.1)).Nodup → l.length < fuel →
    ∃ g', freeChain fuel p g = some g' ∧ g'.w = g.w ∧ g'.h = g.h ∧ g'.cells = g.cells ∧ g'.pool = g.pool ∧
      (∀ a, g'.items a = if a ∈ l.map (·.1) then none else g.items a) ∧ (∀ a, a ∈ g.live → a ∉ l.map (·.1) → a ∈ g'.live) := by
  induction l with
  | nil =>
    intro g q p fuel h _ hf
    obtain ⟨k, rfl⟩ : ∃ k, fuel = k + 1 := ⟨fuel - 1, by omega⟩
    rw [show p = none from h]
    exact ⟨g, rfl, rfl, rfl, rfl, rfl, fun a => by simp, fun a ha _ => ha⟩
  | cons x l ih =>
    obtain ⟨b, v⟩ := x
    rintro g q p fuel ⟨it, rfl, h2, h3, h4, h5⟩ hnd hf
    obtain ⟨k, rfl⟩ : ∃ k, fuel = k + 1 := ⟨fuel - 1, by omega⟩
    simp only [List.map_cons, List.nodup_cons] at hnd
    unfold freeChain Grid.free
    rw [h2]
    dsimp only [Option.bind_some]
    obtain ⟨g', e, e1, e2, e3, e4, e5, e6⟩ := ih (g := { g with items := setItem g.items b none, live := g.live.filter (· ≠ b) }) (q := some (.next b)) (p := it.next) (fuel := k)
      (h5.congr (fun a ha => setItem_other _ _ (fun he : a = b => hnd.1 (he ▸ ha)))) hnd.2 (by simp at hf; omega)
    refine ⟨g', e, e1, e2, e3, e4, ?_, ?_⟩
    · intro a
      rw [e5]
      dsimp only
      by_cases ha : a = b
      · rw [ha, setItem_same]; simp
      · rw [setItem_other _ _ ha]
        simp only [List.map_cons, List.mem_cons, ha, false_or]
    · intro a ha hm
      simp only [List.map_cons, List.mem_cons, not_or] at hm
      exact e6 a (by dsimp only; rw [List.mem_filter]; exact ⟨ha, by simpa using hm.1⟩) hm.2

/-- the content after a move -/
def shift {A : Type} (w h : Nat) (xd yd : Int) (L : Nat → Nat → List A) : Nat → Nat → List A := fun x y =>
  if x < w ∧ y < h ∧ 0 ≤ (x : Int) - xd ∧ (x : Int) - xd < w ∧ 0 ≤ (y : Int) - yd ∧ (y : Int) - yd < h
  then L ((x : Int) - xd).toNat ((y : Int) - yd).toNat else []

/-- does the cell leave the grid? -/
def Off (g : Grid V) (xd yd : Int) (c : Nat × Nat) : Prop := (c.1 : Int) + xd < 0 ∨ (c.1 : Int) + xd ≥ g.w ∨ (c.2 : Int) + yd < 0 ∨ (c.2 : Int) + yd ≥ g.h

/-- the state of the loops of move after the cells P -/
structure Moved (g0 : Grid V) (L : Nat → Nat → List (Nat × V)) (xd yd : Int) (P : List (Nat × Nat)) (g : Grid V) : Prop where
  w : g.w = g0.w
  h : g.h = g0.h
  pool : g.pool = g0.pool
  cells : ∀ c ∈ P, ¬ Off g0 xd yd c → g.cells ((c.1 : Int) + xd).toNat ((c.2 : Int) + yd).toNat = g0.cells c.1 c.2
  empty : ∀ x y : Nat, (∀ c ∈ P, ¬ Off g0 xd yd c → ¬ ((c.1 : Int) + xd = x ∧ (c.2 : Int) + yd = y)) → g.cells x y = none
  freed : ∀ c ∈ P, Off g0 xd yd c → ∀ a ∈ (L c.1 c.2).map (·.1), g.items a = none
  kept : ∀ a, (∀ c ∈ P, Off g0 xd yd c → a ∉ (L c.1 c.2).map (·.1)) → g.items a = g0.items a
  live : ∀ a, g.items a ≠ none → a ∈ g.live

theorem move_loop {g0 : Grid V} {L stale} (h0 : R g0 L stale) (xd yd : Int) (cs : List (Nat × Nat)) : ∀ (P : List (Nat × Nat)) (g : Grid V), Moved g0 L xd yd P g →
    (P ++ cs).Nodup → ∃ g', cs.foldlM (moveCell g0.cells xd yd) g = some g' ∧ Moved g0 L xd yd (P ++ cs) g' := by
  induction cs with
  | nil => intro P g h _; exact ⟨g, rfl, by simpa using h⟩
  | cons c cs ih =>
    intro P g hm hnd
    have hcP : c ∉ P := by
      rw [List.nodup_append] at hnd
      intro hc
      exact hnd.2.2 c hc c (by simp) rfl
    -- one cell
    have hone : ∃ g1, moveCell g0.cells xd yd g c = some g1 ∧ Moved g0 L xd yd (P ++ [c]) g1 := by
      unfold moveCell
      dsimp only
      by_cases hoff : Off g0 xd yd c
      · have hoff' := hoff
        unfold Off at hoff'
        rw [← hm.w, ← hm.h] at hoff'
        rw [if_pos hoff']
        have hkeep : ∀ a ∈ (L c.1 c.2).map (·.1), g.items a = g0.items a := by
          intro a ha
          apply hm.kept
          intro d hd _ ha'
          obtain ⟨e1, e2⟩ := h0.disj d.1 d.2 c.1 c.2 a ha' ha
          exact hcP (by rw [show c = d from (Prod.ext e1 e2).symm]; exact hd)
        have hseg := (h0.seg c.1 c.2).congr hkeep
        have hlen : (L c.1 c.2).length < g.live.length + 1 := by
          have h1 : ((L c.1 c.2).map (·.1)) ⊆ g.live := fun a ha => hm.live a (hseg.live a ha)
          have := ((h0.nodup c.1 c.2).subperm h1).length_le
          simp at this
          omega
        obtain ⟨g1, e, e1, e2, e3, e4, e5, e6⟩ := freeChain_ok hseg (h0.nodup c.1 c.2) hlen
        refine ⟨g1, e, ?_⟩
        exact {
          w := e1.trans hm.w
          h := e2.trans hm.h
          pool := e4.trans hm.pool
          cells := by
            intro d hd hno
            rw [List.mem_append, List.mem_singleton] at hd
            rcases hd with hd | rfl
            · rw [e3]; exact hm.cells d hd hno
            · exact absurd hoff hno
          empty := by
            intro x y hne
            rw [e3]
            exact hm.empty x y (fun d hd => hne d (List.mem_append_left _ hd))
          freed := by
            intro d hd ho a ha
            rw [e5]
            split
            · rfl
            · rename_i hna
              rw [List.mem_append, List.mem_singleton] at hd
              rcases hd with hd | rfl
              · exact hm.freed d hd ho a ha
              · exact absurd ha hna
          kept := by
            intro a ha
            rw [e5, if_neg (ha c (by simp) hoff)]
            exact hm.kept a (fun d hd => ha d (List.mem_append_left _ hd))
          live := by
            intro a ha
            rw [e5] at ha
            split at ha
            · exact absurd rfl ha
            · rename_i hna
              exact e6 a (hm.live a ha) hna }
      · have hoff' := hoff
        unfold Off at hoff'
        rw [← hm.w, ← hm.h] at hoff'
        rw [if_neg hoff']
        simp only [not_or, not_lt, ge_iff_le, not_le] at hoff'
        obtain ⟨o1, o2, o3, o4⟩ := hoff'
        refine ⟨{ g with cells := setCell g.cells ((c.1 : Int) + xd).toNat ((c.2 : Int) + yd).toNat (g0.cells c.1 c.2) }, ?_, ?_⟩
        · unfold Grid.store
          dsimp only
          rw [if_pos ⟨by omega, by omega⟩]
        · exact {
            w := hm.w
            h := hm.h
            pool := hm.pool
            cells := by
              intro d hd hno
              dsimp only
              rw [List.mem_append, List.mem_singleton] at hd
              rcases hd with hd | rfl
              · unfold setCell
                rw [if_neg]
                · exact hm.cells d hd hno
                · unfold Off at hno
                  simp only [not_or, not_lt, ge_iff_le, not_le] at hno
                  rintro ⟨k1, k2⟩
                  have : c = d := Prod.ext (by omega) (by omega)
                  exact hcP (this ▸ hd)
              · exact setCell_same _ _ _ _
            empty := by
              intro x y hne
              dsimp only
              unfold setCell
              rw [if_neg]
              · exact hm.empty x y (fun d hd => hne d (List.mem_append_left _ hd))
              · rintro ⟨k1, k2⟩
                exact hne c (by simp) hoff ⟨by omega, by omega⟩
            freed := by
              intro d hd ho a ha
              rw [List.mem_append, List.mem_singleton] at hd
              rcases hd with hd | rfl
              · exact hm.freed d hd ho a ha
              · exact absurd ho hoff
            kept := fun a ha => hm.kept a (fun d hd => ha d (List.mem_append_left _ hd))
            live := hm.live }
    obtain ⟨g1, e, m1⟩ := hone
    obtain ⟨g', e', m'⟩ := ih (P ++ [c]) g1 m1 (by simpa using hnd)
    refine ⟨g', ?_, by simpa using m'⟩
    rw [List.foldlM_cons, e]
    exact e'

theorem R.move {g : Grid V} {L stale} (h : R g L stale) (xd yd : Int) :
    ∃ g', g.move xd yd = some g' ∧ g'.w = g.w ∧ g'.h = g.h ∧ R g' (shift g.w g.h xd yd L) (if xd = 0 ∧ yd = 0 then stale else fun _ _ => true) := by
  unfold Grid.move
  by_cases hbig : xd.natAbs ≥ g.w ∨ yd.natAbs ≥ g.h
  · rw [if_pos hbig]
    obtain ⟨g', e, e1, e2, r⟩ := h.clear
    refine ⟨g', e, e1, e2, ?_⟩
    have : shift g.w g.h xd yd L = fun _ _ => [] := by
      funext x y
      unfold shift
      rw [if_neg (by omega)]
    rw [this]
    exact r.weaken (fun _ _ h => by cases h)
  · rw [if_neg hbig]
    have hstart : Moved g L xd yd [] { g with cells := fun _ _ => none } :=
      { w := rfl, h := rfl, pool := rfl, cells := fun c hc => by simp at hc, empty := fun _ _ _ => rfl, freed := fun c hc => by simp at hc, kept := fun _ _ => rfl, live := h.live }
    obtain ⟨g', e, m⟩ := move_loop h xd yd (cellsOf g.w g.h) [] _ hstart (by simpa using nodup_cellsOf g.w g.h)
    rw [List.nil_append] at m
    refine ⟨g', e, m.w, m.h, ?_⟩
    have hkeep : ∀ x y : Nat, (0 ≤ (x : Int) - xd ∧ (x : Int) - xd < g.w ∧ 0 ≤ (y : Int) - yd ∧ (y : Int) - yd < g.h) → x < g.w → y < g.h →
        Seg g'.items (if (if xd = 0 ∧ yd = 0 then stale else fun _ _ => true) x y = true then none else some (.cell x y)) (g'.cells x y) (L ((x : Int) - xd).toNat ((y : Int) - yd).toNat) := by
      intro x y hr hx hy
      have hno : ¬ Off g xd yd (((x : Int) - xd).toNat, ((y : Int) - yd).toNat) := by unfold Off; dsimp only; omega
      have hc := m.cells (((x : Int) - xd).toNat, ((y : Int) - yd).toNat) (mem_cellsOf.2 ⟨by dsimp only; omega, by dsimp only; omega⟩) hno
      dsimp only at hc
      rw [show ((((x : Int) - xd).toNat : Int) + xd).toNat = x by omega, show ((((y : Int) - yd).toNat : Int) + yd).toNat = y by omega] at hc
      rw [hc]
      have hs := (h.seg ((x : Int) - xd).toNat ((y : Int) - yd).toNat).congr (items' := g'.items) (by
        intro a ha
        apply m.kept
        intro d hd ho ha'
        obtain ⟨e1, e2⟩ := h.disj _ _ _ _ a ha' ha
        apply hno
        rw [← e1, ← e2]
        exact ho)
      by_cases hz : xd = 0 ∧ yd = 0
      · rw [if_pos hz]
        obtain ⟨rfl, rfl⟩ := hz
        simpa using hs
      · rw [if_neg hz]
        simpa using hs.none_q
    exact {
      pool := m.pool.trans h.pool
      seg := by
        intro x y
        unfold shift
        by_cases hr : x < g.w ∧ y < g.h ∧ 0 ≤ (x : Int) - xd ∧ (x : Int) - xd < g.w ∧ 0 ≤ (y : Int) - yd ∧ (y : Int) - yd < g.h
        · rw [if_pos hr]
          exact hkeep x y ⟨hr.2.2.1, hr.2.2.2.1, hr.2.2.2.2.1, hr.2.2.2.2.2⟩ hr.1 hr.2.1
        · rw [if_neg hr]
          apply m.empty
          rintro d hd hno ⟨k1, k2⟩
          have := mem_cellsOf.1 hd
          unfold Off at hno
          omega
      outside := by
        intro x y ho
        rw [m.w, m.h] at ho
        unfold shift
        rw [if_neg (by omega)]
      nodup := by
        intro x y
        unfold shift
        split
        · exact h.nodup _ _
        · simp
      disj := by
        intro x y x' y' a h1 h2
        unfold shift at h1 h2
        split at h1
        · split at h2
          · have := h.disj _ _ _ _ a h1 h2
            omega
          · simp at h2
        · simp at h1
      live := m.live }

/-- copying a list into a cell -/
theorem copyChain_ok {alloc : Alloc} (ha : AllocOk alloc) {other : Grid V} {x y : Nat} {l : List (Nat × V)} : ∀ {g : Grid V} {L : Nat → Nat → List (Nat × V)} {q : Option Loc} {p : Option Nat} {fuel : Nat},
    R g L (fun _ _ => false) → x < g.w → y < g.h → Seg other.items q p l → l.length < fuel →
    ∃ g' l', copyChain alloc other x y fuel p g = some g' ∧ g'.w = g.w ∧ g'.h = g.h ∧ l'.map (·.2) = l.map (·.2) ∧ R g' (upd L x y (L x y ++ l')) (fun _ _ => false) := by
  induction l with
  | nil =>
    intro g L q p fuel h _ _ hs hf
    obtain ⟨k, rfl⟩ : ∃ k, fuel = k + 1 := ⟨fuel - 1, by omega⟩
    rw [show p = none from hs]
    refine ⟨g, [], rfl, rfl, rfl, rfl, ?_⟩
    have : upd L x y (L x y ++ []) = L := by
      funext x' y'
      unfold upd
      split
      · rename_i he; rw [he.1, he.2]; simp
      · rfl
    rw [this]
    exact h
  | cons b l ih =>
    obtain ⟨b, v⟩ := b
    rintro g L q p fuel h hx hy ⟨it, rfl, h2, h3, h4, h5⟩ hf
    obtain ⟨k, rfl⟩ : ∃ k, fuel = k + 1 := ⟨fuel - 1, by omega⟩
    obtain ⟨g1, n, e, e1, e2, r⟩ := h.insertTail ha hx hy it.val
    have r' : R g1 (upd L x y (L x y ++ [(n, it.val)])) (fun _ _ => false) := r.weaken (by
      intro x' y' hs
      unfold upd at hs
      split at hs <;> simp at hs)
    obtain ⟨g2, l', e', f1, f2, f3, f4⟩ := ih r' (by omega) (by omega) h5 (fuel := k) (by simp at hf; omega)
    refine ⟨g2, (n, it.val) :: l', ?_, f1.trans e1, f2.trans e2, ?_, ?_⟩
    · unfold copyChain
      rw [h2]
      dsimp only [Option.bind_some]
      rw [e]
      exact e'
    · simp only [List.map_cons, f3, h3]
    · have : upd (upd L x y (L x y ++ [(n, it.val)])) x y (upd L x y (L x y ++ [(n, it.val)]) x y ++ l') = upd L x y (L x y ++ (n, it.val) :: l') := by
        funext x' y'
        rw [upd_same]
        unfold upd
        split <;> simp
      rw [this] at f4
      exact f4

theorem assign_loop {alloc : Alloc} (ha : AllocOk alloc) {other : Grid V} {Lo so} (ho : R other Lo so) (cs : List (Nat × Nat)) : ∀ (P : List (Nat × Nat)) (g : Grid V) (L : Nat → Nat → List (Nat × V)),
    R g L (fun _ _ => false) → g.w = other.w → g.h = other.h → (∀ c ∈ cs, c.1 < g.w ∧ c.2 < g.h) → (P ++ cs).Nodup →
    (∀ c, c ∉ P → L c.1 c.2 = []) → (∀ c ∈ P, (L c.1 c.2).map (·.2) = (Lo c.1 c.2).map (·.2)) →
    ∃ g' L', cs.foldlM (fun (g : Grid V) c => copyChain alloc other c.1 c.2 (other.live.length + 1) (other.cells c.1 c.2) { g with cells := setCell g.cells c.1 c.2 none }) g = some g' ∧
      g'.w = other.w ∧ g'.h = other.h ∧ R g' L' (fun _ _ => false) ∧ (∀ c ∈ P ++ cs, (L' c.1 c.2).map (·.2) = (Lo c.1 c.2).map (·.2)) ∧ (∀ c, c ∉ P ++ cs → L' c.1 c.2 = []) := by
  induction cs with
  | nil =>
    intro P g L h hw hh _ _ he hp
    exact ⟨g, L, rfl, hw, hh, h, by simpa using hp, by simpa using he⟩
  | cons c cs ih =>
    intro P g L h hw hh hcs hnd he hp
    have hcP : c ∉ P := by
      rw [List.nodup_append] at hnd
      intro hc
      exact hnd.2.2 c hc c (by simp) rfl
    have hce : L c.1 c.2 = [] := he c hcP
    have hcell : g.cells c.1 c.2 = none := by
      have := h.seg c.1 c.2
      rw [hce] at this
      exact this
    have hg : ({ g with cells := setCell g.cells c.1 c.2 none } : Grid V) = g := by
      have : setCell g.cells c.1 c.2 none = g.cells := by
        funext x y
        unfold setCell
        split
        · rename_i he'; rw [he'.1, he'.2, hcell]
        · rfl
      rw [this]
    obtain ⟨hcx, hcy⟩ := hcs c (by simp)
    obtain ⟨g1, l', e, e1, e2, e3, e4⟩ := copyChain_ok ha h hcx hcy (ho.seg c.1 c.2) (fuel := other.live.length + 1) (by have := ho.length_le c.1 c.2; omega)
    rw [hce, List.nil_append] at e4
    obtain ⟨g', L', f, f1, f2, f3, f4, f5⟩ := ih (P ++ [c]) g1 _ e4 (e1.trans hw) (e2.trans hh) (fun d hd => by rw [e1, e2]; exact hcs d (List.mem_cons_of_mem _ hd)) (by simpa using hnd)
      (by
        intro d hd
        rw [List.mem_append, List.mem_singleton, not_or] at hd
        rw [upd_other _ _ (fun hc => hd.2 (Prod.ext hc.1 hc.2))]
        exact he d hd.1)
      (by
        intro d hd
        rw [List.mem_append, List.mem_singleton] at hd
        by_cases hdc : d = c
        · rw [hdc, upd_same, e3]
        · rw [upd_other _ _ (fun hc => hdc (Prod.ext hc.1 hc.2))]
          exact hp d (hd.resolve_right hdc))
    refine ⟨g', L', ?_, f1, f2, f3, by simpa using f4, by simpa using f5⟩
    rw [List.foldlM_cons, hg, e]
    exact f

theorem R.assign {alloc : Alloc} (ha : AllocOk alloc) {g other : Grid V} {L stale Lo so} (h : R g L stale) (ho : R other Lo so) :
    ∃ g' L', g.assign alloc other = some g' ∧ g'.w = other.w ∧ g'.h = other.h ∧ R g' L' (fun _ _ => false) ∧ ∀ x y, (L' x y).map (·.2) = (Lo x y).map (·.2) := by
  unfold Grid.assign Grid.clear
  rw [if_neg (by dsimp only; rw [h.pool]; simp)]
  dsimp only [Option.bind_some]
  obtain ⟨g', L', f, f1, f2, f3, f4, f5⟩ := assign_loop ha ho (cellsOf other.w other.h) [] { g with w := other.w, h := other.h, cells := fun _ _ => none, items := fun _ => none, live := [] } (fun _ _ => [])
    { pool := h.pool, seg := fun _ _ => rfl, outside := fun _ _ _ => rfl, nodup := fun _ _ => by simp, disj := fun x y x' y' a h => by simp at h, live := fun a h => absurd rfl h }
    rfl rfl (fun c hc => mem_cellsOf.1 hc) (by simpa using nodup_cellsOf _ _) (fun _ _ => rfl) (fun c hc => by simp at hc)
  refine ⟨g', L', f, f1, f2, f3, ?_⟩
  intro x y
  by_cases hin : x < other.w ∧ y < other.h
  · exact f4 (x, y) (by simpa using mem_cellsOf.2 hin)
  · have h1 := f5 (x, y) (by
      rw [List.nil_append]
      intro hc
      exact hin (mem_cellsOf.1 hc))
    rw [ho.outside x y hin]
    dsimp only at h1
    rw [h1]

end Envire.ListGrid
