import Verif.Grid.ListGridMove
/-! Properties C33, C34 and C50: a list grid is a grid of sequences. -/
namespace Envire.ListGrid

variable {V : Type}

/-- the specification: one sequence per cell -/
structure Seqs (V : Type) where
  w : Nat
  h : Nat
  cells : Nat → Nat → List V

inductive Op (V : Type) where
  | insertHead (x y : Nat) (v : V)
  | insertTail (x y : Nat) (v : V)
  | erase (x y i : Nat)
  | clear
  | resize (w h : Nat)
  | move (xd yd : Int)

def Seqs.set (s : Seqs V) (x y : Nat) (l : List V) : Seqs V := { s with cells := fun x' y' => if x' = x ∧ y' = y then l else s.cells x' y' }

/-- what the operations mean; `none` outside of their contract -/
def Seqs.step (s : Seqs V) : Op V → Option (Seqs V)
  | .insertHead x y v => if x < s.w ∧ y < s.h then some (s.set x y (v :: s.cells x y)) else none
  | .insertTail x y v => if x < s.w ∧ y < s.h then some (s.set x y (s.cells x y ++ [v])) else none
  | .erase x y i => if x < s.w ∧ y < s.h ∧ i < (s.cells x y).length then some (s.set x y ((s.cells x y).eraseIdx i)) else none
  | .clear => some { s with cells := fun _ _ => [] }
  | .resize w h => some { w := w, h := h, cells := fun _ _ => [] }
  | .move xd yd => some { s with cells := fun x y =>
      let x' : Int := x - xd
      let y' : Int := y - yd
      if x < s.w ∧ y < s.h ∧ 0 ≤ x' ∧ x' < s.w ∧ 0 ≤ y' ∧ y' < s.h then s.cells x'.toNat y'.toNat else [] }

/-- the same calls on the grid -/
def Grid.step (alloc : Alloc) (g : Grid V) : Op V → Option (Grid V)
  | .insertHead x y v => g.insertHead alloc x y v
  | .insertTail x y v => g.insertTail alloc x y v
  | .erase x y i => (g.erase x y i).map (·.2)
  | .clear => g.clear
  | .resize w h => g.resize w h
  | .move xd yd => g.move xd yd

/-- where the first item of a cell has a back pointer to the wrong cell -/
def staleStep (s : Seqs V) (st : Nat → Nat → Bool) : Op V → Nat → Nat → Bool
  | .insertHead x y _ => upd st x y false
  | .insertTail x y _ => upd st x y (st x y && !(s.cells x y).isEmpty)
  | .erase _ _ _ => st
  | .clear => fun _ _ => false
  | .resize _ _ => fun _ _ => false
  | .move xd yd => if xd = 0 ∧ yd = 0 then st else fun _ _ => true

/-- the operation does not erase the first item of a moved cell -/
def Good (st : Nat → Nat → Bool) : Op V → Prop
  | .erase x y i => i = 0 → st x y = false
  | _ => True

structure Inv (g : Grid V) (s : Seqs V) (st : Nat → Nat → Bool) : Prop where
  w : g.w = s.w
  h : g.h = s.h
  ex : ∃ L, R g L st ∧ ∀ x y, (L x y).map (·.2) = s.cells x y

theorem map_upd {L : Nat → Nat → List (Nat × V)} {s : Seqs V} (h : ∀ x y, (L x y).map (·.2) = s.cells x y) {x y : Nat} {l : List (Nat × V)} {l' : List V} (hl : l.map (·.2) = l') :
    ∀ x' y', (upd L x y l x' y').map (·.2) = (s.set x y l').cells x' y' := by
  intro x' y'
  unfold upd Seqs.set
  dsimp only
  split
  · exact hl
  · exact h x' y'

theorem sim {alloc : Alloc} (ha : AllocOk alloc) {g : Grid V} {s s' : Seqs V} {st : Nat → Nat → Bool} (hi : Inv g s st) {op : Op V}
    (hs : s.step op = some s') (hg : Good st op) : ∃ g', g.step alloc op = some g' ∧ Inv g' s' (staleStep s st op) := by
  obtain ⟨hw, hh, L, r, hL⟩ := hi
  cases op with
  | insertHead x y v =>
    simp only [Seqs.step] at hs
    split at hs
    · rename_i hin
      cases hs
      obtain ⟨g', n, e, e1, e2, r'⟩ := r.insertHead ha (x := x) (y := y) (by omega) (by omega) v
      refine ⟨g', e, e1.trans hw, e2.trans hh, _, r', map_upd hL ?_⟩
      simp [hL]
    · cases hs
  | insertTail x y v =>
    simp only [Seqs.step] at hs
    split at hs
    · rename_i hin
      cases hs
      obtain ⟨g', n, e, e1, e2, r'⟩ := r.insertTail ha (x := x) (y := y) (by omega) (by omega) v
      refine ⟨g', e, e1.trans hw, e2.trans hh, upd L x y (L x y ++ [(n, v)]), ?_, map_upd hL (by simp [hL])⟩
      have : (s.cells x y).isEmpty = (L x y).isEmpty := by rw [← hL]; cases L x y <;> rfl
      change R g' _ (upd st x y (st x y && !(s.cells x y).isEmpty))
      rw [this]
      exact r'
    · cases hs
  | erase x y i =>
    simp only [Seqs.step] at hs
    split at hs
    · rename_i hin
      cases hs
      obtain ⟨g', r', e, e1, e2, r', _⟩ := r.erase (x := x) (y := y) (i := i) (by omega) (by omega) (by have := hin.2.2; rw [← hL] at this; simpa using this) hg
      refine ⟨g', by change (g.erase x y i).map (·.2) = _; rw [e]; rfl, e1.trans hw, e2.trans hh, _, r', map_upd hL ?_⟩
      rw [← hL, List.eraseIdx_map]
    · cases hs
  | clear =>
    cases hs
    obtain ⟨g', e, e1, e2, r'⟩ := r.clear
    exact ⟨g', e, e1.trans hw, e2.trans hh, _, r', fun _ _ => rfl⟩
  | resize w h =>
    cases hs
    obtain ⟨g', e, e1, e2, r'⟩ := r.resize w h
    exact ⟨g', e, e1, e2, _, r', fun _ _ => rfl⟩
  | move xd yd =>
    cases hs
    obtain ⟨g', e, e1, e2, r'⟩ := r.move xd yd
    refine ⟨g', e, e1.trans hw, e2.trans hh, _, r', ?_⟩
    intro x y
    unfold shift
    dsimp only
    rw [hw, hh]
    split
    · exact hL _ _
    · rfl

theorem Inv.observe {g : Grid V} {s : Seqs V} {st} (h : Inv g s st) {x y : Nat} (hx : x < s.w) (hy : y < s.h) : g.toList x y = some (s.cells x y) := by
  obtain ⟨hw, hh, L, r, hL⟩ := h
  rw [r.toList (by omega) (by omega), hL]

theorem Inv.init (w h : Nat) : Inv (Grid.init w h : Grid V) { w := w, h := h, cells := fun _ _ => [] } (fun _ _ => false) :=
  ⟨rfl, rfl, _, R.init w h, fun _ _ => rfl⟩

theorem Inv.assign {alloc : Alloc} (ha : AllocOk alloc) {g o : Grid V} {s so : Seqs V} {st sto} (h : Inv g s st) (ho : Inv o so sto) :
    ∃ g', g.assign alloc o = some g' ∧ Inv g' so (fun _ _ => false) := by
  obtain ⟨hw, hh, L, r, hL⟩ := h
  obtain ⟨hw', hh', L', r', hL'⟩ := ho
  obtain ⟨g', L1, e, e1, e2, r1, e3⟩ := r.assign ha r'
  exact ⟨g', e, e1.trans hw', e2.trans hh', L1, r1, fun x y => (e3 x y).trans (hL' x y)⟩

/-- executions: the grid and the grid of sequences after the same calls; assignment from another grid with its own history.
`mv` says whether move may be called; `st` marks moved cells. -/
inductive Exec (alloc : Alloc) (mv : Bool) : Grid V → Seqs V → (Nat → Nat → Bool) → Prop where
  | init (w h : Nat) : Exec alloc mv (Grid.init w h) { w := w, h := h, cells := fun _ _ => [] } (fun _ _ => false)
  | step {g g' s s' st} (op : Op V) : Exec alloc mv g s st → (mv = false → ∀ a b, op ≠ .move a b) → s.step op = some s' → Good st op →
      g.step alloc op = some g' → Exec alloc mv g' s' (staleStep s st op)
  | assign {g g' s st o so sto} : Exec alloc mv g s st → Exec alloc mv o so sto → g.assign alloc o = some g' → Exec alloc mv g' so (fun _ _ => false)

theorem Exec.inv {alloc : Alloc} (ha : AllocOk alloc) {mv} {g : Grid V} {s st} (h : Exec alloc mv g s st) : Inv g s st := by
  induction h with
  | init w h => exact Inv.init w h
  | step op _ _ hs hg e ih =>
    obtain ⟨g', e', h⟩ := sim ha ih hs hg
    rw [e] at e'
    cases e'
    exact h
  | assign _ _ e ih1 ih2 =>
    obtain ⟨g', e', h⟩ := ih1.assign ha ih2
    rw [e] at e'
    cases e'
    exact h

theorem Exec.not_stale {alloc : Alloc} {g : Grid V} {s st} (h : Exec alloc false g s st) : ∀ x y, st x y = false := by
  induction h with
  | init w h => intro x y; rfl
  | step op _ hm hs hg e ih =>
    intro x y
    cases op with
    | insertHead a b v => change upd _ a b false x y = false; unfold upd; split <;> [rfl; exact ih x y]
    | insertTail a b v => change upd _ a b _ x y = false; unfold upd; split <;> [rw [ih]; exact ih x y]; rfl
    | erase a b i => exact ih x y
    | clear => rfl
    | resize a b => rfl
    | move a b => exact absurd rfl (hm rfl a b)
  | assign _ _ _ _ _ => intro x y; rfl

/-- **C33** After every history of calls (without move): every cell is iterated as the sequence of the specification, every call that
makes sense for the sequences succeeds (no invalid memory access, no endless loop), and erase returns the iterator to the rest of
the sequence. `Exec` follows the calls on both sides, so this holds again after each of them. -/
theorem C33_grid_of_sequences {alloc : Alloc} (ha : AllocOk alloc) {g : Grid V} {s : Seqs V} {st} (h : Exec alloc false g s st) :
    g.w = s.w ∧ g.h = s.h ∧ (∀ x y, x < s.w → y < s.h → g.toList x y = some (s.cells x y)) ∧
    (∀ op s', (∀ a b, op ≠ .move a b) → s.step op = some s' → ∃ g' st', g.step alloc op = some g' ∧ Exec alloc false g' s' st') ∧
    (∀ x y i, x < s.w → y < s.h → i < (s.cells x y).length → ∃ g' r, g.erase x y i = some (r, g') ∧ ∃ fuel, collect g'.items fuel r = some ((s.cells x y).drop (i + 1))) ∧
    (∀ (o : Grid V) so sto, Exec alloc false o so sto → ∃ g', g.assign alloc o = some g' ∧ Exec alloc false g' so (fun _ _ => false)) := by
  have hi := h.inv ha
  refine ⟨hi.w, hi.h, fun x y hx hy => hi.observe hx hy, ?_, ?_, ?_⟩
  · intro op s' hm hs
    have hg : Good st op := by
      cases op with
      | erase x y i => exact fun _ => h.not_stale x y
      | _ => trivial
    obtain ⟨g', e, _⟩ := sim ha hi hs hg
    exact ⟨g', _, e, .step op h (fun _ => hm) hs hg e⟩
  · intro x y i hx hy hl
    obtain ⟨hw, hh, L, r, hL⟩ := hi
    obtain ⟨g', r', e, _, _, _, hseg⟩ := r.erase (x := x) (y := y) (i := i) (by omega) (by omega) (by rw [← hL] at hl; simpa using hl) (fun _ => h.not_stale x y)
    refine ⟨g', r', e, (L x y).length + 1, ?_⟩
    rw [hseg.collect (by rw [List.length_drop]; omega), ← hL, List.map_drop]
  · intro o so sto ho
    obtain ⟨g', e, _⟩ := hi.assign ha (ho.inv ha)
    exact ⟨g', e, .assign h ho e⟩

/-- **C34, what is true**: move shifts the content by whole cells; afterwards all calls behave as on the grid of sequences, except
that the first item of a moved cell must not be erased. Missing for the full claim: that erase (`C34_erase_after_move`). -/
theorem C34_move_partial {alloc : Alloc} (ha : AllocOk alloc) {g : Grid V} {s : Seqs V} {st} (h : Exec alloc true g s st) :
    (∀ x y, x < s.w → y < s.h → g.toList x y = some (s.cells x y)) ∧
    (∀ op s', s.step op = some s' → Good st op → ∃ g', g.step alloc op = some g' ∧ Exec alloc true g' s' (staleStep s st op)) ∧
    (∀ xd yd, ∃ g' s', g.move xd yd = some g' ∧ s.step (.move xd yd) = some s' ∧ ∀ x y, x < s'.w → y < s'.h → g'.toList x y = some (s'.cells x y)) := by
  have hi := h.inv ha
  refine ⟨fun x y hx hy => hi.observe hx hy, ?_, ?_⟩
  · intro op s' hs hg
    obtain ⟨g', e, _⟩ := sim ha hi hs hg
    exact ⟨g', e, .step op h (fun hc => by cases hc) hs hg e⟩
  · intro xd yd
    obtain ⟨g', e, hi'⟩ := sim ha hi (op := .move xd yd) rfl trivial
    exact ⟨g', _, e, rfl, fun x y hx hy => hi'.observe hx hy⟩

/-- an allocator that never uses an address again while it is live -/
def exAlloc : Alloc := fun _ l => l.foldr max 0 + 1

theorem exAlloc_ok : AllocOk exAlloc := by
  intro t l hm
  have : ∀ (l : List Nat) a, a ∈ l → a ≤ l.foldr max 0 := by
    intro l
    induction l with
    | nil => intro a h; simp at h
    | cons b l ih =>
      intro a h
      rw [List.mem_cons] at h
      rw [List.foldr_cons]
      rcases h with rfl | h
      · omega
      · have := ih a h
        omega
  have := this l _ hm
  unfold exAlloc at this
  omega

def run (alloc : Alloc) (g : Grid V) (ops : List (Op V)) : Option (Grid V) := ops.foldlM (fun g op => g.step alloc op) g

def Seqs.run (s : Seqs V) (ops : List (Op V)) : Option (Seqs V) := ops.foldlM (fun s op => s.step op) s

/-- a history with inserts at both ends, erases of all kinds and the re-use of addresses -/
def exOps : List (Op Nat) :=
  [.insertTail 0 0 1, .insertHead 0 0 2, .insertTail 0 0 3, .insertTail 1 1 4, .erase 0 0 1, .insertHead 1 1 5, .erase 1 1 0, .insertTail 0 0 6, .erase 0 0 0]

example : ((run exAlloc (Grid.init 2 2) exOps).bind fun g => g.toList 0 0) = some [3, 6] ∧
    (((Seqs.run { w := 2, h := 2, cells := fun _ _ => [] } exOps).map fun s => s.cells 0 0) = some [3, 6]) := by decide +kernel

/-- executions without errors follow any history of meaningful calls -/
theorem Exec.of_run {alloc : Alloc} (ha : AllocOk alloc) (ops : List (Op V)) : ∀ {g : Grid V} {s s' : Seqs V} {st}, Exec alloc false g s st → (∀ op ∈ ops, ∀ a b, op ≠ .move a b) →
    s.run ops = some s' → ∃ g' st', run alloc g ops = some g' ∧ Exec alloc false g' s' st' := by
  induction ops with
  | nil => intro g s s' st h _ hs; cases hs; exact ⟨g, st, rfl, h⟩
  | cons op ops ih =>
    intro g s s' st h hm hs
    unfold Seqs.run at hs
    rw [List.foldlM_cons] at hs
    obtain ⟨s1, h1, h2⟩ := Option.bind_eq_some_iff.1 hs
    obtain ⟨g1, st1, e1, x1⟩ := (C33_grid_of_sequences ha h).2.2.2.1 op s1 (hm op (by simp)) h1
    obtain ⟨g2, st2, e2, x2⟩ := ih x1 (fun o ho => hm o (List.mem_cons_of_mem _ ho)) h2
    refine ⟨g2, st2, ?_, x2⟩
    unfold run
    rw [List.foldlM_cons, e1]
    exact e2

/-- the hypothesis of C33 is met by that history -/
example : ∃ (g : Grid Nat) (s : Seqs Nat) (st : Nat → Nat → Bool), Exec exAlloc false g s st ∧ s.cells 0 0 = [3, 6] := by
  obtain ⟨s, hs, hc⟩ : ∃ s, Seqs.run { w := 2, h := 2, cells := fun _ _ => [] } exOps = some s ∧ s.cells 0 0 = [3, 6] := by
    have h : ((Seqs.run { w := 2, h := 2, cells := fun _ _ => [] } exOps).map fun s => s.cells 0 0) = some [3, 6] := by decide +kernel
    exact Option.map_eq_some_iff.1 h
  obtain ⟨g, st, _, x⟩ := Exec.of_run exAlloc_ok exOps (.init 2 2) (by intro op hop a b he; rw [he] at hop; simp [exOps] at hop) hs
  exact ⟨g, s, st, x, hc⟩

/-- two items in the first cell, moved by one cell -/
def exMoved : Option (Grid Nat) := run exAlloc (Grid.init 2 1) [.insertTail 0 0 1, .insertTail 0 0 2, .move 1 0]

/-- **C34, the code violates the property**: after a move, erasing the first item of a cell changes another cell. Its own cell
points to freed memory afterwards, the rest of its list shows up in the cell where it was before. -/
theorem C34_erase_after_move :
    (exMoved.bind fun g => g.toList 1 0) = some [1, 2] ∧ (exMoved.bind fun g => g.toList 0 0) = some [] ∧
    ((exMoved.bind fun g => (g.erase 1 0 0).map (·.2)).isSome = true) ∧
    ((exMoved.bind fun g => (g.erase 1 0 0).map (·.2)).bind fun g => g.toList 1 0) = none ∧
    ((exMoved.bind fun g => (g.erase 1 0 0).map (·.2)).bind fun g => g.toList 0 0) = some [2] := by decide +kernel

/-- **C50, the code violates the property for every grid**: the copy constructor deletes an uninitialised pointer. -/
theorem C50_copy_constructor_undefined (alloc : Alloc) (g : Grid V) : Grid.copyConstruct alloc g = none := rfl

/-- **C50, what is true**: assignment to an existing grid makes an equal and independent copy. Missing: the copy constructor. -/
theorem C50_assign_partial {alloc : Alloc} (ha : AllocOk alloc) {g o : Grid V} {s so : Seqs V} {st sto} (h : Exec alloc true g s st) (ho : Exec alloc true o so sto) :
    ∃ g', g.assign alloc o = some g' ∧ g'.w = o.w ∧ g'.h = o.h ∧ (∀ x y, x < o.w → y < o.h → g'.toList x y = o.toList x y) ∧
      Exec alloc true g' so (fun _ _ => false) := by
  have hi := h.inv ha
  have hio := ho.inv ha
  obtain ⟨g', e, hi'⟩ := hi.assign ha hio
  refine ⟨g', e, hi'.w.trans hio.w.symm, hi'.h.trans hio.h.symm, ?_, .assign h ho e⟩
  intro x y hx hy
  rw [hio.w] at hx
  rw [hio.h] at hy
  rw [hi'.observe hx hy, hio.observe hx hy]

end Envire.ListGrid

#print axioms Envire.ListGrid.C33_grid_of_sequences
#print axioms Envire.ListGrid.C34_move_partial
#print axioms Envire.ListGrid.C34_erase_after_move
#print axioms Envire.ListGrid.C50_copy_constructor_undefined
#print axioms Envire.ListGrid.C50_assign_partial
