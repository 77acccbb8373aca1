import Verif.Grid.MLSProps
/-! Property C36: writing and reading of multi level surface grids. -/
namespace Envire.MLS

open Envire.ListGrid (Seqs)

variable {F C : Type}

/-- what is assumed of the struct in memory: fixed size, copying it there and back gives the same struct; `good`: the values that fit into
the members of the struct -/
structure Codec.Ok {S : Type} (c : Codec S) (good : S → Prop) : Prop where
  pos : 0 < c.size
  small : c.size < 2 ^ 31
  length : ∀ d, good d → (c.enc d).length = c.size
  dec : ∀ d, good d → c.dec (c.enc d) = d

/-- the constructor of SurfacePatch sets these members from its arguments (MLSPatch.hpp l.51-64) -/
structure MakeOk (make : F → F → F → Patch.Kind → Rec F C) : Prop where
  mean : ∀ a b c k, (make a b c k).mean = a
  stdev : ∀ a b c k, (make a b c k).stdev = b
  height : ∀ a b c k, (make a b c k).height = c
  kind : ∀ a b c k, (make a b c k).kind = k

theorem toSurfacePatch_eq {make : F → F → F → Patch.Kind → Rec F C} (hm : MakeOk make) (p : Rec F C) (x y : Nat) : (⟨p, x, y⟩ : Store F C).toSurfacePatch make = p := by
  obtain ⟨a, b, c, d, e, f, g, h, i, j, k⟩ := p
  simp [Store.toSurfacePatch, hm.mean, hm.stdev, hm.height, hm.kind]

theorem getline_line {a r : List Char} (ha : '\n' ∉ a) (hl : a.length ≤ 19) : getline (some (a ++ '\n' :: r)) = (a, some r) := by
  have h1 : (a ++ '\n' :: r).takeWhile (fun c => decide (c ≠ '\n')) = a := by
    rw [List.takeWhile_append_of_pos (by intro c hc; simp; rintro rfl; exact ha hc)]
    simp
  unfold getline
  simp only [h1, hl, if_true, List.drop_left]

theorem parse_digits {n : Nat} (hn : n < 2 ^ 31) : ((parseLong (Nat.toDigits 10 n)).filter fun k => decide (-2 ^ 31 ≤ k ∧ k < 2 ^ 31)) = some (n : Int) := by
  have hne : Nat.toDigits 10 n ≠ [] := by
    intro e
    have hd := Nat.length_toDigits_pos (b := 10) (n := n)
    rw [e] at hd
    exact absurd hd (by simp)
  have hall : (Nat.toDigits 10 n).all Char.isDigit = true := by
    rw [List.all_eq_true]
    intro c hc
    exact Nat.isDigit_of_mem_toDigits (by decide) (by decide) hc
  have hpn : parseNat (Nat.toDigits 10 n) = some n := by
    unfold parseNat
    rw [if_pos ⟨hne, hall⟩, Nat.ofDigitChars_toDigits (by decide) (by decide)]
  have : parseLong (Nat.toDigits 10 n) = some (n : Int) := by
    unfold parseLong
    split
    · rename_i t heq
      have : '-' ∈ Nat.toDigits 10 n := by rw [heq]; exact List.mem_cons_self ..
      exact absurd (Nat.isDigit_of_mem_toDigits (by decide) (by decide) this) (by decide)
    · rename_i t heq
      have : '+' ∈ Nat.toDigits 10 n := by rw [heq]; exact List.mem_cons_self ..
      exact absurd (Nat.isDigit_of_mem_toDigits (by decide) (by decide) this) (by decide)
    · rw [hpn]
      show (if n < 2 ^ 63 then _ else _) = _
      rw [if_pos (by omega)]
  rw [this, Option.filter_some]
  rw [if_pos]
  simp
  omega

theorem digits_length {n : Nat} (hn : n < 2 ^ 31) : (Nat.toDigits 10 n).length ≤ 19 := by
  rw [Nat.length_toDigits_le_iff (by decide) (by decide)]
  omega

theorem readAll_eq {S : Type} {c : Codec S} {good : S → Prop} (hc : c.Ok good) (ds : List S) (hg : ∀ d ∈ ds, good d) : ∀ fuel, ds.length ≤ fuel → readAll c fuel (ds.flatMap c.enc) = ds := by
  induction ds with
  | nil =>
    intro fuel _
    cases fuel with
    | zero => rfl
    | succ n =>
      have := hc.pos
      unfold readAll
      rw [if_neg (by simp [Nat.pos_iff_ne_zero.1 this])]
  | cons d ds ih =>
    intro fuel hf
    cases fuel with
    | zero => simp at hf
    | succ n =>
      unfold readAll
      have hgd := hg d (by simp)
      have hl := hc.length d hgd
      rw [List.flatMap_cons, if_pos ⟨by rw [List.length_append]; omega, hc.pos⟩]
      rw [List.take_left' hl, List.drop_left' hl, hc.dec d hgd, ih (fun d' hd' => hg d' (List.mem_cons_of_mem _ hd')) n (by simpa using hf)]

/-- the records in the order in which they are written -/
def stores (g : MLS (Rec F C)) : List (Store F C) :=
  (List.range g.cells.w).flatMap fun x => (List.range g.cells.h).flatMap fun y => (g.cells.cells x y).map fun p => ⟨p, x, y⟩

theorem flatMap_range_single {A : Type} (L : List A) (x : Nat) : ∀ n, (List.range n).flatMap (fun a => if a = x then L else []) = if x < n then L else [] := by
  intro n
  induction n with
  | zero => simp
  | succ n ih =>
    rw [List.range_succ, List.flatMap_append, ih]
    simp only [List.flatMap_cons, List.flatMap_nil, List.append_nil]
    by_cases h : x < n
    · rw [if_pos h, if_neg (by omega), if_pos (by omega), List.append_nil]
    · rw [if_neg h]
      by_cases h2 : n = x
      · rw [if_pos h2, if_pos (by omega), List.nil_append]
      · rw [if_neg h2, if_neg (by omega), List.nil_append]

theorem stores_cell (g : MLS (Rec F C)) {x y : Nat} (hx : x < g.cells.w) (hy : y < g.cells.h) :
    (stores g).filter (fun d => decide (d.xi = x ∧ d.yi = y)) = (g.cells.cells x y).map fun p => ⟨p, x, y⟩ := by
  unfold stores
  rw [List.filter_flatMap]
  have h1 : ∀ a, List.filter (fun d : Store F C => decide (d.xi = x ∧ d.yi = y)) ((List.range g.cells.h).flatMap fun b => (g.cells.cells a b).map fun p => ⟨p, a, b⟩) =
      if a = x then (g.cells.cells x y).map (fun p => (⟨p, x, y⟩ : Store F C)) else [] := by
    intro a
    rw [List.filter_flatMap]
    by_cases ha : a = x
    · subst ha
      rw [if_pos rfl]
      have h2 : ∀ b, List.filter (fun d : Store F C => decide (d.xi = a ∧ d.yi = y)) ((g.cells.cells a b).map fun p => ⟨p, a, b⟩) =
          if b = y then (g.cells.cells a y).map (fun p => (⟨p, a, y⟩ : Store F C)) else [] := by
        intro b
        by_cases hb : b = y
        · subst hb
          rw [if_pos rfl, List.filter_eq_self]
          intro d hd
          obtain ⟨p, _, rfl⟩ := List.mem_map.1 hd
          simp
        · rw [if_neg hb, List.filter_eq_nil_iff]
          intro d hd
          obtain ⟨p, _, rfl⟩ := List.mem_map.1 hd
          simpa using hb
      simp only [h2]
      rw [flatMap_range_single, if_pos hy]
    · rw [if_neg ha, List.flatMap_eq_nil_iff]
      intro b _
      rw [List.filter_eq_nil_iff]
      intro d hd
      obtain ⟨p, _, rfl⟩ := List.mem_map.1 hd
      simp [ha]
  simp only [h1]
  rw [flatMap_range_single, if_pos hx]

theorem stores_in (g : MLS (Rec F C)) : ∀ d ∈ stores g, d.xi < g.cells.w ∧ d.yi < g.cells.h := by
  intro d hd
  unfold stores at hd
  simp only [List.mem_flatMap, List.mem_range, List.mem_map] at hd
  obtain ⟨x, hx, y, hy, p, _, rfl⟩ := hd
  exact ⟨hx, hy⟩

theorem insertAll (tp : Store F C → Rec F C) (ds : List (Store F C)) : ∀ t : MLS (Rec F C), (∀ d ∈ ds, d.xi < t.cells.w ∧ d.yi < t.cells.h) →
    ∃ t', ds.foldlM (fun (g : MLS (Rec F C)) d => g.insertTail d.xi d.yi (tp d)) t = some t' ∧ t'.cells.w = t.cells.w ∧ t'.cells.h = t.cells.h ∧
      (∀ x y, t'.cells.cells x y = t.cells.cells x y ++ (ds.filter fun d => decide (d.xi = x ∧ d.yi = y)).map tp) ∧ (Exact t → Exact t') := by
  induction ds with
  | nil => intro t _; exact ⟨t, rfl, rfl, rfl, fun x y => by simp, id⟩
  | cons d ds ih =>
    intro t h
    obtain ⟨h1, h2⟩ := h d (by simp)
    have e : ∃ t1, t.insertTail d.xi d.yi (tp d) = some t1 ∧ t1.cells.w = t.cells.w ∧ t1.cells.h = t.cells.h ∧
        (∀ x y, t1.cells.cells x y = if x = d.xi ∧ y = d.yi then t.cells.cells d.xi d.yi ++ [tp d] else t.cells.cells x y) := by
      simp only [MLS.insertTail, Seqs.step]
      rw [if_pos ⟨h1, h2⟩]
      exact ⟨_, rfl, rfl, rfl, fun x y => rfl⟩
    obtain ⟨t1, e1, hw, hh, hc⟩ := e
    obtain ⟨t', e', hw', hh', hc', hE⟩ := ih t1 (by intro d' hd'; rw [hw, hh]; exact h d' (List.mem_cons_of_mem _ hd'))
    refine ⟨t', by rw [List.foldlM_cons, e1]; exact e', hw'.trans hw, hh'.trans hh, ?_, fun h => hE (h.insertTail e1)⟩
    intro x y
    rw [hc', hc]
    by_cases hx : x = d.xi ∧ y = d.yi
    · obtain ⟨rfl, rfl⟩ := hx
      rw [if_pos ⟨rfl, rfl⟩, List.filter_cons_of_pos (by simp)]
      simp
    · rw [if_neg hx, List.filter_cons_of_neg (by simp; intro h1 h2; exact hx ⟨h1.symm, h2.symm⟩)]

theorem enc_length {S : Type} {c : Codec S} {good : S → Prop} (hc : c.Ok good) (ds : List S) (hg : ∀ d ∈ ds, good d) : ds.length ≤ (ds.flatMap c.enc).length := by
  induction ds with
  | nil => simp
  | cons d ds ih =>
    rw [List.flatMap_cons, List.length_append, List.length_cons]
    have := hc.length d (hg d (by simp))
    have := hc.pos
    have := ih (fun d' hd' => hg d' (List.mem_cons_of_mem _ hd'))
    omega

/-- **C36** Writing a map and reading it into a map of the same size puts all patches, with all their members, in order behind those that are
there already; into a new map: every cell has the same patches in the same order. The counts are right if they were before. -/
theorem C36_write_read {make : F → F → F → Patch.Kind → Rec F C} (hm : MakeOk make) {c : Codec (Store F C)} {good : Store F C → Prop} (hc : c.Ok good) (old : List Char → Codec (Store F C)) (g : MLS (Rec F C))
    (hg : ∀ x y, x < g.cells.w → y < g.cells.h → ∀ p ∈ g.cells.cells x y, good ⟨p, x, y⟩) :
    (∀ t : MLS (Rec F C), t.cells.w = g.cells.w → t.cells.h = g.cells.h → ∃ t', readMap make c old t (writeMap c g) = .ok t' ∧ t'.cells.w = g.cells.w ∧ t'.cells.h = g.cells.h ∧
      (∀ x y, x < g.cells.w → y < g.cells.h → t'.cells.cells x y = t.cells.cells x y ++ g.cells.cells x y) ∧ (Exact t → Exact t')) ∧
    (∀ w h, ∃ t', unserialize make c old g.cells.w g.cells.h (MLS.init w h) (writeMap c g) = .ok t' ∧ t'.cells.w = g.cells.w ∧ t'.cells.h = g.cells.h ∧
      (∀ x y, x < g.cells.w → y < g.cells.h → t'.cells.cells x y = g.cells.cells x y) ∧ Exact t') := by
  have key : ∀ t : MLS (Rec F C), t.cells.w = g.cells.w → t.cells.h = g.cells.h → ∃ t', readMap make c old t (writeMap c g) = .ok t' ∧ t'.cells.w = g.cells.w ∧ t'.cells.h = g.cells.h ∧
      (∀ x y, x < g.cells.w → y < g.cells.h → t'.cells.cells x y = t.cells.cells x y ++ g.cells.cells x y) ∧ (Exact t → Exact t') := by
    intro t hw hh
    have hgood : ∀ d ∈ stores g, good d := by
      intro d hd
      unfold stores at hd
      simp only [List.mem_flatMap, List.mem_range, List.mem_map] at hd
      obtain ⟨x, hx, y, hy, p, hp, rfl⟩ := hd
      exact hg x y hx hy p hp
    have hbody : ((List.range g.cells.w).flatMap fun x => (List.range g.cells.h).flatMap fun y => (g.cells.cells x y).flatMap fun p => c.enc ⟨p, x, y⟩) = (stores g).flatMap c.enc := by
      unfold stores
      simp only [List.flatMap_assoc, List.flatMap_map]
    obtain ⟨t', e, ew, eh, ec, eE⟩ := insertAll (Store.toSurfacePatch make) (stores g) t (by intro d hd; rw [hw, hh]; exact stores_in g d hd)
    refine ⟨t', ?_, ew.trans hw, eh.trans hh, ?_, eE⟩
    · have hfile : writeMap c g = "mls".toList ++ '\n' :: ("1.3".toList ++ '\n' :: (Nat.toDigits 10 c.size ++ '\n' :: ("bin".toList ++ '\n' :: (stores g).flatMap c.enc))) := by
        unfold writeMap
        rw [hbody]
        simp [List.append_assoc]
      have hdig : '\n' ∉ Nat.toDigits 10 c.size := fun h => absurd (Nat.isDigit_of_mem_toDigits (by decide) (by decide) h) (by decide)
      unfold readMap
      rw [hfile, getline_line (by decide) (by decide)]
      dsimp only
      rw [if_neg (by simp), getline_line (by decide) (by decide)]
      dsimp only
      rw [if_neg (by simp), getline_line hdig (digits_length hc.small)]
      dsimp only
      rw [parse_digits hc.small]
      dsimp only
      rw [getline_line (by decide) (by decide)]
      dsimp only
      rw [if_neg (by simp), if_pos rfl, if_neg (by simp), Option.getD_some, readAll_eq hc _ hgood _ (enc_length hc _ hgood), e]
    · intro x y hx hy
      rw [ec, stores_cell g hx hy, List.map_map]
      congr 1
      have : (Store.toSurfacePatch make ∘ fun p : Rec F C => (⟨p, x, y⟩ : Store F C)) = id := by
        funext p
        exact toSurfacePatch_eq hm p x y
      rw [this, List.map_id]
  refine ⟨key, ?_⟩
  intro w h
  obtain ⟨t', e, e1, e2, e3, e4⟩ := key { (MLS.init w h : MLS (Rec F C)) with cells := { w := g.cells.w, h := g.cells.h, cells := fun _ _ => [] } } rfl rfl
  refine ⟨t', e, e1, e2, fun x y hx hy => by rw [e3 x y hx hy]; rfl, e4 ?_⟩
  exact { count := by simp [MLS.init, patches_empty], index := fun i hi => by simp [MLS.init] at hi, extents := fun x y _ _ hne => absurd rfl hne }

/-- a struct of three bytes: mean, xi, yi -/
def exCodec : Codec (Store Nat Unit) where
  size := 3
  enc d := [Char.ofNat d.patch.mean, Char.ofNat d.xi, Char.ofNat d.yi]
  dec l := ⟨⟨(l.getD 0 'a').toNat, 0, 0, [], 0, 0, 0, 0, 0, (), .horizontal⟩, (l.getD 1 'a').toNat, (l.getD 2 'a').toNat⟩

def exPatch (n : Nat) : Rec Nat Unit := ⟨n, 0, 0, [], 0, 0, 0, 0, 0, (), .horizontal⟩

/-- the hypotheses can be met: patches that only have a height below 128 -/
example : exCodec.Ok (fun d => ∃ n, n < 128 ∧ d.xi < 128 ∧ d.yi < 128 ∧ d.patch = exPatch n) ∧
    MakeOk (fun a b c k => (⟨a, b, c, [1, 2], 3, 4, 5, 6, 7, (), k⟩ : Rec Nat Unit)) := by
  have h : ∀ n < 128, (Char.ofNat n).toNat = n := by decide
  refine ⟨⟨by decide, by decide, fun _ _ => rfl, ?_⟩, ⟨fun _ _ _ _ => rfl, fun _ _ _ _ => rfl, fun _ _ _ _ => rfl, fun _ _ _ _ => rfl⟩⟩
  rintro ⟨p, x, y⟩ ⟨n, hn, hx, hy, rfl⟩
  simp only [exCodec, exPatch, List.getD_cons_zero, List.getD_cons_succ] at hx hy ⊢
  rw [h n hn, h x hx, h y hy]

end Envire.MLS

#print axioms Envire.MLS.C36_write_read
