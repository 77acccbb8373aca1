import Verif.Core.EventProps
import Verif.Core.QueueLemmas
/-! Property C20: compression in the event queue. -/
namespace Envire
open Env

/-! ### from objects to ids -/

/-- is there a link between the objects with these two ids -/
def linkFact (items : List (Uid × Obj)) (L : List (Obj × Obj)) (i j : Uid) : Bool :=
  L.any (fun l => decide ((i, l.1) ∈ items ∧ (j, l.2) ∈ items))

/-- a picture on the level of ids; `ρ` are the roots that were announced -/
def Pic.facts (A : Pic) (ρ : Uid → Bool) : Facts
  | .item i => decide (i ∈ A.items.map (·.1))
  | .root i => ρ i
  | .frame c p => linkFact A.items A.f c p
  | .layer c p => linkFact A.items A.l c p
  | .map m f => linkFact A.items A.c m f

structure PicInv (A : Pic) : Prop where
  ids : (A.items.map (·.1)).Nodup
  objs : (A.items.map (·.2)).Nodup
  f : ∀ l ∈ A.f, l.1 ∈ A.items.map (·.2) ∧ l.2 ∈ A.items.map (·.2) ∧ l.1 ≠ l.2
  fOne : (A.f.map (·.1)).Nodup
  l : ∀ l ∈ A.l, l.1 ∈ A.items.map (·.2) ∧ l.2 ∈ A.items.map (·.2) ∧ l.1 ≠ l.2
  lOne : A.l.Nodup
  c : ∀ l ∈ A.c, l.1 ∈ A.items.map (·.2) ∧ l.2 ∈ A.items.map (·.2)
  cOne : (A.c.map (·.1)).Nodup

section
variable {items : List (Uid × Obj)}

theorem id_unique (h : (items.map (·.2)).Nodup) {i j : Uid} {o : Obj} (h1 : (i, o) ∈ items) (h2 : (j, o) ∈ items) : i = j := by
  induction items with
  | nil => cases h1
  | cons x t ih =>
    rw [List.map_cons, List.nodup_cons] at h
    rcases List.mem_cons.1 h1 with e1 | h1 <;> rcases List.mem_cons.1 h2 with e2 | h2
    · rw [← e1] at e2; exact (congrArg Prod.fst e2).symm
    · exact absurd (List.mem_map.2 ⟨_, h2, rfl⟩) (by rw [← e1] at h; exact h.1)
    · exact absurd (List.mem_map.2 ⟨_, h1, rfl⟩) (by rw [← e2] at h; exact h.1)
    · exact ih h.2 h1 h2

theorem obj_unique (h : (items.map (·.1)).Nodup) {i : Uid} {o o' : Obj} (h1 : (i, o) ∈ items) (h2 : (i, o') ∈ items) : o = o' := by
  have a := (look_eq_some_iff h).2 h1
  have b := (look_eq_some_iff h).2 h2
  rw [a] at b
  exact Option.some.inj b

theorem linkFact_true {L : List (Obj × Obj)} {i j : Uid} : linkFact items L i j = true ↔
    ∃ x y, (x, y) ∈ L ∧ (i, x) ∈ items ∧ (j, y) ∈ items := by
  unfold linkFact
  rw [List.any_eq_true]
  constructor
  · rintro ⟨⟨x, y⟩, h, h'⟩; exact ⟨x, y, h, by simpa using h'⟩
  · rintro ⟨x, y, h, h'⟩; exact ⟨(x, y), h, by simpa using h'⟩

/-- adding a link, whether in front or at the end -/
theorem linkFact_add (hi : (items.map (·.1)).Nodup) (ho : (items.map (·.2)).Nodup) {L L' : List (Obj × Obj)} {x y : Obj}
    (hL : ∀ l, l ∈ L' ↔ l = (x, y) ∨ l ∈ L) {i j : Uid} (hx : (i, x) ∈ items) (hy : (j, y) ∈ items) (c p : Uid) :
    linkFact items L' c p = if c = i ∧ p = j then true else linkFact items L c p := by
  by_cases h : c = i ∧ p = j
  · rw [if_pos h]
    obtain ⟨rfl, rfl⟩ := h
    exact linkFact_true.2 ⟨x, y, (hL _).2 (.inl rfl), hx, hy⟩
  · rw [if_neg h, Bool.eq_iff_iff, linkFact_true, linkFact_true]
    constructor
    · rintro ⟨a, b, h1, h2, h3⟩
      rcases (hL _).1 h1 with e | h1
      · cases e; exact absurd ⟨id_unique ho h2 hx, id_unique ho h3 hy⟩ h
      · exact ⟨a, b, h1, h2, h3⟩
    · rintro ⟨a, b, h1, h2⟩; exact ⟨a, b, (hL _).2 (.inr h1), h2⟩

theorem linkFact_erase (hi : (items.map (·.1)).Nodup) (ho : (items.map (·.2)).Nodup) {L : List (Obj × Obj)} (hL : L.Nodup) {x y : Obj}
    {i j : Uid} (hx : (i, x) ∈ items) (hy : (j, y) ∈ items) (c p : Uid) :
    linkFact items (L.erase (x, y)) c p = if c = i ∧ p = j then false else linkFact items L c p := by
  by_cases h : c = i ∧ p = j
  · rw [if_pos h]
    obtain ⟨rfl, rfl⟩ := h
    rw [Bool.eq_false_iff]
    intro ht
    obtain ⟨a, b, h1, h2, h3⟩ := linkFact_true.1 ht
    rw [hL.mem_erase_iff] at h1
    exact h1.1 (by rw [obj_unique hi h2 hx, obj_unique hi h3 hy])
  · rw [if_neg h, Bool.eq_iff_iff, linkFact_true, linkFact_true]
    constructor
    · rintro ⟨a, b, h1, h2, h3⟩
      exact ⟨a, b, List.mem_of_mem_erase h1, h2, h3⟩
    · rintro ⟨a, b, h1, h2, h3⟩
      refine ⟨a, b, ?_, h2, h3⟩
      rw [hL.mem_erase_iff]
      exact ⟨fun e => by cases e; exact h ⟨id_unique ho h2 hx, id_unique ho h3 hy⟩, h1⟩

theorem linkFact_items {items' : List (Uid × Obj)} {L : List (Obj × Obj)}
    (h : ∀ l ∈ L, ∀ i, ((i, l.1) ∈ items' ↔ (i, l.1) ∈ items) ∧ ((i, l.2) ∈ items' ↔ (i, l.2) ∈ items)) (c p : Uid) :
    linkFact items' L c p = linkFact items L c p := by
  rw [Bool.eq_iff_iff, linkFact_true, linkFact_true]
  constructor
  · rintro ⟨a, b, h1, h2, h3⟩; exact ⟨a, b, h1, ((h _ h1 _).1).1 h2, ((h _ h1 _).2).1 h3⟩
  · rintro ⟨a, b, h1, h2, h3⟩; exact ⟨a, b, h1, ((h _ h1 _).1).2 h2, ((h _ h1 _).2).2 h3⟩

end

theorem PicInv.valid {A : Pic} (h : PicInv A) (ρ : Uid → Bool) : (A.facts ρ).Valid := by
  have hin : ∀ {i o}, (i, o) ∈ A.items → A.facts ρ (.item i) = true := fun hi =>
    decide_eq_true (List.mem_map.2 ⟨_, hi, rfl⟩)
  constructor
  · intro c p hc
    obtain ⟨x, y, h1, h2, h3⟩ := linkFact_true.1 hc
    refine ⟨hin h2, hin h3, ?_⟩
    rintro rfl
    exact (h.f _ h1).2.2 (obj_unique h.ids h2 h3)
  · intro c p hc
    obtain ⟨x, y, h1, h2, h3⟩ := linkFact_true.1 hc
    refine ⟨hin h2, hin h3, ?_⟩
    rintro rfl
    exact (h.l _ h1).2.2 (obj_unique h.ids h2 h3)
  · intro c p hc
    obtain ⟨x, y, h1, h2, h3⟩ := linkFact_true.1 hc
    exact ⟨hin h2, hin h3⟩
  · intro c p p' hc hc'
    obtain ⟨x, y, h1, h2, h3⟩ := linkFact_true.1 hc
    obtain ⟨x', y', h1', h2', h3'⟩ := linkFact_true.1 hc'
    have e := obj_unique h.ids h2 h2'
    subst e
    have a := (look_eq_some_iff h.fOne).2 h1
    rw [(look_eq_some_iff h.fOne).2 h1'] at a
    cases a
    exact id_unique h.objs h3 h3'
  · intro c p p' hc hc'
    obtain ⟨x, y, h1, h2, h3⟩ := linkFact_true.1 hc
    obtain ⟨x', y', h1', h2', h3'⟩ := linkFact_true.1 hc'
    have e := obj_unique h.ids h2 h2'
    subst e
    have a := (look_eq_some_iff h.cOne).2 h1
    rw [(look_eq_some_iff h.cOne).2 h1'] at a
    cases a
    exact id_unique h.objs h3 h3'

theorem mem_objs {items : List (Uid × Obj)} {i : Uid} {o : Obj} (h : (i, o) ∈ items) : o ∈ items.map (·.2) :=
  List.mem_map.2 ⟨_, h, rfl⟩

/-- one admissible event: on the level of ids it makes sense and says the same -/
theorem facts_step {A : Pic} (h : PicInv A) (ρ : Uid → Bool) {e : Ev} (ha : Adm True True A e) :
    PicInv (A.apply e) ∧ (A.apply e).facts ρ = (A.facts ρ).apply e ∧ e.shape ∧
      (match e.op with
        | .add => A.facts ρ e.key = false
        | .remove => A.facts ρ e.key = true
        | .update => e.ty = .item ∧ A.facts ρ e.key = true) := by
  obtain ⟨ty, op, a, b, ida, idb⟩ := e
  cases ty <;> cases op <;> cases b <;> dsimp only [Adm] at ha <;> try exact ha.elim
  · -- item add
    obtain ⟨h1, h2, h3, h4⟩ := ha
    subst h3
    have hne : ∀ l : Obj × Obj, l.1 ∈ A.items.map (·.2) ∧ l.2 ∈ A.items.map (·.2) → ∀ i,
        ((i, l.1) ∈ (ida, a) :: A.items ↔ (i, l.1) ∈ A.items) ∧ ((i, l.2) ∈ (ida, a) :: A.items ↔ (i, l.2) ∈ A.items) := by
      intro l hl i
      refine ⟨⟨fun hm => ?_, List.mem_cons_of_mem _⟩, ⟨fun hm => ?_, List.mem_cons_of_mem _⟩⟩
      · rcases List.mem_cons.1 hm with e | hm
        · exact absurd hl.1 (by rw [show l.1 = a from congrArg Prod.snd e]; exact h2)
        · exact hm
      · rcases List.mem_cons.1 hm with e | hm
        · exact absurd hl.2 (by rw [show l.2 = a from congrArg Prod.snd e]; exact h2)
        · exact hm
    refine ⟨⟨List.nodup_cons.2 ⟨h1, h.ids⟩, List.nodup_cons.2 ⟨h2, h.objs⟩, ?_, h.fOne, ?_, h.lOne, ?_, h.cOne⟩, ?_,
      ⟨fun _ => rfl, fun _ _ => h4⟩, decide_eq_false h1⟩
    · intro l hl; obtain ⟨a1, a2, a3⟩ := h.f l hl; exact ⟨List.mem_cons_of_mem _ a1, List.mem_cons_of_mem _ a2, a3⟩
    · intro l hl; obtain ⟨a1, a2, a3⟩ := h.l l hl; exact ⟨List.mem_cons_of_mem _ a1, List.mem_cons_of_mem _ a2, a3⟩
    · intro l hl; obtain ⟨a1, a2⟩ := h.c l hl; exact ⟨List.mem_cons_of_mem _ a1, List.mem_cons_of_mem _ a2⟩
    · funext k
      cases k with
      | item i =>
        show decide (i ∈ ida :: A.items.map (·.1)) = if Key.item i = .item ida then true else decide _
        by_cases hi : i = ida
        · rw [if_pos (by rw [hi])]; simp [hi]
        · rw [if_neg (fun e => hi (Key.item.inj e))]; simp [hi]
      | root i => rfl
      | frame c p => exact linkFact_items (fun l hl => hne l ⟨(h.f l hl).1, (h.f l hl).2.1⟩) c p
      | layer c p => exact linkFact_items (fun l hl => hne l ⟨(h.l l hl).1, (h.l l hl).2.1⟩) c p
      | map m f => exact linkFact_items (fun l hl => hne l (h.c l hl)) m f
  · -- item remove
    obtain ⟨h1, ⟨b1, b2, b3⟩, h3⟩ := ha
    subst h3
    have hn := nodup_of_keys h.ids
    have herase : ∀ i o, (i, o) ∈ A.items.erase (ida, a) ↔ o ≠ a ∧ (i, o) ∈ A.items := by
      intro i o
      rw [hn.mem_erase_iff]
      refine ⟨fun ⟨x, y⟩ => ⟨?_, y⟩, fun ⟨x, y⟩ => ⟨fun e => x (congrArg Prod.snd e), y⟩⟩
      rintro rfl
      exact x (by rw [id_unique h.objs y h1])
    have hobj : ∀ o, o ∈ A.items.map (·.2) → o ≠ a → o ∈ (A.items.erase (ida, a)).map (·.2) := by
      intro o ho hoa
      obtain ⟨⟨i, o'⟩, hm, rfl⟩ := List.mem_map.1 ho
      exact List.mem_map.2 ⟨(i, o'), (herase i o').2 ⟨hoa, hm⟩, rfl⟩
    have hne : ∀ l : Obj × Obj, l.1 ≠ a ∧ l.2 ≠ a → ∀ i,
        ((i, l.1) ∈ A.items.erase (ida, a) ↔ (i, l.1) ∈ A.items) ∧ ((i, l.2) ∈ A.items.erase (ida, a) ↔ (i, l.2) ∈ A.items) := by
      intro l hl i
      rw [herase, herase]
      exact ⟨⟨fun x => x.2, fun x => ⟨hl.1, x⟩⟩, ⟨fun x => x.2, fun x => ⟨hl.2, x⟩⟩⟩
    refine ⟨⟨h.ids.sublist (List.erase_sublist.map _), h.objs.sublist (List.erase_sublist.map _), ?_, h.fOne, ?_, h.lOne, ?_, h.cOne⟩, ?_,
      ⟨fun _ => rfl, fun _ h => by cases h⟩, decide_eq_true (List.mem_map.2 ⟨_, h1, rfl⟩)⟩
    · intro l hl; obtain ⟨a1, a2, a3⟩ := h.f l hl; exact ⟨hobj _ a1 (b1 l hl).1, hobj _ a2 (b1 l hl).2, a3⟩
    · intro l hl; obtain ⟨a1, a2, a3⟩ := h.l l hl; exact ⟨hobj _ a1 (b2 l hl).1, hobj _ a2 (b2 l hl).2, a3⟩
    · intro l hl; obtain ⟨a1, a2⟩ := h.c l hl; exact ⟨hobj _ a1 (b3 l hl).1, hobj _ a2 (b3 l hl).2⟩
    · funext k
      cases k with
      | item i =>
        show decide (i ∈ (A.items.erase (ida, a)).map (·.1)) = if Key.item i = .item ida then false else decide _
        by_cases hi : i = ida
        · rw [if_pos (by rw [hi]), decide_eq_false]
          intro hm
          obtain ⟨⟨i', o⟩, hm2, rfl⟩ := List.mem_map.1 hm
          have := (herase _ _).1 hm2
          subst hi
          exact this.1 (obj_unique h.ids this.2 h1)
        · rw [if_neg (fun e => hi (Key.item.inj e)), decide_eq_decide]
          constructor
          · intro hm
            obtain ⟨⟨i', o⟩, hm2, rfl⟩ := List.mem_map.1 hm
            exact List.mem_map.2 ⟨_, ((herase _ _).1 hm2).2, rfl⟩
          · intro hm
            obtain ⟨⟨i', o⟩, hm2, rfl⟩ := List.mem_map.1 hm
            refine List.mem_map.2 ⟨_, (herase _ _).2 ⟨?_, hm2⟩, rfl⟩
            rintro rfl
            exact hi (id_unique h.objs hm2 h1)
      | root i => rfl
      | frame c p => exact linkFact_items (fun l hl => hne l (b1 l hl)) c p
      | layer c p => exact linkFact_items (fun l hl => hne l (b2 l hl)) c p
      | map m f => exact linkFact_items (fun l hl => hne l (b3 l hl)) m f
  · -- item update
    obtain ⟨h1, h3⟩ := ha
    exact ⟨h, rfl, ⟨fun _ => h3, fun _ h => by cases h⟩, rfl, decide_eq_true (List.mem_map.2 ⟨_, h1 trivial, rfl⟩)⟩
  · -- frame add
    rename_i b
    obtain ⟨h1, h2, h3⟩ := ha
    obtain ⟨ka, kb⟩ := h3 trivial
    refine ⟨{ h with f := ?_, fOne := List.nodup_cons.2 ⟨h1, h.fOne⟩ }, ?_, ⟨fun x => by simp at x, fun x => by cases x⟩, ?_⟩
    · intro l hl
      rcases List.mem_cons.1 hl with rfl | hl
      · exact ⟨mem_objs kb, mem_objs ka, fun e => h2 e.symm⟩
      · exact h.f l hl
    · funext k
      cases k with
      | frame c p =>
        show linkFact A.items ((b, a) :: A.f) c p = if Key.frame c p = .frame idb ida then true else _
        rw [linkFact_add h.ids h.objs (fun l => List.mem_cons) kb ka]
        simp only [Key.frame.injEq]; rfl
      | _ => rfl
    · show linkFact A.items A.f idb ida = false
      rw [Bool.eq_false_iff]
      intro ht
      obtain ⟨x, y, m1, m2, m3⟩ := linkFact_true.1 ht
      exact h1 (List.mem_map.2 ⟨_, m1, obj_unique h.ids m2 kb⟩)
  · -- frame remove
    rename_i b
    obtain ⟨h1, h3⟩ := ha
    obtain ⟨ka, kb⟩ := h3 trivial
    refine ⟨{ h with f := fun l hl => h.f l (List.mem_of_mem_erase hl), fOne := h.fOne.sublist (List.erase_sublist.map _) }, ?_,
      ⟨fun x => by simp at x, fun x => by cases x⟩, linkFact_true.2 ⟨b, a, h1, kb, ka⟩⟩
    funext k
    cases k with
    | frame c p =>
      show linkFact A.items (A.f.erase (b, a)) c p = if Key.frame c p = .frame idb ida then false else _
      rw [linkFact_erase h.ids h.objs (nodup_of_keys h.fOne) kb ka]
      simp only [Key.frame.injEq]; rfl
    | _ => rfl
  · -- map add
    rename_i b
    obtain ⟨h1, h3⟩ := ha
    obtain ⟨ka, kb⟩ := h3 trivial
    refine ⟨{ h with c := ?_, cOne := List.nodup_cons.2 ⟨h1, h.cOne⟩ }, ?_, ⟨fun x => by simp at x, fun x => by cases x⟩, ?_⟩
    · intro l hl
      rcases List.mem_cons.1 hl with rfl | hl
      · exact ⟨mem_objs ka, mem_objs kb⟩
      · exact h.c l hl
    · funext k
      cases k with
      | map c p =>
        show linkFact A.items ((a, b) :: A.c) c p = if Key.map c p = .map ida idb then true else _
        rw [linkFact_add h.ids h.objs (fun l => List.mem_cons) ka kb]
        simp only [Key.map.injEq]; rfl
      | _ => rfl
    · show linkFact A.items A.c ida idb = false
      rw [Bool.eq_false_iff]
      intro ht
      obtain ⟨x, y, m1, m2, m3⟩ := linkFact_true.1 ht
      exact h1 (List.mem_map.2 ⟨_, m1, obj_unique h.ids m2 ka⟩)
  · -- map remove
    rename_i b
    obtain ⟨h1, h3⟩ := ha
    obtain ⟨ka, kb⟩ := h3 trivial
    refine ⟨{ h with c := fun l hl => h.c l (List.mem_of_mem_erase hl), cOne := h.cOne.sublist (List.erase_sublist.map _) }, ?_,
      ⟨fun x => by simp at x, fun x => by cases x⟩, linkFact_true.2 ⟨a, b, h1, ka, kb⟩⟩
    funext k
    cases k with
    | map c p =>
      show linkFact A.items (A.c.erase (a, b)) c p = if Key.map c p = .map ida idb then false else _
      rw [linkFact_erase h.ids h.objs (nodup_of_keys h.cOne) ka kb]
      simp only [Key.map.injEq]; rfl
    | _ => rfl
  · -- layer add
    rename_i b
    obtain ⟨_, h2, h3, h4⟩ := ha
    obtain ⟨ka, kb⟩ := h3 trivial
    have h4 := h4 trivial
    refine ⟨{ h with l := ?_, lOne := ?_ }, ?_, ⟨fun x => by simp at x, fun x => by cases x⟩, ?_⟩
    · intro l hl
      rcases List.mem_append.1 hl with hl | hl
      · exact h.l l hl
      · rw [List.mem_singleton] at hl; subst hl
        exact ⟨mem_objs kb, mem_objs ka, fun e => h2 e.symm⟩
    · show (A.l ++ [(b, a)]).Nodup
      rw [(List.perm_append_comm : (A.l ++ [(b, a)]).Perm _).nodup_iff]
      exact List.nodup_cons.2 ⟨h4, h.lOne⟩
    · funext k
      cases k with
      | layer c p =>
        show linkFact A.items (A.l ++ [(b, a)]) c p = if Key.layer c p = .layer idb ida then true else _
        rw [linkFact_add (L := A.l) h.ids h.objs (fun l => by simp [or_comm]) kb ka]
        simp only [Key.layer.injEq]; rfl
      | _ => rfl
    · show linkFact A.items A.l idb ida = false
      rw [Bool.eq_false_iff]
      intro ht
      obtain ⟨x, y, m1, m2, m3⟩ := linkFact_true.1 ht
      have e1 : x = b := obj_unique h.ids m2 kb
      have e2 : y = a := obj_unique h.ids m3 ka
      exact h4 (by rw [← e1, ← e2]; exact m1)
  · -- layer remove
    rename_i b
    obtain ⟨h3, h1⟩ := ha
    obtain ⟨ka, kb⟩ := h3 trivial
    have h1 := h1 trivial
    refine ⟨{ h with l := fun l hl => h.l l (List.mem_of_mem_erase hl), lOne := h.lOne.sublist List.erase_sublist }, ?_,
      ⟨fun x => by simp at x, fun x => by cases x⟩, linkFact_true.2 ⟨b, a, h1, kb, ka⟩⟩
    funext k
    cases k with
    | layer c p =>
      show linkFact A.items (A.l.erase (b, a)) c p = if Key.layer c p = .layer idb ida then false else _
      rw [linkFact_erase h.ids h.objs h.lOne kb ka]
      simp only [Key.layer.injEq]; rfl
    | _ => rfl

theorem facts_fits {A : Pic} (h : PicInv A) (ρ : Uid → Bool) {e : Ev} (ha : Adm True True A e) : e.Fits (A.facts ρ) := by
  obtain ⟨i, he, hs, hm⟩ := facts_step h ρ ha
  have hv := i.valid ρ
  rw [he] at hv
  unfold Facts.apply at hv
  refine ⟨hs, ?_⟩
  cases ho : e.op <;> rw [ho] at hm hv
  · exact ⟨hm, hv⟩
  · exact ⟨hm, hv⟩
  · exact hm

theorem facts_follow {es : List Ev} : ∀ {A : Pic}, PicInv A → ∀ (ρ : Uid → Bool), Adms True True A es →
    FitsAll (A.facts ρ) es ∧ PicInv (A.follow es) ∧ (A.follow es).facts ρ = (A.facts ρ).follow es := by
  induction es with
  | nil => intro A h ρ _; exact ⟨trivial, h, rfl⟩
  | cons e es ih =>
    intro A h ρ ha
    obtain ⟨i, he, _, _⟩ := facts_step h ρ ha.1
    obtain ⟨j1, j2, j3⟩ := ih i ρ ha.2
    rw [he] at j1 j3
    exact ⟨⟨facts_fits h ρ ha.1, j1⟩, j2, j3⟩

/-! ### the facts of an environment, by its queries -/

/-- what the queries of an environment answer, on the level of ids (root events say nothing about the structure) -/
def Env.facts (s : Env) : Facts
  | .item i => (s.getItem i).isSome
  | .root _ => false
  | .frame c p => match s.getItem c, s.getItem p with | some x, some y => decide (s.getParent x = some y) | _, _ => false
  | .layer c p => match s.getItem c, s.getItem p with | some x, some y => decide (y ∈ s.getLayerParents x) | _, _ => false
  | .map m f => match s.getItem m, s.getItem f with | some x, some y => decide (s.getFrameNode x = some y) | _, _ => false

theorem Pic.Shows.facts {A : Pic} {s : Env} (h : A.Shows s) (ρ : Uid → Bool) {k : Key} (hk : ∀ i, k ≠ .root i) :
    A.facts ρ k = s.facts k := by
  have link : ∀ (L : List (Obj × Obj)) (i j : Uid) (q : Obj → Obj → Bool), (∀ x y, (x, y) ∈ L ↔ q x y = true) →
      linkFact A.items L i j = (match s.getItem i, s.getItem j with | some x, some y => q x y | _, _ => false) := by
    intro L i j q hq
    rw [Bool.eq_iff_iff, linkFact_true]
    constructor
    · rintro ⟨x, y, h1, h2, h3⟩
      rw [(h.items _ _).1 h2, (h.items _ _).1 h3]
      exact (hq x y).1 h1
    · intro hh
      cases h1 : s.getItem i with
      | none => rw [h1] at hh; cases hh
      | some x =>
        cases h2 : s.getItem j with
        | none => rw [h1, h2] at hh; cases hh
        | some y =>
          rw [h1, h2] at hh
          exact ⟨x, y, (hq x y).2 hh, (h.items _ _).2 h1, (h.items _ _).2 h2⟩
  cases k with
  | item i =>
    show decide (i ∈ A.items.map (·.1)) = (s.getItem i).isSome
    rw [Bool.eq_iff_iff, decide_eq_true_eq]
    constructor
    · intro hm
      obtain ⟨⟨i', o⟩, hm2, rfl⟩ := List.mem_map.1 hm
      rw [(h.items _ _).1 hm2]; rfl
    · intro hh
      cases h1 : s.getItem i with
      | none => rw [h1] at hh; cases hh
      | some x => exact List.mem_map.2 ⟨_, (h.items _ _).2 h1, rfl⟩
  | root i => exact absurd rfl (hk i)
  | frame c p => exact link A.f c p (fun x y => decide (s.getParent x = some y)) (fun x y => by rw [h.parent]; simp)
  | layer c p =>
    refine link A.l c p (fun x y => decide (y ∈ s.getLayerParents x)) (fun x y => ?_)
    rw [← h.layers x]
    simp
  | map m f => exact link A.c m f (fun x y => decide (s.getFrameNode x = some y)) (fun x y => by rw [h.frame]; simp)

/-- **C20 (for every state and every list of sensible events)** the compressed list has the same net effect, is not
longer, mentions each fact at most once (besides updates), and every message makes sense at its place:
no link is announced before its items, no item is removed while it is linked. -/
theorem C20_compress_net_effect {S : Facts} (hS : S.Valid) {es : List Ev} (h : FitsAll S es) :
    S.follow (compress es) = S.follow es ∧ (compress es).length ≤ es.length ∧ FitsAll S (compress es) ∧ Once (compress es) :=
  ⟨(compress_inv hS h).net, compress_length es, (compress_inv hS h).fits, (compress_inv hS h).once⟩

/-- rules of use under which the stream is sensible: `Good`; modified() and removeChild of layers for attached items only;
layer links are not removed when they are not there and not added twice -/
def QueueUse (s : Env) (op : Op) : Prop := Good s op ∧ EvGood s op ∧ LayerDisc s op

theorem stream_fits {r : Obj} {s : Env} (h : Reach QueueUse r s) :
    ∃ first es, (init r).announce = some first ∧ s.log = (init r).log ++ es ∧ FitsAll (fun _ => false) (first ++ es) ∧
      ∀ k, (∀ i, k ≠ .root i) → Facts.follow (fun _ => false) (first ++ es) k = s.facts k := by
  have hR : ∀ {r s}, Reach QueueUse r s → Reach Good r s := fun h => h.mono (fun _ _ h => h.1)
  obtain ⟨es, h1, h2, h3⟩ := reach_stream (G := QueueUse) (g := True) (d := True)
    (fun s op hc h => h.1.legal hc) (fun h => (hR h).wf_closed) (fun _ s op h => ⟨h.1, h.2.1⟩)
    (fun _ s op h => h.2.2) h
  have hinv : PicInv (startPic r) := by
    refine ⟨by simp [startPic], by simp [startPic], ?_, by simp [startPic], ?_, by simp [startPic], ?_, by simp [startPic]⟩ <;>
    · intro l hl; cases hl
  obtain ⟨f1, f2, f3⟩ := facts_follow hinv (fun i => decide (i = ['/', '0'])) h2
  have hstart : Facts.follow (fun _ => false) [⟨.item, .add, r, none, ['/', '0'], []⟩, ⟨.root, .add, r, none, ['/', '0'], []⟩] =
      (startPic r).facts (fun i => decide (i = ['/', '0'])) := by
    funext k
    cases k <;> simp [Facts.follow, Facts.apply, Facts.set, Ev.key, Pic.facts, startPic, linkFact] <;> rfl
  refine ⟨_, es, announce_init r, h1, fitsAll_append.2 ⟨?_, by rw [hstart]; exact f1⟩, ?_⟩
  · refine ⟨⟨⟨fun _ => rfl, fun _ _ => rfl⟩, rfl, ?_⟩, ⟨⟨fun _ => rfl, fun x => by cases x⟩, rfl, ?_⟩, trivial⟩
    · constructor <;> intros <;> simp_all [Facts.set, Ev.key]
    · constructor <;> intros <;> simp_all [Facts.set, Ev.key, Facts.apply]
  · intro k hk
    rw [Facts.follow_append, hstart, ← f3]
    exact (h3.shows (hR h).wf_closed.1).facts _ hk

theorem compress_batches (bs : List (List Ev)) : ∀ {S : Facts}, S.Valid → FitsAll S bs.flatten →
    FitsAll S (bs.map compress).flatten ∧ S.follow (bs.map compress).flatten = S.follow bs.flatten ∧
    (bs.map compress).flatten.length ≤ bs.flatten.length := by
  induction bs with
  | nil => intro S _ h; exact ⟨h, rfl, Nat.le_refl _⟩
  | cons b bs ih =>
    intro S hv h
    rw [List.flatten_cons, fitsAll_append] at h
    obtain ⟨c1, c2, c3, _⟩ := C20_compress_net_effect hv h.1
    obtain ⟨i1, i2, i3⟩ := ih (h.1.valid hv) h.2
    rw [List.map_cons, List.flatten_cons, List.flatten_cons]
    refine ⟨fitsAll_append.2 ⟨c3, by rw [c1]; exact i1⟩, by rw [Facts.follow_append, Facts.follow_append, c1, i2], ?_⟩
    rw [List.length_append, List.length_append]; omega

/-- **C20** A queue registered on the fresh environment and flushed at arbitrary moments (`batches` is any cutting of what
it received): the flushed messages make sense and lead to exactly the items and links the queries of the
environment show. Missing for the full claim: histories in which `removeChild` is called for a layer link that does not
exist (see the witness) or a layer link is duplicated (C11). -/
theorem C20_queue_partial {r : Obj} {s : Env} (h : Reach QueueUse r s) :
    ∃ first es, (init r).announce = some first ∧ s.log = (init r).log ++ es ∧
      ∀ batches : List (List Ev), batches.flatten = first ++ es →
        FitsAll (fun _ => false) (batches.map compress).flatten ∧
        (∀ k, (∀ i, k ≠ .root i) → Facts.follow (fun _ => false) (batches.map compress).flatten k = s.facts k) ∧
        (batches.map compress).flatten.length ≤ (first ++ es).length := by
  obtain ⟨first, es, h1, h2, h3, h4⟩ := stream_fits h
  refine ⟨first, es, h1, h2, fun bs hb => ?_⟩
  rw [← hb] at h3 h4 ⊢
  have hv : Facts.Valid (fun _ => false) := by constructor <;> intros <;> simp_all
  obtain ⟨c1, c2, c3⟩ := compress_batches bs hv h3
  exact ⟨c1, fun k hk => by rw [c2]; exact h4 k hk, c3⟩

/-- histories with items, frames, layers and maps coming and going -/
def queueHistory : List Op :=
  [.alloc 1 .frame [] false 0 0, .alloc 2 .frame [] false 0 0, .alloc 3 .cmap [] false 0 0, .alloc 4 .layer [] false 0 0,
   .addChildF 0 1, .addChildF 1 2, .attachMap 3 (some 2), .attach 4, .addChildL 4 3, .removeChildL 4 3, .addChildF 0 2,
   .modified 4, .setFrame 3 1, .addChildL 4 3, .detach 2 false, .modified 4]

/-- the hypothesis of C20 is met by a non trivial history: 18 messages shrink to 7 -/
example : ∃ s, run (init 0) queueHistory = some s ∧ (s.log.length = 19 ∧ (compress (s.log.drop (init 0).log.length)).length = 7 ∧
    s.facts (.map ['/', '4'] ['/', '2']) = true ∧ s.getLayerParents 3 = [4]) := ex_of_any (by decide +kernel)

example : FitsAll (fun _ => false) [⟨.item, .add, 1, none, ['/', 'a'], []⟩, ⟨.item, .update, 1, none, ['/', 'a'], []⟩,
    ⟨.item, .remove, 1, none, ['/', 'a'], []⟩] := by
  refine ⟨⟨⟨fun _ => rfl, fun _ _ => rfl⟩, rfl, ?_⟩, ⟨⟨fun _ => rfl, fun _ _ => rfl⟩, rfl, rfl⟩, ⟨⟨fun _ => rfl, fun _ _ => rfl⟩, rfl, ?_⟩, trivial⟩ <;>
  constructor <;> intros <;> simp_all [Facts.set, Ev.key, Facts.apply]

/-- **C20, the code violates the property in general**: between two flushes `removeChild` is called for a link between two
layers that does not exist, then the link is added; the queue hands out nothing, the link is lost. -/
theorem C20_link_lost :
    ∃ s, run (init 0) [.alloc 1 .layer [] false 0 0, .alloc 2 .layer [] false 0 0, .attach 1, .attach 2] = some s ∧
      (∃ s', run s [.removeChildL 1 2, .addChildL 1 2] = some s' ∧ (s'.getLayerParents 2 = [1] ∧
        s'.log.length = s.log.length + 2 ∧ compress (s'.log.drop s.log.length) = [])) :=
  ex_of_any2 (by decide +kernel)

end Envire

#print axioms Envire.C20_compress_net_effect
#print axioms Envire.C20_queue_partial
#print axioms Envire.C20_link_lost
