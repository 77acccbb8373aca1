import Verif.Viz.TreeModel
import Verif.Viz.ViewProps
import Verif.Core.EventProps
import Verif.Core.QueueProps
/-! Property C148: the tree of items follows the environment. -/
namespace Envire
namespace TreeView
open Env
open View (Out)

/-- the tree shows the links `up` (child, parent) below `r`: the item of `r` alone is at the top; every widget kept for an
item exists, belongs to this item alone, hangs below the widget of its parent and of nothing else, and the widgets
of its children hang below it once -/
structure Mirrors (T : Tree) (up : Obj → Obj → Prop) (r : Obj) : Prop where
  root : ∃ w, T.map r = some w ∧ T.tops = [w]
  has : ∀ c p, up c p → (T.map c).isSome ∧ (T.map p).isSome
  one : ∀ c p q, up c p → up c q → p = q
  below : ∀ o w, T.map o = some w → w < T.next ∧ T.owner w = some o ∧ ∃ x, T.widgets w = some x ∧
    (x.top = true ↔ o = r) ∧ x.kids.Nodup ∧ (∀ v, x.par = some v ↔ ∃ p, up o p ∧ T.map p = some v) ∧
    ∀ k, k ∈ x.kids ↔ ∃ c, up c o ∧ T.map c = some k

namespace Mirrors
variable {T : Tree} {up : Obj → Obj → Prop} {r : Obj}

theorem inj (h : Mirrors T up r) {o o' : Obj} {w : Nat} (h1 : T.map o = some w) (h2 : T.map o' = some w) : o = o' := by
  have a := (h.below o w h1).2.1
  have b := (h.below o' w h2).2.1
  rw [a] at b
  exact Option.some.inj b

/-- a new item without links -/
theorem make (h : Mirrors T up r) {o : Obj} (ho : T.map o = none) : Mirrors (T.make o false) up r := by
  have hno : ∀ c p, up c p → c ≠ o ∧ p ≠ o := by
    intro c p hcp
    obtain ⟨h1, h2⟩ := h.has c p hcp
    refine ⟨fun hh => ?_, fun hh => ?_⟩
    · rw [hh, ho] at h1; cases h1
    · rw [hh, ho] at h2; cases h2
  have hm : ∀ q, q ≠ o → (T.make o false).map q = T.map q := fun q hq => by
    show upd T.map o _ q = _; unfold upd; rw [if_neg hq]
  have hro : r ≠ o := fun hh => by obtain ⟨w, h1, _⟩ := h.root; rw [hh, ho] at h1; cases h1
  refine ⟨?_, ?_, h.one, ?_⟩
  · obtain ⟨w, h1, h2⟩ := h.root
    exact ⟨w, by rw [hm r hro]; exact h1, h2⟩
  · intro c p hcp
    rw [hm c (hno c p hcp).1, hm p (hno c p hcp).2]
    exact h.has c p hcp
  · intro q w hq
    by_cases hqo : q = o
    · subst hqo
      have : w = T.next := by
        have : (T.make q false).map q = some T.next := by show upd T.map q _ q = _; unfold upd; rw [if_pos rfl]
        rw [this] at hq; cases hq; rfl
      subst this
      refine ⟨Nat.lt_succ_self _, ?_, ⟨none, [], false⟩, ?_, ?_, List.nodup_nil, ?_, ?_⟩
      · show upd T.owner T.next _ T.next = _; unfold upd; rw [if_pos rfl]
      · show upd T.widgets T.next _ T.next = _; unfold upd; rw [if_pos rfl]
      · exact ⟨fun hh => absurd hh (by simp), fun hh => absurd hh.symm hro⟩
      · intro v
        refine ⟨fun hh => by (dsimp only at hh; cases hh), ?_⟩
        rintro ⟨p, hp, _⟩
        exact absurd rfl (hno q p hp).1
      · intro k
        refine ⟨fun hh => by (dsimp only at hh; cases hh), ?_⟩
        rintro ⟨c, hc, _⟩
        exact absurd rfl (hno c q hc).2
    · rw [hm q hqo] at hq
      obtain ⟨h1, h2, x, h3, h4, h5, h6, h7⟩ := h.below q w hq
      refine ⟨Nat.lt_succ_of_lt h1, ?_, x, ?_, h4, h5, ?_, ?_⟩
      · show upd T.owner T.next _ w = _; unfold upd; rw [if_neg (Nat.ne_of_lt h1)]; exact h2
      · show upd T.widgets T.next _ w = _; unfold upd; rw [if_neg (Nat.ne_of_lt h1)]; exact h3
      · intro v
        rw [h6]
        constructor
        · rintro ⟨p, hp, hv⟩; exact ⟨p, hp, by rw [hm p (hno q p hp).2]; exact hv⟩
        · rintro ⟨p, hp, hv⟩; exact ⟨p, hp, by rw [hm p (hno q p hp).2] at hv; exact hv⟩
      · intro k
        rw [h7]
        constructor
        · rintro ⟨c, hc, hk⟩; exact ⟨c, hc, by rw [hm c (hno c q hc).1]; exact hk⟩
        · rintro ⟨c, hc, hk⟩; exact ⟨c, hc, by rw [hm c (hno c q hc).1] at hk; exact hk⟩

/-- getWidgetForEnvItem for an item that is not to be shown at the top -/
theorem get (h : Mirrors T up r) (o : Obj) : Mirrors (T.get o false) up r ∧ ((T.get o false).map o).isSome ∧
    (∀ q, q ≠ o → (T.get o false).map q = T.map q) ∧ ∀ q w, T.map q = some w → (T.get o false).map q = some w := by
  unfold Tree.get
  cases ho : T.map o with
  | some w => exact ⟨h, by simp [ho], fun _ _ => rfl, fun _ _ hq => hq⟩
  | none =>
    refine ⟨h.make ho, ?_, fun q hq => ?_, fun q w hq => ?_⟩
    · show (upd T.map o _ o).isSome; unfold upd; rw [if_pos rfl]; rfl
    · show upd T.map o _ q = _; unfold upd; rw [if_neg hq]
    · have : q ≠ o := fun hh => by rw [hh, ho] at hq; cases hq
      show upd T.map o _ q = _; unfold upd; rw [if_neg this]; exact hq

theorem link (h : Mirrors T up r) {c p : Obj} {w v : Nat} (hw : T.map c = some w) (hv : T.map p = some v) (hcp : c ≠ p)
    (hc : ∀ q, ¬ up c q) (hcr : c ≠ r) :
    ∃ T', T.addChild v w = .ok T' ∧ T'.map = T.map ∧ Mirrors T' (fun o q => up o q ∨ (o = c ∧ q = p)) r := by
  obtain ⟨c1, c2, W, c3, c4, c5, c6, c7⟩ := h.below c w hw
  obtain ⟨p1, p2, P, p3, p4, p5, p6, p7⟩ := h.below p v hv
  have hwv : w ≠ v := fun hh => hcp (h.inj hw (hh ▸ hv))
  have hpar : W.par = none := by
    cases hx : W.par with
    | none => rfl
    | some u => obtain ⟨q, hq, _⟩ := (c6 u).1 hx; exact absurd hq (hc q)
  have htop : W.top = false := by
    cases hx : W.top with
    | false => rfl
    | true => exact absurd (c4.1 hx) hcr
  refine ⟨{ T with widgets := upd (upd T.widgets w (some { W with par := some v })) v (some { P with kids := P.kids ++ [w] }) },
    ?_, rfl, ?_⟩
  · unfold Tree.addChild
    rw [p3, c3]
    simp [hpar, htop]
  · refine ⟨h.root, ?_, ?_, ?_⟩
    · rintro o q (hoq | ⟨rfl, rfl⟩)
      · exact h.has o q hoq
      · exact ⟨by simp [hw], by simp [hv]⟩
    · rintro o q q' (h1 | ⟨h1, h1'⟩) (h2 | ⟨h2, h2'⟩)
      · exact h.one o q q' h1 h2
      · subst h2; exact absurd h1 (hc q)
      · subst h1; exact absurd h2 (hc q')
      · rw [h1', h2']
    · intro o u hu
      obtain ⟨o1, o2, X, o3, o4, o5, o6, o7⟩ := h.below o u hu
      refine ⟨o1, o2, ?_⟩
      dsimp only [upd]
      by_cases huv : u = v
      · subst huv
        have hop := h.inj hu hv
        subst hop
        rw [p3] at o3; cases o3
        refine ⟨{ P with kids := P.kids ++ [w] }, by rw [if_pos rfl], o4, ?_, ?_, ?_⟩
        · rw [List.nodup_append]
          refine ⟨o5, by simp, ?_⟩
          intro a ha b hb hab
          rw [List.mem_singleton] at hb
          subst hab
          subst hb
          obtain ⟨c', hc', hk⟩ := (o7 a).1 ha
          have := h.inj hk hw
          subst this
          exact hc o hc'
        · intro z
          rw [o6]
          constructor
          · rintro ⟨q, hq, hz⟩; exact ⟨q, Or.inl hq, hz⟩
          · rintro ⟨q, hq | ⟨hq, _⟩, hz⟩
            · exact ⟨q, hq, hz⟩
            · exact absurd hq.symm hcp
        · intro k
          rw [List.mem_append, o7, List.mem_singleton]
          constructor
          · rintro (⟨c', hc', hk⟩ | rfl)
            · exact ⟨c', Or.inl hc', hk⟩
            · exact ⟨c, Or.inr ⟨rfl, rfl⟩, hw⟩
          · rintro ⟨c', hc' | ⟨hc', _⟩, hk⟩
            · exact Or.inl ⟨c', hc', hk⟩
            · subst hc'
              rw [hw] at hk; cases hk; exact Or.inr rfl
      · rw [if_neg huv]
        by_cases huw : u = w
        · subst huw
          have hoc := h.inj hu hw
          subst hoc
          rw [c3] at o3; cases o3
          refine ⟨{ W with par := some v }, by rw [if_pos rfl], o4, o5, ?_, ?_⟩
          · intro z
            constructor
            · intro hz
              dsimp only at hz
              cases hz
              exact ⟨p, Or.inr ⟨rfl, rfl⟩, hv⟩
            · rintro ⟨q, hq | ⟨_, hq⟩, hz⟩
              · exact absurd hq (hc q)
              · subst hq; rw [hv] at hz; exact hz
          · intro k
            rw [o7]
            constructor
            · rintro ⟨c', hc', hk⟩; exact ⟨c', Or.inl hc', hk⟩
            · rintro ⟨c', hc' | ⟨_, hc'⟩, hk⟩
              · exact ⟨c', hc', hk⟩
              · exact absurd hc' hcp
        · rw [if_neg huw]
          have hoc : o ≠ c := fun hh => huw (by rw [hh, hw] at hu; cases hu; rfl)
          have hop : o ≠ p := fun hh => huv (by rw [hh, hv] at hu; cases hu; rfl)
          refine ⟨X, o3, o4, o5, ?_, ?_⟩
          · intro z
            rw [o6]
            exact ⟨fun ⟨q, hq, hz⟩ => ⟨q, Or.inl hq, hz⟩, fun ⟨q, hq, hz⟩ => hq.elim (fun hq => ⟨q, hq, hz⟩) (fun hq => absurd hq.1 hoc)⟩
          · intro k
            rw [o7]
            exact ⟨fun ⟨q, hq, hz⟩ => ⟨q, Or.inl hq, hz⟩, fun ⟨q, hq, hz⟩ => hq.elim (fun hq => ⟨q, hq, hz⟩) (fun hq => absurd hq.2 hop)⟩

/-- deleting an item that has nothing below it -/
theorem kill_leaf {n w : Nat} {W : Nat → Option Widget} {x : Widget} (hx : W w = some x) (hk : x.kids = []) :
    kill (n + 1) w W = upd W w none := by
  unfold kill
  rw [hx]
  dsimp only
  rw [hk]; rfl

/-- an item without links is taken out -/
theorem drop (h : Mirrors T up r) {o : Obj} {w : Nat} (hw : T.map o = some w) (hor : o ≠ r) (ho : ∀ q, ¬ up o q ∧ ¬ up q o) :
    ∃ T', (T.forget o w).delete w = .ok T' ∧ T'.map = upd T.map o none ∧ Mirrors T' up r := by
  obtain ⟨c1, c2, X, c3, c4, c5, c6, c7⟩ := h.below o w hw
  have hpar : X.par = none := by
    cases hx : X.par with
    | none => rfl
    | some u => obtain ⟨q, hq, _⟩ := (c6 u).1 hx; exact absurd hq (ho q).1
  have hkids : X.kids = [] := by
    cases hx : X.kids with
    | nil => rfl
    | cons k ks =>
      obtain ⟨q, hq, _⟩ := (c7 k).1 (by rw [hx]; simp)
      exact absurd hq (ho q).2
  obtain ⟨wr, hr1, hr2⟩ := h.root
  have hwr : wr ≠ w := fun hh => hor (h.inj hw (hh ▸ hr1))
  obtain ⟨n, hn⟩ : ∃ n, T.next = n + 1 := ⟨T.next - 1, by omega⟩
  refine ⟨{ map := upd T.map o none, owner := upd T.owner w none, widgets := upd T.widgets w none, next := T.next,
            tops := T.tops }, ?_, rfl, ?_⟩
  · unfold Tree.delete Tree.forget
    dsimp only
    rw [c3]
    dsimp only
    rw [hpar]
    unfold unhook
    rw [hn, kill_leaf c3 hkids, hr2]
    rw [show [wr].erase w = [wr] from List.erase_of_not_mem (by simpa using fun hh => hwr hh.symm)]
  · have hm : ∀ q, q ≠ o → upd T.map o none q = T.map q := fun q hq => by unfold upd; rw [if_neg hq]
    have hno : ∀ c p, up c p → c ≠ o ∧ p ≠ o := fun c p hcp =>
      ⟨fun hh => (ho p).1 (hh ▸ hcp), fun hh => (ho c).2 (hh ▸ hcp)⟩
    refine ⟨⟨wr, by show upd T.map o none r = _; rw [hm r (fun hh => hor hh.symm)]; exact hr1, hr2⟩, ?_, h.one, ?_⟩
    · intro c p hcp
      show (upd T.map o none c).isSome ∧ (upd T.map o none p).isSome
      rw [hm c (hno c p hcp).1, hm p (hno c p hcp).2]
      exact h.has c p hcp
    · intro q u hq
      have hqo : q ≠ o := fun hh => by
        have : upd T.map o none q = some u := hq
        unfold upd at this; rw [if_pos hh] at this; cases this
      have hq' : T.map q = some u := by rw [← hm q hqo]; exact hq
      have huw : u ≠ w := fun hh => hqo (h.inj hq' (hh ▸ hw))
      obtain ⟨o1, o2, Y, o3, o4, o5, o6, o7⟩ := h.below q u hq'
      refine ⟨o1, ?_, Y, ?_, o4, o5, ?_, ?_⟩
      · show upd T.owner w none u = _; unfold upd; rw [if_neg huw]; exact o2
      · show upd T.widgets w none u = _; unfold upd; rw [if_neg huw]; exact o3
      · intro z
        rw [o6]
        constructor
        · rintro ⟨p, hp, hz⟩; exact ⟨p, hp, by show upd T.map o none p = _; rw [hm p (hno q p hp).2]; exact hz⟩
        · rintro ⟨p, hp, hz⟩; exact ⟨p, hp, by have : upd T.map o none p = some z := hz; rw [hm p (hno q p hp).2] at this; exact this⟩
      · intro k
        rw [o7]
        constructor
        · rintro ⟨c, hc, hk⟩; exact ⟨c, hc, by show upd T.map o none c = _; rw [hm c (hno c q hc).1]; exact hk⟩
        · rintro ⟨c, hc, hk⟩; exact ⟨c, hc, by have : upd T.map o none c = some k := hk; rw [hm c (hno c q hc).1] at this; exact this⟩

/-- a link is taken out -/
theorem unlink (h : Mirrors T up r) {c p : Obj} {w v : Nat} (hw : T.map c = some w) (hv : T.map p = some v) (hcp : c ≠ p)
    (hup : up c p) :
    ∃ T', T.removeChild v w = .ok T' ∧ T'.map = T.map ∧ Mirrors T' (fun o q => up o q ∧ o ≠ c) r := by
  obtain ⟨c1, c2, W, c3, c4, c5, c6, c7⟩ := h.below c w hw
  obtain ⟨p1, p2, P, p3, p4, p5, p6, p7⟩ := h.below p v hv
  have hwv : w ≠ v := fun hh => hcp (h.inj hw (hh ▸ hv))
  have hmem : w ∈ P.kids := (p7 w).2 ⟨c, hup, hw⟩
  refine ⟨{ T with widgets := fun u => if u = v then some { P with kids := P.kids.erase w }
                                       else if u = w then (T.widgets w).map (fun W => { W with par := none })
                                       else T.widgets u }, ?_, rfl, ?_⟩
  · unfold Tree.removeChild
    rw [p3]
    dsimp only
    rw [if_pos hmem]
  · refine ⟨h.root, fun o q hoq => h.has o q hoq.1, fun o q q' h1 h2 => h.one o q q' h1.1 h2.1, ?_⟩
    intro o u hu
    obtain ⟨o1, o2, X, o3, o4, o5, o6, o7⟩ := h.below o u hu
    refine ⟨o1, o2, ?_⟩
    dsimp only
    by_cases huv : u = v
    · subst huv
      have hop := h.inj hu hv
      subst hop
      rw [p3] at o3; cases o3
      refine ⟨{ P with kids := P.kids.erase w }, by rw [if_pos rfl], o4, o5.erase w, ?_, ?_⟩
      · intro z
        rw [o6]
        exact ⟨fun ⟨q, hq, hz⟩ => ⟨q, ⟨hq, fun hh => hcp hh.symm⟩, hz⟩, fun ⟨q, hq, hz⟩ => ⟨q, hq.1, hz⟩⟩
      · intro k
        rw [o5.mem_erase_iff, o7]
        constructor
        · rintro ⟨hkw, c', hc', hk⟩
          exact ⟨c', ⟨hc', fun hh => hkw (by rw [hh, hw] at hk; cases hk; rfl)⟩, hk⟩
        · rintro ⟨c', ⟨hc', hne⟩, hk⟩
          exact ⟨fun hh => hne (h.inj (hh ▸ hk) hw), c', hc', hk⟩
    · rw [if_neg huv]
      by_cases huw : u = w
      · subst huw
        have hoc := h.inj hu hw
        subst hoc
        rw [c3] at o3; cases o3
        refine ⟨{ W with par := none }, by rw [if_pos rfl, c3]; rfl, o4, o5, ?_, ?_⟩
        · intro z
          refine ⟨fun hz => by (dsimp only at hz; cases hz), ?_⟩
          rintro ⟨q, ⟨_, hq⟩, _⟩
          exact absurd rfl hq
        · intro k
          rw [o7]
          constructor
          · rintro ⟨c', hc', hk⟩
            refine ⟨c', ⟨hc', fun hh => ?_⟩, hk⟩
            subst hh
            exact hcp (h.one _ _ _ hc' hup)
          · rintro ⟨c', hc', hk⟩; exact ⟨c', hc'.1, hk⟩
      · rw [if_neg huw]
        have hoc : o ≠ c := fun hh => huw (by rw [hh, hw] at hu; cases hu; rfl)
        have hop : o ≠ p := fun hh => huv (by rw [hh, hv] at hu; cases hu; rfl)
        refine ⟨X, o3, o4, o5, ?_, ?_⟩
        · intro z
          rw [o6]
          exact ⟨fun ⟨q, hq, hz⟩ => ⟨q, ⟨hq, hoc⟩, hz⟩, fun ⟨q, hq, hz⟩ => ⟨q, hq.1, hz⟩⟩
        · intro k
          rw [o7]
          constructor
          · rintro ⟨c', hc', hk⟩
            refine ⟨c', ⟨hc', fun hh => ?_⟩, hk⟩
            subst hh
            exact hop (h.one _ _ _ hc' hup)
          · rintro ⟨c', hc', hk⟩; exact ⟨c', hc'.1, hk⟩

theorem congr {up' : Obj → Obj → Prop} (h : Mirrors T up r) (he : ∀ o q, up' o q ↔ up o q) : Mirrors T up' r := by
  have : up' = up := by funext o q; exact propext (he o q)
  rw [this]; exact h

end Mirrors

/-- what the tree is to show: frames below their parents, maps below their frames -/
def Pic.up (A : Pic) (o p : Obj) : Prop := (o, p) ∈ A.f ∨ (o, p) ∈ A.c

/-- orders of events the listener copes with. `fr`: the item is a frame -/
def Gentle (fr : Obj → Bool) (r : Obj) (A : Pic) (e : Ev) : Prop :=
  match e.ty, e.op, e.b with
  | .item, .remove, none => e.a ≠ r
  -- a link only below a frame that is shown already
  | .frameTree, .add, some b => fr e.a = true ∧ fr b = true ∧ b ≠ r ∧ (e.a = r ∨ ∃ q, Pic.up A e.a q ∨ Pic.up A q e.a)
  -- a frame leaves its parent only with nothing below it
  | .frameTree, .remove, some b => ∀ q, ¬ Pic.up A q b
  | .frameNode, .add, some b => fr e.a = false ∧ fr b = true
  | _, _, _ => True

def Gentles (fr : Obj → Bool) (r : Obj) : Pic → List Ev → Prop
  | _, [] => True
  | A, e :: es => Gentle fr r A e ∧ Gentles fr r (A.apply e) es

structure Inv (fr : Obj → Bool) (r : Obj) (A : Pic) (T : Tree) : Prop where
  shows : Mirrors T (Pic.up A) r
  inv : PicInv A
  rootFrame : fr r = true
  frames : ∀ l ∈ A.f, fr l.1 = true ∧ fr l.2 = true ∧ l.1 ≠ r
  maps : ∀ l ∈ A.c, fr l.1 = false ∧ fr l.2 = true
  entries : ∀ o, (T.map o).isSome → o ∈ A.items.map (·.2) ∧ (fr o = false → ∃ f, (o, f) ∈ A.c)

theorem get_of_some {T : Tree} {o : Obj} (b : Bool) (h : (T.map o).isSome) : T.get o b = T := by
  unfold Tree.get
  cases ho : T.map o with
  | some w => rfl
  | none => rw [ho] at h; cases h

theorem ptr_of_some {T : Tree} {o : Obj} {w : Nat} (h : T.map o = some w) : T.ptr o = w := by
  unfold Tree.ptr; rw [h]; rfl

theorem mem_erase_objs {items : List (Uid × Obj)} (h : (items.map (·.2)).Nodup) {id : Uid} {a o : Obj}
    (ho : o ∈ items.map (·.2)) (hne : o ≠ a) : o ∈ (items.erase (id, a)).map (·.2) := by
  rw [List.mem_map] at ho ⊢
  obtain ⟨x, hx, rfl⟩ := ho
  refine ⟨x, ?_, rfl⟩
  rw [List.mem_erase_of_ne (fun hh => hne (by rw [hh]))]
  exact hx

theorem Inv.step {fr : Obj → Bool} {r : Obj} {A : Pic} {T : Tree} (h : Inv fr r A T) {e : Ev} (ha : Adm True True A e)
    (hg : Gentle fr r A e) : ∃ T', T.handle fr e = .ok T' ∧ Inv fr r (A.apply e) T' := by
  have hinv := (facts_step h.inv (fun _ => true) ha).1
  obtain ⟨ty, op, a, b, ida, idb⟩ := e
  cases ty <;> cases op <;> cases b <;> first
    | exact (ha : False).elim
    | skip
  case item.add.none =>
    refine ⟨T, rfl, h.shows.congr (fun _ _ => Iff.rfl), hinv, h.rootFrame, h.frames, h.maps, fun o ho => ?_⟩
    obtain ⟨h1, h2⟩ := h.entries o ho
    exact ⟨List.mem_cons_of_mem _ h1, h2⟩
  case item.remove.none =>
    obtain ⟨h1, h2, _⟩ := ha
    have hbare : ∀ q, ¬ Pic.up A a q ∧ ¬ Pic.up A q a := by
      intro q
      refine ⟨?_, ?_⟩
      · rintro (hq | hq)
        · exact (h2.1 _ hq).1 rfl
        · exact (h2.2.2 _ hq).1 rfl
      · rintro (hq | hq)
        · exact (h2.1 _ hq).2 rfl
        · exact (h2.2.2 _ hq).2 rfl
    have har : a ≠ r := hg
    have keep : T.map a = none → Inv fr r (A.apply ⟨.item, .remove, a, none, ida, idb⟩) T := by
      intro hm
      refine ⟨h.shows.congr (fun _ _ => Iff.rfl), hinv, h.rootFrame, h.frames, h.maps, fun o ho => ?_⟩
      obtain ⟨e1, e2⟩ := h.entries o ho
      refine ⟨mem_erase_objs h.inv.objs e1 (fun hh => ?_), e2⟩
      rw [hh, hm] at ho; cases ho
    cases hm : T.map a with
    | none =>
      refine ⟨T, ?_, keep hm⟩
      show (if fr a then T.removeRoot a else .ok T) = _
      split
      · unfold Tree.removeRoot; rw [hm]
      · rfl
    | some w =>
      have hfr : fr a = true := by
        cases hf : fr a with
        | true => rfl
        | false =>
          obtain ⟨q, hq⟩ := (h.entries a (by rw [hm]; rfl)).2 hf
          exact absurd (Or.inr hq) (hbare q).1
      obtain ⟨T', t1, t2, t3⟩ := h.shows.drop hm har hbare
      refine ⟨T', ?_, t3.congr (fun _ _ => Iff.rfl), hinv, h.rootFrame, h.frames, h.maps, fun o ho => ?_⟩
      · show (if fr a then T.removeRoot a else .ok T) = _
        rw [if_pos hfr]
        obtain ⟨_, _, X, c3, _⟩ := h.shows.below a w hm
        unfold Tree.removeRoot
        rw [hm]
        dsimp only
        rw [c3]
        exact t1
      · rw [t2] at ho
        unfold upd at ho
        by_cases hoa : o = a
        · rw [if_pos hoa] at ho; cases ho
        · rw [if_neg hoa] at ho
          obtain ⟨e1, e2⟩ := h.entries o ho
          exact ⟨mem_erase_objs h.inv.objs e1 hoa, e2⟩
  case item.update.none =>
    exact ⟨T, rfl, h.shows.congr (fun _ _ => Iff.rfl), hinv, h.rootFrame, h.frames, h.maps, h.entries⟩
  case layerTree.add.some b =>
    exact ⟨T, rfl, h.shows.congr (fun _ _ => Iff.rfl), hinv, h.rootFrame, h.frames, h.maps, h.entries⟩
  case layerTree.remove.some b =>
    exact ⟨T, rfl, h.shows.congr (fun _ _ => Iff.rfl), hinv, h.rootFrame, h.frames, h.maps, h.entries⟩
  case frameTree.add.some b =>
    obtain ⟨h1, h2, h3⟩ := ha
    obtain ⟨g1, g2, g3, g4⟩ := hg
    dsimp only at h1 h2 h3 g1 g2 g3 g4
    have hka := (h3 trivial).1
    have hkb := (h3 trivial).2
    have hp : (T.map a).isSome := by
      rcases g4 with rfl | ⟨q, hq | hq⟩
      · obtain ⟨w, hw, _⟩ := h.shows.root; rw [hw]; rfl
      · exact (h.shows.has _ _ hq).1
      · exact (h.shows.has _ _ hq).2
    obtain ⟨m1, m2, m3, m4⟩ := h.shows.get b
    obtain ⟨v, hv⟩ := Option.isSome_iff_exists.1 hp
    obtain ⟨w, hw⟩ := Option.isSome_iff_exists.1 m2
    have hv' := m4 a v hv
    have hfree : ∀ q, ¬ Pic.up A b q := by
      rintro q (hq | hq)
      · exact h1 (List.mem_map_of_mem (f := (·.1)) hq)
      · have := (h.maps _ hq).1
        dsimp only at this
        rw [g2] at this; cases this
    obtain ⟨T', t1, t2, t3⟩ := m1.link hw hv' (fun hh => h2 hh.symm) hfree g3
    refine ⟨T', ?_, t3.congr ?_, hinv, h.rootFrame, ?_, h.maps, ?_⟩
    · show T.childAdded a b = _
      unfold Tree.childAdded
      rw [get_of_some true hp]
      dsimp only
      rw [ptr_of_some hv', ptr_of_some hw]
      exact t1
    · intro o q
      show ((o, q) ∈ (b, a) :: A.f ∨ (o, q) ∈ A.c) ↔ ((o, q) ∈ A.f ∨ (o, q) ∈ A.c) ∨ (o = b ∧ q = a)
      rw [List.mem_cons, Prod.mk.injEq]
      constructor
      · rintro ((hx | hx) | hx)
        · exact Or.inr hx
        · exact Or.inl (Or.inl hx)
        · exact Or.inl (Or.inr hx)
      · rintro ((hx | hx) | hx)
        · exact Or.inl (Or.inr hx)
        · exact Or.inr hx
        · exact Or.inl (Or.inl hx)
    · intro l hl
      rcases List.mem_cons.1 hl with rfl | hl
      · exact ⟨g2, g1, g3⟩
      · exact h.frames l hl
    · intro o ho
      rw [t2] at ho
      by_cases hob : o = b
      · subst hob
        exact ⟨List.mem_map_of_mem (f := (·.2)) hkb, fun hh => by rw [g2] at hh; cases hh⟩
      · rw [m3 o hob] at ho
        exact h.entries o ho
  case frameTree.remove.some b =>
    obtain ⟨h1, h3⟩ := ha
    dsimp only at h1 h3
    have hleaf : ∀ q, ¬ Pic.up A q b := hg
    have hup : Pic.up A b a := Or.inl h1
    have hab : b ≠ a := (h.inv.f _ h1).2.2
    obtain ⟨i1, i2⟩ := h.shows.has b a hup
    obtain ⟨w, hw⟩ := Option.isSome_iff_exists.1 i1
    obtain ⟨v, hv⟩ := Option.isSome_iff_exists.1 i2
    obtain ⟨T1, t1, t2, t3⟩ := h.shows.unlink hw hv hab hup
    obtain ⟨T', u1, u2, u3⟩ := t3.drop (o := b) (w := w) (by rw [t2]; exact hw) (h.frames _ h1).2.2
      (fun q => ⟨fun hh => hh.2 rfl, fun hh => hleaf q hh.1⟩)
    refine ⟨T', ?_, u3.congr ?_, hinv, h.rootFrame, fun l hl => h.frames l (List.mem_of_mem_erase hl), h.maps, ?_⟩
    · show T.childRemoved a b = _
      unfold Tree.childRemoved
      rw [get_of_some false i1, get_of_some false i2]
      dsimp only
      rw [ptr_of_some hv, ptr_of_some hw, t1]
      exact u1
    · intro o q
      show ((o, q) ∈ A.f.erase (b, a) ∨ (o, q) ∈ A.c) ↔ ((o, q) ∈ A.f ∨ (o, q) ∈ A.c) ∧ o ≠ b
      have hnd : A.f.Nodup := nodup_of_keys h.inv.fOne
      rw [hnd.mem_erase_iff]
      constructor
      · rintro (⟨hx, hy⟩ | hx)
        · refine ⟨Or.inl hy, fun hh => hx ?_⟩
          subst hh
          rw [h.shows.one o q a (Or.inl hy) (Or.inl h1)]
        · refine ⟨Or.inr hx, fun hh => ?_⟩
          subst hh
          have p1 := (h.maps _ hx).1
          have p2 := (h.frames _ h1).1
          dsimp only at p1 p2
          rw [p1] at p2; cases p2
      · rintro ⟨hx | hx, hy⟩
        · exact Or.inl ⟨fun hh => hy (Prod.mk.inj hh).1, hx⟩
        · exact Or.inr hx
    · intro o ho
      rw [u2, t2] at ho
      unfold upd at ho
      by_cases hob : o = b
      · rw [if_pos hob] at ho; cases ho
      · rw [if_neg hob] at ho
        exact h.entries o ho
  case frameNode.add.some b =>
    obtain ⟨h1, h3⟩ := ha
    obtain ⟨g1, g2⟩ := hg
    dsimp only at h1 h3 g1 g2
    have hka := (h3 trivial).1
    have hkb := (h3 trivial).2
    have hab : a ≠ b := fun hh => by rw [hh, g2] at g1; cases g1
    have har : a ≠ r := fun hh => by rw [hh, h.rootFrame] at g1; cases g1
    obtain ⟨m1, m2, m3, m4⟩ := h.shows.get a
    obtain ⟨n1, n2, n3, n4⟩ := m1.get b
    obtain ⟨w, hw⟩ := Option.isSome_iff_exists.1 m2
    obtain ⟨v, hv⟩ := Option.isSome_iff_exists.1 n2
    have hw' := n4 a w hw
    have hfree : ∀ q, ¬ Pic.up A a q := by
      rintro q (hq | hq)
      · have := (h.frames _ hq).1
        dsimp only at this
        rw [g1] at this; cases this
      · exact h1 (List.mem_map_of_mem (f := (·.1)) hq)
    obtain ⟨T', t1, t2, t3⟩ := n1.link hw' hv hab hfree har
    refine ⟨T', ?_, t3.congr ?_, hinv, h.rootFrame, h.frames, ?_, ?_⟩
    · show T.frameNodeSet a b = _
      unfold Tree.frameNodeSet
      dsimp only
      rw [ptr_of_some hv, ptr_of_some hw']
      exact t1
    · intro o q
      show ((o, q) ∈ A.f ∨ (o, q) ∈ (a, b) :: A.c) ↔ ((o, q) ∈ A.f ∨ (o, q) ∈ A.c) ∨ (o = a ∧ q = b)
      rw [List.mem_cons, Prod.mk.injEq]
      constructor
      · rintro (hx | hx | hx)
        · exact Or.inl (Or.inl hx)
        · exact Or.inr hx
        · exact Or.inl (Or.inr hx)
      · rintro ((hx | hx) | hx)
        · exact Or.inl hx
        · exact Or.inr (Or.inr hx)
        · exact Or.inr (Or.inl hx)
    · intro l hl
      rcases List.mem_cons.1 hl with rfl | hl
      · exact ⟨g1, g2⟩
      · exact h.maps l hl
    · intro o ho
      rw [t2] at ho
      by_cases hoa : o = a
      · subst hoa
        exact ⟨List.mem_map_of_mem (f := (·.2)) hka, fun _ => ⟨b, List.mem_cons_self ..⟩⟩
      · by_cases hob : o = b
        · subst hob
          exact ⟨List.mem_map_of_mem (f := (·.2)) hkb, fun hh => by rw [g2] at hh; cases hh⟩
        · rw [n3 o hob, m3 o hoa] at ho
          obtain ⟨e1, e2⟩ := h.entries o ho
          exact ⟨e1, fun hh => (e2 hh).imp (fun _ hx => List.mem_cons_of_mem _ hx)⟩
  case frameNode.remove.some b =>
    obtain ⟨h1, h3⟩ := ha
    dsimp only at h1 h3
    obtain ⟨g1, g2⟩ := h.maps _ h1
    dsimp only at g1 g2
    have hleaf : ∀ q, ¬ Pic.up A q a := by
      rintro q (hq | hq)
      · have := (h.frames _ hq).2.1
        dsimp only at this
        rw [g1] at this; cases this
      · have := (h.maps _ hq).2
        dsimp only at this
        rw [g1] at this; cases this
    have hup : Pic.up A a b := Or.inr h1
    have hab : a ≠ b := fun hh => by rw [hh, g2] at g1; cases g1
    have har : a ≠ r := fun hh => by rw [hh, h.rootFrame] at g1; cases g1
    obtain ⟨i1, i2⟩ := h.shows.has a b hup
    obtain ⟨w, hw⟩ := Option.isSome_iff_exists.1 i1
    obtain ⟨v, hv⟩ := Option.isSome_iff_exists.1 i2
    obtain ⟨T1, t1, t2, t3⟩ := h.shows.unlink hw hv hab hup
    obtain ⟨T', u1, u2, u3⟩ := t3.drop (o := a) (w := w) (by rw [t2]; exact hw) har
      (fun q => ⟨fun hh => hh.2 rfl, fun hh => hleaf q hh.1⟩)
    have hnd : A.c.Nodup := nodup_of_keys h.inv.cOne
    refine ⟨T', ?_, u3.congr ?_, hinv, h.rootFrame, h.frames, fun l hl => h.maps l (List.mem_of_mem_erase hl), ?_⟩
    · show T.frameNodeDetached a b = _
      unfold Tree.frameNodeDetached
      rw [get_of_some false i2, get_of_some false i1]
      dsimp only
      rw [ptr_of_some hv, ptr_of_some hw, t1]
      exact u1
    · intro o q
      show ((o, q) ∈ A.f ∨ (o, q) ∈ A.c.erase (a, b)) ↔ ((o, q) ∈ A.f ∨ (o, q) ∈ A.c) ∧ o ≠ a
      rw [hnd.mem_erase_iff]
      constructor
      · rintro (hx | ⟨hx, hy⟩)
        · refine ⟨Or.inl hx, fun hh => ?_⟩
          subst hh
          have p2 := (h.frames _ hx).1
          dsimp only at p2
          rw [g1] at p2; cases p2
        · refine ⟨Or.inr hy, fun hh => hx ?_⟩
          subst hh
          rw [h.shows.one o q b (Or.inr hy) (Or.inr h1)]
      · rintro ⟨hx | hx, hy⟩
        · exact Or.inl hx
        · exact Or.inr ⟨fun hh => hy (Prod.mk.inj hh).1, hx⟩
    · intro o ho
      rw [u2, t2] at ho
      unfold upd at ho
      by_cases hoa : o = a
      · rw [if_pos hoa] at ho; cases ho
      · rw [if_neg hoa] at ho
        obtain ⟨e1, e2⟩ := h.entries o ho
        refine ⟨e1, fun hh => (e2 hh).imp (fun q hx => ?_)⟩
        show (o, q) ∈ A.c.erase (a, b)
        rw [hnd.mem_erase_iff]
        exact ⟨fun hh => hoa (Prod.mk.inj hh).1, hx⟩

theorem Inv.run {fr : Obj → Bool} {r : Obj} : ∀ (es : List Ev) {A : Pic} {T : Tree}, Inv fr r A T → Adms True True A es →
    Gentles fr r A es → ∃ T', T.run fr es = .ok T' ∧ Inv fr r (A.follow es) T' := by
  intro es
  induction es with
  | nil => intro A T h _ _; exact ⟨T, rfl, h⟩
  | cons e es ih =>
    intro A T h ha hg
    obtain ⟨T1, t1, t2⟩ := h.step ha.1 hg.1
    obtain ⟨T', u1, u2⟩ := ih t2 ha.2 hg.2
    refine ⟨T', ?_, u2⟩
    show (T.handle fr e).bind _ = _
    rw [t1]
    exact u1

/-- what a fresh environment tells a new handler -/
def hello (r : Obj) : List Ev := [⟨.item, .add, r, none, ['/', '0'], []⟩, ⟨.root, .add, r, none, ['/', '0'], []⟩]

theorem run_append (fr : Obj → Bool) (es fs : List Ev) : ∀ T : Tree, T.run fr (es ++ fs) = (T.run fr es).bind (fun T => T.run fr fs) := by
  induction es with
  | nil => intro T; rfl
  | cons e es ih =>
    intro T
    show (T.handle fr e).bind (fun T => T.run fr (es ++ fs)) = ((T.handle fr e).bind (fun T => T.run fr es)).bind _
    cases T.handle fr e with
    | ok T => exact ih T
    | throw _ => rfl
    | deadlock => rfl
    | ub => rfl

theorem inv_hello {fr : Obj → Bool} {r : Obj} (hr : fr r = true) :
    ∃ T, Tree.empty.run fr (hello r) = .ok T ∧ Inv fr r (startPic r) T := by
  refine ⟨Tree.empty.make r true, rfl, ?_, ?_, hr, ?_, ?_, ?_⟩
  · have hm : ∀ o w, (Tree.empty.make r true).map o = some w → o = r ∧ w = 0 := by
      intro o w ho
      have ho : upd (fun _ => none) r (some 0) o = some w := ho
      unfold upd at ho
      by_cases h : o = r
      · rw [if_pos h] at ho; exact ⟨h, (Option.some.inj ho).symm⟩
      · rw [if_neg h] at ho; cases ho
    have hno : ∀ o p, ¬ Pic.up (startPic r) o p := by
      rintro o p (h | h)
      · exact absurd h (by simp [startPic])
      · exact absurd h (by simp [startPic])
    refine ⟨⟨0, ?_, rfl⟩, fun c p h => absurd h (hno c p), fun c p q h => absurd h (hno c p), ?_⟩
    · show upd (fun _ => none) r (some 0) r = some 0
      unfold upd; rw [if_pos rfl]
    · intro o w ho
      obtain ⟨rfl, rfl⟩ := hm o w ho
      refine ⟨Nat.one_pos, rfl, ⟨none, [], true⟩, rfl, ⟨fun _ => rfl, fun _ => rfl⟩, List.nodup_nil, ?_, ?_⟩
      · intro v
        exact ⟨fun h => absurd h (by simp), fun ⟨p, hp, _⟩ => absurd hp (hno _ p)⟩
      · intro k
        exact ⟨fun h => absurd h (by simp), fun ⟨c, hc, _⟩ => absurd hc (hno c _)⟩
  · refine ⟨?_, ?_, ?_, ?_, ?_, ?_, ?_, ?_⟩ <;> simp [startPic]
  · simp [startPic]
  · simp [startPic]
  · intro o ho
    have ho : (upd (fun _ => none) r (some 0) o).isSome = true := ho
    unfold upd at ho
    by_cases h : o = r
    · subst h
      exact ⟨by simp [startPic], fun hh => by rw [hr] at hh; cases hh⟩
    · rw [if_neg h] at ho; cases ho

/-- **C148, the part that holds.** The tree is registered on a fresh environment. As long as links are made only below frames
that are shown, frames leave their parents only with nothing below them, and the root frame stays: the tree shows the
frames below their parents and the maps below their frames, every item once, nothing else, and no item of the tree is
used after it was deleted. -/
theorem C148_tree_partial {fr : Obj → Bool} {r : Obj} (hr : fr r = true) (es : List Ev) (ha : Adms True True (startPic r) es)
    (hg : Gentles fr r (startPic r) es) :
    ∃ T, Tree.empty.run fr (hello r ++ es) = .ok T ∧ Mirrors T (Pic.up ((startPic r).follow es)) r ∧
      ∀ o, (T.map o).isSome → o ∈ ((startPic r).follow es).items.map (·.2) := by
  obtain ⟨T, t1, t2⟩ := inv_hello hr
  obtain ⟨T', u1, u2⟩ := t2.run es ha hg
  refine ⟨T', ?_, u2.shows, fun o ho => (u2.entries o ho).1⟩
  rw [run_append, t1]
  exact u1

/-- **C148 for environments.** -/
theorem C148_environment_partial {r : Obj} {s : Env} (h : Reach View.Tidy r s) {fr : Obj → Bool} (hr : fr r = true) :
    ∃ es, s.log = (init r).log ++ es ∧ (Gentles fr r (startPic r) es →
      ∃ T, Tree.empty.run fr (hello r ++ es) = .ok T ∧
        Mirrors T (fun o p => s.getParent o = some p ∨ s.getFrameNode o = some p) r ∧
        ∀ o, (T.map o).isSome → ∃ id, s.getItem id = some o) := by
  have hgood : Reach Good r s := h.mono (fun _ _ h => h.1)
  obtain ⟨es, e1, e2, e3⟩ := reach_stream (G := View.Tidy) (g := True) (d := True) (fun s op hc hg => Good.legal hc hg.1)
    (fun {r s} hh => (hh.mono (fun _ _ h => h.1) : Reach Good r s).wf_closed)
    (fun _ s op hg => ⟨hg.1, hg.2.1⟩) (fun _ s op hg => hg.2.2) h
  refine ⟨es, e1, fun hg => ?_⟩
  obtain ⟨T, t1, t2, t3⟩ := C148_tree_partial hr es e2 hg
  have hw : WF s := hgood.wf_closed.1
  have hs := e3.shows hw
  refine ⟨T, t1, t2.congr (fun o p => ?_), fun o ho => ?_⟩
  · unfold Pic.up
    rw [hs.parent, hs.frame]
  · obtain ⟨x, hx, rfl⟩ := List.mem_map.1 (t3 o ho)
    exact ⟨x.1, (hs.items x.1 x.2).1 hx⟩

/-- items 5 to 7 are maps, the others frames -/
def frames5 (o : Obj) : Bool := decide (o < 5 ∨ 7 < o)

/-- the tree of a history -/
def leaf (s : Env) : Out Tree := Tree.empty.run frames5 (hello 0 ++ s.log.drop 1)

def isUb {σ : Type} : Out σ → Bool
  | .ub => true
  | _ => false

/-- a row of a table: the widget of an item, whether it exists, and the widgets below it -/
abbrev Row := Option Nat × Bool × List Nat

instance : DecidableEq (List Row) := inferInstance
instance : DecidableEq (List Nat × List Row) := instDecidableEqProd

/-- the tree as a table: items at the top, and rows for some items -/
def Tree.table (T : Tree) (os : List Obj) : List Nat × List Row :=
  (T.tops, os.map fun o => (T.map o, ((T.map o).bind T.widgets).isSome, (((T.map o).bind T.widgets).map (·.kids)).getD []))

def treeHistory : List Op :=
  [.alloc 1 .frame [] false 0 0, .alloc 2 .frame [] false 0 0, .alloc 3 .frame [] false 0 0, .alloc 5 .cmap [] false 0 0,
   .alloc 6 .cmap [] false 0 0, .addChildF 0 1, .addChildF 1 2, .attachMap 5 (some 2), .attach 3, .attachMap 6 (some 3),
   .addChildF 1 3, .setFrame 5 3, .removeChildF 1 2, .addChildF 0 2]

/-- the links of a picture are among its lists, so that the conditions can be computed -/
def Pic.links (A : Pic) : List (Obj × Obj) := A.f ++ A.c

theorem any_up {A : Pic} {a : Obj} (h : (Pic.links A).any (fun l => decide (l.1 = a) || decide (l.2 = a)) = true) :
    ∃ q, Pic.up A a q ∨ Pic.up A q a := by
  obtain ⟨l, hl, hl'⟩ := List.any_eq_true.1 h
  have hup : Pic.up A l.1 l.2 := List.mem_append.1 hl
  rw [Bool.or_eq_true, decide_eq_true_eq, decide_eq_true_eq] at hl'
  rcases hl' with rfl | rfl
  · exact ⟨_, Or.inl hup⟩
  · exact ⟨_, Or.inr hup⟩

theorem no_up {A : Pic} {b : Obj} (h : (Pic.links A).all (fun l => decide (l.2 ≠ b)) = true) (q : Obj) : ¬ Pic.up A q b :=
  fun hq => absurd rfl (of_decide_eq_true (List.all_eq_true.1 h (q, b) (List.mem_append.2 hq)))

/-- Gentle, computed -/
def gentle (fr : Obj → Bool) (r : Obj) (A : Pic) (e : Ev) : Bool :=
  match e.ty, e.op, e.b with
  | .item, .remove, none => decide (e.a ≠ r)
  | .frameTree, .add, some b => fr e.a && fr b && decide (b ≠ r) &&
      (decide (e.a = r) || (Pic.links A).any (fun l => decide (l.1 = e.a) || decide (l.2 = e.a)))
  | .frameTree, .remove, some b => (Pic.links A).all (fun l => decide (l.2 ≠ b))
  | .frameNode, .add, some b => !fr e.a && fr b
  | _, _, _ => true

theorem gentle_sound {fr : Obj → Bool} {r : Obj} {A : Pic} {e : Ev} (h : gentle fr r A e = true) : Gentle fr r A e := by
  obtain ⟨ty, op, a, b, ida, idb⟩ := e
  cases ty <;> cases op <;> cases b <;> first
    | exact trivial
    | skip
  · exact (of_decide_eq_true h : a ≠ r)
  · simp only [gentle, Bool.and_eq_true, Bool.or_eq_true] at h
    obtain ⟨⟨⟨h1, h2⟩, h3⟩, h4⟩ := h
    exact ⟨h1, h2, of_decide_eq_true h3, h4.imp of_decide_eq_true any_up⟩
  · exact no_up h
  · simp only [gentle, Bool.and_eq_true, Bool.not_eq_true'] at h
    exact h

def gentles (fr : Obj → Bool) (r : Obj) : Pic → List Ev → Bool
  | _, [] => true
  | A, e :: es => gentle fr r A e && gentles fr r (A.apply e) es

theorem gentles_sound {fr : Obj → Bool} {r : Obj} : ∀ (es : List Ev) {A : Pic}, gentles fr r A es = true → Gentles fr r A es := by
  intro es
  induction es with
  | nil => intros; trivial
  | cons e es ih =>
    intro A h
    rw [gentles, Bool.and_eq_true] at h
    exact ⟨gentle_sound h.1, ih h.2⟩

/-- the hypotheses of C148 are met by a history that links, moves and takes away frames and maps -/
example : ∃ s, View.tidyRun (init 0) treeHistory = some s ∧
    (gentles frames5 0 (startPic 0) (s.log.drop 1) = true ∧
     (leaf s).ok?.map (fun T => T.table [0, 1, 2, 3, 5, 6]) =
       some ([0], [(some 0, true, [1, 7]), (some 1, true, [5]), (some 7, true, []), (some 5, true, [4, 6]),
         (some 6, true, []), (some 4, true, [])])) :=
  ex_of_any (by decide +kernel)

/-- **C148, the code violates the property**: a frame that has something below it is moved to another parent. The frame
below it stays attached and linked in the environment, but its place in the tree is an item that was deleted. -/
theorem C148_moved :
    ∃ s, run (init 0) [.alloc 1 .frame [] true 0 0, .alloc 2 .frame [] true 0 0, .alloc 3 .frame [] true 0 0, .addChildF 0 1,
        .addChildF 1 2, .addChildF 0 3, .addChildF 3 1] = some s ∧
      (s.getParent 2 = some 1 ∧ s.getParent 1 = some 3 ∧
       (leaf s).ok?.map (fun T => T.table [0, 1, 2, 3]) =
         some ([0], [(some 0, true, [3]), (some 4, true, []), (some 2, false, []), (some 3, true, [4])])) :=
  ex_of_any (by decide +kernel)

/-- and when the frame below is taken away the deleted item is deleted again -/
theorem C148_moved_crash :
    ∃ s, run (init 0) [.alloc 1 .frame [] true 0 0, .alloc 2 .frame [] true 0 0, .alloc 3 .frame [] true 0 0, .addChildF 0 1,
        .addChildF 1 2, .addChildF 0 3, .addChildF 3 1, .detach 2 false] = some s ∧ isUb (leaf s) = true :=
  ex_of_any (by decide +kernel)

/-- **C148, the code violates the property**: a part of the tree that is put together before it is linked to the root
frame stays at the top of the tree, beside the root frame. -/
theorem C148_top_level :
    ∃ s, run (init 0) [.alloc 1 .frame [] true 0 0, .alloc 2 .frame [] true 0 0, .attach 1, .addChildF 1 2, .addChildF 0 1] = some s ∧
      (s.getParent 1 = some 0 ∧
       (leaf s).ok?.map (fun T => T.table [0, 1, 2]) =
         some ([0, 1], [(some 0, true, []), (some 1, true, [2]), (some 2, true, [])])) :=
  ex_of_any (by decide +kernel)

#print axioms C148_tree_partial
#print axioms C148_environment_partial
#print axioms C148_moved
#print axioms C148_moved_crash
#print axioms C148_top_level

end TreeView
end Envire
