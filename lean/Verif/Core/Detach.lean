import Verif.Core.Closed
/-! Helper lemmas: detaching in closed states, exactly (including the events), shallow and deep. -/
namespace Envire
namespace Env

theorem emit_here1 {s : Env} {ty : EvType} {op : EvOp} {a : Obj} (ha : s.owner a = .here) :
    emit s ty op a none = .ok { s with log := s.log ++ [mkEv s ty op a none] } := by
  unfold emit
  dsimp only
  rw [if_neg (by rw [ha]; decide), dropTmp_of_not_free (by show s.owner a ≠ _; rw [ha]; decide)]
  rfl

theorem emit_here2 {s : Env} {ty : EvType} {op : EvOp} {a b : Obj} (ha : s.owner a = .here)
    (hb : s.owner b = .here) :
    emit s ty op a (some b) = .ok { s with log := s.log ++ [mkEv s ty op a (some b)] } := by
  unfold emit
  dsimp only
  rw [if_neg (by rw [ha, hb]; decide), dropTmp_of_not_free (o := b) (by show s.owner b ≠ _; rw [hb]; decide),
    dropTmp_of_not_free (by show s.owner a ≠ _; rw [ha]; decide)]
  rfl

theorem removeChildF_here {s : Env} {p c : Obj} (hp : s.getParent c = some p) (h1 : s.owner p = .here)
    (h2 : s.owner c = .here) :
    s.removeChildF p c = .ok { s with ftree := eraseKey c s.ftree,
                                      log := s.log ++ [mkEv s .frameTree .remove p (some c)] } := by
  unfold removeChildF
  rw [if_pos hp, emit_here2 h1 h2]; rfl

theorem detachFrame_here {s : Env} {m f : Obj} (hp : s.getFrameNode m = some f) (h1 : s.owner m = .here)
    (h2 : s.owner f = .here) :
    s.detachFrame m f = .ok { s with cmap := eraseKey m s.cmap,
                                     log := s.log ++ [mkEv s .frameNode .remove m (some f)] } := by
  unfold detachFrame
  rw [if_pos hp, emit_here2 h1 h2]; rfl

theorem removeChildL_here {s : Env} {p c : Obj} (h1 : s.owner p = .here) (h2 : s.owner c = .here) :
    s.removeChildL p c = .ok { s with ltree := s.ltree.erase (c, p),
                                      log := s.log ++ [mkEv s .layerTree .remove p (some c)] } := by
  unfold removeChildL
  rw [emit_here2 h1 h2]; rfl

theorem filter_ne_keys {e : Obj × Obj} {r l : List (Obj × Obj)} (hL : (e :: r).Sublist l)
    (hn : (l.map (·.1)).Nodup) : r.Sublist (eraseKey e.1 l) := by
  have hn' : ((e :: r).map (·.1)).Nodup := nodup_keys_sublist hL hn
  rw [List.map_cons, List.nodup_cons] at hn'
  have := List.Sublist.filter (fun p : Obj × Obj => decide (p.1 ≠ e.1)) hL
  rw [List.filter_cons_of_neg (by simp)] at this
  have hr' : r.filter (fun p : Obj × Obj => decide (p.1 ≠ e.1)) = r := by
    rw [List.filter_eq_self]
    intro x hx
    simp only [decide_eq_true_eq]
    intro he; exact hn'.1 (List.mem_map.2 ⟨x, hx, he⟩)
  rw [hr'] at this
  exact this

theorem eraseKey_filter_keys (e : Obj × Obj) (r l : List (Obj × Obj)) :
    (eraseKey e.1 l).filter (fun x => decide (x.1 ∉ r.map (·.1))) =
      l.filter (fun x => decide (x.1 ∉ (e :: r).map (·.1))) := by
  unfold eraseKey
  rw [List.filter_filter]
  apply List.filter_congr
  intro x hx
  by_cases h1 : x.1 = e.1 <;> simp [h1]

theorem unlinkF_exact (L : List (Obj × Obj)) : ∀ s : Env, (s.ftree.map (·.1)).Nodup → L.Sublist s.ftree →
    (∀ e ∈ L, s.owner e.1 = .here ∧ s.owner e.2 = .here) →
    foldRes (fun s (e : Obj × Obj) => removeChildF s e.2 e.1) L s =
      .ok { s with ftree := s.ftree.filter (fun e => decide (e.1 ∉ L.map (·.1))),
                   log := s.log ++ L.map (fun e => mkEv s .frameTree .remove e.2 (some e.1)) } := by
  induction L with
  | nil =>
    intro s _ _ _
    have : s.ftree.filter (fun e => decide (e.1 ∉ ([] : List (Obj × Obj)).map (·.1))) = s.ftree := by
      rw [List.filter_eq_self]; intro a _; simp
    rw [this]
    simp [foldRes]
  | cons e r ih =>
    intro s hn hL hh
    have hmem : e ∈ s.ftree := hL.subset (by simp)
    have hp : s.getParent e.1 = some e.2 := (look_eq_some_iff hn).2 hmem
    obtain ⟨h1, h2⟩ := hh e (by simp)
    unfold foldRes
    rw [removeChildF_here hp h2 h1, Res.ok_bind]
    refine (ih _ ?_ ?_ ?_).trans ?_
    · exact nodup_keys_sublist (eraseKey_sublist _ _) hn
    · exact filter_ne_keys hL hn
    · exact fun x hx => hh x (List.mem_cons_of_mem _ hx)
    dsimp only
    rw [eraseKey_filter_keys, List.append_assoc]
    rfl

theorem unlinkC_exact (L : List (Obj × Obj)) : ∀ s : Env, (s.cmap.map (·.1)).Nodup → L.Sublist s.cmap →
    (∀ e ∈ L, s.owner e.1 = .here ∧ s.owner e.2 = .here) →
    foldRes (fun s (e : Obj × Obj) => detachFrame s e.1 e.2) L s =
      .ok { s with cmap := s.cmap.filter (fun e => decide (e.1 ∉ L.map (·.1))),
                   log := s.log ++ L.map (fun e => mkEv s .frameNode .remove e.1 (some e.2)) } := by
  induction L with
  | nil =>
    intro s _ _ _
    have : s.cmap.filter (fun e => decide (e.1 ∉ ([] : List (Obj × Obj)).map (·.1))) = s.cmap := by
      rw [List.filter_eq_self]; intro a _; simp
    rw [this]
    simp [foldRes]
  | cons e r ih =>
    intro s hn hL hh
    have hmem : e ∈ s.cmap := hL.subset (by simp)
    have hp : s.getFrameNode e.1 = some e.2 := (look_eq_some_iff hn).2 hmem
    obtain ⟨h1, h2⟩ := hh e (by simp)
    unfold foldRes
    rw [detachFrame_here hp h1 h2, Res.ok_bind]
    refine (ih _ ?_ ?_ ?_).trans ?_
    · exact nodup_keys_sublist (eraseKey_sublist _ _) hn
    · exact filter_ne_keys hL hn
    · exact fun x hx => hh x (List.mem_cons_of_mem _ hx)
    dsimp only
    rw [eraseKey_filter_keys, List.append_assoc]
    rfl

theorem unlinkL_exact (L : List (Obj × Obj)) : ∀ s : Env,
    (∀ e ∈ L, s.owner e.1 = .here ∧ s.owner e.2 = .here) →
    foldRes (fun s (e : Obj × Obj) => removeChildL s e.2 e.1) L s =
      .ok { s with ltree := L.foldl List.erase s.ltree,
                   log := s.log ++ L.map (fun e => mkEv s .layerTree .remove e.2 (some e.1)) } := by
  induction L with
  | nil => intro s _; simp [foldRes]
  | cons e r ih =>
    intro s hh
    obtain ⟨h1, h2⟩ := hh e (by simp)
    unfold foldRes
    rw [removeChildL_here h2 h1, Res.ok_bind]
    refine (ih _ ?_).trans ?_
    · exact fun x hx => hh x (List.mem_cons_of_mem _ hx)
    dsimp only
    rw [List.append_assoc]
    rfl

theorem unlinkI_exact (L : List (Obj × Obj)) : ∀ s : Env,
    foldRes (fun s (e : Obj × Obj) => .ok (removeInput s e.1 e.2)) L s =
      .ok { s with opIn := s.opIn.filter (fun e => decide (e ∉ L)) } := by
  induction L with
  | nil =>
    intro s
    have : s.opIn.filter (fun e => decide (e ∉ ([] : List (Obj × Obj)))) = s.opIn := by
      rw [List.filter_eq_self]; intro a _; simp
    rw [this]; rfl
  | cons e r ih =>
    intro s
    unfold foldRes
    rw [Res.ok_bind, ih]
    unfold removeInput
    dsimp only
    congr 2
    rw [List.filter_filter]
    apply List.filter_congr
    intro x hx
    by_cases h1 : x = e <;> simp [h1]

theorem unlinkO_exact (L : List (Obj × Obj)) : ∀ s : Env,
    foldRes (fun s (e : Obj × Obj) => .ok (removeOutput s e.1 e.2)) L s =
      .ok { s with opOut := s.opOut.filter (fun e => decide (e ∉ L)) } := by
  induction L with
  | nil =>
    intro s
    have : s.opOut.filter (fun e => decide (e ∉ ([] : List (Obj × Obj)))) = s.opOut := by
      rw [List.filter_eq_self]; intro a _; simp
    rw [this]; rfl
  | cons e r ih =>
    intro s
    unfold foldRes
    rw [Res.ok_bind, ih]
    unfold removeOutput
    dsimp only
    congr 2
    rw [List.filter_filter]
    apply List.filter_congr
    intro x hx
    by_cases h1 : x = e <;> simp [h1]

/-- events sent when `o` is detached -/
def detachEvents (s : Env) (o : Obj) : List Ev :=
  (s.ftree.filter (mentions o)).map (fun e => mkEv s .frameTree .remove e.2 (some e.1)) ++
  (s.ltree.filter (mentions o)).map (fun e => mkEv s .layerTree .remove e.2 (some e.1)) ++
  (s.cmap.filter (mentions o)).map (fun e => mkEv s .frameNode .remove e.1 (some e.2)) ++
  [mkEv s .item .remove o none]

/-- the state after detachItem(o, false) -/
def detached (s : Env) (o : Obj) : Env :=
  { s with ftree := without o s.ftree, ltree := without o s.ltree, opIn := without o s.opIn,
           opOut := without o s.opOut, cmap := without o s.cmap,
           items := eraseKey (s.uid o) s.items, owner := upd s.owner o (s.afterRelease o),
           log := s.log ++ s.detachEvents o }

theorem detachShallow_exact {s : Env} (hw : WF s) (hc : Closed s) {o : Obj} (ho : s.owner o = .here) :
    s.detachShallow o = .ok (s.detached o) := by
  unfold detachShallow
  rw [if_neg (by rw [ho]; decide)]
  rw [if_neg (by
    intro hn; exact hn (List.mem_map.2 ⟨(s.uid o, o), (hw.items_iff _ _).2 ⟨ho, rfl⟩, rfl⟩))]
  unfold unlinkAll
  rw [unlinkF_exact _ s hw.ftree_nodup List.filter_sublist (fun e he => (hc.ftree e (List.mem_filter.1 he).1).1)]
  rw [Res.ok_bind, unlinkL_exact, Res.ok_bind, unlinkI_exact, Res.ok_bind, unlinkO_exact, Res.ok_bind, unlinkC_exact,
    Res.ok_bind]
  rotate_left
  · exact hw.cmap_nodup
  · exact List.filter_sublist
  · exact fun e he => (hc.cmap e (List.mem_filter.1 he).1).1
  · exact fun e he => (hc.ltree e (List.mem_filter.1 he).1).1
  dsimp only
  unfold dropItem
  rw [emit_here1 (by exact ho), Res.ok_bind]
  dsimp only
  rw [hw.look_uid ho]
  dsimp only
  rw [if_pos rfl, eraseKeys_filter o hw.ftree_nodup, eraseKeys_filter o hw.cmap_nodup, foldl_erase_filter,
    filter_not_mem_filter, filter_not_mem_filter]
  unfold detached detachEvents
  simp only [List.append_assoc]
  rfl

/-! ### deep -/

/-- strict frame ancestor relation: `Above s c p` iff p is reached from c by one or more getParent steps -/
inductive Above (s : Env) : Obj → Obj → Prop
  | one {c p : Obj} : (c, p) ∈ s.ftree → Above s c p
  | more {c p q : Obj} : (c, p) ∈ s.ftree → Above s p q → Above s c q

/-- no frame is its own ancestor -/
def Acyclic (s : Env) : Prop := ∀ x, ¬ Above s x x

theorem Above.trans {s : Env} {a b c : Obj} (h : Above s a b) (h' : Above s b c) : Above s a c := by
  induction h with
  | one h1 => exact .more h1 h'
  | more h1 _ ih => exact .more h1 (ih h')

theorem Above.sub {s s' : Env} (h : ∀ e ∈ s'.ftree, e ∈ s.ftree) {a b : Obj} (ha : Above s' a b) : Above s a b := by
  induction ha with
  | one h1 => exact .one (h _ h1)
  | more h1 _ ih => exact .more (h _ h1) ih

theorem Above.mem {s : Env} {a b : Obj} (h : Above s a b) : ∃ p, (a, p) ∈ s.ftree := by
  cases h with
  | one h => exact ⟨_, h⟩
  | more h _ => exact ⟨_, h⟩

theorem Above.target {s : Env} {a b : Obj} (h : Above s a b) : ∃ c, (c, b) ∈ s.ftree := by
  induction h with
  | one h => exact ⟨_, h⟩
  | more _ _ ih => exact ih

theorem Acyclic.sub {s s' : Env} (h : Acyclic s) (hs : ∀ e ∈ s'.ftree, e ∈ s.ftree) : Acyclic s' :=
  fun x hx => h x (hx.sub hs)

/-- what deep detach of `o` is documented to remove: the item, the frames below it, and the maps attached to
any of these -/
def Subtree (s : Env) (o x : Obj) : Prop :=
  x = o ∨ Above s x o ∨ ∃ f, (x, f) ∈ s.cmap ∧ (f = o ∨ Above s f o)

open Classical in
/-- number of frames strictly below -/
noncomputable def height (s : Env) (o : Obj) : Nat :=
  ((s.ftree.map (·.1)).filter (fun x => decide (Above s x o))).length

theorem height_lt {s : Env} (ha : Acyclic s) {c p : Obj} (h : (c, p) ∈ s.ftree) : s.height c < s.height p := by
  classical
  unfold height
  have hsub : ∀ l : List Obj,
      (l.filter (fun x => decide (Above s x c))).length ≤ (l.filter (fun x => decide (Above s x p))).length ∧
      (c ∈ l → (l.filter (fun x => decide (Above s x c))).length < (l.filter (fun x => decide (Above s x p))).length) := by
    intro l
    induction l with
    | nil => simp
    | cons x t ih =>
      by_cases h1 : Above s x c
      · have h2 : Above s x p := h1.trans (.one h)
        rw [List.filter_cons_of_pos (by simpa using h1), List.filter_cons_of_pos (by simpa using h2)]
        refine ⟨Nat.succ_le_succ ih.1, fun hm => ?_⟩
        rcases List.mem_cons.1 hm with rfl | hm
        · exact absurd h1 (ha _)
        · exact Nat.succ_lt_succ (ih.2 hm)
      · rw [List.filter_cons_of_neg (by simpa using h1)]
        by_cases h2 : Above s x p
        · rw [List.filter_cons_of_pos (by simpa using h2)]
          exact ⟨Nat.le_succ_of_le ih.1, fun _ => Nat.lt_succ_of_le ih.1⟩
        · rw [List.filter_cons_of_neg (by simpa using h2)]
          refine ⟨ih.1, fun hm => ?_⟩
          rcases List.mem_cons.1 hm with rfl | hm
          · exact absurd (.one h) h2
          · exact ih.2 hm
  exact (hsub _).2 (List.mem_map.2 ⟨_, h, rfl⟩)

theorem height_bound {s : Env} (hw : WF s) (hc : Closed s) (ha : Acyclic s) {o : Obj} (ho : s.owner o = .here) :
    s.height o + 1 ≤ s.items.length := by
  classical
  unfold height
  have hn : (o :: (s.ftree.map (·.1)).filter (fun x => decide (Above s x o))).Nodup := by
    rw [List.nodup_cons]
    refine ⟨?_, hw.ftree_nodup.filter _⟩
    intro hm
    have := (List.mem_filter.1 hm).2
    exact ha o (by simpa using this)
  have hsub : ∀ x ∈ (o :: (s.ftree.map (·.1)).filter (fun x => decide (Above s x o))), x ∈ s.items.map (·.2) := by
    intro x hx
    have hxh : s.owner x = .here := by
      rcases List.mem_cons.1 hx with rfl | hx
      · exact ho
      · obtain ⟨e, he, rfl⟩ := List.mem_map.1 (List.mem_filter.1 hx).1
        exact (hc.ftree e he).1.1
    exact List.mem_map.2 ⟨(s.uid x, x), (hw.items_iff _ _).2 ⟨hxh, rfl⟩, rfl⟩
  have := (List.subperm_of_subset hn hsub).length_le
  simpa using this

/-- the links that do not touch `U` -/
noncomputable def dropSet (U : Obj → Prop) (l : List (Obj × Obj)) : List (Obj × Obj) :=
  open Classical in l.filter (fun e => decide (¬ U e.1 ∧ ¬ U e.2))

/-- the entries of items outside `U` -/
noncomputable def dropIds (U : Obj → Prop) (l : List (Uid × Obj)) : List (Uid × Obj) :=
  open Classical in l.filter (fun e => decide (¬ U e.2))

theorem mem_dropSet {U : Obj → Prop} {l : List (Obj × Obj)} {e : Obj × Obj} :
    e ∈ dropSet U l ↔ e ∈ l ∧ ¬ U e.1 ∧ ¬ U e.2 := by
  classical
  unfold dropSet; simp only [List.mem_filter, decide_eq_true_eq]

theorem mem_dropIds {U : Obj → Prop} {l : List (Uid × Obj)} {e : Uid × Obj} :
    e ∈ dropIds U l ↔ e ∈ l ∧ ¬ U e.2 := by
  classical
  unfold dropIds; simp only [List.mem_filter, decide_eq_true_eq]

theorem dropSet_false (l : List (Obj × Obj)) : dropSet (fun _ => False) l = l := by
  unfold dropSet; rw [List.filter_eq_self]; simp

theorem dropIds_false (l : List (Uid × Obj)) : dropIds (fun _ => False) l = l := by
  unfold dropIds; rw [List.filter_eq_self]; simp

theorem dropSet_dropSet (U V : Obj → Prop) (l : List (Obj × Obj)) :
    dropSet V (dropSet U l) = dropSet (fun x => U x ∨ V x) l := by
  unfold dropSet
  rw [List.filter_filter]
  apply List.filter_congr
  intro x _
  by_cases h1 : U x.1 <;> by_cases h2 : U x.2 <;> by_cases h3 : V x.1 <;> by_cases h4 : V x.2 <;>
    simp [h1, h2, h3, h4]

theorem dropIds_dropIds (U V : Obj → Prop) (l : List (Uid × Obj)) :
    dropIds V (dropIds U l) = dropIds (fun x => U x ∨ V x) l := by
  unfold dropIds
  rw [List.filter_filter]
  apply List.filter_congr
  intro x _
  by_cases h1 : U x.2 <;> by_cases h3 : V x.2 <;> simp [h1, h3]

/-- `s'` is `s` after the items in `U` have been detached, apart from the events -/
structure Restrict (s s' : Env) (U : Obj → Prop) : Prop where
  ftree : s'.ftree = dropSet U s.ftree
  ltree : s'.ltree = dropSet U s.ltree
  opIn : s'.opIn = dropSet U s.opIn
  opOut : s'.opOut = dropSet U s.opOut
  cmap : s'.cmap = dropSet U s.cmap
  items : s'.items = dropIds U s.items
  ownerIn : ∀ x, U x → s'.owner x = s.afterRelease x
  ownerOut : ∀ x, ¬ U x → s'.owner x = s.owner x
  uid : s'.uid = s.uid
  stat : Static s s'

theorem Restrict.empty (s : Env) : Restrict s s (fun _ => False) :=
  ⟨(dropSet_false _).symm, (dropSet_false _).symm, (dropSet_false _).symm, (dropSet_false _).symm,
   (dropSet_false _).symm, (dropIds_false _).symm, fun _ h => h.elim, fun _ _ => rfl, rfl, Static.refl s⟩

theorem Restrict.congr {s s' : Env} {U V : Obj → Prop} (h : Restrict s s' U) (he : ∀ x, U x ↔ V x) :
    Restrict s s' V := by
  have : U = V := funext fun x => propext (he x)
  exact this ▸ h

theorem Restrict.trans {s s' s'' : Env} {U V : Obj → Prop} (h : Restrict s s' U) (h' : Restrict s' s'' V) :
    Restrict s s'' (fun x => U x ∨ V x) := by
  refine ⟨?_, ?_, ?_, ?_, ?_, ?_, ?_, ?_, h'.uid.trans h.uid, h.stat.trans h'.stat⟩
  · rw [h'.ftree, h.ftree, dropSet_dropSet]
  · rw [h'.ltree, h.ltree, dropSet_dropSet]
  · rw [h'.opIn, h.opIn, dropSet_dropSet]
  · rw [h'.opOut, h.opOut, dropSet_dropSet]
  · rw [h'.cmap, h.cmap, dropSet_dropSet]
  · rw [h'.items, h.items, dropIds_dropIds]
  · intro x hx
    by_cases h1 : V x
    · rw [h'.ownerIn x h1, afterRelease_congr h.stat.held]
    · rw [h'.ownerOut x h1, h.ownerIn x (hx.resolve_right h1)]
  · intro x hx
    rw [not_or] at hx
    rw [h'.ownerOut x hx.2, h.ownerOut x hx.1]

theorem detached_restrict {s : Env} (hw : WF s) {o : Obj} (ho : s.owner o = .here) :
    Restrict s (s.detached o) (fun x => x = o) := by
  have hwo : ∀ l : List (Obj × Obj), without o l = dropSet (fun x => x = o) l := by
    intro l
    unfold without mentions dropSet
    apply List.filter_congr
    intro e _
    by_cases h1 : e.1 = o <;> by_cases h2 : e.2 = o <;> simp [h1, h2]
  refine ⟨hwo _, hwo _, hwo _, hwo _, hwo _, ?_, ?_, ?_, rfl, ⟨rfl, rfl, rfl, rfl, rfl, rfl⟩⟩
  · show eraseKey (s.uid o) s.items = _
    unfold eraseKey dropIds
    apply List.filter_congr
    rintro ⟨i, x⟩ he
    have h1 := (hw.items_iff _ _).1 he
    rw [decide_eq_decide]
    show i ≠ s.uid o ↔ ¬ x = o
    constructor
    · rintro h2 rfl; exact h2 h1.2.symm
    · rintro h2 rfl
      have h3 : (s.uid o, o) ∈ s.items := (hw.items_iff _ _).2 ⟨ho, rfl⟩
      exact h2 (keys_unique hw.items_nodup he h3)
  · rintro x rfl
    show upd s.owner x _ x = _
    rw [upd_self]
  · intro x hx
    show upd s.owner o _ x = _
    rw [upd_ne _ _ hx]

/-- nothing outside `U` hangs below something in `U` -/
def Down (s : Env) (U : Obj → Prop) : Prop :=
  (∀ x p, (x, p) ∈ s.ftree → U p → U x) ∧ (∀ x p, (x, p) ∈ s.cmap → U p → U x)

theorem Closed.not_frame_of_cmap {s : Env} (hc : Closed s) {m f x : Obj} (h : (m, f) ∈ s.cmap) :
    (x, m) ∉ s.ftree ∧ (x, m) ∉ s.cmap := by
  have h1 := (hc.cmap _ h).2.1
  constructor
  · intro h2
    have := (hc.ftree _ h2).2.2
    dsimp only at h1 this
    rw [h1] at this; cases this
  · intro h2
    have := (hc.cmap _ h2).2.2
    dsimp only at h1 this
    rw [h1] at this; cases this

theorem Subtree.down {s : Env} (hc : Closed s) (o : Obj) : Down s (Subtree s o) := by
  constructor
  · intro x p hxp hp
    rcases hp with rfl | hp | ⟨f, hf, _⟩
    · exact Or.inr (Or.inl (.one hxp))
    · exact Or.inr (Or.inl (.more hxp hp))
    · exact absurd hxp (hc.not_frame_of_cmap hf).1
  · intro x p hxp hp
    rcases hp with rfl | hp | ⟨f, hf, _⟩
    · exact Or.inr (Or.inr ⟨_, hxp, Or.inl rfl⟩)
    · exact Or.inr (Or.inr ⟨_, hxp, Or.inr hp⟩)
    · exact absurd hxp (hc.not_frame_of_cmap hf).2

theorem Restrict.subtree {s t : Env} {U : Obj → Prop} (h : Restrict s t U) (hd : Down s U) (o : Obj)
    (ho : ¬ U o) (x : Obj) : (U x ∨ Subtree t o x) ↔ (U x ∨ Subtree s o x) := by
  classical
  have hf : ∀ e, e ∈ t.ftree ↔ e ∈ s.ftree ∧ ¬ U e.1 ∧ ¬ U e.2 := by
    intro e; rw [h.ftree, mem_dropSet]
  have hcm : ∀ e, e ∈ t.cmap ↔ e ∈ s.cmap ∧ ¬ U e.1 ∧ ¬ U e.2 := by
    intro e; rw [h.cmap, mem_dropSet]
  have ab : ∀ {y}, Above t y o → Above s y o := fun ha => ha.sub (fun e he => ((hf e).1 he).1)
  have ba : ∀ {y}, Above s y o → ¬ U y → Above t y o := by
    intro y hy
    generalize hq : o = q at hy
    induction hy with
    | one h1 =>
      subst hq
      intro hu; exact .one ((hf _).2 ⟨h1, hu, ho⟩)
    | more h1 h2 ih =>
      intro hu
      have hup : ¬ U _ := fun hp => hu (hd.1 _ _ h1 hp)
      exact .more ((hf _).2 ⟨h1, hu, hup⟩) (ih hq hup)
  constructor
  · rintro (hu | rfl | ha | ⟨f, hf', hfo⟩)
    · exact Or.inl hu
    · exact Or.inr (Or.inl rfl)
    · exact Or.inr (Or.inr (Or.inl (ab ha)))
    · refine Or.inr (Or.inr (Or.inr ⟨f, ((hcm _).1 hf').1, ?_⟩))
      rcases hfo with rfl | hfo
      · exact Or.inl rfl
      · exact Or.inr (ab hfo)
  · rintro (hu | rfl | ha | ⟨f, hf', hfo⟩)
    · exact Or.inl hu
    · exact Or.inr (Or.inl rfl)
    · by_cases hu : U x
      · exact Or.inl hu
      · exact Or.inr (Or.inr (Or.inl (ba ha hu)))
    · by_cases hu : U x
      · exact Or.inl hu
      · have huf : ¬ U f := fun hf2 => hu (hd.2 _ _ hf' hf2)
        refine Or.inr (Or.inr (Or.inr ⟨f, (hcm _).2 ⟨hf', hu, huf⟩, ?_⟩))
        rcases hfo with rfl | hfo
        · exact Or.inl rfl
        · exact Or.inr (ba hfo huf)

/-- loop over items to be detached: each leaves the rest in place -/
theorem fold_restrict (f : Env → Obj → Res Env) (s : Env) (Inv : Env → Prop) (D : Obj → Obj → Prop)
    (L : List Obj) (hLn : L.Nodup) (hD : ∀ c ∈ L, Down s (D c)) (hdis : ∀ c ∈ L, ∀ c' ∈ L, c ≠ c' → ¬ D c c')
    (hstep : ∀ t U c, c ∈ L → Restrict s t U → Down s U → Inv t → ¬ U c → t.owner c = s.owner c →
      ∃ t', f t c = .ok t' ∧ Inv t' ∧ Restrict s t' (fun x => U x ∨ D c x)) :
    ∀ t U, Restrict s t U → Down s U → Inv t → (∀ c ∈ L, ¬ U c) →
      ∃ t', foldRes f L t = .ok t' ∧ Inv t' ∧ Restrict s t' (fun x => U x ∨ ∃ c ∈ L, D c x) := by
  induction L with
  | nil =>
    intro t U h _ hi _
    exact ⟨t, rfl, hi, h.congr (by simp)⟩
  | cons c r ih =>
    intro t U h hd hi hu
    rw [List.nodup_cons] at hLn
    obtain ⟨t1, e1, i1, r1⟩ := hstep t U c (by simp) h hd hi (hu c (by simp))
      (h.ownerOut c (hu c (by simp)))
    have hdc := hD c (by simp)
    obtain ⟨t2, e2, i2, r2⟩ := ih hLn.2 (fun c' h' => hD c' (List.mem_cons_of_mem _ h'))
      (fun a ha b hb => hdis a (List.mem_cons_of_mem _ ha) b (List.mem_cons_of_mem _ hb))
      (fun t U c' h' => hstep t U c' (List.mem_cons_of_mem _ h'))
      t1 _ r1
      ⟨fun x p h1 h2 => h2.elim (fun h3 => Or.inl (hd.1 x p h1 h3)) (fun h3 => Or.inr (hdc.1 x p h1 h3)),
       fun x p h1 h2 => h2.elim (fun h3 => Or.inl (hd.2 x p h1 h3)) (fun h3 => Or.inr (hdc.2 x p h1 h3))⟩
      i1
      (by
        intro c' h'
        rintro (h1 | h1)
        · exact hu c' (List.mem_cons_of_mem _ h') h1
        · exact hdis c (by simp) c' (List.mem_cons_of_mem _ h') (by rintro rfl; exact hLn.1 h') h1)
    refine ⟨t2, ?_, i2, r2.congr ?_⟩
    · unfold foldRes; rw [e1, Res.ok_bind, e2]
    · intro x
      constructor
      · rintro ((h1 | h1) | ⟨c', h', h1⟩)
        · exact Or.inl h1
        · exact Or.inr ⟨c, by simp, h1⟩
        · exact Or.inr ⟨c', List.mem_cons_of_mem _ h', h1⟩
      · rintro (h1 | ⟨c', h', h1⟩)
        · exact Or.inl (Or.inl h1)
        · rcases List.mem_cons.1 h' with rfl | h'
          · exact Or.inl (Or.inr h1)
          · exact Or.inr ⟨c', h', h1⟩

/-- what one deep detach preserves -/
def DInv (s : Env) (t : Env) : Prop := WF t ∧ Closed t ∧ (∀ e ∈ t.ftree, e ∈ s.ftree)

theorem Closed.detached {s : Env} (hw : WF s) (hc : Closed s) {o : Obj} (ho : s.owner o = .here) :
    WF (s.detached o) ∧ Closed (s.detached o) := by
  have h1 := hw.detachShallow ho
  have h2 := hc.detachShallow hw ho
  rw [detachShallow_exact hw hc ho] at h1 h2
  exact ⟨h1, h2⟩

theorem nodup_filter_keys {l : List (Obj × Obj)} (hn : (l.map (·.1)).Nodup) (p : Obj × Obj → Bool) :
    ((l.filter p).map (·.1)).Nodup := nodup_keys_sublist List.filter_sublist hn

theorem detachDeep_exact (fuel : Nat) : ∀ (s : Env) (o : Obj) (rk : Obj → Nat), WF s → Closed s →
    (∀ e ∈ s.ftree, rk e.1 < rk e.2) → s.owner o = .here →
    (if s.kind o = .frame then rk o + 2 else 1) ≤ fuel →
    ∃ s', detachDeep fuel s o = .ok s' ∧ (WF s' ∧ Closed s') ∧ Restrict s s' (Subtree s o) := by
  classical
  induction fuel with
  | zero => intro s o rk _ _ _ _ h; split at h <;> omega
  | succ n ih =>
    intro s o rk hw hc hr ho hfuel
    have hmem : ∀ {t : Env}, WF t → t.owner o = .here → t.uid o ∈ t.items.map (·.1) := by
      intro t ht h1
      exact List.mem_map.2 ⟨(t.uid o, o), (ht.items_iff _ _).2 ⟨h1, rfl⟩, rfl⟩
    have above_rk : ∀ {x y}, Above s x y → rk x < rk y := by
      intro x y h
      induction h with
      | one h => exact hr _ h
      | more h _ ih => exact Nat.lt_trans (hr _ h) ih
    unfold detachDeep
    rw [if_neg (by rw [ho]; decide), if_neg (fun h => h (hmem hw ho))]
    by_cases hk : s.kind o = .frame
    · rw [if_pos hk] at hfuel
      rw [if_pos hk]
      -- children
      have hch : ∀ c, c ∈ s.getChildren o ↔ (c, o) ∈ s.ftree := by
        intro c
        unfold getChildren
        simp only [List.mem_map, List.mem_filter, decide_eq_true_eq]
        constructor
        · rintro ⟨⟨a, b⟩, ⟨h1, h2⟩, h3⟩; dsimp only at h2 h3; subst h2; subst h3; exact h1
        · intro h; exact ⟨_, ⟨h, rfl⟩, rfl⟩
      have hst1 : ∀ t U c, c ∈ s.getChildren o → Restrict s t U → Down s U → (WF t ∧ Closed t) → ¬ U c →
          t.owner c = s.owner c →
          ∃ t', detachDeep n t c = .ok t' ∧ (WF t' ∧ Closed t') ∧ Restrict s t' (fun x => U x ∨ Subtree s c x) := by
        intro t U c hcm hrt hd hi hu hoc
        rw [hch] at hcm
        have hch' := (hc.ftree _ hcm)
        have hft : ∀ e ∈ t.ftree, e ∈ s.ftree := by
          intro e he; rw [hrt.ftree] at he; exact (mem_dropSet.1 he).1
        obtain ⟨t', e1, i1, r1⟩ := ih t c rk hi.1 hi.2 (fun e he => hr e (hft e he))
          (by rw [hoc]; exact hch'.1.1)
          (by
            rw [hrt.stat.kind, if_pos hch'.2.1]
            have := hr _ hcm; dsimp only at this; omega)
        refine ⟨t', e1, i1, (hrt.trans r1).congr ?_⟩
        exact fun x => hrt.subtree hd c hu x
      have hnd : (s.getChildren o).Nodup := nodup_filter_keys hw.ftree_nodup _
      obtain ⟨t1, e1, i1, r1⟩ := fold_restrict (detachDeep n) s (fun t => WF t ∧ Closed t) (Subtree s)
        (s.getChildren o) hnd (fun c _ => Subtree.down hc c)
        (by
          intro c h1 c' h2 hne hsub
          rw [hch] at h1 h2
          rcases hsub with rfl | hab | ⟨f, hf, _⟩
          · exact hne rfl
          · have hcr := hr _ h1
            dsimp only at hcr
            cases hab with
            | one h3 =>
              have : o = c := keys_unique hw.ftree_nodup h2 h3
              rw [this] at hcr; omega
            | more h3 h4 =>
              have hp := keys_unique hw.ftree_nodup h2 h3
              subst hp
              have := above_rk h4
              omega
          · have h3 := (hc.cmap _ hf).2.1
            have h4 := (hc.ftree _ h2).2.1
            dsimp only at h3 h4
            rw [h3] at h4; cases h4)
        hst1 s (fun _ => False) (Restrict.empty s) ⟨fun _ _ _ h => h, fun _ _ _ h => h⟩ ⟨hw, hc⟩ (fun _ _ h => h)
      rw [e1, Res.ok_bind]
      have r1' : Restrict s t1 (fun x => ∃ c ∈ s.getChildren o, Subtree s c x) := r1.congr (by simp)
      have hoU : ¬ ∃ c ∈ s.getChildren o, Subtree s c o := by
        rintro ⟨c, hcm, hsub⟩
        rw [hch] at hcm
        rcases hsub with rfl | hab | ⟨f, hf, _⟩
        · have := hr _ hcm; dsimp only at this; omega
        · have h1 := above_rk hab
          have := hr _ hcm; dsimp only at this; omega
        · have h3 := (hc.cmap _ hf).2.1
          dsimp only at h3
          rw [h3] at hk; cases hk
      have ho1 : t1.owner o = .here := (r1'.ownerOut o hoU).trans ho
      -- maps
      have hmp : ∀ m, m ∈ t1.getMaps o ↔ (m, o) ∈ t1.cmap := by
        intro c
        unfold getMaps
        simp only [List.mem_map, List.mem_filter, decide_eq_true_eq]
        constructor
        · rintro ⟨⟨a, b⟩, ⟨h1, h2⟩, h3⟩; dsimp only at h2 h3; subst h2; subst h3; exact h1
        · intro h; exact ⟨_, ⟨h, rfl⟩, rfl⟩
      have hst2 : ∀ t U m, m ∈ t1.getMaps o → Restrict t1 t U → Down t1 U → (WF t ∧ Closed t) → ¬ U m →
          t.owner m = t1.owner m →
          ∃ t', detachDeep n t m = .ok t' ∧ (WF t' ∧ Closed t') ∧ Restrict t1 t' (fun x => U x ∨ x = m) := by
        intro t U m hmm hrt hd hi hu hom
        rw [hmp] at hmm
        have hm' := i1.2.cmap _ hmm
        have hft : ∀ e ∈ t.ftree, e ∈ s.ftree := by
          intro e he; rw [hrt.ftree] at he
          have := (mem_dropSet.1 he).1
          rw [r1'.ftree] at this; exact (mem_dropSet.1 this).1
        have hkm : t.kind m = .cmap := by rw [hrt.stat.kind]; exact hm'.2.1
        obtain ⟨t', e2, i2, r2⟩ := ih t m rk hi.1 hi.2 (fun e he => hr e (hft e he))
          (by rw [hom]; exact hm'.1.1) (by rw [hkm, if_neg (by decide)]; omega)
        refine ⟨t', e2, i2, (hrt.trans r2).congr ?_⟩
        intro x
        constructor
        · rintro (h | rfl | h | ⟨f, hf, h⟩)
          · exact Or.inl h
          · exact Or.inr rfl
          · exfalso
            obtain ⟨p, hp⟩ := h.target
            have := (hi.2.ftree _ hp).2.2
            dsimp only at this
            rw [hkm] at this; cases this
          · exfalso
            have hfk := (hi.2.cmap _ hf).2.2
            dsimp only at hfk
            rcases h with rfl | h
            · rw [hkm] at hfk; cases hfk
            · obtain ⟨p, hp⟩ := h.target
              have := (hi.2.ftree _ hp).2.2
              dsimp only at this
              rw [hkm] at this; cases this
        · rintro (h | rfl)
          · exact Or.inl h
          · exact Or.inr (Or.inl rfl)
      have hnd2 : (t1.getMaps o).Nodup := nodup_filter_keys i1.1.cmap_nodup _
      obtain ⟨t2, e2, i2, r2⟩ := fold_restrict (detachDeep n) t1 (fun t => WF t ∧ Closed t) (fun m x => x = m)
        (t1.getMaps o) hnd2
        (fun m hm => ⟨fun x p h1 h2 => absurd (h2 ▸ h1) (i1.2.not_frame_of_cmap ((hmp m).1 hm)).1,
          fun x p h1 h2 => absurd (h2 ▸ h1) (i1.2.not_frame_of_cmap ((hmp m).1 hm)).2⟩)
        (fun c _ c' _ hne h => hne h.symm)
        hst2 t1 (fun _ => False) (Restrict.empty t1) ⟨fun _ _ _ h => h, fun _ _ _ h => h⟩ i1 (fun _ _ h => h)
      rw [e2]
      have r2' : Restrict t1 t2 (fun x => (x, o) ∈ t1.cmap) := r2.congr (by
        intro x; simp only [false_or]
        constructor
        · rintro ⟨c, hcm, rfl⟩; exact (hmp _).1 hcm
        · intro h; exact ⟨x, (hmp _).2 h, rfl⟩)
      have hoM : ¬ (o, o) ∈ t1.cmap := by
        intro h
        have h1 := i1.2.cmap _ h
        have h2 := h1.2.1
        have h3 := h1.2.2
        dsimp only at h2 h3
        rw [h2] at h3; cases h3
      have ho2 : t2.owner o = .here := (r2'.ownerOut o hoM).trans ho1
      refine ⟨t2.detached o, detachShallow_exact i2.1 i2.2 ho2, Closed.detached i2.1 i2.2 ho2, ?_⟩
      refine ((r1'.trans r2').trans (detached_restrict i2.1 ho2)).congr ?_
      intro x
      have hcm1 : ∀ e, e ∈ t1.cmap ↔ e ∈ s.cmap ∧ ¬ (∃ c ∈ s.getChildren o, Subtree s c e.1) ∧
          ¬ (∃ c ∈ s.getChildren o, Subtree s c e.2) := by
        intro e; rw [r1'.cmap, mem_dropSet]
      have above_child : ∀ {y}, Above s y o → ∃ c ∈ s.getChildren o, y = c ∨ Above s y c := by
        intro y hy
        generalize hq : o = q at hy
        induction hy with
        | one h => subst hq; exact ⟨_, (hch _).2 h, Or.inl rfl⟩
        | more h h' ih =>
          obtain ⟨c, h1, h2⟩ := ih hq
          refine ⟨c, h1, Or.inr ?_⟩
          rcases h2 with rfl | h2
          · exact .one h
          · exact .more h h2
      constructor
      · rintro ((⟨c, hcm, hsub⟩ | hm) | rfl)
        · rw [hch] at hcm
          rcases hsub with rfl | h | ⟨f, hf, h⟩
          · exact Or.inr (Or.inl (.one hcm))
          · exact Or.inr (Or.inl (h.trans (.one hcm)))
          · refine Or.inr (Or.inr ⟨f, hf, Or.inr ?_⟩)
            rcases h with rfl | h
            · exact .one hcm
            · exact h.trans (.one hcm)
        · exact Or.inr (Or.inr ⟨o, ((hcm1 _).1 hm).1, Or.inl rfl⟩)
        · exact Or.inl rfl
      · rintro (rfl | h | ⟨f, hf, rfl | h⟩)
        · exact Or.inr rfl
        · obtain ⟨c, h1, h2⟩ := above_child h
          refine Or.inl (Or.inl ⟨c, h1, ?_⟩)
          rcases h2 with rfl | h2
          · exact Or.inl rfl
          · exact Or.inr (Or.inl h2)
        · by_cases hx : ∃ c ∈ s.getChildren f, Subtree s c x
          · exact Or.inl (Or.inl hx)
          · exact Or.inl (Or.inr ((hcm1 _).2 ⟨hf, hx, hoU⟩))
        · obtain ⟨c, h1, h2⟩ := above_child h
          refine Or.inl (Or.inl ⟨c, h1, Or.inr (Or.inr ⟨f, hf, ?_⟩)⟩)
          exact h2
    · rw [if_neg hk, Res.ok_bind]
      refine ⟨s.detached o, detachShallow_exact hw hc ho, Closed.detached hw hc ho, ?_⟩
      refine (detached_restrict hw ho).congr ?_
      have noabove : ∀ {y}, ¬ Above s y o := by
        intro y hy
        obtain ⟨p, hp⟩ := hy.target
        exact hk (hc.ftree _ hp).2.2
      intro x
      constructor
      · rintro rfl; exact Or.inl rfl
      · rintro (h | h | ⟨f, hf, rfl | h⟩)
        · exact h
        · exact absurd h noabove
        · exact absurd (hc.cmap _ hf).2.2 hk
        · exact absurd h noabove

theorem detachDeep_total {s : Env} (hw : WF s) (hc : Closed s) (ha : Acyclic s) {o : Obj} (ho : s.owner o = .here) :
    ∃ s', s.exec (.detach o true) = .ok s' ∧ (WF s' ∧ Closed s') ∧ Restrict s s' (Subtree s o) := by
  refine detachDeep_exact (s.items.length + 1) s o s.height hw hc (fun e he => height_lt ha he) ho ?_
  have := height_bound hw hc ha ho
  split <;> omega

end Env
end Envire
