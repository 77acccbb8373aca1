import Verif.Serial.FileModel
import Verif.Core.Closed
import Verif.Core.EnvEffects
import Verif.Core.Detach
import Mathlib.Data.List.Nodup
/-! Lemmas about loading a saved environment. -/
namespace Envire
open Env
namespace File

/-! ### containers filled in order -/

/-- links inserted one after the other, with the objects renamed -/
def build (φ : Obj → Obj) (l : List (Obj × Obj)) (acc : List (Obj × Obj)) : List (Obj × Obj) :=
  l.foldl (fun acc e => ins (φ e.1) (φ e.2) acc) acc

theorem build_cons (φ : Obj → Obj) (e : Obj × Obj) (l acc : List (Obj × Obj)) :
    build φ (e :: l) acc = build φ l (ins (φ e.1) (φ e.2) acc) := rfl

theorem build_sorted (φ : Obj → Obj) (l : List (Obj × Obj)) : ∀ {acc}, KeySorted acc → KeySorted (build φ l acc) := by
  induction l with
  | nil => intro acc h; exact h
  | cons e l ih => intro acc h; rw [build_cons]; exact ih (keySorted_ins h)

theorem build_perm (φ : Obj → Obj) (l : List (Obj × Obj)) : ∀ acc, (build φ l acc).Perm (acc ++ l.map (fun e => (φ e.1, φ e.2))) := by
  induction l with
  | nil => intro acc; rw [List.map_nil, List.append_nil]; exact .refl _
  | cons e l ih =>
    intro acc
    rw [build_cons, List.map_cons]
    refine (ih _).trans (((ins_perm _ _ _).append_right _).trans ?_)
    rw [List.cons_append]
    exact List.perm_middle.symm

theorem build_filter (φ : Obj → Obj) (l : List (Obj × Obj)) (k : Obj) : ∀ {acc}, KeySorted acc →
    (build φ l acc).filter (fun e => decide (e.1 = k)) =
      acc.filter (fun e => decide (e.1 = k)) ++ (l.filter (fun e => decide (φ e.1 = k))).map (fun e => (φ e.1, φ e.2)) := by
  induction l with
  | nil => intro acc _; simp [build]
  | cons e l ih =>
    intro acc h
    rw [build_cons, ih (keySorted_ins h)]
    by_cases hk : φ e.1 = k
    · subst hk
      rw [filter_key_ins_self h, List.filter_cons_of_pos (by simp)]
      simp
    · rw [filter_key_ins_ne hk, List.filter_cons_of_neg (by simpa using hk)]

theorem build_keys_nodup {φ : Obj → Obj} {l : List (Obj × Obj)} (h : (l.map (·.1)).Nodup)
    (hi : ∀ a ∈ l.map (·.1), ∀ b ∈ l.map (·.1), φ a = φ b → a = b) : ((build φ l []).map (·.1)).Nodup := by
  rw [((build_perm φ l []).map (·.1)).nodup_iff, List.nil_append, List.map_map]
  have : ((fun x : Obj × Obj => x.1) ∘ fun e : Obj × Obj => (φ e.1, φ e.2)) = φ ∘ (fun e : Obj × Obj => e.1) := rfl
  rw [this, ← List.map_map]
  exact List.Nodup.map_on (fun a ha b hb => hi a ha b hb) h

theorem buildNew {φ : Obj → Obj} : ∀ {l acc : List (Obj × Obj)}, ((acc.map (·.1)) ++ (l.map (fun e => φ e.1))).Nodup →
    l.foldl (fun acc e => insNew (φ e.1) (φ e.2) acc) acc = build φ l acc := by
  intro l
  induction l with
  | nil => intro acc _; rfl
  | cons e l ih =>
    intro acc h
    have hno : φ e.1 ∉ acc.map (·.1) := by
      intro hm
      rw [List.map_cons, List.nodup_append] at h
      exact h.2.2 _ hm _ (List.mem_cons_self ..) rfl
    rw [List.foldl_cons, build_cons]
    unfold insNew
    rw [if_neg hno]
    refine ih ?_
    refine (((keys_ins_perm _ _ _).append_right _).nodup_iff).2 ?_
    rw [List.cons_append]
    exact (List.perm_middle.nodup_iff).1 h

/-! ### ids -/

theorem slashed_good {id : Uid} (h : goodId id = true) : slashed id = some id := by
  unfold goodId at h
  rw [Bool.and_eq_true, decide_eq_true_eq] at h
  cases id with
  | nil => cases h.1
  | cons c t =>
    have : c = '/' := by simpa using h.1
    unfold slashed
    dsimp only
    rw [if_pos this]

theorem finalId_of_good {s : Env} {o : Obj} (hg : goodId (s.uid o) = true) : s.finalId o = s.uid o ∧ (s.assignId o).lastId = s.lastId := by
  unfold goodId at hg
  rw [Bool.and_eq_true, decide_eq_true_eq] at hg
  obtain ⟨h1, h2⟩ := hg
  have hne : s.uid o ≠ [] := by intro e; rw [e] at h1; cases h1
  have habs : s.absId o = s.uid o := by
    unfold absId
    dsimp only
    rw [if_neg hne, if_pos h1]
  unfold finalId assignId
  dsimp only
  rw [habs, if_neg (by simpa using h2)]
  simp [upd]

/-! ### objects -/

section
variable {s : Env} {cls : Obj → Cls} {reg : Cls → Option ClassInfo} {addr : Nat → Obj}

/-- the factory knows the classes of all items -/
def Knows (reg : Cls → Option ClassInfo) (s : Env) (cls : Obj → Cls) : Prop :=
  ∀ i x, s.getItem i = some x → findClass reg (cls x) = some ⟨s.kind x, s.inArity x, s.outArity x⟩

/-- the object made for `o` -/
def copyOf (addr : Nat → Obj) (s : Env) (o : Obj) : Obj := addr ((s.items.map (·.2)).idxOf o)

structure Objs (s : Env) (addr : Nat → Obj) (done : List (Uid × Obj)) (L : Load) : Prop where
  wf : WF L.env
  made : L.made = done.length
  items : ∀ i x, (i, x) ∈ L.env.items ↔ ∃ o, (i, o) ∈ done ∧ x = copyOf addr s o
  info : ∀ e ∈ done, L.env.kind (copyOf addr s e.2) = s.kind e.2 ∧ L.env.inArity (copyOf addr s e.2) = s.inArity e.2 ∧
    L.env.outArity (copyOf addr s e.2) = s.outArity e.2
  dead : ∀ x, L.env.owner x = .dead ∨ ∃ n, n < done.length ∧ x = addr n
  f : L.env.ftree = []
  l : L.env.ltree = []
  i : L.env.opIn = []
  o : L.env.opOut = []
  c : L.env.cmap = []
  pfx : L.env.pfx = ['/']
  root : ∀ o, (['/', '0'], o) ∈ done → L.env.rootNode = copyOf addr s o
  last : 0 ≤ L.last ∧ (∀ e ∈ done, ∀ n, parseLong (idSuffix e.1) = some n → n ≤ L.last) ∧
    (L.last = 0 ∨ ∃ e ∈ done, parseLong (idSuffix e.1) = some L.last)

theorem objs_nodup (hw : WF s) : (s.items.map (·.2)).Nodup := by
  have h := hw.items_nodup
  refine List.Nodup.of_map s.uid ?_
  have : (s.items.map (·.2)).map s.uid = s.items.map (·.1) := by
    rw [List.map_map]
    refine List.map_congr_left (fun e he => ?_)
    exact ((hw.items_iff e.1 e.2).1 he).2
  rw [this]
  exact h

theorem load_object (hw : WF s) (hk : Knows reg s cls) (ha : Function.Injective addr)
    (h0 : ∀ x, s.getItem ['/', '0'] = some x → s.kind x = .frame)
    {done rest : List (Uid × Obj)} {e : Uid × Obj} (hsplit : s.items = done ++ e :: rest) {L : Load} (h : Objs s addr done L) :
    ∃ L', loadObject reg addr L ⟨cls e.2, s.uid e.2⟩ = .ok L' ∧ Objs s addr (done ++ [e]) L' := by
  obtain ⟨id, x⟩ := e
  have hmem : (id, x) ∈ s.items := by rw [hsplit]; simp
  obtain ⟨hown, huid⟩ := (hw.items_iff _ _).1 hmem
  have hgood : goodId id = true := by
    have := hw.good x (isAttached_iff.2 (.inl hown))
    rwa [huid] at this
  have hget : s.getItem id = some x := (look_eq_some_iff hw.items_nodup).2 hmem
  have hidx : copyOf addr s x = addr done.length := by
    unfold copyOf
    congr 1
    have hn := objs_nodup hw
    have hl : done.length < (s.items.map (·.2)).length := by rw [hsplit]; simp
    have := List.Nodup.idxOf_getElem hn done.length hl
    have hx : (s.items.map (·.2))[done.length] = x := by simp [hsplit]
    rw [hx] at this
    exact this
  have hkn := hk id x hget
  dsimp only at *
  rw [huid]
  unfold loadObject
  dsimp only
  rw [hkn, slashed_good hgood]
  dsimp only
  rw [h.made]
  generalize hp : addr done.length = p at hidx
  have hdead : L.env.owner p = .dead := by
    rcases h.dead p with h1 | ⟨n, h1, h2⟩
    · exact h1
    · have := ha (hp.trans h2)
      omega
  -- the new object
  have e1 : L.env.exec (.alloc p (s.kind x) id false (s.inArity x) (s.outArity x)) =
      .ok (createItem L.env p ⟨s.kind x, s.inArity x, s.outArity x⟩ id) := by
    show (if L.env.owner p = .dead then _ else _) = _
    rw [if_pos hdead]
    rfl
  have w1 : WF (createItem L.env p ⟨s.kind x, s.inArity x, s.outArity x⟩ id) := by
    have := h.wf.exec (.alloc p (s.kind x) id false (s.inArity x) (s.outArity x)) trivial
    rw [e1] at this
    exact this
  generalize hR1 : createItem L.env p ⟨s.kind x, s.inArity x, s.outArity x⟩ id = R1 at w1
  have u1 : R1.uid p = id := by rw [← hR1]; exact upd_self _ _ _
  have hnot : id ∉ R1.items.map (·.1) := by
    rw [← hR1]
    intro hm
    obtain ⟨⟨i', y⟩, hm2, rfl⟩ := List.mem_map.1 hm
    obtain ⟨o, ho, _⟩ := (h.items _ _).1 hm2
    have hn := hw.items_nodup
    rw [hsplit, List.map_append, List.map_cons, List.nodup_append] at hn
    exact hn.2.2 _ (List.mem_map.2 ⟨_, ho, rfl⟩) _ (List.mem_cons_self ..) rfl
  obtain ⟨f1, f2⟩ := finalId_of_good (s := R1) (o := p) (by rw [u1]; exact hgood)
  have e2 := attachItem_free (s := R1) (o := p) (by rw [← hR1]; exact upd_self _ _ _)
  rw [f1, u1, if_neg hnot, f2] at e2
  have w2 : (R1.attachItem p).All WF := w1.exec (.attach p) trivial
  rw [e2] at w2 ⊢
  have hself : upd R1.uid p id = R1.uid := by
    funext y; by_cases hy : y = p
    · rw [hy, upd_self, u1]
    · exact upd_ne _ _ hy
  rw [hself] at w2 ⊢
  show ∃ L', ((Res.onEnv (keepRoot _ p) _).bind _) = _ ∧ _
  have hkind : R1.kind p = s.kind x := by rw [← hR1]; exact upd_self _ _ _
  have hkr : ∀ t : Env, t.uid p = id → t.kind p = s.kind x → keepRoot t p = .ok { t with rootNode := if id = ['/', '0'] then p else t.rootNode } := by
    intro t h1 h2
    unfold keepRoot
    rw [h1, h2]
    by_cases hr : id = ['/', '0']
    · rw [if_pos hr, if_pos hr, if_pos (h0 x (by rw [← hr]; exact hget))]
    · rw [if_neg hr, if_neg hr]
  rw [hkr { R1 with owner := upd R1.owner p .here, items := ins id p R1.items, log := R1.log ++ [⟨.item, .add, p, none, id, []⟩] } u1 hkind]
  show ∃ L', Res.ok _ = _ ∧ _
  refine ⟨_, rfl, ?_⟩
  have hkeep : ∀ y, y ≠ p → R1.kind y = L.env.kind y ∧ R1.inArity y = L.env.inArity y ∧ R1.outArity y = L.env.outArity y ∧ R1.owner y = L.env.owner y := by
    intro y hy
    rw [← hR1]
    exact ⟨upd_ne _ _ hy, upd_ne _ _ hy, upd_ne _ _ hy, upd_ne _ _ hy⟩
  have hitems : R1.items = L.env.items := by rw [← hR1]; rfl
  refine ⟨?_, ?_, ?_, ?_, ?_, ?_, ?_, ?_, ?_, ?_, ?_, ?_, ?_⟩
  · exact { w2 with }
  · show _ + 1 = _
    simp
  · intro i y
    show (i, y) ∈ ins id p R1.items ↔ _
    rw [mem_ins, hitems, h.items]
    simp only [List.mem_append, List.mem_singleton, Prod.mk.injEq]
    constructor
    · rintro (⟨rfl, rfl⟩ | ⟨o, h1, h2⟩)
      · exact ⟨x, .inr ⟨rfl, rfl⟩, hidx.symm⟩
      · exact ⟨o, .inl h1, h2⟩
    · rintro ⟨o, h1 | ⟨rfl, rfl⟩, h2⟩
      · exact .inr ⟨o, h1, h2⟩
      · exact .inl ⟨rfl, h2.trans hidx⟩
  · intro e he
    show R1.kind _ = _ ∧ R1.inArity _ = _ ∧ R1.outArity _ = _
    rcases List.mem_append.1 he with he | he
    · have hne : copyOf addr s e.2 ≠ p := by
        intro heq
        have := (h.items e.1 p).2 ⟨e.2, he, heq.symm⟩
        have := ((h.wf.items_iff _ _).1 this).1
        rw [hdead] at this
        cases this
      obtain ⟨a, b, c, _⟩ := hkeep _ hne
      rw [a, b, c]
      exact h.info e he
    · rw [List.mem_singleton] at he
      subst he
      dsimp only
      rw [hidx, ← hR1]
      exact ⟨upd_self _ _ _, upd_self _ _ _, upd_self _ _ _⟩
  · intro y
    show upd R1.owner p .here y = .dead ∨ _
    by_cases hy : y = p
    · exact .inr ⟨done.length, by simp, hy.trans hp.symm⟩
    · rw [upd_ne _ _ hy, (hkeep y hy).2.2.2]
      rcases h.dead y with h1 | ⟨n, h1, h2⟩
      · exact .inl h1
      · exact .inr ⟨n, by rw [List.length_append]; omega, h2⟩
  · show R1.ftree = []; rw [← hR1]; exact h.f
  · show R1.ltree = []; rw [← hR1]; exact h.l
  · show R1.opIn = []; rw [← hR1]; exact h.i
  · show R1.opOut = []; rw [← hR1]; exact h.o
  · show R1.cmap = []; rw [← hR1]; exact h.c
  · show R1.pfx = ['/']; rw [← hR1]; exact h.pfx
  · intro o ho
    show (if id = ['/', '0'] then p else R1.rootNode) = _
    rcases List.mem_append.1 ho with ho1 | ho1
    · have : id ≠ ['/', '0'] := by
        rintro rfl
        apply hnot
        rw [hitems]
        exact List.mem_map.2 ⟨_, (h.items _ _).2 ⟨o, ho1, rfl⟩, rfl⟩
      rw [if_neg this, ← hR1]
      exact h.root o ho1
    · rw [List.mem_singleton, Prod.mk.injEq] at ho1
      rw [if_pos ho1.1.symm, ho1.2, hidx]
  · show 0 ≤ noteId L.last (R1.uid p) ∧ (∀ e ∈ done ++ [(id, x)], ∀ n, _ → n ≤ noteId L.last (R1.uid p)) ∧
      (noteId L.last (R1.uid p) = 0 ∨ ∃ e ∈ done ++ [(id, x)], _ = some (noteId L.last (R1.uid p)))
    rw [u1]
    obtain ⟨l1, l2, l3⟩ := h.last
    have key : L.last ≤ noteId L.last id ∧ (∀ n, parseLong (idSuffix id) = some n → n ≤ noteId L.last id) ∧
        (noteId L.last id = L.last ∨ parseLong (idSuffix id) = some (noteId L.last id)) := by
      unfold noteId
      cases hpl : parseLong (idSuffix id) with
      | none => exact ⟨Int.le_refl _, by simp, .inl rfl⟩
      | some n =>
        dsimp only
        split
        · refine ⟨by omega, ?_, .inr rfl⟩
          rintro m hm; rw [Option.some.injEq] at hm; omega
        · refine ⟨Int.le_refl _, ?_, .inl rfl⟩
          rintro m hm; rw [Option.some.injEq] at hm; omega
    obtain ⟨k1, k2, k3⟩ := key
    refine ⟨Int.le_trans l1 k1, ?_, ?_⟩
    · intro e he n hn
      rcases List.mem_append.1 he with he | he
      · exact Int.le_trans (l2 e he n hn) k1
      · rw [List.mem_singleton] at he; subst he; exact k2 n hn
    · rcases k3 with k3 | k3
      · rw [k3]
        rcases l3 with l3 | ⟨e, he, l3⟩
        · exact .inl l3
        · exact .inr ⟨e, List.mem_append_left _ he, l3⟩
      · exact .inr ⟨(id, x), by simp, k3⟩

theorem load_objects (hw : WF s) (hk : Knows reg s cls) (ha : Function.Injective addr)
    (h0 : ∀ x, s.getItem ['/', '0'] = some x → s.kind x = .frame) :
    ∀ {rest done : List (Uid × Obj)}, s.items = done ++ rest → ∀ {L : Load}, Objs s addr done L →
    ∃ L', foldRes (loadObject reg addr) (rest.map fun e => ⟨cls e.2, s.uid e.2⟩) L = .ok L' ∧ Objs s addr s.items L' := by
  intro rest
  induction rest with
  | nil => intro done hs L h; rw [List.append_nil] at hs; rw [hs]; exact ⟨L, rfl, h⟩
  | cons e rest ih =>
    intro done hs L h
    obtain ⟨L1, e1, h1⟩ := load_object hw hk ha h0 hs h
    obtain ⟨L2, e2, h2⟩ := ih (done := done ++ [e]) (by rw [hs]; simp) h1
    refine ⟨L2, ?_, h2⟩
    rw [List.map_cons]
    unfold foldRes
    rw [e1]
    exact e2

/-! ### links -/

theorem load_link {L : Load} {s : Env} {addr : Nat → Obj} (hws : WF s) {t : Env} (hit : t.items = L.env.items) (hkt : t.kind = L.env.kind)
    (h : Objs s addr s.items L) {ty : LinkTy} {a b : Obj} (ha : s.owner a = .here) (hb : s.owner b = .here)
    (hka : ty.wantA (s.kind a) = true) (hkb : ty.wantB (s.kind b) = true) (M : Load) (hM : M.env = t) :
    loadLink M ⟨ty, s.uid a, s.uid b⟩ = .ok { M with env := ty.store t (copyOf addr s a) (copyOf addr s b) } := by
  have get : ∀ (w : Kind → Bool) (o : Obj), s.owner o = .here → w (s.kind o) = true → getMap t w (s.uid o) = some (some (copyOf addr s o)) := by
    intro w o ho hw
    have hm : (s.uid o, o) ∈ s.items := (hws.items_iff _ _).2 ⟨ho, rfl⟩
    unfold getMap
    rw [slashed_good (hws.good o (isAttached_iff.2 (.inl ho)))]
    dsimp only
    have : t.getItem (s.uid o) = some (copyOf addr s o) := by
      unfold getItem
      rw [hit]
      exact (look_eq_some_iff h.wf.items_nodup).2 ((h.items _ _).2 ⟨o, hm, rfl⟩)
    rw [this, hkt]
    have h3 : w (L.env.kind (copyOf addr s o)) = true := by rw [(h.info (s.uid o, o) hm).1]; exact hw
    simp [Option.filter, h3]
  unfold loadLink
  dsimp only
  rw [hM, get _ a ha hka, get _ b hb hkb]

theorem store_static (ty : LinkTy) (t : Env) (a b : Obj) : (ty.store t a b).items = t.items ∧ (ty.store t a b).kind = t.kind := by
  cases ty <;> exact ⟨rfl, rfl⟩

theorem load_links {L : Load} (hws : WF s) (h : Objs s addr s.items L) {ty : LinkTy} :
    ∀ {l : List (Obj × Obj)}, (∀ e ∈ l, (s.owner e.1 = .here ∧ s.owner e.2 = .here) ∧ ty.wantA (s.kind e.1) = true ∧ ty.wantB (s.kind e.2) = true) →
    ∀ (M : Load), M.env.items = L.env.items → M.env.kind = L.env.kind →
    foldRes loadLink (s.linkRecs ty l) M =
      .ok { M with env := l.foldl (fun t e => ty.store t (copyOf addr s e.1) (copyOf addr s e.2)) M.env } := by
  intro l
  induction l with
  | nil => intro _ M _ _; rfl
  | cons e l ih =>
    intro hl M h1 h2
    obtain ⟨⟨o1, o2⟩, k1, k2⟩ := hl e (List.mem_cons_self ..)
    unfold linkRecs
    rw [List.map_cons]
    unfold foldRes
    rw [load_link hws h1 h2 h o1 o2 k1 k2 M rfl]
    obtain ⟨s1, s2⟩ := store_static ty M.env (copyOf addr s e.1) (copyOf addr s e.2)
    exact ih (fun e he => hl e (List.mem_cons_of_mem _ he)) _ (s1.trans h1) (s2.trans h2)

theorem foldRes_append {σ α : Type} (f : σ → α → Res σ) (l l' : List α) (a : σ) :
    foldRes f (l ++ l') a = (foldRes f l a).bind (foldRes f l') := by
  induction l generalizing a with
  | nil => rfl
  | cons x l ih =>
    rw [List.cons_append]
    unfold foldRes
    cases f a x with
    | ok b => exact ih b
    | throw b => rfl
    | fault e => rfl

theorem fold_ftree (φ : Obj → Obj) (l : List (Obj × Obj)) : ∀ t : Env, l.foldl (fun t e => LinkTy.frameTree.store t (φ e.1) (φ e.2)) t =
    { t with ftree := l.foldl (fun acc e => insNew (φ e.1) (φ e.2) acc) t.ftree } := by
  induction l with
  | nil => intro t; rfl
  | cons e l ih => intro t; exact ih _

theorem fold_cmap (φ : Obj → Obj) (l : List (Obj × Obj)) : ∀ t : Env, l.foldl (fun t e => LinkTy.mapGraph.store t (φ e.1) (φ e.2)) t =
    { t with cmap := l.foldl (fun acc e => insNew (φ e.1) (φ e.2) acc) t.cmap } := by
  induction l with
  | nil => intro t; rfl
  | cons e l ih => intro t; exact ih _

theorem fold_ltree (φ : Obj → Obj) (l : List (Obj × Obj)) : ∀ t : Env, l.foldl (fun t e => LinkTy.layerTree.store t (φ e.1) (φ e.2)) t =
    { t with ltree := build φ l t.ltree } := by
  induction l with
  | nil => intro t; rfl
  | cons e l ih => intro t; exact ih _

theorem fold_opIn (φ : Obj → Obj) (l : List (Obj × Obj)) : ∀ t : Env, l.foldl (fun t e => LinkTy.opIn.store t (φ e.1) (φ e.2)) t =
    { t with opIn := build φ l t.opIn } := by
  induction l with
  | nil => intro t; rfl
  | cons e l ih => intro t; exact ih _

theorem fold_opOut (φ : Obj → Obj) (l : List (Obj × Obj)) : ∀ t : Env, l.foldl (fun t e => LinkTy.opOut.store t (φ e.1) (φ e.2)) t =
    { t with opOut := build φ l t.opOut } := by
  induction l with
  | nil => intro t; rfl
  | cons e l ih => intro t; exact ih _

/-- objects attached in the source have different copies -/
theorem copyOf_inj (hw : WF s) (ha : Function.Injective addr) {a b : Obj} (h1 : s.owner a = .here) (h2 : s.owner b = .here)
    (h : copyOf addr s a = copyOf addr s b) : a = b := by
  have m1 : a ∈ s.items.map (·.2) := List.mem_map.2 ⟨_, (hw.items_iff (s.uid a) a).2 ⟨h1, rfl⟩, rfl⟩
  exact (List.idxOf_inj m1).1 (ha h)

theorem load_start (r : Obj) : ∃ L, ((Env.init r).detachShallow r).onEnv ⟨Env.init r, 0, 0⟩ = .ok L ∧ Objs s addr [] L := by
  have hw := WF.init r
  have hc : Closed (Env.init r) := by
    constructor <;> intro e he <;> cases he
  have hh : (Env.init r).owner r = .here := by simp [Env.init]
  have wd : ((Env.init r).detachShallow r).All WF := hw.exec (.detach r false) ⟨hh, fun h => by cases h⟩
  have he : (Env.init r).detachShallow r = .ok { Env.init r with items := [], owner := upd (Env.init r).owner r .dead, log := (Env.init r).log ++ [⟨.item, .remove, r, none, ['/', '0'], []⟩] } := by
    unfold detachShallow
    rw [if_neg (by rw [hh]; decide), if_neg (by simp [Env.init])]
    simp [unlinkAll, Env.init, foldRes, dropItem, emit, look, eraseKey, afterRelease, dropTmp]
  rw [he] at wd ⊢
  refine ⟨_, rfl, ⟨wd, rfl, ?_, ?_, ?_, rfl, rfl, rfl, rfl, rfl, rfl, ?_, ?_⟩⟩
  · intro i x; simp
  · intro e he; cases he
  · intro x
    left
    show upd (Env.init r).owner r .dead x = .dead
    by_cases hx : x = r
    · rw [hx, upd_self]
    · rw [upd_ne _ _ hx]; simp [Env.init, hx]
  · intro o ho; cases ho
  · exact ⟨Int.le_refl _, fun e he => absurd he List.not_mem_nil, Or.inl rfl⟩

end
end File
end Envire
