import Verif.Serial.FileLemmas
import Verif.Core.IdProps
import Verif.Core.Witness
/-! Properties C23, C24, C26, C27: saving and loading an environment, ids, file names. -/
namespace Envire
open Env

/-! ## C23 -/

/-- specification: `t` is a copy of `s`, in which every attached object `x` is replaced by `φ x` -/
structure SameShape (φ : Obj → Obj) (s t : Env) : Prop where
  /-- same ids -/
  items : ∀ i, t.getItem i = (s.getItem i).map φ
  /-- same id and class of each object -/
  info : ∀ i x, s.getItem i = some x → t.uid (φ x) = s.uid x ∧ t.kind (φ x) = s.kind x ∧
    t.inArity (φ x) = s.inArity x ∧ t.outArity (φ x) = s.outArity x
  /-- same five relations; lists of parents, inputs and outputs in the same order -/
  parent : ∀ i x, s.getItem i = some x → t.getParent (φ x) = (s.getParent x).map φ
  layerParents : ∀ i x, s.getItem i = some x → t.getLayerParents (φ x) = (s.getLayerParents x).map φ
  inputs : ∀ i x, s.getItem i = some x → t.getInputs (φ x) = (s.getInputs x).map φ
  outputs : ∀ i x, s.getItem i = some x → t.getOutputs (φ x) = (s.getOutputs x).map φ
  frame : ∀ i x, s.getItem i = some x → t.getFrameNode (φ x) = (s.getFrameNode x).map φ
  children : ∀ i x, s.getItem i = some x → (t.getChildren (φ x)).Perm ((s.getChildren x).map φ)
  layerChildren : ∀ i x, s.getItem i = some x → (t.getLayerChildren (φ x)).Perm ((s.getLayerChildren x).map φ)
  maps : ∀ i x, s.getItem i = some x → (t.getMaps (φ x)).Perm ((s.getMaps x).map φ)
  root : t.rootNode = φ s.rootNode

namespace File

theorem look_build {φ : Obj → Obj} {l : List (Obj × Obj)} (hn : (l.map (·.1)).Nodup) {P : Obj → Prop} (hl : ∀ e ∈ l, P e.1)
    (hi : ∀ a b, P a → P b → φ a = φ b → a = b) {x : Obj} (hx : P x) : look (φ x) (build φ l []) = (look x l).map φ := by
  have hnb : ((build φ l []).map (·.1)).Nodup := build_keys_nodup hn (fun a ha b hb => by
    obtain ⟨e, he, rfl⟩ := List.mem_map.1 ha
    obtain ⟨e', he', rfl⟩ := List.mem_map.1 hb
    exact hi _ _ (hl _ he) (hl _ he'))
  cases h : look x l with
  | none =>
    rw [Option.map_none, look_none_iff]
    intro hm
    obtain ⟨e, he, hek⟩ := List.mem_map.1 hm
    rw [(build_perm φ l []).mem_iff, List.nil_append, List.mem_map] at he
    obtain ⟨e', he', rfl⟩ := he
    have := hi _ _ (hl _ he') hx hek
    exact look_none_iff.1 h (List.mem_map.2 ⟨e', he', this⟩)
  | some v =>
    rw [Option.map_some, look_eq_some_iff hnb, (build_perm φ l []).mem_iff, List.nil_append, List.mem_map]
    exact ⟨(x, v), look_some_mem h, rfl⟩

theorem keyed_build {φ : Obj → Obj} {l : List (Obj × Obj)} {P : Obj → Prop} (hl : ∀ e ∈ l, P e.1)
    (hi : ∀ a b, P a → P b → φ a = φ b → a = b) {x : Obj} (hx : P x) :
    ((build φ l []).filter (fun e => decide (e.1 = φ x))).map (·.2) = ((l.filter (fun e => decide (e.1 = x))).map (·.2)).map φ := by
  rw [build_filter φ l (φ x) (by exact List.Pairwise.nil), List.filter_nil, List.nil_append, List.map_map, List.map_map]
  have : l.filter (fun e => decide (φ e.1 = φ x)) = l.filter (fun e => decide (e.1 = x)) := by
    refine List.filter_congr (fun e he => ?_)
    rw [decide_eq_decide]
    exact ⟨hi _ _ (hl e he) hx, fun h => by rw [h]⟩
  rw [this]
  rfl

theorem valued_build {φ : Obj → Obj} {l : List (Obj × Obj)} {P : Obj → Prop} (hl : ∀ e ∈ l, P e.2)
    (hi : ∀ a b, P a → P b → φ a = φ b → a = b) {x : Obj} (hx : P x) :
    (((build φ l []).filter (fun e => decide (e.2 = φ x))).map (·.1)).Perm (((l.filter (fun e => decide (e.2 = x))).map (·.1)).map φ) := by
  refine (((build_perm φ l []).filter _).map _).trans ?_
  rw [List.nil_append, List.filter_map, List.map_map, List.map_map]
  have : l.filter ((fun e : Obj × Obj => decide (e.2 = φ x)) ∘ fun e => (φ e.1, φ e.2)) = l.filter (fun e => decide (e.2 = x)) := by
    refine List.filter_congr (fun e he => ?_)
    show decide (φ e.2 = φ x) = _
    rw [decide_eq_decide]
    exact ⟨hi _ _ (hl e he) hx, fun h => by rw [h]⟩
  rw [this]
  exact .refl _

end File

open File

/-- everything about loading in one statement -/
theorem save_load {s : Env} (hw : WF s) (hc : Closed s) {cls : Obj → Cls} {reg : Cls → Option ClassInfo} (hk : Knows reg s cls)
    {addr : Nat → Obj} (ha : Function.Injective addr) (h0 : ∀ x, s.getItem ['/', '0'] = some x → s.kind x = .frame)
    (hmax : ∀ i x, s.getItem i = some x → parseLong (idSuffix i) ≠ some (2 ^ 63 - 1)) (r : Obj) :
    ∃ d L φ, s.writeToFile cls = some d ∧ readFromFile reg addr r d = .ok L ∧
      (s.getItem ['/', '0'] = some s.rootNode → SameShape φ s L.env) ∧ WF L.env ∧ Closed L.env ∧
      (∀ i, L.env.getItem i = (s.getItem i).map φ) ∧
      (∀ i x n, L.env.getItem i = some x → parseLong (idSuffix i) = some n → n < L.env.lastId) ∧
      (L.env.lastId = 1 ∨ ∃ i x, L.env.getItem i = some x ∧ parseLong (idSuffix i) = some ((L.env.lastId : Int) - 1)) ∧
      (∀ x, L.env.owner x = .here ∨ L.env.owner x = .dead) := by
  have hdead : ¬ ∃ e ∈ s.ftree ++ s.ltree ++ s.opIn ++ s.opOut ++ s.cmap, s.owner e.1 = .dead ∨ s.owner e.2 = .dead := by
    rintro ⟨e, he, hd⟩
    have : s.owner e.1 = .here ∧ s.owner e.2 = .here := by
      simp only [List.mem_append] at he
      rcases he with (((he | he) | he) | he) | he
      · exact (hc.ftree e he).1
      · exact (hc.ltree e he).1
      · exact (hc.opIn e he).1
      · exact (hc.opOut e he).1
      · exact (hc.cmap e he).1
    rw [this.1, this.2] at hd
    rcases hd with hd | hd <;> cases hd
  obtain ⟨L0, e0, i0⟩ := load_start (s := s) (addr := addr) r
  obtain ⟨L1, e1, i1⟩ := load_objects (cls := cls) (reg := reg) hw hk ha h0 (rest := s.items) (done := []) rfl i0
  let φ := copyOf addr s
  have hi : ∀ a b, s.owner a = .here → s.owner b = .here → φ a = φ b → a = b := fun a b h1 h2 h => copyOf_inj hw ha h1 h2 h
  have cf : ∀ e ∈ s.ftree, s.owner e.1 = .here := fun e he => (hc.ftree e he).1.1
  have cc : ∀ e ∈ s.cmap, s.owner e.1 = .here := fun e he => (hc.cmap e he).1.1
  have keysNew : ∀ {l : List (Obj × Obj)}, (l.map (·.1)).Nodup → (∀ e ∈ l, s.owner e.1 = .here) → (l.map (fun e => φ e.1)).Nodup := by
    intro l hn hl
    have : l.map (fun e => φ e.1) = (l.map (·.1)).map φ := by rw [List.map_map]; rfl
    rw [this]
    refine List.Nodup.map_on (fun a h1 b h2 h => ?_) hn
    obtain ⟨e, he, rfl⟩ := List.mem_map.1 h1
    obtain ⟨e', he', rfl⟩ := List.mem_map.1 h2
    exact hi _ _ (hl _ he) (hl _ he') h
  -- the links
  have lf := load_links (L := L1) (ty := .frameTree) hw i1 (l := s.ftree)
    (fun e he => by obtain ⟨a, b, c⟩ := hc.ftree e he; exact ⟨a, by simp [LinkTy.wantA, b], by simp [LinkTy.wantB, c]⟩) L1 rfl rfl
  rw [fold_ftree, i1.f, buildNew (by simpa using keysNew hw.ftree_nodup cf)] at lf
  have ll := fun M h1 h2 => load_links (L := L1) (ty := .layerTree) hw i1 (l := s.ltree) (fun e he => by obtain ⟨a, b, c⟩ := hc.ltree e he; exact ⟨a, b, c⟩) M h1 h2
  have li := fun M h1 h2 => load_links (L := L1) (ty := .opIn) hw i1 (l := s.opIn)
    (fun e he => by obtain ⟨a, b, c⟩ := hc.opIn e he; exact ⟨a, by simp [LinkTy.wantA, b], c⟩) M h1 h2
  have lo := fun M h1 h2 => load_links (L := L1) (ty := .opOut) hw i1 (l := s.opOut)
    (fun e he => by obtain ⟨a, b, c⟩ := hc.opOut e he; exact ⟨a, by simp [LinkTy.wantA, b], c⟩) M h1 h2
  have lc := fun M h1 h2 => load_links (L := L1) (ty := .mapGraph) hw i1 (l := s.cmap)
    (fun e he => by obtain ⟨a, b, c⟩ := hc.cmap e he; exact ⟨a, by simp [LinkTy.wantA, b], by simp [LinkTy.wantB, c]⟩) M h1 h2
  have hlinks : foldRes loadLink (s.linkRecs .frameTree s.ftree ++ s.linkRecs .layerTree s.ltree ++ s.linkRecs .opIn s.opIn ++
      s.linkRecs .opOut s.opOut ++ s.linkRecs .mapGraph s.cmap) L1 =
      .ok { L1 with env := { L1.env with ftree := build φ s.ftree [], ltree := build φ s.ltree [], opIn := build φ s.opIn [], opOut := build φ s.opOut [], cmap := build φ s.cmap [] } } := by
    rw [foldRes_append, foldRes_append, foldRes_append, foldRes_append, lf, Res.ok_bind, ll, fold_ltree, Res.ok_bind, li, fold_opIn,
      Res.ok_bind, lo, fold_opOut, Res.ok_bind, lc, fold_cmap]
    · dsimp only
      rw [i1.l, i1.i, i1.o, i1.c, buildNew (by simpa using keysNew hw.cmap_nodup cc)]
    all_goals rfl
  have hlast : L1.last ≠ 2 ^ 63 - 1 := by
    intro hl
    rcases i1.last.2.2 with h | ⟨e, he, h⟩
    · rw [h] at hl; revert hl; decide
    · exact hmax e.1 e.2 ((look_eq_some_iff hw.items_nodup).2 he) (h.trans (by rw [hl]))
  have hget : ∀ i, look i L1.env.items = (s.getItem i).map φ := by
    intro i
    cases h : s.getItem i with
    | none =>
      rw [Option.map_none, look_none_iff]
      intro hm
      obtain ⟨⟨i', x⟩, hm2, rfl⟩ := List.mem_map.1 hm
      obtain ⟨o, ho, _⟩ := (i1.items _ _).1 hm2
      exact look_none_iff.1 h (List.mem_map.2 ⟨_, ho, rfl⟩)
    | some x =>
      rw [Option.map_some, look_eq_some_iff i1.wf.items_nodup, i1.items]
      exact ⟨x, look_some_mem h, rfl⟩
  have here : ∀ {i x}, s.getItem i = some x → s.owner x = .here ∧ s.uid x = i := fun h => (hw.items_iff _ _).1 (look_some_mem h)
  have hereL : ∀ o, s.owner o = .here → L1.env.owner (φ o) = .here ∧ L1.env.kind (φ o) = s.kind o := by
    intro o ho
    have hm : (s.uid o, o) ∈ s.items := (hw.items_iff _ _).2 ⟨ho, rfl⟩
    exact ⟨((i1.wf.items_iff _ _).1 ((i1.items _ _).2 ⟨o, hm, rfl⟩)).1, (i1.info _ hm).1⟩
  obtain ⟨p1, p2, p3⟩ := i1.last
  refine ⟨_, _, φ, by unfold writeToFile; dsimp only; rw [if_neg hdead], by unfold readFromFile; rw [e0, Res.ok_bind, e1, Res.ok_bind, hlinks, Res.ok_bind, if_neg hlast],
    ?_, ?_, ?_, ?_, ?_, ?_, ?_⟩
  · intro hroot
    refine ⟨hget, ?_, ?_, ?_, ?_, ?_, ?_, ?_, ?_, ?_, ?_⟩
    · intro i x hx
      have hm := look_some_mem hx
      refine ⟨?_, i1.info _ hm⟩
      rw [((i1.wf.items_iff _ _).1 ((i1.items _ _).2 ⟨x, hm, rfl⟩)).2]
      exact (here hx).2.symm
    · intro i x hx; exact look_build hw.ftree_nodup cf hi (here hx).1
    · intro i x hx; exact keyed_build (fun e he => (hc.ltree e he).1.1) hi (here hx).1
    · intro i x hx; exact keyed_build (fun e he => (hc.opIn e he).1.1) hi (here hx).1
    · intro i x hx; exact keyed_build (fun e he => (hc.opOut e he).1.1) hi (here hx).1
    · intro i x hx; exact look_build hw.cmap_nodup cc hi (here hx).1
    · intro i x hx; exact valued_build (fun e he => (hc.ftree e he).1.2) hi (here hx).1
    · intro i x hx; exact valued_build (fun e he => (hc.ltree e he).1.2) hi (here hx).1
    · intro i x hx; exact valued_build (fun e he => (hc.cmap e he).1.2) hi (here hx).1
    · exact i1.root s.rootNode (look_some_mem hroot)
  · refine i1.wf.transfer rfl rfl rfl (OwnStep.refl _) ?_ ?_ ?_ ?_ ?_ ?_ ?_
    · exact build_keys_nodup hw.ftree_nodup (fun a h1 b h2 h => by
        obtain ⟨e, he, rfl⟩ := List.mem_map.1 h1
        obtain ⟨e', he', rfl⟩ := List.mem_map.1 h2
        exact hi _ _ (cf _ he) (cf _ he') h)
    · exact build_keys_nodup hw.cmap_nodup (fun a h1 b h2 h => by
        obtain ⟨e, he, rfl⟩ := List.mem_map.1 h1
        obtain ⟨e', he', rfl⟩ := List.mem_map.1 h2
        exact hi _ _ (cc _ he) (cc _ he') h)
    all_goals exact build_sorted _ _ List.Pairwise.nil
  · have mem : ∀ {l : List (Obj × Obj)} {e}, e ∈ build φ l [] → ∃ e' ∈ l, e = (φ e'.1, φ e'.2) := by
      intro l e he
      rw [(build_perm φ l []).mem_iff, List.nil_append, List.mem_map] at he
      obtain ⟨e', h1, h2⟩ := he
      exact ⟨e', h1, h2.symm⟩
    constructor
    · intro e he
      obtain ⟨e', h1, rfl⟩ := mem he
      obtain ⟨⟨a, b⟩, c, d⟩ := hc.ftree e' h1
      exact ⟨⟨(hereL _ a).1, (hereL _ b).1⟩, (hereL _ a).2.trans c, (hereL _ b).2.trans d⟩
    · intro e he
      obtain ⟨e', h1, rfl⟩ := mem he
      obtain ⟨⟨a, b⟩, c, d⟩ := hc.ltree e' h1
      exact ⟨⟨(hereL _ a).1, (hereL _ b).1⟩, (congrArg Kind.isLayer (hereL _ a).2).trans c, (congrArg Kind.isLayer (hereL _ b).2).trans d⟩
    · intro e he
      obtain ⟨e', h1, rfl⟩ := mem he
      obtain ⟨⟨a, b⟩, c, d⟩ := hc.opIn e' h1
      exact ⟨⟨(hereL _ a).1, (hereL _ b).1⟩, (hereL _ a).2.trans c, (congrArg Kind.isLayer (hereL _ b).2).trans d⟩
    · intro e he
      obtain ⟨e', h1, rfl⟩ := mem he
      obtain ⟨⟨a, b⟩, c, d⟩ := hc.opOut e' h1
      exact ⟨⟨(hereL _ a).1, (hereL _ b).1⟩, (hereL _ a).2.trans c, (congrArg Kind.isLayer (hereL _ b).2).trans d⟩
    · intro e he
      obtain ⟨e', h1, rfl⟩ := mem he
      obtain ⟨⟨a, b⟩, c, d⟩ := hc.cmap e' h1
      exact ⟨⟨(hereL _ a).1, (hereL _ b).1⟩, (hereL _ a).2.trans c, (hereL _ b).2.trans d⟩
  · exact hget
  · intro i x n hx hn
    show n < ((L1.last + 1).toNat : Int)
    have hx' : look i L1.env.items = some x := hx
    rw [hget i] at hx'
    cases h : s.getItem i with
    | none => rw [h] at hx'; cases hx'
    | some y =>
      have := p2 _ (look_some_mem h) n hn
      omega
  · show (L1.last + 1).toNat = 1 ∨ ∃ i x, look i L1.env.items = some x ∧ parseLong (idSuffix i) = some (((L1.last + 1).toNat : Int) - 1)
    rcases p3 with h | ⟨e, he, h⟩
    · left; rw [h]; rfl
    · right
      refine ⟨e.1, φ e.2, ?_, ?_⟩
      · rw [hget, show s.getItem e.1 = some e.2 from (look_eq_some_iff hw.items_nodup).2 he]; rfl
      · rw [h]; congr 1; omega
  · intro x
    show L1.env.owner x = .here ∨ _
    rcases i1.dead x with h | ⟨n, h1, h2⟩
    · exact .inr h
    · left
      have hm : s.items[n] ∈ s.items := List.getElem_mem h1
      have hx : x = φ s.items[n].2 := by
        rw [h2]
        show _ = addr _
        congr 1
        have := List.Nodup.idxOf_getElem (objs_nodup hw) n (by simpa using h1)
        rw [List.getElem_map] at this
        exact this.symm
      rw [hx]
      exact (hereL _ ((hw.items_iff _ _).1 hm).1).1

/-- **C23** An environment (reached by well-used calls, with its root node in place, classes known to the factory) is written
and read back: both succeed, and the result is a copy with the same ids, classes and the same five relations in the same
per-item order; its root node is the copy of the root node. It is again an environment of which all invariants hold. -/
theorem C23_save_load_partial {r0 : Obj} {s : Env} (h : Reach Good r0 s) {cls : Obj → Cls} {reg : Cls → Option ClassInfo} (hk : Knows reg s cls)
    (hroot : s.getItem ['/', '0'] = some s.rootNode ∧ s.kind s.rootNode = .frame)
    (hmax : ∀ i x, s.getItem i = some x → parseLong (idSuffix i) ≠ some (2 ^ 63 - 1))
    {addr : Nat → Obj} (ha : Function.Injective addr) (r : Obj) :
    ∃ d L φ, s.writeToFile cls = some d ∧ readFromFile reg addr r d = .ok L ∧ SameShape φ s L.env ∧ WF L.env ∧ Closed L.env := by
  obtain ⟨hw, hc⟩ := h.wf_closed
  obtain ⟨d, L, φ, h1, h2, h3, h4, h5, _⟩ := save_load hw hc hk ha (fun x hx => by rw [hroot.1] at hx; cases hx; exact hroot.2) hmax r
  exact ⟨d, L, φ, h1, h2, h3 hroot.1, h4, h5⟩

/-- the classes used in the examples -/
def exampleCls (s : Env) : Obj → Cls := fun o =>
  match s.kind o with
  | .frame => ['F'] | .layer => ['L'] | .cmap => ['M'] | .op => ['O'] | .other => ['X']

/-- registered without namespace, found by its unqualified name -/
def exampleReg : Cls → Option ClassInfo
  | ['F'] => some ⟨.frame, 0, 0⟩ | ['L'] => some ⟨.layer, 0, 0⟩ | ['M'] => some ⟨.cmap, 0, 0⟩ | ['O'] => some ⟨.op, 2, 1⟩ | ['X'] => some ⟨.other, 0, 0⟩
  | _ => none

def saveHistory : List Op :=
  [.alloc 9 .frame [] false 0 0, .alloc 8 .frame ['/', 'a', '/'] false 0 0, .alloc 3 .cmap ['m'] false 0 0, .alloc 4 .layer [] false 0 0,
   .alloc 5 .op [] false 2 1, .alloc 6 .layer [] false 0 0, .addChildF 0 9, .addChildF 9 8, .attachMap 3 (some 8), .attach 4, .attach 6,
   .addChildL 6 3, .addChildL 4 3, .attach 5, .addInput 5 4, .addInput 5 3, .addOutput 5 6, .extAttach 7 ['/', 'z']]

/-- the hypotheses of C23 are met by a scene with frames, a map, two layers and an operator, and the copy is what one expects;
addresses are reversed in the copy -/
example : ∃ s, run (init 0) (saveHistory.dropLast) = some s ∧
    (s.getItem ['/', '0'] = some s.rootNode ∧ s.kind s.rootNode = .frame ∧ s.items.length = 7 ∧ s.getLayerParents 3 = [6, 4] ∧
    ((s.writeToFile (exampleCls s)).any fun d => (match readFromFile exampleReg (fun n => 1000 + n) 77 d with
      | .ok L => decide (L.env.items.map (·.1) = s.items.map (·.1) ∧ L.env.rootNode = 1000 ∧ L.env.lastId = 7 ∧
          (L.env.getItem ['/', 'm']).any (fun m => decide ((L.env.getLayerParents m).map L.env.uid = (s.getLayerParents 3).map s.uid ∧
            (L.env.getFrameNode m).map L.env.uid = some (s.uid 8))) = true)
      | _ => false)) = true) := ex_of_any (by decide +kernel)

/-- **C23, the code violates the property in general**: an environment whose root node was dropped is written and read without
complaint, but the root node of the result is the deleted one of the constructor. -/
theorem C23_dangling_root :
    ∃ s, run (init 0) [.alloc 1 .frame [] false 0 0, .attach 1, .detach 0 false] = some s ∧
      ((s.writeToFile (exampleCls s)).any fun d => (match readFromFile exampleReg (fun n => 1000 + n) 77 d with
        | .ok L => decide (L.env.items.length = 1 ∧ L.env.rootNode = 77 ∧ L.env.owner 77 = .dead)
        | _ => false)) = true := ex_of_any (by decide +kernel)

/-- an item that is no frame may carry the id "/0" after the root is gone; the written file cannot be read (assertion) -/
theorem C23_root_id_of_layer :
    ∃ s, run (init 0) [.detach 0 false, .alloc 1 .layer ['/', '0'] false 0 0, .attach 1] = some s ∧
      ((s.writeToFile (exampleCls s)).any fun d => (match readFromFile exampleReg (fun n => 1000 + n) 77 d with
        | .fault .assertion => true
        | _ => false)) = true := ex_of_any (by decide +kernel)

/-! ## C24 -/

/-- histories that start in a given state -/
inductive Steps (G : Env → Op → Prop) (s0 : Env) : Env → Prop
  | refl : Steps G s0 s0
  | step {s s' : Env} {op : Op} : Steps G s0 s → G s op → Res.state? (s.step op) = some s' → Steps G s0 s'

theorem Steps.wf {s0 s : Env} (h0 : WF s0) (h : Steps Legal s0 s) : WF s := by
  induction h with
  | refl => exact h0
  | @step s s' op _ hg he ih =>
    have : (s.step op).All WF := by
      unfold Env.step
      split
      · trivial
      · split
        · trivial
        · exact ih.exec op hg
    cases hr : s.step op with
    | ok t => rw [hr] at this he; cases he; exact this
    | throw t => rw [hr] at this he; cases he; exact this
    | fault f => rw [hr] at he; cases he

/-- **C24** After loading, the counter is above every number that occurs as last part of a loaded id (and not higher than needed).
In every state reached from there, attaching an item that asks for an automatic id never throws and takes an id nobody has. -/
theorem C24_ids_after_load_partial {r0 : Obj} {s : Env} (h : Reach Good r0 s) {cls : Obj → Cls} {reg : Cls → Option ClassInfo}
    (hk : Knows reg s cls) (h0 : ∀ x, s.getItem ['/', '0'] = some x → s.kind x = .frame)
    (hmax : ∀ i x, s.getItem i = some x → parseLong (idSuffix i) ≠ some (2 ^ 63 - 1))
    {addr : Nat → Obj} (ha : Function.Injective addr) (r : Obj) :
    ∃ d L, s.writeToFile cls = some d ∧ readFromFile reg addr r d = .ok L ∧
      (∀ i x, s.getItem i = some x → ∀ n, parseLong (idSuffix i) = some n → n < L.env.lastId) ∧
      (L.env.lastId = 1 ∨ ∃ i x, s.getItem i = some x ∧ parseLong (idSuffix i) = some ((L.env.lastId : Int) - 1)) ∧
      ∀ t, Steps Legal L.env t → ∀ o, t.owner o = .free → (t.uid o = [] ∨ (t.uid o).getLast? = some '/') →
        ∃ n t', t.attachItem o = .ok t' ∧ t.lastId < n ∧ t'.uid o = requestedPrefix t.pfx (t.uid o) ++ Nat.toDigits 10 n ∧
          t.getItem (t'.uid o) = none ∧ t'.getItem (t'.uid o) = some o := by
  obtain ⟨hw, hc⟩ := h.wf_closed
  obtain ⟨d, L, φ, h1, h2, _, h4, _, h6, h7, h8, _⟩ := save_load hw hc hk ha h0 hmax r
  refine ⟨d, L, h1, h2, ?_, ?_, ?_⟩
  · intro i x hx n hn
    exact h7 i (φ x) n (by rw [h6, hx]; rfl) hn
  · rcases h8 with h8 | ⟨i, x, hx, hn⟩
    · exact .inl h8
    · rw [h6] at hx
      cases hs : s.getItem i with
      | none => rw [hs] at hx; cases hx
      | some y => exact .inr ⟨i, y, hs, hn⟩
  · intro t ht o ho hu
    obtain ⟨n, t', a1, a2, _, a4, a5, _, a7, _⟩ := automatic_id_fresh (ht.wf h4) ho hu
    exact ⟨n, t', a1, a2, a4, a5, a7⟩

/-- **C24, the code violates the property in general**: loading an environment with the id "/9223372036854775807" overflows
the counter (undefined behaviour). -/
theorem C24_counter_overflow :
    ∃ s, run (init 0) [.alloc 1 .layer "/9223372036854775807".toList false 0 0, .attach 1] = some s ∧
      ((s.writeToFile (exampleCls s)).any fun d => (match readFromFile exampleReg (fun n => 1000 + n) 77 d with
        | .fault .overflow => true
        | _ => false)) = true := ex_of_any (by decide +kernel)

/-! ## C26 -/

theorem splitLast_some {id p q : Uid} (h : splitLast id = some (p, q)) : id = p ++ '/' :: q ∧ '/' ∉ q := by
  have none_iff : ∀ l : Uid, splitLast l = none → '/' ∉ l := by
    intro l
    induction l with
    | nil => simp
    | cons c t ih =>
      intro h
      unfold splitLast at h
      cases hs : splitLast t with
      | some pq => rw [hs] at h; cases h
      | none =>
        rw [hs] at h
        dsimp only at h
        by_cases hc : c = '/'
        · rw [if_pos hc] at h; cases h
        · rw [List.mem_cons]; rintro (rfl | h2)
          · exact hc rfl
          · exact ih hs h2
  induction id generalizing p q with
  | nil => cases h
  | cons c t ih =>
    unfold splitLast at h
    cases hs : splitLast t with
    | some pq =>
      obtain ⟨p', q'⟩ := pq
      rw [hs] at h
      cases h
      obtain ⟨h1, h2⟩ := ih hs
      exact ⟨by rw [h1]; rfl, h2⟩
    | none =>
      rw [hs] at h
      dsimp only at h
      by_cases hc : c = '/'
      · rw [if_pos hc] at h
        cases h
        exact ⟨by rw [hc]; rfl, none_iff t hs⟩
      · rw [if_neg hc] at h; cases h

theorem splitLast_eq {p q : Uid} (h : '/' ∉ q) : splitLast (p ++ '/' :: q) = some (p, q) := by
  have none_of : ∀ l : Uid, '/' ∉ l → splitLast l = none := by
    intro l
    induction l with
    | nil => intro _; rfl
    | cons c t ih =>
      intro hl
      rw [List.mem_cons, not_or] at hl
      unfold splitLast
      rw [ih hl.2]
      exact if_neg (fun e => hl.1 e.symm)
  induction p with
  | nil =>
    rw [List.nil_append]
    unfold splitLast
    rw [none_of q h]
    exact if_pos rfl
  | cons c t ih =>
    rw [List.cons_append]
    unfold splitLast
    rw [ih]

/-- **C26** An id with a slash is prefix, slash, suffix; the suffix has no slash; prefix and suffix determine the id; and an id
made by `attachItem` has the requested prefix, with the number used as suffix (read back by getUniqueIdNumericalSuffix). -/
theorem C26_prefix_suffix :
    (∀ id : Uid, '/' ∈ id → id = idPrefix id ++ '/' :: idSuffix id ∧ '/' ∉ idSuffix id) ∧
    (∀ id id' : Uid, '/' ∈ id → '/' ∈ id' → idPrefix id = idPrefix id' → idSuffix id = idSuffix id' → id = id') ∧
    (∀ {r : Obj} {s : Env}, Reach Legal r s → ∀ o, s.owner o = .free → (s.uid o = [] ∨ (s.uid o).getLast? = some '/') →
      ∃ s' n, s.attachItem o = .ok s' ∧ idPrefix (s'.uid o) ++ ['/'] = requestedPrefix s.pfx (s.uid o) ∧
        idSuffix (s'.uid o) = Nat.toDigits 10 n ∧ s'.lastId = n ∧ (n < 2 ^ 63 → parseLong (idSuffix (s'.uid o)) = some (n : Int))) := by
  have split : ∀ id : Uid, '/' ∈ id → ∃ p q, splitLast id = some (p, q) := by
    intro id
    induction id with
    | nil => simp
    | cons c t ih =>
      intro h
      unfold splitLast
      cases hs : splitLast t with
      | some pq => exact ⟨_, _, rfl⟩
      | none =>
        have : c = '/' := by
          rcases List.mem_cons.1 h with h | h
          · exact h.symm
          · obtain ⟨p, q, e⟩ := ih h; rw [hs] at e; cases e
        dsimp only
        rw [if_pos this]
        exact ⟨_, _, rfl⟩
  have first : ∀ id : Uid, '/' ∈ id → id = idPrefix id ++ '/' :: idSuffix id ∧ '/' ∉ idSuffix id := by
    intro id h
    obtain ⟨p, q, e⟩ := split id h
    unfold idPrefix idSuffix
    rw [e]
    exact splitLast_some e
  refine ⟨first, ?_, ?_⟩
  · intro id id' h h' e1 e2
    rw [(first id h).1, (first id' h').1, e1, e2]
  · intro r s hr o ho hu
    obtain ⟨n, s', h1, _, h3, h4, _⟩ := automatic_id_fresh hr.wf ho hu
    have hlast : (requestedPrefix s.pfx (s.uid o)).getLast? = some '/' := by
      unfold requestedPrefix
      cases h : s.uid o with
      | nil => exact hr.wf.pfx_last
      | cons c t =>
        rw [h] at hu
        have : (c :: t).getLast? = some '/' := by
          rcases hu with hu | hu
          · cases hu
          · exact hu
        dsimp only
        split
        · exact this
        · rw [List.getLast?_append, this]; rfl
    obtain ⟨p, hp⟩ : ∃ p, requestedPrefix s.pfx (s.uid o) = p ++ ['/'] := by
      rw [List.getLast?_eq_some_iff] at hlast
      exact hlast
    have hs : splitLast (s'.uid o) = some (p, Nat.toDigits 10 n) := by
      rw [h4, hp, List.append_assoc]
      exact splitLast_eq (slash_not_mem_toDigits n)
    have hsuf : idSuffix (s'.uid o) = Nat.toDigits 10 n := by unfold idSuffix; rw [hs]
    refine ⟨s', n, h1, ?_, hsuf, h3, ?_⟩
    · unfold idPrefix; rw [hs, hp]
    · intro hn
      rw [hsuf]
      have hne : Nat.toDigits 10 n ≠ [] := by
        intro e
        have := Nat.ofDigitChars_toDigits (b := 10) (n := n) (by decide) (by decide)
        have hd := Nat.length_toDigits_pos (b := 10) (n := n)
        rw [e] at hd
        exact absurd hd (by simp)
      have hall : (Nat.toDigits 10 n).all Char.isDigit = true := by
        rw [List.all_eq_true]
        intro c hc
        exact Nat.isDigit_of_mem_toDigits (by decide) (by decide) hc
      have hpn : parseNat (Nat.toDigits 10 n) = some n := by
        unfold parseNat
        rw [if_pos ⟨hne, hall⟩, Nat.ofDigitChars_toDigits (by decide) (by decide)]
      unfold parseLong
      split
      · rename_i t heq
        have : '-' ∈ Nat.toDigits 10 n := by rw [heq]; exact List.mem_cons_self ..
        exact absurd (Nat.isDigit_of_mem_toDigits (by decide) (by decide) this) (by decide)
      · rename_i t heq
        have : '+' ∈ Nat.toDigits 10 n := by rw [heq]; exact List.mem_cons_self ..
        exact absurd (Nat.isDigit_of_mem_toDigits (by decide) (by decide) this) (by decide)
      · rw [hpn]
        show (if n < 2 ^ 63 then _ else _) = _
        rw [if_pos hn]

example : idPrefix "/a/b/12".toList = "/a/b".toList ∧ idSuffix "/a/b/12".toList = "12".toList ∧ parseLong "12".toList = some 12 := by decide

/-! ## C27 -/

/-- Layer::getMapFileName( className ), Layer.cpp l.131-136 -/
def mapFileName (cls : Cls) (id : Uid) : List Char := cls ++ id.map (fun c => if c = '/' then '_' else c)

/-- **C27** Two layers of one class share a file exactly if their ids agree up to '/' and '_'. In particular layers with different
ids that do not use '_' are stored in different files. Missing for the full claim: ids with '_'. -/
theorem C27_files_distinct_partial (cls : Cls) (i j : Uid) :
    (mapFileName cls i = mapFileName cls j ↔ i.length = j.length ∧ ∀ k (h : k < i.length) (h' : k < j.length),
      i[k] = j[k] ∨ (i[k] = '/' ∧ j[k] = '_') ∨ (i[k] = '_' ∧ j[k] = '/')) ∧
    ('_' ∉ i → '_' ∉ j → i ≠ j → mapFileName cls i ≠ mapFileName cls j) := by
  have main : mapFileName cls i = mapFileName cls j ↔ i.length = j.length ∧ ∀ k (h : k < i.length) (h' : k < j.length),
      i[k] = j[k] ∨ (i[k] = '/' ∧ j[k] = '_') ∨ (i[k] = '_' ∧ j[k] = '/') := by
    unfold mapFileName
    rw [List.append_cancel_left_eq, List.ext_getElem_iff]
    simp only [List.length_map, List.getElem_map]
    refine and_congr_right (fun _ => forall_congr' fun k => forall_congr' fun h => forall_congr' fun h' => ?_)
    generalize i[k] = a
    generalize j[k] = b
    constructor
    · intro h
      by_cases ha : a = '/'
      · by_cases hb : b = '/'
        · exact .inl (ha.trans hb.symm)
        · rw [if_pos ha, if_neg hb] at h; exact .inr (.inl ⟨ha, h.symm⟩)
      · by_cases hb : b = '/'
        · rw [if_neg ha, if_pos hb] at h; exact .inr (.inr ⟨h, hb⟩)
        · rw [if_neg ha, if_neg hb] at h; exact .inl h
    · rintro (rfl | ⟨rfl, rfl⟩ | ⟨rfl, rfl⟩)
      · rfl
      · decide
      · decide
  refine ⟨main, fun hi hj hne he => hne ?_⟩
  obtain ⟨hl, hk⟩ := main.1 he
  refine List.ext_getElem hl (fun k h h' => ?_)
  rcases hk k h h' with hk | ⟨_, hk⟩ | ⟨hk, _⟩
  · exact hk
  · exact absurd (hk ▸ List.getElem_mem h') hj
  · exact absurd (hk ▸ List.getElem_mem h) hi

/-- **C27, the code violates the property in general**: two attached layers "/a/b" and "/a_b" of one class share a file -/
theorem C27_files_clash :
    ∃ s, run (init 0) [.alloc 1 .layer "/a/b".toList false 0 0, .attach 1, .alloc 2 .layer "/a_b".toList false 0 0, .attach 2] = some s ∧
      (s.owner 1 = .here ∧ s.owner 2 = .here ∧ s.uid 1 ≠ s.uid 2 ∧
        mapFileName "envire::Pointcloud".toList (s.uid 1) = mapFileName "envire::Pointcloud".toList (s.uid 2)) := ex_of_any (by decide +kernel)

end Envire

#print axioms Envire.C23_save_load_partial
#print axioms Envire.C23_dangling_root
#print axioms Envire.C23_root_id_of_layer
#print axioms Envire.C24_ids_after_load_partial
#print axioms Envire.C24_counter_overflow
#print axioms Envire.C26_prefix_suffix
#print axioms Envire.C27_files_distinct_partial
#print axioms Envire.C27_files_clash
