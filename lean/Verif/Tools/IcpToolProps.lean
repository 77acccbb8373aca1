import Verif.Tools.IcpToolModel
import Verif.Core.CloneProps
import Verif.Core.TransformProps
import Mathlib.Logic.Relation
import Mathlib.Data.List.Perm.Subperm

/-! Property C183: the tree of meshes of env_icp. -/

namespace Envire.IcpTool

open Envire Envire.Env

variable {G : Type} [Group G]

/-! ## specification -/

/-- the links are made one after another: each joins a mesh inside to one outside by the highest adjacency between the two
parts, which is positive -/
def Joined (adj : Nat → Nat → Int) (n : Nat) : List Nat → List (Nat × Nat) → Prop
  | _, [] => True
  | taken, (c, p) :: l => p ∈ taken ∧ c ∉ taken ∧ c < n ∧ 0 < adj p c ∧
      (∀ i ∈ taken, ∀ j < n, j ∉ taken → adj i j ≤ adj p c) ∧ Joined adj n (taken ++ [c]) l

/-- two meshes with a positive adjacency -/
def Linked (adj : Nat → Nat → Int) (n : Nat) (i j : Nat) : Prop := i < n ∧ j < n ∧ 0 < adj i j

/-! ## the highest adjacency -/

theorem row (adj : Nat → Nat → Int) (taken : List Nat) (i : Nat) : ∀ (l : List Nat) (h : Highest),
    let h' := l.foldl (fun h j => consider adj taken h i j) h
    h.adjacency ≤ h'.adjacency ∧ (∀ j ∈ l, j ∉ taken → adj i j ≤ h'.adjacency) ∧
      (h' = h ∨ ∃ j ∈ l, j ∉ taken ∧ h' = ⟨some (i, j), adj i j⟩) := by
  intro l
  induction l with
  | nil => intro h; exact ⟨le_refl _, by simp, .inl rfl⟩
  | cons j l ih =>
    intro h
    obtain ⟨h1, h2, h3⟩ := ih (consider adj taken h i j)
    have hc : h.adjacency ≤ (consider adj taken h i j).adjacency ∧ (j ∉ taken → adj i j ≤ (consider adj taken h i j).adjacency) := by
      unfold consider
      split
      · rename_i hh; exact ⟨le_of_lt hh.2, fun _ => le_refl _⟩
      · rename_i hh
        refine ⟨le_refl _, fun hj => ?_⟩
        by_contra hk
        exact hh ⟨hj, by omega⟩
    refine ⟨le_trans hc.1 h1, ?_, ?_⟩
    · intro k hk hkt
      rcases List.mem_cons.1 hk with rfl | hk
      · exact le_trans (hc.2 hkt) h1
      · exact h2 k hk hkt
    · rcases h3 with h3 | ⟨k, hk, hkt, h3⟩
      · by_cases hh : j ∉ taken ∧ adj i j > h.adjacency
        · right
          refine ⟨j, List.mem_cons_self, hh.1, ?_⟩
          refine h3.trans ?_
          unfold consider
          rw [if_pos hh]
        · left
          refine h3.trans ?_
          unfold consider
          rw [if_neg hh]
      · exact .inr ⟨k, List.mem_cons_of_mem _ hk, hkt, h3⟩

theorem rows (adj : Nat → Nat → Int) (taken : List Nat) (n : Nat) : ∀ (l : List Nat) (h : Highest),
    let h' := l.foldl (fun h i => (List.range n).foldl (fun h j => consider adj taken h i j) h) h
    h.adjacency ≤ h'.adjacency ∧ (∀ i ∈ l, ∀ j < n, j ∉ taken → adj i j ≤ h'.adjacency) ∧
      (h' = h ∨ ∃ i ∈ l, ∃ j < n, j ∉ taken ∧ h' = ⟨some (i, j), adj i j⟩) := by
  intro l
  induction l with
  | nil => intro h; exact ⟨le_refl _, by simp, .inl rfl⟩
  | cons i l ih =>
    intro h
    obtain ⟨a1, a2, a3⟩ := row adj taken i (List.range n) h
    obtain ⟨h1, h2, h3⟩ := ih ((List.range n).foldl (fun h j => consider adj taken h i j) h)
    refine ⟨le_trans a1 h1, ?_, ?_⟩
    · intro k hk j hj hjt
      rcases List.mem_cons.1 hk with rfl | hk
      · exact le_trans (a2 j (List.mem_range.2 hj) hjt) h1
      · exact h2 k hk j hj hjt
    · rcases h3 with h3 | ⟨k, hk, j, hj, hjt, h3⟩
      · rcases a3 with a3 | ⟨j, hj, hjt, a3⟩
        · exact .inl (h3.trans a3)
        · exact .inr ⟨i, List.mem_cons_self, j, List.mem_range.1 hj, hjt, h3.trans a3⟩
      · exact .inr ⟨k, List.mem_cons_of_mem _ hk, j, hj, hjt, h3⟩

/-- what the two loops find -/
theorem highest_spec (adj : Nat → Nat → Int) (n : Nat) (taken : List Nat) :
    (∀ i ∈ taken, ∀ j < n, j ∉ taken → adj i j ≤ (highest adj n taken).adjacency) ∧
    (highest adj n taken = {} ∨ ∃ i ∈ taken, ∃ j < n, j ∉ taken ∧ highest adj n taken = ⟨some (i, j), adj i j⟩) := by
  obtain ⟨_, h2, h3⟩ := rows adj taken n taken {}
  exact ⟨h2, h3⟩

/-- the row with the highest sum -/
theorem rootMesh_spec (adj : Nat → Nat → Int) {n : Nat} (hn : 0 < n) :
    ∃ i, rootMesh adj n = some i ∧ i < n ∧ ∀ j < n, total adj n j ≤ total adj n i := by
  have key : ∀ m, ∃ b : Option Nat, (List.range m).foldl (fun b i => match b with
      | none => some i
      | some k => if total adj n i > total adj n k then some i else some k) none = b ∧
      (0 < m → ∃ i, b = some i ∧ i < m ∧ ∀ j < m, total adj n j ≤ total adj n i) ∧ (m = 0 → b = none) := by
    intro m
    induction m with
    | zero => exact ⟨none, rfl, by omega, fun _ => rfl⟩
    | succ m ih =>
      obtain ⟨b, e, h1, h2⟩ := ih
      refine ⟨_, rfl, fun _ => ?_, by omega⟩
      rw [List.range_succ, List.foldl_append, e]
      simp only [List.foldl_cons, List.foldl_nil]
      rcases Nat.eq_zero_or_pos m with h0 | h0
      · rw [h2 h0]
        exact ⟨m, rfl, by omega, fun j hj => by rw [show j = m by omega]⟩
      · obtain ⟨i, rfl, hi, hm⟩ := h1 h0
        dsimp only
        by_cases hg : total adj n m > total adj n i
        · rw [if_pos hg]
          refine ⟨m, rfl, by omega, fun j hj => ?_⟩
          rcases Nat.lt_succ_iff_lt_or_eq.1 hj with h | rfl
          · have := hm j h; omega
          · exact le_refl _
        · rw [if_neg hg]
          refine ⟨i, rfl, by omega, fun j hj => ?_⟩
          rcases Nat.lt_succ_iff_lt_or_eq.1 hj with h | rfl
          · exact hm j h
          · omega
  obtain ⟨b, e, h1, _⟩ := key n
  obtain ⟨i, rfl, h⟩ := h1 hn
  exact ⟨i, e, h⟩

/-! ## moving a frame below another one -/

/-- addChild of two attached frames -/
theorem addChildF_here {s : Env} (hw : WF s) (hc : Closed s) {p c : Obj} (hp : s.owner p = .here) (hco : s.owner c = .here)
    (kp : s.kind p = .frame) (kc : s.kind c = .frame) (hne : p ≠ c) :
    ∃ s', s.addChildF p c = .ok s' ∧ WF s' ∧ Closed s' ∧ (∀ x, s'.getParent x = if x = c then some p else s.getParent x) ∧
      s'.cmap = s.cmap ∧ s'.ltree = s.ltree ∧ s'.opIn = s.opIn ∧ s'.opOut = s.opOut ∧ s'.owner = s.owner ∧ s'.kind = s.kind ∧
      s'.uid = s.uid ∧ s'.items = s.items ∧ s'.rootNode = s.rootNode := by
  have main : ∃ s', s.addChildF p c = .ok s' ∧ s'.owner = s.owner ∧ s'.kind = s.kind ∧ s'.uid = s.uid ∧ s'.items = s.items ∧ s'.rootNode = s.rootNode := by
    unfold addChildF
    rw [if_neg hne]
    by_cases h : s.getParent c = some p
    · rw [if_pos h]; exact ⟨s, rfl, rfl, rfl, rfl, rfl, rfl⟩
    · rw [if_neg h]
      have e1 : ensureAttached s c = .ok s := by unfold ensureAttached; rw [hco]
      rw [e1]
      simp only [Res.bind]
      unfold dropParent
      cases hq : s.getParent c with
      | none =>
        simp only
        rw [Clone.emit_here (by exact hp) (by exact hco)]
        exact ⟨_, rfl, rfl, rfl, rfl, rfl, rfl⟩
      | some q =>
        have hqo := (hc.ftree _ (look_some_mem hq)).1.2
        simp only
        unfold removeChildF
        rw [if_pos hq, Clone.emit_here hqo hco]
        simp only [Res.bind]
        rw [Clone.emit_here (by exact hp) (by exact hco)]
        exact ⟨_, rfl, rfl, rfl, rfl, rfl, rfl⟩
  obtain ⟨s', e, h1, h2, h3, h4, h5⟩ := main
  have hwf := hw.exec (.addChildF p c) trivial
  have hcl := hc.exec hw (.addChildF p c) ⟨hp, by rw [hco]; decide, hne⟩ (by
    simp only [Env.typed]; rw [kp, kc]; rfl)
  have ex : s.exec (.addChildF p c) = s.addChildF p c := rfl
  rw [ex, e] at hwf hcl
  have hr := addChildF_rel s p c
  rw [e] at hr
  obtain ⟨r1, r2, r3, r4, r5⟩ := hr
  refine ⟨s', e, hwf, hcl, fun x => ?_, r5, r2, r3, r4, h1, h2, h3, h4, h5⟩
  unfold getParent at *
  rw [r1]
  by_cases h : look c s.ftree = some p
  · rw [if_pos h]
    split
    · rename_i hx; rw [hx]; exact h
    · rfl
  · rw [if_neg h]
    by_cases hx : x = c
    · rw [if_pos hx, hx]
      exact look_ins_self ((eraseKey_sublist c s.ftree).map _ |>.nodup hw.ftree_nodup) (not_mem_keys_eraseKey c s.ftree)
    · rw [if_neg hx, look_ins_ne hx, look_eraseKey_ne hx]

theorem above_step {s : Env} {c p y : Obj} (hw : WF s) (h : Above s c y) (hp : s.getParent c = some p) : y = p ∨ Above s p y := by
  have key : ∀ q, (c, q) ∈ s.ftree → q = p := fun q hq => by
    have := (look_eq_some_iff hw.ftree_nodup).2 hq
    unfold getParent at hp
    rw [this] at hp; exact Option.some.inj hp
  cases h with
  | one h1 => exact .inl (key _ h1)
  | more h1 h2 => rw [key _ h1] at h2; exact .inr h2

theorem acyclic_move {s s' : Env} (hw' : WF s') (ha : Acyclic s) {p c : Obj} (hne : p ≠ c) (hn : ¬ Above s p c)
    (hp : ∀ x, s'.getParent x = if x = c then some p else s.getParent x) : Acyclic s' := by
  refine Acyclic.ins ha hne hn (fun e he => ?_)
  have h1 : s'.getParent e.1 = some e.2 := (look_eq_some_iff hw'.ftree_nodup).2 he
  rw [hp] at h1
  split at h1
  · rename_i hx
    left
    rw [← hx, Option.some.inj h1]
  · exact .inr (look_some_mem h1)

/-- frames that are not below the moved one keep their place -/
theorem kept_outside {s s' : Env} {tf : Obj → G} {p c : Obj} (t : G)
    (hp : ∀ x, s'.getParent x = if x = c then some p else s.getParent x) {x r : Obj} {u : G}
    (h : InRoot s (groupOps G) tf x u r) : x ≠ c → ¬ Above s x c → InRoot s' (groupOps G) (upd tf c t) x u r := by
  induction h with
  | root h1 =>
    intro hx _
    exact .root (by rw [hp, if_neg hx]; exact h1)
  | @up a q r u h1 h2 ih =>
    intro hx hn
    have hq : q ≠ c := fun e => hn (.one (look_some_mem (e ▸ h1)))
    have := ih hq (fun h => hn (.more (look_some_mem h1) h))
    have e : InRoot s' (groupOps G) (upd tf c t) a ((groupOps G).mul u (upd tf c t a)) r := .up (by rw [hp, if_neg hx]; exact h1) this
    unfold upd at e
    rw [if_neg hx] at e
    exact e

/-- frames below the moved one move with it -/
theorem moved_inside {s s' : Env} (hw : WF s) (ha : Acyclic s) {tf : Obj → G} {p c rp : Obj} (t : G) {tp : G} (hne : p ≠ c) (hn : ¬ Above s p c)
    (hp : ∀ x, s'.getParent x = if x = c then some p else s.getParent x) (hip : InRoot s (groupOps G) tf p tp rp)
    {x r rc : Obj} {u tc : G} (h : InRoot s (groupOps G) tf x u r) : (x = c ∨ Above s x c) → InRoot s (groupOps G) tf c tc rc →
      InRoot s' (groupOps G) (upd tf c t) x (tp * t * tc⁻¹ * u) rp := by
  have base : InRoot s' (groupOps G) (upd tf c t) c (tp * t) rp := by
    have := kept_outside t hp hip hne hn
    have e : InRoot s' (groupOps G) (upd tf c t) c ((groupOps G).mul tp (upd tf c t c)) rp := .up (by rw [hp, if_pos rfl]) this
    unfold upd at e
    rw [if_pos rfl] at e
    exact e
  induction h with
  | @root a h1 =>
    intro hx hc
    rcases hx with rfl | hx
    · obtain ⟨e1, _⟩ := hc.unique (.root h1)
      rw [e1]
      show InRoot s' (groupOps G) _ a (tp * t * (1 : G)⁻¹ * 1) rp
      rw [inv_one, mul_one, mul_one]
      exact base
    · exfalso
      cases hx with
      | one h2 => exact absurd (look_none_iff.1 h1) (fun h => h (List.mem_map.2 ⟨_, h2, rfl⟩))
      | more h2 _ => exact absurd (look_none_iff.1 h1) (fun h => h (List.mem_map.2 ⟨_, h2, rfl⟩))
  | @up a q r u h1 h2 ih =>
    intro hx hc
    by_cases hac : a = c
    · subst hac
      obtain ⟨e1, _⟩ := hc.unique (.up h1 h2)
      rw [e1, inv_mul_cancel_right]
      exact base
    · have hx : Above s a c := hx.resolve_left hac
      have := ih ((above_step hw hx h1).imp (fun h => h.symm) id) hc
      have e : InRoot s' (groupOps G) (upd tf c t) a ((groupOps G).mul (tp * t * tc⁻¹ * u) (upd tf c t a)) rp :=
        .up (by rw [hp, if_neg hac]; exact h1) this
      unfold upd at e
      rw [if_neg hac] at e
      show InRoot s' (groupOps G) _ a (tp * t * tc⁻¹ * (u * tf a)) rp
      rw [← mul_assoc]
      exact e

theorem same_root {s : Env} (hw : WF s) {tf : Obj → G} {x c r rc : Obj} {u tc : G} (h : InRoot s (groupOps G) tf x u r)
    (hx : x = c ∨ Above s x c) (hic : InRoot s (groupOps G) tf c tc rc) : r = rc := by
  have key : Above s x c → r = rc := by
    induction h with
    | root h1 =>
      intro hx
      exfalso
      cases hx with
      | one h2 => exact absurd (look_none_iff.1 h1) (fun h => h (List.mem_map.2 ⟨_, h2, rfl⟩))
      | more h2 _ => exact absurd (look_none_iff.1 h1) (fun h => h (List.mem_map.2 ⟨_, h2, rfl⟩))
    | up h1 h2 ih =>
      intro hx
      rcases above_step hw hx h1 with rfl | hx
      · exact (h2.unique hic).2
      · exact ih (.inr hx) hx
  rcases hx with rfl | hx
  · exact (h.unique hic).2
  · exact key hx

/-- with the transform of l.106-108 all frames keep their place -/
theorem all_kept {s s' : Env} (hw : WF s) (ha : Acyclic s) {tf : Obj → G} {p c r0 : Obj} {tp tc : G} (hne : p ≠ c) (hn : ¬ Above s p c)
    (hp : ∀ x, s'.getParent x = if x = c then some p else s.getParent x) (hip : InRoot s (groupOps G) tf p tp r0)
    (hic : InRoot s (groupOps G) tf c tc r0) {x r : Obj} {u : G} (h : InRoot s (groupOps G) tf x u r) :
    InRoot s' (groupOps G) (upd tf c (tp⁻¹ * tc)) x u r := by
  by_cases hx : x = c ∨ Above s x c
  · have h1 := moved_inside hw ha (tp⁻¹ * tc) hne hn hp hip h hx hic
    rw [mul_inv_cancel_left, mul_inv_cancel, one_mul] at h1
    have hr : r = r0 := same_root hw h hx hic
    rw [hr]
    exact h1
  · rw [not_or] at hx
    exact kept_outside _ hp h hx.1 hx.2

/-! ## the loop -/

/-- the state before each round: fr: the frames of the meshes, r: the root node, fresh: the frame made by the tool -/
structure Ready (fr : Nat → Obj) (meshes : List Obj) (r fresh : Obj) (s : Env) (tf : Obj → G) (taken : List Nat) : Prop where
  wf : WF s
  closed : Closed s
  acyclic : Acyclic s
  frame : ∀ i < meshes.length, (meshes[i]?).bind s.getFrameNode = some (fr i)
  own : ∀ i < meshes.length, s.owner (fr i) = .here ∧ s.kind (fr i) = .frame
  inj : ∀ i < meshes.length, ∀ j < meshes.length, fr i = fr j → i = j
  rooted : ∀ i < meshes.length, ∃ u, InRoot s (groupOps G) tf (fr i) u r
  nodup : taken.Nodup
  sub : ∀ i ∈ taken, i < meshes.length
  parent : ∀ i ∈ taken, ∀ q, s.getParent (fr i) = some q → q = fresh ∨ ∃ j ∈ taken, fr j = q
  root : s.getParent r = none
  mid : s.getParent fresh = some r
  other : ∀ i < meshes.length, fr i ≠ r ∧ fr i ≠ fresh

theorem Ready.above {fr : Nat → Obj} {meshes : List Obj} {r fresh : Obj} {s : Env} {tf : Obj → G} {taken : List Nat}
    (h : Ready fr meshes r fresh s tf taken) {x y : Obj} (ha : Above s x y) :
    (x = r ∨ x = fresh ∨ ∃ j ∈ taken, fr j = x) → (y = r ∨ y = fresh ∨ ∃ j ∈ taken, fr j = y) := by
  have one : ∀ x q, (x, q) ∈ s.ftree → (x = r ∨ x = fresh ∨ ∃ j ∈ taken, fr j = x) → (q = r ∨ q = fresh ∨ ∃ j ∈ taken, fr j = q) := by
    intro x q hq hx
    have hg : s.getParent x = some q := (look_eq_some_iff h.wf.ftree_nodup).2 hq
    rcases hx with rfl | rfl | ⟨j, hj, rfl⟩
    · rw [h.root] at hg; cases hg
    · rw [h.mid] at hg; exact .inl (Option.some.inj hg).symm
    · exact .inr (h.parent j hj q hg)
  induction ha with
  | one h1 => exact one _ _ h1
  | more h1 _ ih => exact fun hx => ih (one _ _ h1 hx)

/-- one round: the frame of `c` is moved below the frame of `p` -/
theorem Ready.step {fr : Nat → Obj} {meshes : List Obj} {r fresh : Obj} {s : Env} {tf : Obj → G} {taken : List Nat}
    (h : Ready fr meshes r fresh s tf taken) {p c : Nat} (hp : p ∈ taken) (hc : c < meshes.length) (hct : c ∉ taken) :
    ∃ t s', s.relativeTransform (groupOps G) tf (fr c) (fr p) = .ok t ∧ s.addChildF (fr p) (fr c) = .ok s' ∧
      Ready fr meshes r fresh s' (upd tf (fr c) t) (taken ++ [c]) ∧
      (∀ x u q, InRoot s (groupOps G) tf x u q → InRoot s' (groupOps G) (upd tf (fr c) t) x u q) ∧
      (∀ x, s'.getParent x = if x = fr c then some (fr p) else s.getParent x) ∧ s'.cmap = s.cmap ∧ s'.ltree = s.ltree ∧
      s'.opIn = s.opIn ∧ s'.opOut = s.opOut ∧ s'.owner = s.owner ∧ s'.uid = s.uid := by
  have hpl := h.sub p hp
  have hne : fr p ≠ fr c := fun e => hct (h.inj p hpl c hc e ▸ hp)
  have hn : ¬ Above s (fr p) (fr c) := fun ha => by
    rcases h.above ha (.inr (.inr ⟨p, hp, rfl⟩)) with e | e | ⟨j, hj, e⟩
    · exact (h.other c hc).1 e
    · exact (h.other c hc).2 e
    · exact hct (h.inj j (h.sub j hj) c hc e ▸ hj)
  obtain ⟨tp, hip⟩ := h.rooted p hpl
  obtain ⟨tc, hic⟩ := h.rooted c hc
  have e := C09_relativeTransform_exact h.acyclic tf hic hip
  rw [if_pos rfl] at e
  obtain ⟨s', e', w', c', par, e1, e2, e3, e4, e5, e6, e7, _, _⟩ :=
    addChildF_here h.wf h.closed (h.own p hpl).1 (h.own c hc).1 (h.own p hpl).2 (h.own c hc).2 hne
  have keep : ∀ x u q, InRoot s (groupOps G) tf x u q → InRoot s' (groupOps G) (upd tf (fr c) (tp⁻¹ * tc)) x u q :=
    fun x u q hx => all_kept h.wf h.acyclic hne hn par hip hic hx
  refine ⟨tp⁻¹ * tc, s', e, e', ⟨w', c', acyclic_move w' h.acyclic hne hn par, ?_, ?_, h.inj, ?_, ?_, ?_, ?_, ?_, ?_, h.other⟩,
    keep, par, e1, e2, e3, e4, e5, e7⟩
  · intro i hi
    have := h.frame i hi
    have eg : s'.getFrameNode = s.getFrameNode := by funext x; unfold getFrameNode; rw [e1]
    rw [eg]; exact this
  · intro i hi; rw [e5, e6]; exact h.own i hi
  · intro i hi
    obtain ⟨u, hu⟩ := h.rooted i hi
    exact ⟨u, keep _ _ _ hu⟩
  · rw [List.nodup_append]
    exact ⟨h.nodup, List.nodup_singleton _, fun a ha b hb => by rw [List.mem_singleton.1 hb]; rintro rfl; exact hct ha⟩
  · intro i hi
    rcases List.mem_append.1 hi with hi | hi
    · exact h.sub i hi
    · rw [List.mem_singleton.1 hi]; exact hc
  · intro i hi q hq
    rw [par] at hq
    split at hq
    · exact .inr ⟨p, List.mem_append_left _ hp, Option.some.inj hq⟩
    · rename_i hx
      rcases List.mem_append.1 hi with hi | hi
      · rcases h.parent i hi q hq with e | ⟨j, hj, e⟩
        · exact .inl e
        · exact .inr ⟨j, List.mem_append_left _ hj, e⟩
      · rw [List.mem_singleton.1 hi] at hx; exact absurd rfl hx
  · rw [par, if_neg (fun e => (h.other c hc).1 e.symm)]; exact h.root
  · rw [par, if_neg (fun e => (h.other c hc).2 e.symm)]; exact h.mid

/-- the whole loop -/
theorem joinAll_spec (adj : Nat → Nat → Int) {fr : Nat → Obj} {meshes : List Obj} {r fresh : Obj} :
    ∀ (k : Nat) (s : Env) (tf : Obj → G) (taken : List Nat) (graph : List (Nat × Nat)), Ready fr meshes r fresh s tf taken →
      taken.length + k = meshes.length →
      (∃ s' tf' new, joinAll adj meshes k s tf taken graph = .saved s' tf' (graph ++ new) ∧ new.length = k ∧
        Joined adj meshes.length taken new ∧
        (∀ x u q, InRoot s (groupOps G) tf x u q → InRoot s' (groupOps G) tf' x u q) ∧
        (∀ e ∈ new, s'.getParent (fr e.1) = some (fr e.2)) ∧
        (∀ x, (∀ e ∈ new, fr e.1 ≠ x) → s'.getParent x = s.getParent x ∧ tf' x = tf x) ∧
        s'.cmap = s.cmap ∧ s'.ltree = s.ltree ∧ s'.opIn = s.opIn ∧ s'.opOut = s.opOut ∧ s'.owner = s.owner ∧ s'.uid = s.uid) ∨
      (joinAll adj meshes k s tf taken graph = .exits ∧ ∃ more, (taken ++ more).Nodup ∧ (taken ++ more).length < meshes.length ∧
        (∀ i ∈ taken ++ more, i < meshes.length) ∧
        ∀ i ∈ taken ++ more, ∀ j < meshes.length, j ∉ taken ++ more → adj i j ≤ 0) := by
  intro k
  induction k with
  | zero =>
    intro s tf taken graph _ _
    left
    refine ⟨s, tf, [], ?_, rfl, trivial, fun _ _ _ h => h, by simp, fun _ _ => ⟨rfl, rfl⟩, rfl, rfl, rfl, rfl, rfl, rfl⟩
    rw [List.append_nil]; rfl
  | succ k ih =>
    intro s tf taken graph h hl
    obtain ⟨hmax, hcase⟩ := highest_spec adj meshes.length taken
    have fail : joinAll adj meshes (k + 1) s tf taken graph = .exits → (highest adj meshes.length taken).adjacency ≤ 0 →
        (joinAll adj meshes (k + 1) s tf taken graph = .exits ∧ ∃ more, (taken ++ more).Nodup ∧ (taken ++ more).length < meshes.length ∧
        (∀ i ∈ taken ++ more, i < meshes.length) ∧
        ∀ i ∈ taken ++ more, ∀ j < meshes.length, j ∉ taken ++ more → adj i j ≤ 0) := by
      intro e ha
      refine ⟨e, [], ?_⟩
      rw [List.append_nil]
      exact ⟨h.nodup, by omega, h.sub, fun i hi j hj hjt => le_trans (hmax i hi j hj hjt) ha⟩
    rcases hcase with hcase | ⟨p, hp, c, hc, hct, hcase⟩
    · right
      refine fail ?_ (by rw [hcase]; decide)
      unfold joinAll
      rw [hcase]
    · by_cases ha : adj p c > 0
      · obtain ⟨t, s', e1, e2, hr, keep, par, q1, q2, q3, q4, q5, q6⟩ := h.step hp hc hct
        have ej : joinAll adj meshes (k + 1) s tf taken graph = joinAll adj meshes k s' (upd tf (fr c) t) (taken ++ [c]) (graph ++ [(c, p)]) := by
          conv_lhs => unfold joinAll
          rw [hcase]
          dsimp only
          rw [if_pos ha, h.frame c hc, h.frame p (h.sub p hp)]
          dsimp only
          rw [e1]
          dsimp only
          rw [e2]
        rw [ej]
        rcases ih s' (upd tf (fr c) t) (taken ++ [c]) (graph ++ [(c, p)]) hr (by rw [List.length_append]; simp only [List.length_cons, List.length_nil]; omega) with
          ⟨s2, tf2, new, j1, j2, j3, j4, j5, j6, j7, j8, j9, j10, j11, j12⟩ | ⟨j1, more, j2, j3, j4, j5⟩
        · left
          refine ⟨s2, tf2, (c, p) :: new, ?_, by rw [List.length_cons, j2], ?_, fun x u q hx => j4 x u q (keep x u q hx), ?_, ?_, j7.trans q1, j8.trans q2,
            j9.trans q3, j10.trans q4, j11.trans q5, j12.trans q6⟩
          · rw [j1, List.append_assoc]; rfl
          · refine ⟨hp, hct, hc, ha, fun i hi j hj hjt => ?_, j3⟩
            have := hmax i hi j hj hjt
            rw [hcase] at this
            exact this
          · have hnot : ∀ (l : List (Nat × Nat)) (tk : List Nat), Joined adj meshes.length tk l → c ∈ tk → ∀ e ∈ l, e.1 ≠ c ∧ e.1 < meshes.length := by
              intro l
              induction l with
              | nil => intro _ _ _ e he; cases he
              | cons a l ih2 =>
                intro tk hj hct e he
                obtain ⟨_, b2, b3, _, _, b6⟩ := hj
                rcases List.mem_cons.1 he with rfl | he
                · exact ⟨fun hh => b2 (hh ▸ hct), b3⟩
                · exact ih2 _ b6 (List.mem_append_left _ hct) e he
            intro e he
            rcases List.mem_cons.1 he with rfl | he
            · have := (j6 (fr c) (fun e he hh => by
                have hx := hnot new _ j3 (List.mem_append_right _ (List.mem_singleton.2 rfl)) e he
                exact hx.1 (h.inj _ hx.2 _ hc hh))).1
              rw [this, par, if_pos rfl]
            · exact j5 e he
          · intro x hx
            have hxc : x ≠ fr c := fun hh => hx (c, p) List.mem_cons_self hh.symm
            have := j6 x (fun e he => hx e (List.mem_cons_of_mem _ he))
            rw [this.1, this.2, par, if_neg hxc]
            exact ⟨rfl, upd_ne _ _ hxc⟩
        · right
          refine ⟨j1, c :: more, ?_⟩
          rw [List.append_assoc] at j2 j3 j4 j5
          exact ⟨j2, j3, j4, j5⟩
      · right
        refine fail ?_ (by rw [hcase]; show adj p c ≤ 0; omega)
        unfold joinAll
        rw [hcase]
        dsimp only
        rw [if_neg ha]

/-! ## the tree -/

theorem Joined.all {adj : Nat → Nat → Int} {n : Nat} : ∀ {l : List (Nat × Nat)} {taken : List Nat}, Joined adj n taken l →
    taken.Nodup → (∀ i ∈ taken, i < n) →
    (taken ++ l.map (·.1)).Nodup ∧ (∀ i ∈ taken ++ l.map (·.1), i < n) ∧
      ∀ e ∈ l, Linked adj n e.2 e.1 := by
  intro l
  induction l with
  | nil => intro taken _ hn hs; rw [List.map_nil, List.append_nil]; exact ⟨hn, hs, by simp⟩
  | cons a l ih =>
    intro taken h hn hs
    obtain ⟨h1, h2, h3, h4, _, h6⟩ := h
    have hs' : ∀ i ∈ taken ++ [a.1], i < n := fun i hi => by
      rcases List.mem_append.1 hi with hi | hi
      · exact hs i hi
      · rw [List.mem_singleton.1 hi]; exact h3
    obtain ⟨b1, b2, b3⟩ := ih h6 (by
      rw [List.nodup_append]
      exact ⟨hn, List.nodup_singleton _, fun x hx y hy => by rw [List.mem_singleton.1 hy]; rintro rfl; exact h2 hx⟩) hs'
    rw [List.append_assoc] at b1 b2
    refine ⟨b1, b2, fun e he => ?_⟩
    rcases List.mem_cons.1 he with rfl | he
    · exact ⟨hs _ h1, h3, h4⟩
    · exact b3 e he

theorem Joined.reach {adj : Nat → Nat → Int} {n i0 : Nat} : ∀ {l : List (Nat × Nat)} {taken : List Nat}, Joined adj n taken l →
    (∀ i ∈ taken, i < n) → (∀ i ∈ taken, Relation.ReflTransGen (Linked adj n) i0 i) →
    ∀ i ∈ taken ++ l.map (·.1), Relation.ReflTransGen (Linked adj n) i0 i := by
  intro l
  induction l with
  | nil => intro taken _ _ hs; rw [List.map_nil, List.append_nil]; exact hs
  | cons a l ih =>
    intro taken h hlt hs
    obtain ⟨h1, h2, h3, h4, _, h6⟩ := h
    have := ih h6 (fun i hi => by
      rcases List.mem_append.1 hi with hi | hi
      · exact hlt i hi
      · rw [List.mem_singleton.1 hi]; exact h3) (fun i hi => by
      rcases List.mem_append.1 hi with hi | hi
      · exact hs i hi
      · rw [List.mem_singleton.1 hi]; exact (hs _ h1).tail ⟨hlt _ h1, h3, h4⟩)
    rw [List.append_assoc] at this
    exact this

theorem perm_range {l : List Nat} {n : Nat} (hn : l.Nodup) (hs : ∀ i ∈ l, i < n) (hl : l.length = n) : l.Perm (List.range n) :=
  (hn.subperm (fun i hi => List.mem_range.2 (hs i hi))).perm_of_length_le (by rw [List.length_range, hl])

/-! ## the first moves -/

theorem inRoot_fresh {s s1 : Env} (hc : Closed s) {tf : Obj → G} {fresh : Obj} (hd : s.owner fresh = .dead) (v : G)
    (hp : ∀ x, x ≠ fresh → s1.getParent x = s.getParent x) {x q : Obj} {u : G} (h : InRoot s (groupOps G) tf x u q) :
    x ≠ fresh → InRoot s1 (groupOps G) (upd tf fresh v) x u q := by
  induction h with
  | root h1 => intro hx; exact .root (by rw [hp _ hx]; exact h1)
  | @up a p q u h1 h2 ih =>
    intro hx
    have hpf : p ≠ fresh := by
      rintro rfl
      have := (hc.ftree _ (look_some_mem h1)).1.2
      rw [hd] at this; cases this
    have e : InRoot s1 (groupOps G) (upd tf fresh v) a ((groupOps G).mul u (upd tf fresh v a)) q := .up (by rw [hp _ hx]; exact h1) (ih hpf)
    rw [upd_ne _ _ hx] at e
    exact e

theorem above_fresh {s s1 : Env} (hw : WF s) (hw1 : WF s1) (hc : Closed s) {fresh : Obj} (hd : s.owner fresh = .dead)
    (hp : ∀ x, x ≠ fresh → s1.getParent x = s.getParent x) {x y : Obj} (hx : x ≠ fresh) : Above s1 x y ↔ Above s x y := by
  have nf : ∀ a b, (a, b) ∈ s.ftree → a ≠ fresh ∧ b ≠ fresh := by
    intro a b h
    have := (hc.ftree _ h).1
    constructor
    · rintro rfl; rw [hd] at this; cases this.1
    · rintro rfl; rw [hd] at this; cases this.2
  have e1 : ∀ a b, (a, b) ∈ s.ftree → (a, b) ∈ s1.ftree := by
    intro a b h
    have : s.getParent a = some b := (look_eq_some_iff hw.ftree_nodup).2 h
    rw [← hp a (nf a b h).1] at this
    exact look_some_mem this
  have e2 : ∀ a b, a ≠ fresh → (a, b) ∈ s1.ftree → (a, b) ∈ s.ftree := by
    intro a b ha h
    have : s1.getParent a = some b := (look_eq_some_iff hw1.ftree_nodup).2 h
    rw [hp a ha] at this
    exact look_some_mem this
  constructor
  · intro h
    induction h with
    | one h => exact .one (e2 _ _ hx h)
    | more h _ ih => exact .more (e2 _ _ hx h) (ih (nf _ _ (e2 _ _ hx h)).2)
  · intro h
    induction h with
    | one h => exact .one (e1 _ _ h)
    | more h _ ih => exact .more (e1 _ _ h) (ih (nf _ _ h).2)

/-- **C183 (tree, partial)** Given any matrix of adjacencies, an environment whose meshes have their own frames below the root node: the
tool links every mesh exactly once, always by the highest adjacency between the meshes in the tree and the others, starting
with the mesh that has the highest sum. It ends without a result exactly if some mesh cannot be reached by positive
adjacencies. All frames keep their place, except that everything below the frame of the first mesh moves by the inverse of the
place of its former parent. Missing: a matrix that is filled (`C183_zero_deviation`), the place of the first mesh
(`C183_first_deviation`), shared frames (`C183_shared_deviation`) and meshes at the root node (`C183_root_deviation`). -/
theorem C183_tree_partial {r : Obj} {s : Env} (h : Reach Good r s) (hr : rootOk s) (hroot : s.getParent s.rootNode = none)
    (ha : Acyclic s) (adj : Nat → Nat → Int) (meshes : List Obj) (hm : meshes ≠ []) (fr : Nat → Obj) (tf : Obj → G) {fresh : Obj}
    (hd : s.owner fresh = .dead) (hf : ∀ i < meshes.length, (meshes[i]?).bind s.getFrameNode = some (fr i))
    (inj : ∀ i < meshes.length, ∀ j < meshes.length, fr i = fr j → i = j)
    (hroots : ∀ i < meshes.length, RootOf s (fr i) s.rootNode ∧ fr i ≠ s.rootNode) :
    ∃ i₀ < meshes.length, (∀ j < meshes.length, ((List.range meshes.length).map (adj j)).sum ≤ ((List.range meshes.length).map (adj i₀)).sum) ∧
      ((∀ j < meshes.length, Relation.ReflTransGen (Linked adj meshes.length) i₀ j) →
        ∃ s' tf' graph, envIcp adj meshes s tf fresh = .saved s' tf' graph ∧
          (i₀ :: graph.map (·.1)).Perm (List.range meshes.length) ∧ Joined adj meshes.length [i₀] graph ∧
          s'.getParent fresh = some s.rootNode ∧ tf' fresh = 1 ∧ s'.getParent (fr i₀) = some fresh ∧
          (∀ e ∈ graph, s'.getParent (fr e.1) = some (fr e.2)) ∧
          (∀ x, x ≠ fresh → (∀ i < meshes.length, fr i ≠ x) → s'.getParent x = s.getParent x ∧ tf' x = tf x) ∧
          (∀ m, s'.getFrameNode m = s.getFrameNode m) ∧ s'.ltree = s.ltree ∧ s'.opIn = s.opIn ∧ s'.opOut = s.opOut ∧
          (∃ q t, s.getParent (fr i₀) = some q ∧ InRoot s (groupOps G) tf q t s.rootNode ∧
            ∀ x u y, x ≠ fresh → InRoot s (groupOps G) tf x u y →
              ((x = fr i₀ ∨ Above s x (fr i₀)) → InRoot s' (groupOps G) tf' x (t⁻¹ * u) y) ∧
              (¬ (x = fr i₀ ∨ Above s x (fr i₀)) → InRoot s' (groupOps G) tf' x u y))) ∧
      ((¬ ∀ j < meshes.length, Relation.ReflTransGen (Linked adj meshes.length) i₀ j) → envIcp adj meshes s tf fresh = .exits) := by
  obtain ⟨hw, hc⟩ := h.wf_closed
  have hn : 0 < meshes.length := List.length_pos_of_ne_nil hm
  obtain ⟨i₀, ei, hi, hmax⟩ := rootMesh_spec adj hn
  refine ⟨i₀, hi, hmax, ?_⟩
  obtain ⟨s1, a1, w1, c1, kept, pf, kf, cm⟩ := Clone.add_fresh hw hc hr.1 hr.2 hd tf (1 : G)
  have hpar1 : ∀ x, x ≠ fresh → s1.getParent x = s.getParent x := fun x hx => kept.parent x (by simpa using hx)
  have hrf : s.rootNode ≠ fresh := by intro e; rw [← e, hr.1] at hd; cases hd
  have hframe : ∀ i < meshes.length, ∃ m, meshes[i]? = some m ∧ s.getFrameNode m = some (fr i) := by
    intro i hi
    obtain ⟨m, hm1, hm2⟩ := Option.bind_eq_some_iff.1 (hf i hi)
    exact ⟨m, hm1, hm2⟩
  have hown : ∀ i < meshes.length, s.owner (fr i) = .here ∧ s.kind (fr i) = .frame := by
    intro i hi
    obtain ⟨m, _, hm2⟩ := hframe i hi
    have := hc.cmap _ (look_some_mem hm2)
    exact ⟨this.1.2, this.2.2⟩
  have hfn : ∀ i < meshes.length, fr i ≠ fresh := by
    intro i hi e
    have := (hown i hi).1
    rw [e, hd] at this; cases this
  have hg1 : s1.getFrameNode = s.getFrameNode := by funext x; unfold getFrameNode; rw [cm]
  have hfr1 : ∀ i < meshes.length, (meshes[i]?).bind s1.getFrameNode = some (fr i) := fun i hi => by rw [hg1]; exact hf i hi
  have o1 : ∀ i < meshes.length, s1.owner (fr i) = .here ∧ s1.kind (fr i) = .frame := fun i hi => by
    rw [kept.owner _ (by simpa using hfn i hi), kept.kind _ (by simpa using hfn i hi)]
    exact hown i hi
  have hac1 : Acyclic s1 := by
    refine acyclic_move w1 ha hrf (fun hab => ?_) (c := fresh) (p := s.rootNode) (fun x => ?_)
    · cases hab with
      | one h1 => exact absurd (look_none_iff.1 hroot) (fun h => h (List.mem_map.2 ⟨_, h1, rfl⟩))
      | more h1 _ => exact absurd (look_none_iff.1 hroot) (fun h => h (List.mem_map.2 ⟨_, h1, rfl⟩))
    · split
      · rename_i hx; rw [hx]; exact pf
      · rename_i hx; exact hpar1 x hx
  obtain ⟨s2, a2, w2, c2, par2, cm2, l2, in2, out2, ow2, kd2, _, _, rn2⟩ :=
    addChildF_here w1 c1 (kept.fresh fresh (by simp)).2 (o1 i₀ hi).1 kf (o1 i₀ hi).2 (hfn i₀ hi).symm
  have hr1 : s1.getParent s.rootNode = none := by rw [hpar1 _ hrf]; exact hroot
  have hnot : ¬ Above s1 fresh (fr i₀) := by
    intro hab
    rcases above_step w1 hab pf with e | hab
    · exact (hroots i₀ hi).2 e
    · cases hab with
      | one h1 => exact absurd (look_none_iff.1 hr1) (fun h => h (List.mem_map.2 ⟨_, h1, rfl⟩))
      | more h1 _ => exact absurd (look_none_iff.1 hr1) (fun h => h (List.mem_map.2 ⟨_, h1, rfl⟩))
  have hac2 := acyclic_move w2 hac1 (hfn i₀ hi).symm hnot par2
  have inf : InRoot s1 (groupOps G) (upd tf fresh (1 : G)) fresh ((groupOps G).mul (groupOps G).one (upd tf fresh (1 : G) fresh)) s.rootNode :=
    .up pf (.root hr1)
  have inf : InRoot s1 (groupOps G) (upd tf fresh (1 : G)) fresh (1 : G) s.rootNode := by
    rw [upd_self] at inf
    have e : (groupOps G).mul (groupOps G).one 1 = (1 : G) := mul_one _
    rw [e] at inf
    exact inf
  -- the former parent of the first mesh
  obtain ⟨q, t, hq, hqt⟩ : ∃ q t, s.getParent (fr i₀) = some q ∧ InRoot s (groupOps G) tf q t s.rootNode := by
    obtain ⟨u, r', hu⟩ := InRoot.exists ha tf (fr i₀)
    have hrr := hu.rootOf.unique (hroots i₀ hi).1
    cases hu with
    | root _ => exact absurd hrr (hroots i₀ hi).2
    | up e1 e2 => rw [hrr] at e2; exact ⟨_, _, e1, e2⟩
  have hif : InRoot s1 (groupOps G) (upd tf fresh (1 : G)) (fr i₀) (t * tf (fr i₀)) s.rootNode :=
    inRoot_fresh hc hd 1 hpar1 (.up hq hqt) (hfn i₀ hi)
  have etf : upd (upd tf fresh (1 : G)) (fr i₀) (tf (fr i₀)) = upd tf fresh 1 := by
    funext x
    by_cases hx : x = fr i₀
    · rw [hx, upd_self, upd_ne _ _ (hfn i₀ hi)]
    · rw [upd_ne _ _ hx]
  have pose2 : ∀ x u y, x ≠ fresh → InRoot s (groupOps G) tf x u y →
      ((x = fr i₀ ∨ Above s x (fr i₀)) → InRoot s2 (groupOps G) (upd tf fresh 1) x (t⁻¹ * u) y) ∧
      (¬ (x = fr i₀ ∨ Above s x (fr i₀)) → InRoot s2 (groupOps G) (upd tf fresh 1) x u y) := by
    intro x u y hx hi1
    have hi2 := inRoot_fresh hc hd (1 : G) hpar1 hi1 hx
    constructor
    · intro hxa
      have hxa1 : x = fr i₀ ∨ Above s1 x (fr i₀) := hxa.imp id (above_fresh hw w1 hc hd hpar1 hx).2
      have h1 := moved_inside w1 hac1 (tf (fr i₀)) (hfn i₀ hi).symm hnot par2 inf hi2 hxa1 hif
      rw [etf, one_mul, mul_inv_rev, mul_inv_cancel_left] at h1
      rw [same_root w1 hi2 hxa1 hif]
      exact h1
    · intro hxa
      rw [not_or] at hxa
      have := kept_outside (tf (fr i₀)) par2 hi2 hxa.1 (fun hh => hxa.2 ((above_fresh hw w1 hc hd hpar1 hx).1 hh))
      rw [etf] at this
      exact this
  have ready : Ready fr meshes s.rootNode fresh s2 (upd tf fresh (1 : G)) [i₀] := by
    refine ⟨w2, c2, hac2, ?_, ?_, inj, ?_, List.nodup_singleton _, ?_, ?_, ?_, ?_, ?_⟩
    · intro i hi
      have eg : s2.getFrameNode = s1.getFrameNode := by funext x; unfold getFrameNode; rw [cm2]
      rw [eg]; exact hfr1 i hi
    · intro i hi; rw [ow2, kd2]; exact o1 i hi
    · intro i hi
      obtain ⟨u, r', hu⟩ := InRoot.exists ha tf (fr i)
      have hrr := hu.rootOf.unique (hroots i hi).1
      subst hrr
      have := pose2 _ _ _ (hfn i hi) hu
      by_cases hx : fr i = fr i₀ ∨ Above s (fr i) (fr i₀)
      · exact ⟨_, this.1 hx⟩
      · exact ⟨_, this.2 hx⟩
    · intro i hh; rw [List.mem_singleton.1 hh]; exact hi
    · intro i hh y hy
      rw [List.mem_singleton.1 hh, par2, if_pos rfl] at hy
      exact .inl (Option.some.inj hy).symm
    · rw [par2, if_neg (fun e => (hroots i₀ hi).2 e.symm)]; exact hr1
    · rw [par2, if_neg (fun e => hfn i₀ hi e.symm)]; exact pf
    · exact fun i hi => ⟨(hroots i hi).2, hfn i hi⟩
  have estart : envIcp adj meshes s tf fresh = joinAll adj meshes (meshes.length - 1) s2 (upd tf fresh 1) [i₀] [] := by
    unfold envIcp
    rw [ei]
    dsimp only
    rw [a1]
    dsimp only
    rw [hfr1 i₀ hi]
    dsimp only
    rw [a2]
  have hspec := joinAll_spec adj (meshes.length - 1) s2 (upd tf fresh (1 : G)) [i₀] [] ready
    (by show 1 + (meshes.length - 1) = _; omega)
  rw [← estart] at hspec
  rcases hspec with ⟨s', tf', new, j1, j2, j3, j4, j5, j6, j7, j8, j9, j10, j11, j12⟩ | ⟨j1, more, j2, j3, j4, j5⟩
  · rw [List.nil_append] at j1
    obtain ⟨k1, k2, k3⟩ := j3.all (List.nodup_singleton _) (fun i hh => by rw [List.mem_singleton.1 hh]; exact hi)
    have hperm : ([i₀] ++ new.map (·.1)).Perm (List.range meshes.length) := perm_range k1 k2 (by
      rw [List.length_append, List.length_map, j2]; show 1 + (meshes.length - 1) = _; omega)
    have hne : ∀ e ∈ new, e.1 ≠ i₀ ∧ e.1 < meshes.length := by
      intro e he
      refine ⟨fun hh => ?_, k2 _ (List.mem_append_right _ (List.mem_map.2 ⟨e, he, rfl⟩))⟩
      exact (List.nodup_append.1 k1).2.2 i₀ (List.mem_singleton.2 rfl) e.1 (List.mem_map.2 ⟨e, he, rfl⟩) hh.symm
    have jf := j6 fresh (fun e he => hfn _ (hne e he).2)
    have j0 := j6 (fr i₀) (fun e he hh => (hne e he).1 (inj _ (hne e he).2 _ hi hh))
    refine ⟨fun _ => ⟨s', tf', new, j1, hperm, j3, ?_, ?_, ?_, j5, ?_, ?_, ?_, ?_, ?_, q, t, hq, hqt, ?_⟩, fun hnc => ?_⟩
    · rw [jf.1, par2, if_neg (fun e => hfn i₀ hi e.symm)]; exact pf
    · rw [jf.2, upd_self]
    · rw [j0.1, par2, if_pos rfl]
    · intro x hx hxs
      have := j6 x (fun e he => hxs _ (hne e he).2)
      rw [this.1, this.2, par2, if_neg (fun e => hxs _ hi e.symm), hpar1 x hx, upd_ne _ _ hx]
      exact ⟨rfl, rfl⟩
    · intro m; unfold getFrameNode; rw [j7, cm2, cm]
    · rw [j8, l2]; exact kept.ltree
    · rw [j9, in2]; exact kept.opIn
    · rw [j10, out2]; exact kept.opOut
    · intro x u y hx hu
      have := pose2 x u y hx hu
      exact ⟨fun hh => j4 _ _ _ (this.1 hh), fun hh => j4 _ _ _ (this.2 hh)⟩
    · refine absurd (fun j hj => ?_) hnc
      exact j3.reach (fun i hh => by rw [List.mem_singleton.1 hh]; exact hi)
        (fun i hh => by rw [List.mem_singleton.1 hh]) j (hperm.mem_iff.2 (List.mem_range.2 hj))
  · refine ⟨fun hall => ?_, fun _ => j1⟩
    exfalso
    have closed : ∀ j, Relation.ReflTransGen (Linked adj meshes.length) i₀ j → j ∈ [i₀] ++ more := by
      intro j hj
      induction hj with
      | refl => exact List.mem_append_left _ (List.mem_singleton.2 rfl)
      | tail _ hl ih =>
        by_contra hk
        have := j5 _ ih _ hl.2.1 hk
        have := hl.2.2
        omega
    have : (List.range meshes.length).length ≤ ([i₀] ++ more).length :=
      (List.nodup_range.subperm (fun j hj => closed j (hall j (List.mem_range.1 hj)))).length_le
    rw [List.length_range] at this
    omega

/-- a symmetric matrix: the tool has a result exactly if any two meshes are connected by positive adjacencies -/
theorem C183_connected {adj : Nat → Nat → Int} (sym : ∀ i j, adj i j = adj j i) {n i₀ : Nat} (hi : i₀ < n) :
    (∀ j < n, Relation.ReflTransGen (Linked adj n) i₀ j) ↔ ∀ i < n, ∀ j < n, Relation.ReflTransGen (Linked adj n) i j := by
  have hsym : ∀ i j, Relation.ReflTransGen (Linked adj n) i j → Relation.ReflTransGen (Linked adj n) j i := by
    intro i j h
    induction h with
    | refl => exact .refl
    | tail _ hl ih => exact Relation.ReflTransGen.head ⟨hl.2.1, hl.1, by rw [sym]; exact hl.2.2⟩ ih
  exact ⟨fun h i hi' j hj => (hsym _ _ (h i hi')).trans (h j hj), fun h j hj => h i₀ hi j hj⟩

/-! ## deviations -/

/-- **C183, the code violates the property**: the matrix of the tool is zero, so with two meshes or more it never writes a
result; without a mesh it reads an entry of an empty matrix. -/
theorem C183_zero_deviation (s : Env) (tf : Obj → G) (fresh : Obj) :
    (∀ meshes : List Obj, 2 ≤ meshes.length → ∀ s' tf' graph, envIcp filled meshes s tf fresh ≠ .saved s' tf' graph) ∧
    envIcp filled [] s tf fresh = .faults := by
  refine ⟨fun meshes hm s' tf' graph => ?_, rfl⟩
  have key : ∀ k s (tf : Obj → G) taken g, joinAll filled meshes (k + 1) s tf taken g = .exits := by
    intro k s tf taken g
    unfold joinAll
    rcases (highest_spec filled meshes.length taken).2 with h | ⟨i, _, j, _, _, h⟩
    · rw [h]
    · rw [h]
      dsimp only
      rw [if_neg (by unfold filled; decide)]
  obtain ⟨k, hk⟩ : ∃ k, meshes.length - 1 = k + 1 := ⟨meshes.length - 2, by omega⟩
  unfold envIcp
  rw [hk]
  split
  · intro h; cases h
  · split
    · intro h; cases h
    · intro h; cases h
    · split
      · intro h; cases h
      · split
        · intro h; cases h
        · intro h; cases h
        · rw [key]; intro h; cases h

/-- frames 1 below the root and 2 below 1, mesh 3 at frame 2 -/
def deepHistory : List Op :=
  [.alloc 1 .frame [] false 0 0, .alloc 2 .frame [] false 0 0, .alloc 3 .cmap [] false 0 0, .addChildF 0 1, .addChildF 1 2, .setFrame 3 2]

/-- frame 1 moves by two, frame 2 by three -/
def deepTf (o : Obj) : Multiplicative ℤ := .ofAdd (if o = 1 then 2 else if o = 2 then 3 else 0)

/-- **C183, the code violates the property**: the first mesh is linked below a new frame without setting its transform. A
single mesh at five is at three afterwards. -/
theorem C183_first_deviation : ∃ s s' tf' graph, run (init 0) deepHistory = some s ∧
    envIcp filled [3] s deepTf 4 = .saved s' tf' graph ∧ InRoot s (groupOps (Multiplicative ℤ)) deepTf 2 (.ofAdd 5) 0 ∧
    InRoot s' (groupOps (Multiplicative ℤ)) tf' 2 (.ofAdd 3) 0 := by
  have key : ((run (init 0) deepHistory).map fun s =>
      ([s.getParent 2, s.getParent 1, s.getParent 0], match envIcp filled [3] s deepTf 4 with
        | .saved s' tf' _ => some ([s'.getParent 2, s'.getParent 4, s'.getParent 0], [(tf' 2).toAdd, (tf' 4).toAdd])
        | _ => none)) = some ([some 1, some 0, none], some ([some 4, some 0, none], [3, 0])) := by decide +kernel
  cases hs : run (init 0) deepHistory with
  | none => rw [hs] at key; cases key
  | some s =>
    rw [hs] at key
    simp only [Option.map_some, Option.some.injEq, Prod.mk.injEq, List.cons.injEq, and_true] at key
    obtain ⟨⟨k1, k2, k3⟩, k4⟩ := key
    cases he : envIcp filled [3] s deepTf 4 with
    | saved s' tf' graph =>
      rw [he] at k4
      simp only [Option.some.injEq, Prod.mk.injEq, List.cons.injEq, and_true] at k4
      obtain ⟨⟨q1, q2, q3⟩, q4, q5⟩ := k4
      refine ⟨s, s', tf', graph, rfl, he, .up k1 (.up k2 (.root k3)), ?_⟩
      have e : InRoot s' (groupOps (Multiplicative ℤ)) tf' 2 ((groupOps (Multiplicative ℤ)).mul ((groupOps (Multiplicative ℤ)).mul (groupOps (Multiplicative ℤ)).one (tf' 4)) (tf' 2)) 0 :=
        .up q1 (.up q2 (.root q3))
      have v2 : tf' 2 = .ofAdd 3 := q4
      have v4 : tf' 4 = .ofAdd 0 := q5
      rw [v2, v4] at e
      exact e
    | exits => rw [he] at k4; cases k4
    | throws => rw [he] at k4; cases k4
    | faults => rw [he] at k4; cases k4
    | hangs => rw [he] at k4; cases k4

/-- **C183, the code violates the property**: two meshes at one frame are never linked, the assertion of addChild fails. -/
theorem C183_shared_deviation : ∃ s, run (init 0) (deepHistory ++ [.alloc 5 .cmap [] false 0 0, .setFrame 5 2]) = some s ∧
    envIcp (fun _ _ => 1) [3, 5] s deepTf 4 = .faults := by
  have key : ((run (init 0) (deepHistory ++ [.alloc 5 .cmap [] false 0 0, .setFrame 5 2])).map fun s =>
      match envIcp (fun _ _ => 1) [3, 5] s deepTf 4 with | .faults => true | _ => false) = some true := by decide +kernel
  obtain ⟨s, hs, hk⟩ := Option.map_eq_some_iff.1 key
  refine ⟨s, hs, ?_⟩
  split at hk
  · assumption
  · cases hk

/-- **C183, the code violates the property**: a first mesh at the root node makes the root node a child of the new frame, and
the search for the root does not end. -/
theorem C183_root_deviation : ∃ s, run (init 0) (deepHistory ++ [.alloc 5 .cmap [] false 0 0, .setFrame 5 0]) = some s ∧
    envIcp (fun _ _ => 1) [5, 3] s deepTf 4 = .hangs := by
  have key : ((run (init 0) (deepHistory ++ [.alloc 5 .cmap [] false 0 0, .setFrame 5 0])).map fun s =>
      match envIcp (fun _ _ => 1) [5, 3] s deepTf 4 with | .hangs => true | _ => false) = some true := by decide +kernel
  obtain ⟨s, hs, hk⟩ := Option.map_eq_some_iff.1 key
  refine ⟨s, hs, ?_⟩
  split at hk
  · assumption
  · cases hk

/-! ## an example -/

/-- three meshes with their own frames; mesh 1 has the highest sum -/
def sampleAdj (i j : Nat) : Int := if i + j = 1 then 7 else if i + j = 3 then 9 else if i + j = 2 ∧ i ≠ j then 8 else 0

def sampleHistory : List Op :=
  [.alloc 1 .frame [] false 0 0, .alloc 2 .frame [] false 0 0, .alloc 3 .cmap [] false 0 0, .alloc 5 .frame [] false 0 0, .alloc 6 .cmap [] false 0 0,
   .alloc 7 .cmap [] false 0 0, .addChildF 0 1, .addChildF 1 2, .addChildF 0 5, .setFrame 3 2, .setFrame 6 1, .setFrame 7 5]

example : ((run (init 0) sampleHistory).map fun s => match envIcp sampleAdj [3, 6, 7] s deepTf 4 with
    | .saved s' tf' graph => some (graph, [s'.getParent 5, s'.getParent 2, s'.getParent 1, s'.getParent 4], [(tf' 5).toAdd, (tf' 2).toAdd, (tf' 1).toAdd])
    | _ => none) = some (some ([(1, 2), (0, 2)], [some 4, some 5, some 5, some 0], [0, 5, 2])) := by decide +kernel

example : ((run (init 0) sampleHistory).map fun s => ([s.getFrameNode 3, s.getFrameNode 6, s.getFrameNode 7, s.getParent s.rootNode],
    s.ftree.all fun e => decide (e.2 < e.1), decide (s.owner 4 = .dead), decide (s.owner s.rootNode = .here))) =
    some ([some 2, some 1, some 5, none], true, true, true) := by decide +kernel

#print axioms C183_tree_partial
#print axioms C183_connected
#print axioms C183_zero_deviation
#print axioms C183_first_deviation
#print axioms C183_shared_deviation
#print axioms C183_root_deviation

end Envire.IcpTool
