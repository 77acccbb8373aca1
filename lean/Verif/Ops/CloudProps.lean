import Verif.Ops.CloudModel

/-!
C87 (cutting point clouds) and C88 (merging point clouds).
-/

namespace Envire.Cloud

variable {V C A S : Type}

/-! ### specification -/

/-- the elements of an array of metadata that belong to the vertices with the property p, in order -/
def pick {α : Type} (p : V → Bool) (vertices : List V) (l : List α) : List α :=
  ((vertices.zip l).filter fun e => p e.1).map fun e => e.2

/-- calls of CutPointcloud -/
inductive BoxOp
  | add (b : Nat)
  | remove (b : Nat)

/-- the box list after a history of calls, the last one first -/
def boxRun : List BoxOp → List Nat
  | [] => []
  | .add b :: l => addBox (boxRun l) b
  | .remove b :: l => removeBox (boxRun l) b

/-- the last call that is about the box b was `addBox` -/
def LastAdd (b : Nat) : List BoxOp → Prop
  | [] => False
  | .add c :: l => b = c ∨ LastAdd b l
  | .remove c :: l => b ≠ c ∧ LastAdd b l

/-! ### C87 -/

/-- C87, boxes: after any history of `addBox` and `removeBox`, the boxes in use are exactly those that were added after they were removed
last, each once -/
theorem C87_boxes (h : List BoxOp) : (boxRun h).Nodup ∧ ∀ b, b ∈ boxRun h ↔ LastAdd b h := by
  induction h with
  | nil => exact ⟨List.nodup_nil, fun b => by simp [boxRun, LastAdd]⟩
  | cons o h ih =>
    cases o with
    | add c =>
      unfold boxRun addBox
      constructor
      · split
        · exact ih.1
        · rename_i hc
          exact List.nodup_append.2 ⟨ih.1, by simp, by
            intro a ha b hb
            simp only [List.mem_singleton] at hb
            subst hb
            exact fun e => hc (e ▸ ha)⟩
      · intro b
        unfold LastAdd
        rw [← ih.2 b]
        split
        · rename_i hc
          exact ⟨Or.inr, fun e => e.elim (fun e => e ▸ hc) id⟩
        · rw [List.mem_append, List.mem_singleton]
          exact or_comm
    | remove c =>
      unfold boxRun removeBox
      refine ⟨ih.1.erase c, fun b => ?_⟩
      rw [List.Nodup.mem_erase_iff ih.1, ih.2 b]
      rfl

theorem isIncluded_iff (v : V) (bs : List (Box V)) : isIncluded v bs = true ↔ ∀ b ∈ bs, b.contains v = !b.exclude := by
  induction bs with
  | nil => simp [isIncluded]
  | cons b bs ih =>
    unfold isIncluded
    rw [List.forall_mem_cons, ← ih]
    cases b.contains v <;> cases b.exclude <;> simp

theorem pick_cons {α : Type} (p : V → Bool) (v : V) (vs : List V) (l : List α) (i : Nat) :
    pick p (v :: vs) (l.drop i) = (match l[i]? with | none => [] | some x => if p v then [x] else []) ++ pick p vs (l.drop (i + 1)) := by
  by_cases h : i < l.length
  · rw [List.drop_eq_getElem_cons h, List.getElem?_eq_getElem h]
    unfold pick
    rw [List.zip_cons_cons]
    by_cases hp : p v = true
    · rw [List.filter_cons_of_pos (by exact hp)]
      dsimp only
      rw [if_pos hp]
      rfl
    · rw [List.filter_cons_of_neg (by exact hp)]
      dsimp only
      rw [if_neg hp]
      rfl
  · rw [List.drop_eq_nil_of_le (by omega), List.drop_eq_nil_of_le (by omega), List.getElem?_eq_none (by omega)]
    simp [pick]

theorem pushAt_spec {α : Type} (src tgt : Option (List α)) (f : α → α) (p : V → Bool) (v : V) (vs : List V) (i : Nat) (hp : p v = true) :
    (match src with
      | none => pushAt src tgt f i
      | some l => (pushAt src tgt f i).map fun t => t ++ (pick p vs (l.drop (i + 1))).map f) =
    match src with
      | none => tgt
      | some l => tgt.map fun t => t ++ (pick p (v :: vs) (l.drop i)).map f := by
  cases src with
  | none => rfl
  | some l =>
    unfold pushAt
    dsimp only
    rw [pick_cons]
    cases l[i]? with
    | none => simp
    | some x =>
      dsimp only
      rw [if_pos hp]
      cases tgt with
      | none => rfl
      | some t => simp

/-- the target array after the loop -/
def after {α : Type} (p : V → Bool) (vs : List V) (i : Nat) (f : α → α) (src tgt : Option (List α)) : Option (List α) :=
  match src with
  | none => tgt
  | some l => tgt.map fun t => t ++ (pick p vs (l.drop i)).map f

theorem after_push {α : Type} (p : V → Bool) (v : V) (vs : List V) (i : Nat) (f : α → α) (src tgt : Option (List α)) (hp : p v = true) :
    after p vs (i + 1) f src (pushAt src tgt f i) = after p (v :: vs) i f src tgt := pushAt_spec src tgt f p v vs i hp

theorem after_skip {α : Type} (p : V → Bool) (v : V) (vs : List V) (i : Nat) (f : α → α) (src tgt : Option (List α)) (hp : ¬ p v = true) :
    after p vs (i + 1) f src tgt = after p (v :: vs) i f src tgt := by
  unfold after
  cases src with
  | none => rfl
  | some l =>
    dsimp only
    rw [pick_cons]
    cases l[i]? with
    | none => rfl
    | some x =>
      dsimp only
      rw [if_neg hp]
      rfl

theorem cutLoop_ok (p : V → Bool) (trans rot : V → V) (src : Cloud V C A S)
    (h : src.attributes = none ∨ ∃ a w, src.attributes = some a ∧ src.variance = some w ∧ a.length = w.length)
    (vs : List V) (i : Nat) (t : Cloud V C A S) :
    cutLoop p trans rot src vs i t = .ok
      { vertices := t.vertices ++ (vs.filter p).map trans
        normal := after p vs i rot src.normal t.normal
        color := after p vs i id src.color t.color
        attributes := after p vs i id src.attributes t.attributes
        variance := after p vs i id src.variance t.variance } := by
  have nil : ∀ {α : Type} (f : α → α) (s t : Option (List α)) (i : Nat), after p [] i f s t = t := by
    intro α f s t i
    unfold after
    cases s with
    | none => rfl
    | some l => cases t <;> simp [pick]
  induction vs generalizing i t with
  | nil =>
    unfold cutLoop
    simp [nil]
  | cons v vs ih =>
    unfold cutLoop
    by_cases hp : p v = true
    · rw [if_pos hp, List.filter_cons_of_pos hp]
      dsimp only
      rcases h with h | ⟨a, w, ha, hw, hl⟩
      · rw [h]
        dsimp only
        rw [ih]
        simp only [after_push _ _ _ _ _ _ _ hp, h]
        simp [after]
      · rw [ha, hw]
        dsimp only
        by_cases hi : i < w.length
        · rw [if_pos hi, List.getElem?_eq_getElem (by omega)]
          dsimp only
          rw [ih]
          simp only [← hw, after_push _ _ _ _ _ _ _ hp]
          have : (t.attributes.map fun l => l ++ [a[i]'(by omega)]) = pushAt src.attributes t.attributes id i := by
            unfold pushAt
            rw [ha]
            dsimp only
            rw [List.getElem?_eq_getElem (by omega)]
            rfl
          rw [this, after_push _ _ _ _ _ _ _ hp]
          simp [ha]
        · rw [if_neg hi]
          rw [ih]
          simp only [← hw, after_push _ _ _ _ _ _ _ hp]
          have : t.attributes = pushAt src.attributes t.attributes id i := by
            unfold pushAt
            rw [ha]
            dsimp only
            rw [List.getElem?_eq_none (by omega)]
          have e : after p vs (i + 1) id src.attributes t.attributes = after p (v :: vs) i id src.attributes t.attributes := by
            rw [← after_push _ _ _ _ _ _ _ hp, ← this]
          rw [e]
          simp [ha]
    · rw [if_neg hp, List.filter_cons_of_neg hp, ih]
      simp only [after_skip _ _ _ _ _ _ _ hp]

/-- C87. Full claim: CutPointcloud writes exactly those points of the input to the output, transformed and in order, that are in all
including boxes and in no excluding one, whatever the output contained, and each metadata array of the input such that the elements stay with their
points. Proved for all clouds without attributes, and with attributes if there are as many variances. Missing: attributes
without variances (`C87_attributes_without_variance`, `C87_attributes_lost`). -/
theorem C87_cut_partial (boxes : List (Box V)) (trans rot : V → V) (src tgt : Cloud V C A S)
    (h : src.attributes = none ∨ ∃ a w, src.attributes = some a ∧ src.variance = some w ∧ a.length = w.length) :
    ∃ (p : V → Bool) (out : Cloud V C A S), (∀ v, p v = true ↔ ∀ b ∈ boxes, (b.contains v = true ↔ b.exclude = false)) ∧
      cut boxes trans rot src tgt = .ok out ∧ out.vertices = (src.vertices.filter p).map trans ∧
      (∀ l, src.normal = some l → out.normal = some ((pick p src.vertices l).map rot)) ∧
      (∀ l, src.color = some l → out.color = some (pick p src.vertices l)) ∧
      (∀ l, src.attributes = some l → out.attributes = some (pick p src.vertices l)) ∧
      (∀ l, src.variance = some l → out.variance = some (pick p src.vertices l)) ∧
      (src.normal = none → out.normal.getD [] = []) ∧ (src.color = none → out.color.getD [] = []) ∧
      (src.attributes = none → out.attributes.getD [] = []) ∧ (src.variance = none → out.variance.getD [] = []) := by
  refine ⟨fun v => isIncluded v boxes, _, ?_, cutLoop_ok _ _ _ _ h _ _ _, ?_⟩
  · intro v
    rw [isIncluded_iff]
    constructor
    · intro h b hb
      rw [h b hb]
      simp
    · intro h b hb
      have := h b hb
      cases hc : b.contains v <;> cases he : b.exclude <;> simp_all
  · have key : ∀ {α : Type} (f : α → α) (s t : Option (List α)) (l : List α), s = some l →
        after (fun v => isIncluded v boxes) src.vertices 0 f s (create s (t.map fun _ => [])) =
          some ((pick (fun v => isIncluded v boxes) src.vertices l).map f) := by
      intro α f s t l hs
      subst hs
      unfold after create
      cases t <;> simp
    have keyn : ∀ {α : Type} (f : α → α) (s t : Option (List α)), s = none →
        (after (fun v => isIncluded v boxes) src.vertices 0 f s (create s (t.map fun _ => []))).getD [] = [] := by
      intro α f s t hs
      subst hs
      cases t <;> simp [after, create]
    refine ⟨by simp [Cloud.clear], fun l hl => key _ _ _ _ hl, fun l hl => ?_, fun l hl => ?_, fun l hl => ?_, keyn _ _ _, keyn _ _ _, keyn _ _ _, keyn _ _ _⟩
    · exact (key _ _ _ _ hl).trans (by simp)
    · exact (key _ _ _ _ hl).trans (by simp)
    · exact (key _ _ _ _ hl).trans (by simp)

/-- the elements picked for the kept vertices stay in line with them: for metadata with an element per vertex -/
theorem pick_zip {α : Type} (p : V → Bool) (vs : List V) (l : List α) (h : vs.length ≤ l.length) :
    (vs.filter p).zip (pick p vs l) = (vs.zip l).filter fun e => p e.1 := by
  induction vs generalizing l with
  | nil => simp
  | cons v vs ih =>
    cases l with
    | nil => simp at h
    | cons x l =>
      have ih := ih l (by simpa using h)
      unfold pick at ih ⊢
      rw [List.zip_cons_cons]
      by_cases hp : p v = true
      · rw [List.filter_cons_of_pos hp, List.filter_cons_of_pos (by exact hp), List.map_cons, List.zip_cons_cons, ih]
      · rw [List.filter_cons_of_neg hp, List.filter_cons_of_neg (by exact hp), ih]

/-- C87 is violated: a kept point with attributes but without variances dereferences a NULL pointer -/
theorem C87_attributes_without_variance (boxes : List (Box V)) (trans rot : V → V) (v : V) (a : List A) (tgt : Cloud V C A S)
    (h : ∀ b ∈ boxes, b.contains v = !b.exclude) :
    cut boxes trans rot { vertices := [v], attributes := some a } tgt = .undefined := by
  unfold cut cutLoop
  dsimp only
  rw [if_pos ((isIncluded_iff v boxes).2 h)]

/-- C87 is violated: with an empty array of variances the attributes are lost -/
theorem C87_attributes_lost (trans rot : V → V) (v : V) (a : A) : ∃ out : Cloud V C A S,
    cut [] trans rot { vertices := [v], attributes := some [a], variance := some [] } {} = .ok out ∧ out.vertices = [trans v] ∧
      out.attributes = some [] := by
  exact ⟨_, rfl, rfl, rfl⟩

/-- the hypotheses of `C87_cut_partial` are met: numbers as points, moved by 10, without those from 3 to 5, with variances -/
example : ∃ out : Cloud Nat Nat Nat Nat, cut [⟨fun v => decide (3 ≤ v ∧ v ≤ 5), true⟩] (· + 10) id
    { vertices := [1, 4, 7], attributes := some [20, 21, 22], variance := some [0, 1, 2] } {} = .ok out ∧
    out.vertices = [11, 17] ∧ out.attributes = some [20, 22] ∧ out.variance = some [0, 2] := by
  obtain ⟨p, out, hp, h1, h2, -, -, h3, h4, -⟩ := C87_cut_partial [⟨fun v => decide (3 ≤ v ∧ v ≤ 5), true⟩] (· + 10) id
    (⟨[1, 4, 7], none, none, some [20, 21, 22], some [0, 1, 2]⟩ : Cloud Nat Nat Nat Nat) {} (.inr ⟨_, _, rfl, rfl, rfl⟩)
  have e1 : p 1 = true := (hp 1).2 (by simp)
  have e4 : ¬ p 4 = true := fun h => by have := (hp 4).1 h; simp at this
  have e7 : p 7 = true := (hp 7).2 (by simp)
  refine ⟨out, h1, ?_, ?_, ?_⟩
  · rw [h2]
    simp [e1, e4, e7]
  · rw [h3 _ rfl]
    simp [pick, e1, e4, e7]
  · rw [h4 _ rfl]
    simp [pick, e1, e4, e7]

/-! ### C88 -/

theorem mergeLoop_eq (hn hc : Bool) (cs : List (Input V C A S)) (t : Cloud V C A S)
    (h1 : hn = true → ∀ c ∈ cs, c.cloud.normal.isSome) (h2 : hc = true → ∀ c ∈ cs, c.cloud.color.isSome) :
    ∃ out, mergeLoop hn hc cs t = .ok out ∧ out.vertices = t.vertices ++ cs.flatMap (fun c => c.cloud.vertices.map c.trans) ∧
      (if hn then cs ≠ [] → out.normal = some (t.normal.getD [] ++ cs.flatMap fun c => (c.cloud.normal.getD []).map c.rot)
        else out.normal = t.normal) ∧
      (if hc then cs ≠ [] → out.color = some (t.color.getD [] ++ cs.flatMap fun c => c.cloud.color.getD [])
        else out.color = t.color) ∧ (cs = [] → out = t) ∧ out.attributes = t.attributes ∧ out.variance = t.variance := by
  induction cs generalizing t with
  | nil =>
    refine ⟨t, rfl, by simp, ?_, ?_, fun _ => rfl, rfl, rfl⟩
    · split
      · exact fun h => absurd rfl h
      · rfl
    · split
      · exact fun h => absurd rfl h
      · rfl
  | cons c cs ih =>
    have ih := fun t => ih t (fun h d hd => h1 h d (List.mem_cons_of_mem _ hd)) (fun h d hd => h2 h d (List.mem_cons_of_mem _ hd))
    -- the state after this input
    obtain ⟨u, hu, u1, u2, u3, u4, u5⟩ : ∃ u, mergeLoop hn hc (c :: cs) t = mergeLoop hn hc cs u ∧
        u.vertices = t.vertices ++ c.cloud.vertices.map c.trans ∧
        (u.normal = if hn then some (t.normal.getD [] ++ (c.cloud.normal.getD []).map c.rot) else t.normal) ∧
        (u.color = if hc then some (t.color.getD [] ++ c.cloud.color.getD []) else t.color) ∧
        u.attributes = t.attributes ∧ u.variance = t.variance := by
      let u : Cloud V C A S :=
        { vertices := t.vertices ++ c.cloud.vertices.map c.trans
          normal := if hn then some (t.normal.getD [] ++ (c.cloud.normal.getD []).map c.rot) else t.normal
          color := if hc then some (t.color.getD [] ++ c.cloud.color.getD []) else t.color
          attributes := t.attributes
          variance := t.variance }
      refine ⟨u, ?_, rfl, rfl, rfl, rfl, rfl⟩
      rw [mergeLoop]
      cases hn with
      | true =>
        obtain ⟨n, en⟩ := Option.isSome_iff_exists.1 (h1 rfl c List.mem_cons_self)
        cases hc with
        | true =>
          obtain ⟨k, ek⟩ := Option.isSome_iff_exists.1 (h2 rfl c List.mem_cons_self)
          simp [u, en, ek]
        | false => simp [u, en]
      | false =>
        cases hc with
        | true =>
          obtain ⟨k, ek⟩ := Option.isSome_iff_exists.1 (h2 rfl c List.mem_cons_self)
          simp [u, ek]
        | false => simp [u]
    obtain ⟨out, o0, o1, o2, o3, o4, o5, o6⟩ := ih u
    refine ⟨out, hu.trans o0, ?_, ?_, ?_, fun h => by simp at h, o5.trans u4, o6.trans u5⟩
    · rw [o1, u1]
      simp
    · cases hn with
      | true =>
        rw [if_pos rfl] at u2 o2 ⊢
        intro _
        by_cases hcs : cs = []
        · rw [o4 hcs, u2, hcs]
          simp
        · rw [o2 hcs, u2]
          simp
      | false => exact o2.trans u2
    · cases hc with
      | true =>
        rw [if_pos rfl] at u3 o3 ⊢
        intro _
        by_cases hcs : cs = []
        · rw [o4 hcs, u3, hcs]
          simp
        · rw [o3 hcs, u3]
          simp
      | false => exact o3.trans u3

theorem zip_flatMap {α : Type} (cs : List (Input V C A S)) (f : Input V C A S → List α)
    (h : ∀ c ∈ cs, (f c).length = c.cloud.vertices.length) :
    (cs.flatMap (fun c => c.cloud.vertices.map c.trans)).zip (cs.flatMap f) = cs.flatMap fun c => (c.cloud.vertices.map c.trans).zip (f c) := by
  induction cs with
  | nil => rfl
  | cons c cs ih =>
    rw [List.flatMap_cons, List.flatMap_cons, List.flatMap_cons, List.zip_append (by simp [h c List.mem_cons_self]),
      ih fun d hd => h d (List.mem_cons_of_mem _ hd)]

/-- C88. Full claim: the output of MergePointcloud (with clearing) consists of the transformed points of all inputs in order, each with its
metadata: rotated normal, colour, attributes and variance. Proved for normals and colours if all inputs have them, one for each point, or
none has. Missing: variances and attributes, which are dropped (`C88_variance_lost`), and arrays of other lengths
(`C88_normals_shifted`). -/
theorem C88_merge_partial (inputs : List (Input V C A S)) (tgt : Cloud V C A S)
    (hn : (∀ c ∈ inputs, c.cloud.normal = none) ∨ ∀ c ∈ inputs, ∃ l, c.cloud.normal = some l ∧ l.length = c.cloud.vertices.length)
    (hc : (∀ c ∈ inputs, c.cloud.color = none) ∨ ∀ c ∈ inputs, ∃ l, c.cloud.color = some l ∧ l.length = c.cloud.vertices.length) :
    ∃ out, merge true inputs tgt = .ok out ∧ out.vertices = inputs.flatMap (fun c => c.cloud.vertices.map c.trans) ∧
      ((∃ c ∈ inputs, c.cloud.normal.isSome) → ∃ l, out.normal = some l ∧ l.length = out.vertices.length ∧
        out.vertices.zip l = inputs.flatMap fun c => (c.cloud.vertices.map c.trans).zip ((c.cloud.normal.getD []).map c.rot)) ∧
      ((∃ c ∈ inputs, c.cloud.color.isSome) → ∃ l, out.color = some l ∧ l.length = out.vertices.length ∧
        out.vertices.zip l = inputs.flatMap fun c => (c.cloud.vertices.map c.trans).zip (c.cloud.color.getD [])) ∧
      ((∀ c ∈ inputs, c.cloud.normal = none) → out.normal.getD [] = []) ∧
      ((∀ c ∈ inputs, c.cloud.color = none) → out.color.getD [] = []) := by
  obtain ⟨out, o0, o1, o2, o3, -, -, -⟩ := mergeLoop_eq (inputs.any fun c => c.cloud.normal.isSome)
    (inputs.any fun c => c.cloud.color.isSome) inputs tgt.clear (by
      intro h c hc'
      rcases hn with hn | hn
      · obtain ⟨d, hd, hs⟩ := List.any_eq_true.1 h
        rw [hn d hd] at hs
        cases hs
      · obtain ⟨l, hl, -⟩ := hn c hc'
        rw [hl]
        rfl) (by
      intro h c hc'
      rcases hc with hc | hc
      · obtain ⟨d, hd, hs⟩ := List.any_eq_true.1 h
        rw [hc d hd] at hs
        cases hs
      · obtain ⟨l, hl, -⟩ := hc c hc'
        rw [hl]
        rfl)
  have len : ∀ {α : Type} (f : Input V C A S → List α), (∀ c ∈ inputs, (f c).length = c.cloud.vertices.length) →
      (inputs.flatMap f).length = (inputs.flatMap fun c => c.cloud.vertices.map c.trans).length := by
    intro α f hf
    rw [List.length_flatMap, List.length_flatMap]
    refine congrArg List.sum (List.map_congr_left fun c hc => ?_)
    rw [hf c hc, List.length_map]
  have o1' : out.vertices = inputs.flatMap (fun c => c.cloud.vertices.map c.trans) := o1
  refine ⟨out, o0, o1', ?_, ?_, ?_, ?_⟩
  · rintro ⟨c, hc', hs⟩
    rw [if_pos (List.any_eq_true.2 ⟨c, hc', hs⟩)] at o2
    have o2 := o2 (List.ne_nil_of_mem hc')
    have e : tgt.clear.normal.getD [] = [] := by
      unfold Cloud.clear
      cases tgt.normal <;> rfl
    rw [e, List.nil_append] at o2
    have hl : ∀ d ∈ inputs, ((d.cloud.normal.getD []).map d.rot).length = d.cloud.vertices.length := by
      intro d hd
      rcases hn with hn | hn
      · rw [hn c hc'] at hs
        cases hs
      · obtain ⟨l, hl, hlen⟩ := hn d hd
        rw [hl, List.length_map]
        exact hlen
    refine ⟨_, o2, ?_, ?_⟩
    · rw [len _ hl, o1']
    · rw [o1', zip_flatMap _ _ hl]
  · rintro ⟨c, hc', hs⟩
    rw [if_pos (List.any_eq_true.2 ⟨c, hc', hs⟩)] at o3
    have o3 := o3 (List.ne_nil_of_mem hc')
    have e : tgt.clear.color.getD [] = [] := by
      unfold Cloud.clear
      cases tgt.color <;> rfl
    rw [e, List.nil_append] at o3
    have hl : ∀ d ∈ inputs, (d.cloud.color.getD []).length = d.cloud.vertices.length := by
      intro d hd
      rcases hc with hc | hc
      · rw [hc c hc'] at hs
        cases hs
      · obtain ⟨l, hl, hlen⟩ := hc d hd
        rw [hl]
        exact hlen
    refine ⟨_, o3, ?_, ?_⟩
    · rw [len _ hl, o1']
    · rw [o1', zip_flatMap _ _ hl]
  · intro h
    rw [if_neg] at o2
    · rw [o2]
      unfold Cloud.clear
      cases tgt.normal <;> rfl
    · intro ha
      obtain ⟨d, hd, hs⟩ := List.any_eq_true.1 ha
      rw [h d hd] at hs
      cases hs
  · intro h
    rw [if_neg] at o3
    · rw [o3]
      unfold Cloud.clear
      cases tgt.color <;> rfl
    · intro ha
      obtain ⟨d, hd, hs⟩ := List.any_eq_true.1 ha
      rw [h d hd] at hs
      cases hs

theorem mergeLoop_exception (hn hc : Bool) (cs : List (Input V C A S)) (t : Cloud V C A S)
    (h : (hn = true ∧ ∃ c ∈ cs, c.cloud.normal = none) ∨ (hc = true ∧ ∃ c ∈ cs, c.cloud.color = none)) :
    ∃ out, mergeLoop hn hc cs t = .exception out := by
  induction cs generalizing t with
  | nil => rcases h with ⟨-, c, hc, -⟩ | ⟨-, c, hc, -⟩ <;> cases hc
  | cons c cs ih =>
    unfold mergeLoop
    dsimp only
    by_cases h1 : hn = true ∧ c.cloud.normal = none
    · rw [if_pos h1.1, h1.2]
      exact ⟨_, rfl⟩
    · have hcol : ∀ u : Cloud V C A S, ∃ out, (if hc = true then
          match c.cloud.color with
          | none => .exception u
          | some l => mergeLoop hn hc cs { u with color := some (u.color.getD [] ++ l) }
          else mergeLoop hn hc cs u) = .exception out := by
        intro u
        by_cases h2 : hc = true ∧ c.cloud.color = none
        · rw [if_pos h2.1, h2.2]
          exact ⟨_, rfl⟩
        · have ih := fun t => ih t (by
            rcases h with ⟨e, d, hd, hz⟩ | ⟨e, d, hd, hz⟩
            · refine .inl ⟨e, d, ?_, hz⟩
              rcases List.mem_cons.1 hd with rfl | hd
              · exact absurd ⟨e, hz⟩ h1
              · exact hd
            · refine .inr ⟨e, d, ?_, hz⟩
              rcases List.mem_cons.1 hd with rfl | hd
              · exact absurd ⟨e, hz⟩ h2
              · exact hd)
          cases hc with
          | true =>
            cases e : c.cloud.color with
            | none => exact absurd ⟨rfl, e⟩ h2
            | some l => exact ih _
          | false => exact ih _
      cases hn with
      | true =>
        cases e : c.cloud.normal with
        | none => exact absurd ⟨rfl, e⟩ h1
        | some l => exact hcol _
      | false => exact hcol _

/-- C88: the operator throws exactly if some inputs have normals and others do not, or the same for colours -/
theorem C88_exception (clear : Bool) (inputs : List (Input V C A S)) (tgt : Cloud V C A S) :
    (∃ out, merge clear inputs tgt = .exception out) ↔
      ((∃ c ∈ inputs, c.cloud.normal.isSome) ∧ ∃ c ∈ inputs, c.cloud.normal = none) ∨
      ((∃ c ∈ inputs, c.cloud.color.isSome) ∧ ∃ c ∈ inputs, c.cloud.color = none) := by
  constructor
  · rintro ⟨out, h⟩
    apply Classical.byContradiction
    intro hno
    obtain ⟨out', h', -⟩ := mergeLoop_eq (inputs.any fun c => c.cloud.normal.isSome)
      (inputs.any fun c => c.cloud.color.isSome) inputs (if clear then tgt.clear else tgt) (by
        intro ha c hc
        cases e : c.cloud.normal with
        | some l => rfl
        | none => exact absurd (.inl ⟨List.any_eq_true.1 ha, c, hc, e⟩) hno) (by
        intro ha c hc
        cases e : c.cloud.color with
        | some l => rfl
        | none => exact absurd (.inr ⟨List.any_eq_true.1 ha, c, hc, e⟩) hno)
    unfold merge at h
    rw [h'] at h
    cases h
  · rintro (⟨h1, h2⟩ | ⟨h1, h2⟩)
    · exact mergeLoop_exception _ _ _ _ (.inl ⟨List.any_eq_true.2 h1, h2⟩)
    · exact mergeLoop_exception _ _ _ _ (.inr ⟨List.any_eq_true.2 h1, h2⟩)

/-- C88 is violated: the variance and the attributes of a point are not in the output -/
theorem C88_variance_lost (trans rot : V → V) (v : V) (a : A) (s : S) : ∃ out : Cloud V C A S,
    merge true [⟨{ vertices := [v], attributes := some [a], variance := some [s] }, trans, rot⟩] {} = .ok out ∧ out.vertices = [trans v] ∧
      out.attributes = none ∧ out.variance = none :=
  ⟨_, rfl, rfl, rfl, rfl⟩

/-- C88 is violated: if an input has fewer normals than points, the normals of the next one belong to the wrong points; the same if the output is not cleared
and had points without normals -/
theorem C88_normals_shifted (v w n : V) :
    (∃ out : Cloud V C A S, merge true [⟨{ vertices := [v], normal := some [] }, id, id⟩, ⟨{ vertices := [w], normal := some [n] }, id, id⟩] {} =
      .ok out ∧ out.vertices = [v, w] ∧ out.normal = some [n]) ∧
    ∃ out : Cloud V C A S, merge false [⟨{ vertices := [w], normal := some [n] }, id, id⟩] { vertices := [v] } =
      .ok out ∧ out.vertices = [v, w] ∧ out.normal = some [n] :=
  ⟨⟨_, rfl, rfl, rfl⟩, ⟨_, rfl, rfl, rfl⟩⟩

/-- the hypotheses of `C88_merge_partial` are met: two inputs with normals -/
example : ∃ out : Cloud Nat Nat Nat Nat, merge true [⟨{ vertices := [1, 2], normal := some [5, 6] }, (· + 10), (· + 1)⟩,
      ⟨{ vertices := [3], normal := some [7] }, (· + 20), id⟩] { vertices := [0] } = .ok out ∧
    out.vertices = [11, 12, 23] ∧ ∃ l, out.normal = some l ∧ out.vertices.zip l = [(11, 6), (12, 7), (23, 7)] := by
  obtain ⟨out, h1, h2, h3, -⟩ := C88_merge_partial (C := Nat) (A := Nat) (S := Nat)
    [⟨{ vertices := [1, 2], normal := some [5, 6] }, (· + 10), (· + 1)⟩,
      ⟨{ vertices := [3], normal := some [7] }, (· + 20), id⟩] { vertices := [0] }
    (.inr (by
      intro c hc
      simp only [List.mem_cons, List.not_mem_nil, or_false] at hc
      rcases hc with rfl | rfl
      · exact ⟨_, rfl, rfl⟩
      · exact ⟨_, rfl, rfl⟩))
    (.inl (by
      intro c hc
      simp only [List.mem_cons, List.not_mem_nil, or_false] at hc
      rcases hc with rfl | rfl <;> rfl))
  obtain ⟨l, e1, -, e2⟩ := h3 ⟨_, List.mem_cons_self, rfl⟩
  exact ⟨out, h1, h2, l, e1, e2⟩

end Envire.Cloud

#print axioms Envire.Cloud.C87_boxes
#print axioms Envire.Cloud.C87_cut_partial
#print axioms Envire.Cloud.C87_attributes_without_variance
#print axioms Envire.Cloud.C87_attributes_lost
#print axioms Envire.Cloud.C88_merge_partial
#print axioms Envire.Cloud.C88_exception
#print axioms Envire.Cloud.C88_variance_lost
#print axioms Envire.Cloud.C88_normals_shifted
