import Verif.Tools.DeriveModel
import Verif.Viz.ScanAddProps

/-! C200: tools that make a new map of one in an environment. -/
namespace Envire.Derive
open Envire Envire.Env
open Envire.OpTool (Class)
open Envire.ScanAdd (Extended)

/-- specification: the item with the class that the words of the command line mean: the one with the id, or the only one -/
def Meant (cls : Obj → Class) (s : Env) (args : List Uid) (c : Class) (m : Obj) : Prop :=
  cls m = c ∧ s.owner m = .here ∧ match args with
    | [id] => s.getItem id = some m
    | _ => ∀ o, s.owner o = .here → cls o = c → o = m

/-- maps are Cartesian maps -/
def Typed (cls : Obj → Class) (s : Env) : Prop := ∀ o, s.owner o = .here → cls o ≠ .other → s.kind o = .cmap

theorem only_spec {s : Env} (hw : WF s) {cls : Obj → Class} {c : Class} {m : Obj} : only s cls c = some m ↔ Meant cls s [] c m := by
  have hmem : ∀ o, o ∈ (s.items.map (·.2)).filter (fun o => cls o == c) ↔ s.owner o = .here ∧ cls o = c := by
    intro o
    rw [List.mem_filter, List.mem_map]
    constructor
    · rintro ⟨⟨⟨i, o'⟩, h, rfl⟩, h2⟩
      exact ⟨((hw.items_iff i o').1 h).1, by simpa using h2⟩
    · rintro ⟨h1, h2⟩
      exact ⟨⟨(s.uid o, o), (hw.items_iff _ _).2 ⟨h1, rfl⟩, rfl⟩, by simpa using h2⟩
  have hnd : ((s.items.map (·.2)).filter (fun o => cls o == c)).Nodup := by
    refine List.Nodup.filter _ ?_
    have h1 := hw.items_nodup
    have h2 : s.items.map (·.1) = (s.items.map (·.2)).map s.uid := by
      rw [List.map_map]
      refine List.map_congr_left fun e he => ?_
      exact (((hw.items_iff e.1 e.2).1 he).2).symm
    rw [h2] at h1
    exact List.Nodup.of_map _ h1
  unfold only
  constructor
  · intro h
    split at h
    · rename_i o heq
      cases h
      have := (hmem m).1 (by rw [heq]; simp)
      refine ⟨this.2, this.1, fun o ho hc => ?_⟩
      have := (hmem o).2 ⟨ho, hc⟩
      rw [heq] at this
      simpa using this
    · cases h
  · rintro ⟨h1, h2, h3⟩
    have h3 : ∀ o, s.owner o = .here → cls o = c → o = m := h3
    have hm := (hmem m).2 ⟨h2, h1⟩
    cases hl : (s.items.map (·.2)).filter (fun o => cls o == c) with
    | nil => rw [hl] at hm; cases hm
    | cons a t =>
      cases t with
      | nil => rw [hl] at hm; simp at hm; rw [hm]
      | cons b t =>
        rw [hl] at hnd hmem
        have ha := h3 a ((hmem a).1 (by simp)).1 ((hmem a).1 (by simp)).2
        have hb := h3 b ((hmem b).1 (by simp)).1 ((hmem b).1 (by simp)).2
        simp [ha, hb] at hnd

theorem only_none {s : Env} (hw : WF s) {cls : Obj → Class} {c : Class} : only s cls c = none ↔ ¬ ∃ m, Meant cls s [] c m := by
  cases h : only s cls c with
  | none =>
    refine ⟨fun _ ⟨m, hm⟩ => ?_, fun _ => rfl⟩
    rw [(only_spec hw).2 hm] at h; cases h
  | some m =>
    refine ⟨fun h => (by cases h), fun h' => absurd ⟨m, (only_spec hw).1 h⟩ h'⟩

/-- what happens without a map, and with it -/
theorem source_some {s : Env} (hw : WF s) {cls : Obj → Class} {args : List Uid} {m : Obj} (h : Meant cls s args .mls m) (f : Obj → End) : withSource cls s args f = f m := by
  have many : (∀ id, args ≠ [id]) → (only s cls .mls = some m) := fun ha => (only_spec hw).2 ⟨h.1, h.2.1, by
    have := h.2.2
    match args, ha, this with
    | [], _, h => exact h
    | [id], ha, _ => exact absurd rfl (ha id)
    | _ :: _ :: _, _, h => exact h⟩
  match args, h, many with
  | [id], h, _ =>
    have : OpTool.find s cls (fun c => c == .mls) id = some m := by
      unfold OpTool.find
      rw [show s.getItem id = some m from h.2.2]
      simp [Option.filter, h.1]
    simp only [withSource, this]
  | [], _, many => simp only [withSource, many (by simp)]
  | _ :: _ :: _, _, many => simp only [withSource, many (by simp)]

theorem source_none {s : Env} (hw : WF s) {cls : Obj → Class} {args : List Uid} (h : ¬ ∃ m, Meant cls s args .mls m) (f : Obj → End) :
    withSource cls s args f = if args.length = 1 then .message else .exception := by
  have many : (∀ id, args ≠ [id]) → (only s cls .mls = none) := fun ha => (only_none hw).2 fun ⟨m, hm⟩ => h ⟨m, hm.1, hm.2.1, by
    have := hm.2.2
    match args, ha, this with
    | [], _, h => exact h
    | [id], ha, _ => exact absurd rfl (ha id)
    | _ :: _ :: _, _, h => exact h⟩
  match args, h, many with
  | [id], h, _ =>
    have : OpTool.find s cls (fun c => c == .mls) id = none := by
      cases hf : OpTool.find s cls (fun c => c == .mls) id with
      | none => rfl
      | some m =>
        exfalso
        obtain ⟨a, b⟩ := OpTool.find_spec hf
        exact h ⟨m, by simpa using b, OpTool.item_here hw a, a⟩
    simp [withSource, this]
  | [], _, many => simp [withSource, many (by simp)]
  | _ :: _ :: _, _, many => simp [withSource, many (by simp)]

/-- a new map and a new operator together -/
theorem extended_of {s s2 s5 : Env} {mesh op fn : Obj} {is os : List Obj} (h1 : s.owner mesh = .dead) (h2 : s.owner op = .dead) (hne : mesh ≠ op)
    (kept : Clone.Kept s s2 (fun _ => ()) (fun _ => ()) [mesh]) (f2 : s2.getFrameNode mesh = some fn) (hroot5 : s5.rootNode = s2.rootNode) (a5 : OpTool.Added s2 s5 op is os)
    (r5 : OpTool.Ready s2 s5 op) : Extended s s5 (fun _ => ()) (fun _ => ()) [mesh, op] op is os ∧ s5.getFrameNode mesh = some fn := by
  have nodes : ∀ x, x ∉ [mesh, op] → x ≠ mesh ∧ x ≠ op := fun x hx => by simpa using hx
  refine ⟨{ fresh := ?_, root := hroot5.trans kept.root, owner := ?_, uid := ?_, kind := ?_, tf := fun _ _ => rfl, item := ?_, parent := ?_, frame := ?_, ltree := ?_, inputs := ?_, outputs := ?_ }, ?_⟩
  · intro a ha
    simp only [List.mem_cons, List.not_mem_nil, or_false] at ha
    rcases ha with rfl | rfl
    · exact ⟨h1, by rw [r5.owners _ hne]; exact (kept.fresh _ (by simp)).2⟩
    · exact ⟨h2, r5.here⟩
  · intro x hx
    obtain ⟨a, b⟩ := nodes x hx
    rw [r5.owners x b, kept.owner x (by simpa using a)]
  · intro x hx
    obtain ⟨a, b⟩ := nodes x hx
    rw [a5.ids x b, kept.uid x (by simpa using a)]
  · intro x hx
    obtain ⟨a, b⟩ := nodes x hx
    rw [r5.kinds x b, kept.kind x (by simpa using a)]
  · intro id x hx
    exact (a5.items id x).2 (.inl (kept.item id x hx))
  · intro x hx
    obtain ⟨a, b⟩ := nodes x hx
    have : s5.getParent x = s2.getParent x := by unfold getParent; rw [a5.frames]
    rw [this, kept.parent x (by simpa using a)]
  · intro x hx
    obtain ⟨a, b⟩ := nodes x hx
    have : s5.getFrameNode x = s2.getFrameNode x := by unfold getFrameNode; rw [a5.maps]
    rw [this, kept.frame x (by simpa using a)]
  · rw [a5.layers, kept.ltree]
  · intro p
    rw [a5.inputs]
    split
    · rfl
    · unfold getInputs; rw [kept.opIn]
  · intro p
    rw [a5.outputs]
    split
    · rfl
    · unfold getOutputs; rw [kept.opOut]
  · have : s5.getFrameNode mesh = s2.getFrameNode mesh := by unfold getFrameNode; rw [a5.maps]
    rw [this]; exact f2

theorem root_attach {s s' : Env} {op : Obj} {ia oa : Nat} (h : (OpTool.new s op ia oa).attachItem op = .ok s') : s'.rootNode = s.rootNode := by
  have t3 := attachItem_eff (OpTool.new s op ia oa) op
  rw [h] at t3
  exact t3.1.stat.rootNode

theorem place_made {s : Env} (hw : WF s) (hc : Closed s) (hroot : rootOk s) {src fn map : Obj} (hl : s.owner src = .here) (hf : s.getFrameNode src = some fn) (h1 : s.owner map = .dead) :
    ∃ s2, (∀ f, place s src map f = f s2) ∧ WF s2 ∧ Closed s2 ∧ Clone.Kept s s2 (fun _ => ()) (fun _ => ()) [map] ∧ s2.getFrameNode map = some fn ∧ s2.kind map = .cmap := by
  obtain ⟨⟨-, hfh⟩, -, kf⟩ := hc.cmap _ (look_some_mem hf)
  have hlm : src ≠ map := by rintro rfl; rw [hl] at h1; cases h1
  obtain ⟨s1, s2, e1, g1, e2, w2, c2, kept, f2, p2, k2⟩ := ScanAdd.placed hw hc hroot hfh kf h1
  refine ⟨s2, fun f => ?_, w2, c2, kept, f2, k2⟩
  unfold place
  rw [e1]
  show (match s1.getFrameNode src with | none => _ | some fn => _) = _
  rw [g1 src hlm, hf]
  dsimp only
  rw [e2]
  rfl

/-- **C200 (env_mls_slopes, deviation)** The tool never writes a slope map: it makes a grid of doubles and MLSSlope looks for one of floats. With any map it ends with an exception. -/
theorem C200_slopes_deviation {r : Obj} {s : Env} (hs : Reach Good r s) (hroot : rootOk s) {cls : Obj → Class} (ht : Typed cls s) {updates : Env → Bool} {args : List Uid} {grid op mls fn : Obj}
    (hm : Meant cls s args .mls mls) (hf : s.getFrameNode mls = some fn) (h1 : s.owner grid = .dead) (h2 : s.owner op = .dead) (hne : grid ≠ op) :
    slopes cls updates s args grid op = .exception := by
  obtain ⟨hw, hc⟩ := hs.wf_closed
  have hmg : mls ≠ grid := by rintro rfl; rw [hm.2.1] at h1; cases h1
  have hmo : mls ≠ op := by rintro rfl; rw [hm.2.1] at h2; cases h2
  unfold slopes
  split
  case isFalse => rfl
  rw [source_some hw hm]
  obtain ⟨s2, e, w2, c2, kept, f2, k2⟩ := place_made hw hc hroot hm.2.1 hf h1
  rw [e]
  obtain ⟨s3, e3, a3, r3⟩ := OpTool.attached w2 c2 (by rw [kept.owner op (by simpa using hne.symm)]; exact h2) 0 0
  rw [e3]
  dsimp only [lift]
  obtain ⟨s4, e4, a4, r4⟩ := OpTool.added_in a3 r3 (l := mls) (by rw [r3.owners mls hmo, kept.owner mls (by simpa using hmg)]; exact hm.2.1)
    (by rw [r3.kinds mls hmo, kept.kind mls (by simpa using hmg), ht mls hm.2.1 (by rw [hm.1]; decide)]; rfl)
  rw [e4]
  dsimp only
  obtain ⟨s5, e5, a5, r5⟩ := OpTool.added_out a4 r4 (l := grid) (by rw [r4.owners grid hne]; exact (kept.fresh grid (by simp)).2) (by rw [r4.kinds grid hne, k2]; rfl)
  rw [e5]
  dsimp only
  have hn : getOutput s5 (upd cls grid .gridDouble) .gridFloat op = none := by
    unfold getOutput
    rw [a5.outputs, if_pos rfl]
    have : (upd cls grid .gridDouble grid == Class.gridFloat) = false := by rw [upd_self]; rfl
    rw [List.filter_cons, this]
    rfl
  rw [hn]
  dsimp only
  split <;> rfl

/-- **C200 (env_mls_slopes, nothing written)** Without the map that is asked for a message is printed or the tool ends with an exception; nothing is written. -/
theorem C200_slopes_none_partial {r : Obj} {s : Env} (hs : Reach Good r s) {cls : Obj → Class} {updates : Env → Bool} (hu : updates s = true) {args : List Uid} {grid op : Obj}
    (h : ¬ ∃ m, Meant cls s args .mls m) : slopes cls updates s args grid op = if args.length = 1 then .message else .exception := by
  unfold slopes
  rw [if_pos hu, source_none hs.wf_closed.1 h]

/-- **C200 (env_mls_to_pointcloud)** The cloud is the only new item and it is in the frame of the map that is meant; everything else is as before. -/
theorem C200_cloud {r : Obj} {s : Env} (hs : Reach Good r s) (hroot : rootOk s) {cls : Obj → Class} {updates : Env → Bool} (hu : updates s = true) {args : List Uid} {pc mls fn : Obj}
    (hm : Meant cls s args .mls mls) (hf : s.getFrameNode mls = some fn) (h1 : s.owner pc = .dead) :
    ∃ s', cloud cls updates s args pc = .written s' ∧ Clone.Kept s s' (fun _ => ()) (fun _ => ()) [pc] ∧ s'.getFrameNode pc = some fn ∧ s'.kind pc = .cmap := by
  obtain ⟨hw, hc⟩ := hs.wf_closed
  obtain ⟨⟨-, hfh⟩, -, kf⟩ := hc.cmap _ (look_some_mem hf)
  obtain ⟨s1, s2, e1, g1, e2, w2, c2, kept, f2, p2, k2⟩ := ScanAdd.placed hw hc hroot hfh kf h1
  refine ⟨s2, ?_, kept, f2, k2⟩
  unfold cloud
  rw [if_pos hu, source_some hw hm]
  show (match s.getFrameNode mls with | none => _ | some fn => _) = _
  rw [hf]
  dsimp only
  have hfm : fn ≠ pc := by rintro rfl; rw [hfh] at h1; cases h1
  have hos : (Clone.alloc s pc .cmap).owner fn = .here := (upd_ne _ _ hfm).trans hfh
  have hop : (Clone.alloc s pc .cmap).owner pc = .free := upd_self _ _ _
  have hw1 := Clone.alloc_wf hw h1 .cmap
  have hc1 := Clone.alloc_closed hw hc h1 .cmap
  have hrs : s.rootNode ≠ pc := by rintro h; rw [← h, hroot.1] at h1; cases h1
  have hr1 : rootOk (Clone.alloc s pc .cmap) := ⟨(upd_ne _ _ hrs).trans hroot.1, (upd_ne _ _ hrs).trans hroot.2⟩
  obtain ⟨s1', e1', -, -, o1, -, -, -, x1, -⟩ := Deep.attach_auto hw1 hc1 hr1 (upd_self _ _ _) (upd_self _ _ _) (.inl (upd_self _ _ _))
  rw [e1] at e1'
  cases e1'
  have ea : ensureAttached s1 fn = .ok s1 := by unfold ensureAttached; rw [(x1 fn hfm).1, hos]
  have em : ensureMapAttached s1 pc = .ok s1 := by unfold ensureMapAttached; rw [o1]
  have el : linkFrame s1 pc fn = .ok s2 := by
    unfold setFrameNode at e2
    rw [ea] at e2
    have e2 : (ensureMapAttached s1 pc).bind _ = _ := e2
    rw [em] at e2
    exact e2
  have : (Clone.alloc s pc .cmap).setFrameNode pc fn = .ok s2 := by
    unfold setFrameNode
    have ea' : ensureAttached (Clone.alloc s pc .cmap) fn = .ok (Clone.alloc s pc .cmap) := by unfold ensureAttached; rw [hos]
    have em' : ensureMapAttached (Clone.alloc s pc .cmap) pc = .ok s1 := by unfold ensureMapAttached; rw [hop]; exact e1
    rw [ea']
    show (ensureMapAttached (Clone.alloc s pc .cmap) pc).bind _ = _
    rw [em']
    exact el
  rw [this]
  rfl

/-- **C200 (env_mls_to_pointcloud, nothing written)** -/
theorem C200_cloud_none {r : Obj} {s : Env} (hs : Reach Good r s) {cls : Obj → Class} {updates : Env → Bool} (hu : updates s = true) {args : List Uid} {pc : Obj}
    (h : ¬ ∃ m, Meant cls s args .mls m) : cloud cls updates s args pc = if args.length = 1 then .message else .exception := by
  unfold cloud
  rw [if_pos hu, source_none hs.wf_closed.1 h]

/-- **C200 (more words, deviation)** With more than one word after the environment the id is not used: with the only map of the class the tool takes this one, whatever ids are given. -/
theorem C200_words_deviation {r : Obj} {s : Env} (hs : Reach Good r s) (hroot : rootOk s) {cls : Obj → Class} {updates : Env → Bool} (hu : updates s = true) {pc mls fn : Obj} (a b : Uid)
    (hm : Meant cls s [] .mls mls) (hf : s.getFrameNode mls = some fn) (h1 : s.owner pc = .dead) : ∃ s', cloud cls updates s [a, b] pc = .written s' :=
  let ⟨s', h, _⟩ := C200_cloud hs hroot hu (args := [a, b]) ⟨hm.1, hm.2.1, hm.2.2⟩ hf h1
  ⟨s', h⟩

theorem arity_in {s s' : Env} {o l : Obj} (h : s.opAddInput o l = .ok s') : s'.inArity = s.inArity := by
  unfold opAddInput at h
  split at h
  · cases h
  · split at h
    · cases h
    · have := Static.addInput s o l
      rw [h] at this
      exact this.inArity

theorem look_of_inputs {l : List (Obj × Obj)} {o i : Obj} (h : (l.filter (fun e => decide (e.1 = o))).map (·.2) = [i]) : look o l = some i := by
  induction l with
  | nil => cases h
  | cons e t ih =>
    by_cases he : e.1 = o
    · rw [List.filter_cons, if_pos (by simpa using he)] at h
      simp only [List.map_cons, List.cons.injEq] at h
      obtain ⟨a, b⟩ := e
      simp only at he h
      subst he
      simp [look, h.1]
    · rw [List.filter_cons, if_neg (by simpa using he)] at h
      have := ih h
      obtain ⟨a, b⟩ := e
      have he' : ¬ a = o := he
      simpa [look, he'] using this

theorem addIf_twice {s s3 : Env} {op input : Obj} (a3 : OpTool.Added s s3 op [] []) (r3 : OpTool.Ready s s3 op) (har : s3.inArity op = 0) (hl : s3.owner input = .here)
    (hk : (s3.kind input).isLayer = true) (a b : Bool) :
    ∃ s4, (∀ f, addIf a s3 op input (fun s => addIf b s op input f) = f s4) ∧ OpTool.Added s s4 op (if a || b then [input] else []) [] ∧ OpTool.Ready s s4 op ∧ s4.rootNode = s3.rootNode := by
  obtain ⟨s4, e4, a4, r4⟩ := OpTool.added_in a3 r3 hl hk
  have hr := ScanAdd.root_in e4
  cases a with
  | false =>
    cases b with
    | false => exact ⟨s3, fun f => rfl, a3, r3, rfl⟩
    | true => exact ⟨s4, fun f => by simp [addIf, e4, lift], by simpa using a4, r4, hr⟩
  | true =>
    cases b with
    | false => exact ⟨s4, fun f => by simp [addIf, e4, lift], by simpa using a4, r4, hr⟩
    | true =>
      have again : s4.opAddInput op input = .ok s4 := by
        unfold opAddInput
        rw [if_neg (by rw [r4.here]; simp), if_neg (by rw [arity_in e4, har]; simp)]
        unfold addInput
        rw [if_pos]
        have := a4.inputs op
        rw [if_pos rfl] at this
        exact look_of_inputs this
      exact ⟨s4, fun f => by simp [addIf, e4, again, lift], by simpa using a4, r4, hr⟩

/-- **C200 (env_traversability)** The new grid is in the frame of the only grid of floats, the new operator has it as its output and the grid of floats as its input if it has one of the two bands;
everything else is as before. -/
theorem C200_trav {r : Obj} {s : Env} (hs : Reach Good r s) (hroot : rootOk s) {cls : Obj → Class} (ht : Typed cls s) {updates runs : Env → Bool} (hu : updates s = true) (hrun : ∀ s, runs s = true)
    (slope step : Obj → Bool) {map op input fn : Obj} (hm : Meant cls s [] .gridFloat input) (hf : s.getFrameNode input = some fn) (h1 : s.owner map = .dead) (h2 : s.owner op = .dead)
    (hne : map ≠ op) :
    ∃ s', trav cls updates runs slope step s map op = .written s' ∧
      Extended s s' (fun _ => ()) (fun _ => ()) [map, op] op (if slope input || step input then [input] else []) [map] ∧ s'.getFrameNode map = some fn := by
  obtain ⟨hw, hc⟩ := hs.wf_closed
  have hmg : input ≠ map := by rintro rfl; rw [hm.2.1] at h1; cases h1
  have hmo : input ≠ op := by rintro rfl; rw [hm.2.1] at h2; cases h2
  obtain ⟨s2, e, w2, c2, kept, f2, k2⟩ := place_made hw hc hroot hm.2.1 hf h1
  obtain ⟨s3, e3, a3, r3⟩ := OpTool.attached w2 c2 (by rw [kept.owner op (by simpa using hne.symm)]; exact h2) 0 1
  have har : s3.inArity op = 0 := by
    have t3 := attachItem_eff (OpTool.new s2 op 0 1) op
    rw [e3] at t3
    rw [t3.1.stat.inArity]
    exact upd_self _ _ _
  obtain ⟨s4, e4, a4, r4, q4⟩ := addIf_twice a3 r3 har (input := input) (by rw [r3.owners input hmo, kept.owner input (by simpa using hmg)]; exact hm.2.1)
    (by rw [r3.kinds input hmo, kept.kind input (by simpa using hmg), ht input hm.2.1 (by rw [hm.1]; decide)]; rfl) (slope input) (step input)
  obtain ⟨s5, e5, a5, r5⟩ := OpTool.added_out a4 r4 (l := map) (by rw [r4.owners map hne]; exact (kept.fresh map (by simp)).2) (by rw [r4.kinds map hne, k2]; rfl)
  refine ⟨s5, ?_, extended_of h1 h2 hne kept f2 ((ScanAdd.root_out e5).trans (q4.trans (root_attach e3))) a5 r5⟩
  unfold trav
  rw [(only_spec hw).2 hm]
  dsimp only
  rw [if_pos hu, e, e3]
  dsimp only [lift]
  rw [e4, OpTool.removeOutputs_id a4.no_outputs, e5]
  dsimp only
  rw [if_pos (hrun _)]

/-- **C200 (env_traversability, nothing written)** Without exactly one grid of floats the tool ends with an exception. -/
theorem C200_trav_none {r : Obj} {s : Env} (hs : Reach Good r s) {cls : Obj → Class} (updates runs : Env → Bool) (slope step : Obj → Bool) (map op : Obj)
    (h : ¬ ∃ m, Meant cls s [] .gridFloat m) : trav cls updates runs slope step s map op = .exception := by
  unfold trav
  rw [(only_none hs.wf_closed.1).2 h]

/-! ### examples -/

/-- a MLS grid /2 and a grid of floats /3 -/
def exCls : Obj → Class
  | 1 => .mls
  | 2 => .gridFloat
  | _ => .other

def exHistory : List Op := [.alloc 1 .cmap [] true 0 0, .attachMap 1 none, .alloc 2 .cmap [] true 0 0, .attachMap 2 none]

theorem exReady : ∃ s, Reach Good 0 s ∧ rootOk s ∧ Typed exCls s ∧ (s.owner 3 = .dead ∧ s.owner 4 = .dead) ∧ Meant exCls s [['/', '2']] .mls 1 ∧ Meant exCls s [] .mls 1 ∧
    Meant exCls s [] .gridFloat 2 ∧ s.getFrameNode 1 = some 0 ∧ s.getFrameNode 2 = some 0 := by
  obtain ⟨s, hs, h1, h2, h3, h4, h5, h6, h7, h8, h9, h10⟩ := ex_of_any (o := Delete.goodRun (init 0) exHistory)
    (P := fun s => s.kind 1 = .cmap ∧ s.kind 2 = .cmap ∧ s.owner 3 = .dead ∧ s.owner 4 = .dead ∧ s.getItem ['/', '2'] = some 1 ∧ s.owner 1 = .here ∧ s.owner 2 = .here ∧
      s.getFrameNode 1 = some 0 ∧ s.getFrameNode 2 = some 0 ∧ (s.rootNode = 0 ∧ s.owner 0 = .here ∧ s.kind 0 = .frame)) (by decide +kernel)
  refine ⟨s, Delete.reach_goodRun _ .init hs, ?_, ?_, ⟨h3, h4⟩, ⟨rfl, h6, h5⟩, ⟨rfl, h6, ?_⟩, ⟨rfl, h7, ?_⟩, h8, h9⟩
  · obtain ⟨a, b, c⟩ := h10
    exact ⟨by rw [a]; exact b, by rw [a]; exact c⟩
  · intro x _ hx
    unfold exCls at hx
    split at hx
    · exact h1
    · exact h2
    · exact absurd rfl hx
  · intro o _ ho
    unfold exCls at ho
    split at ho <;> first | rfl | cases ho
  · intro o _ ho
    unfold exCls at ho
    split at ho <;> first | rfl | cases ho

example : ∃ s, Meant exCls s [['/', '2']] .mls 1 ∧ slopes exCls (fun _ => true) s [['/', '2']] 3 4 = .exception := by
  obtain ⟨s, h1, h2, h3, h4, h5, -, -, h6, -⟩ := exReady
  exact ⟨s, h5, C200_slopes_deviation h1 h2 h3 h5 h6 h4.1 h4.2 (by decide)⟩

example : ∃ s s', cloud exCls (fun _ => true) s [] 3 = .written s' ∧ s'.getFrameNode 3 = some 0 := by
  obtain ⟨s, h1, h2, h3, h4, -, h5, -, h6, -⟩ := exReady
  obtain ⟨s', h, -, k, -⟩ := C200_cloud h1 h2 (updates := fun _ => true) rfl h5 h6 h4.1
  exact ⟨s, s', h, k⟩

example : ∃ s s', trav exCls (fun _ => true) (fun _ => true) (fun _ => true) (fun _ => true) s 3 4 = .written s' ∧ s'.getInputs 4 = [2] ∧ s'.getOutputs 4 = [3] := by
  obtain ⟨s, h1, h2, h3, h4, -, -, h5, -, h6⟩ := exReady
  obtain ⟨s', h, k, -⟩ := C200_trav h1 h2 h3 (updates := fun _ => true) (runs := fun _ => true) rfl (fun _ => rfl) (fun _ => true) (fun _ => true) h5 h6 h4.1 h4.2 (by decide)
  exact ⟨s, s', h, (k.inputs 4).trans (if_pos rfl), (k.outputs 4).trans (if_pos rfl)⟩

#print axioms C200_slopes_deviation
#print axioms C200_slopes_none_partial
#print axioms C200_cloud
#print axioms C200_cloud_none
#print axioms C200_words_deviation
#print axioms C200_trav
#print axioms C200_trav_none
end Envire.Derive
