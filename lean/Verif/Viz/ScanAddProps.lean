import Verif.Viz.ScanAddModel
import Verif.Viz.AddProps
import Verif.Maps.ImportProps
import Verif.Tools.OpToolProps

/-! C198: adding a scan in enview. -/
namespace Envire.ScanAdd
open Envire Envire.Env
open Envire.MapSet (Pose)

/-- specification: `s'` is `s` with the items `new`, which were not there, and one of them, `op`, has the given inputs and outputs -/
structure Extended {T : Type} (s s' : Env) (tf tf' : Obj → T) (new : List Obj) (op : Obj) (is os : List Obj) : Prop where
  fresh : ∀ a ∈ new, s.owner a = .dead ∧ s'.owner a = .here
  root : s'.rootNode = s.rootNode
  owner : ∀ x, x ∉ new → s'.owner x = s.owner x
  uid : ∀ x, x ∉ new → s'.uid x = s.uid x
  kind : ∀ x, x ∉ new → s'.kind x = s.kind x
  tf : ∀ x, x ∉ new → tf' x = tf x
  item : ∀ id x, s.getItem id = some x → s'.getItem id = some x
  parent : ∀ x, x ∉ new → s'.getParent x = s.getParent x
  frame : ∀ x, x ∉ new → s'.getFrameNode x = s.getFrameNode x
  ltree : s'.ltree = s.ltree
  inputs : ∀ p, s'.getInputs p = if p = op then is else s.getInputs p
  outputs : ∀ p, s'.getOutputs p = if p = op then os else s.getOutputs p

/-! ### states after each call -/

theorem inv_set {s s' : Env} (hw : WF s) (hc : Closed s) {m f : Obj} (hm : s.owner m = .here) (hf : s.owner f = .here) (km : s.kind m = .cmap) (kf : s.kind f = .frame)
    (h : s.setFrameNode m f = .ok s') : WF s' ∧ Closed s' := by
  have a := hw.exec (.setFrame m f) trivial
  have b := hc.exec hw (.setFrame m f) ⟨by rw [hm]; decide, by rw [hf]; decide, fun h => by rw [hm] at h; cases h⟩ (by simp [typed, km, kf])
  simp only [Env.exec] at a b
  rw [h] at a b
  exact ⟨a, b⟩

theorem inv_emit {s s' : Env} (hw : WF s) (hc : Closed s) {o : Obj} (h : s.emit .item .update o none = .ok s') : WF s' ∧ Closed s' := by
  have a := hw.exec (.modified o) trivial
  have b := hc.exec hw (.modified o) trivial rfl
  simp only [Env.exec] at a b
  rw [h] at a b
  exact ⟨a, b⟩

theorem inv_import {s s' : Env} {tf tf' : Obj → Pose} {l : List Import.PoseLine} {node scan fm : Obj} (hw : WF s) (hc : Closed s) (hroot : rootOk s) (hn : s.owner node = .here)
    (hk : s.kind node = .frame) (h1 : s.owner scan = .dead) (h2 : s.owner fm = .dead) (hne : scan ≠ fm) (h : Import.importScan s tf (.lines l) node scan fm = .ok (s', tf')) :
    WF s' ∧ Closed s' := by
  have hw1 := Clone.alloc_wf hw h1 .cmap
  have hc1 := Clone.alloc_closed hw hc h1 .cmap
  have hos : ∀ x, x ≠ scan → (Clone.alloc s scan .cmap).owner x = s.owner x := fun x hx => upd_ne _ _ hx
  have hks : ∀ x, x ≠ scan → (Clone.alloc s scan .cmap).kind x = s.kind x := fun x hx => upd_ne _ _ hx
  have hrs : s.rootNode ≠ scan := by rintro h; rw [← h, hroot.1] at h1; cases h1
  have hnsc : node ≠ scan := by rintro rfl; rw [hn] at h1; cases h1
  have hr1 : rootOk (Clone.alloc s scan .cmap) := ⟨(hos _ hrs).trans hroot.1, (hks _ hrs).trans hroot.2⟩
  obtain ⟨s2, e2, w2, c2, o2, f2, r2, k2, x2, -⟩ := Deep.attach_auto hw1 hc1 hr1 (upd_self _ _ _) (upd_self _ _ _) (.inl (upd_self _ _ _))
  have hfm2 : s2.owner fm = .dead := by rw [(x2 fm hne.symm).1, hos fm hne.symm]; exact h2
  have hn2 : s2.owner node = .here := by rw [(x2 node hnsc).1, hos node hnsc]; exact hn
  have hk2 : s2.kind node = .frame := by rw [k2, hks node hnsc]; exact hk
  obtain ⟨s3, e3, w3, c3, kept3, p3, kf3, cm3⟩ := Clone.add_fresh w2 c2 hn2 hk2 hfm2 tf (⟨1, 0⟩ : Pose)
  have hsc3 : s3.owner scan = .here := by rw [kept3.owner scan (by simpa using hne)]; exact o2
  have ksc3 : s3.kind scan = .cmap := by rw [kept3.kind scan (by simpa using hne), k2]; exact upd_self _ _ _
  have hfm3 : s3.owner fm = .here := (kept3.fresh fm (by simp)).2
  unfold Import.importScan at h
  rw [if_neg (by simp [hn])] at h
  dsimp only at h
  rw [e2] at h
  dsimp only at h
  rw [e3] at h
  dsimp only at h
  cases e4 : s3.setFrameNode scan fm with
  | fault e => rw [e4] at h; cases h
  | throw t => rw [e4] at h; cases h
  | ok s4 =>
    rw [e4] at h
    dsimp only at h
    obtain ⟨w4, c4⟩ := inv_set w3 c3 hsc3 hfm3 ksc3 kf3 e4
    cases e5 : s4.emit .item .update fm none with
    | fault e => rw [e5] at h; cases h
    | throw t => rw [e5] at h; cases h
    | ok s5 =>
      rw [e5] at h
      cases h
      exact inv_emit w4 c4 e5

/-- a new map in the frame `fn` -/
theorem placed {s : Env} (hw : WF s) (hc : Closed s) (hroot : rootOk s) {fn m : Obj} (hn : s.owner fn = .here) (kn : s.kind fn = .frame) (h1 : s.owner m = .dead) :
    ∃ s1 s2, (Clone.alloc s m .cmap).attachMap m none = .ok s1 ∧ (∀ x, x ≠ m → s1.getFrameNode x = s.getFrameNode x) ∧ s1.setFrameNode m fn = .ok s2 ∧ WF s2 ∧ Closed s2 ∧
      Clone.Kept s s2 (fun _ => ()) (fun _ => ()) [m] ∧ s2.getFrameNode m = some fn ∧ s2.getParent m = none ∧ s2.kind m = .cmap := by
  have hw1 := Clone.alloc_wf hw h1 .cmap
  have hc1 := Clone.alloc_closed hw hc h1 .cmap
  have hos : ∀ x, x ≠ m → (Clone.alloc s m .cmap).owner x = s.owner x := fun x hx => upd_ne _ _ hx
  have hks : ∀ x, x ≠ m → (Clone.alloc s m .cmap).kind x = s.kind x := fun x hx => upd_ne _ _ hx
  have hrs : s.rootNode ≠ m := by rintro h; rw [← h, hroot.1] at h1; cases h1
  have hnm : fn ≠ m := by rintro rfl; rw [hn] at h1; cases h1
  have hr1 : rootOk (Clone.alloc s m .cmap) := ⟨(hos _ hrs).trans hroot.1, (hks _ hrs).trans hroot.2⟩
  obtain ⟨s1, e1, w1, c1, o1, f1, r1, k1, x1, -⟩ := Deep.attach_auto hw1 hc1 hr1 (upd_self _ _ _) (upd_self _ _ _) (.inl (upd_self _ _ _))
  obtain ⟨s2, e2, kept, f2, p2, k2⟩ := Add.import_kept hw hc hroot hn h1 (fun _ => ())
  unfold Add.importCsv at e2
  rw [if_neg (by decide), if_neg (by simp [hn]), e1] at e2
  have e2 : s1.setFrameNode m fn = .ok s2 := e2
  obtain ⟨w2, c2⟩ := inv_set w1 c1 o1 (by rw [(x1 fn hnm).1, hos fn hnm]; exact hn) (by rw [k1]; exact upd_self _ _ _) (by rw [k1, hks fn hnm]; exact kn) e2
  exact ⟨s1, s2, e1, fun x hx => (x1 x hx).2.2, e2, w2, c2, kept, f2, p2, k2⟩

theorem root_in {s s' : Env} {o l : Obj} (h : s.opAddInput o l = .ok s') : s'.rootNode = s.rootNode := by
  unfold opAddInput at h
  split at h
  · cases h
  · split at h
    · cases h
    · have := Static.addInput s o l
      rw [h] at this
      exact this.rootNode

theorem root_out {s s' : Env} {o l : Obj} (h : s.opAddOutput o l = .ok s') : s'.rootNode = s.rootNode := by
  unfold opAddOutput at h
  split at h
  · cases h
  · split at h
    · cases h
    · have := Static.addOutput s o l
      rw [h] at this
      exact this.rootNode

/-- createTriMesh for a scan with a frame -/
theorem mesh_made {s : Env} (hw : WF s) (hc : Closed s) (hroot : rootOk s) {ls fn mesh op : Obj} (hl : s.owner ls = .here) (kl : s.kind ls = .cmap) (hf : s.getFrameNode ls = some fn)
    (h1 : s.owner mesh = .dead) (h2 : s.owner op = .dead) (hne : mesh ≠ op) :
    ∃ s', createMesh s (some ls) mesh op = s'.emit .item .update mesh none ∧
      Extended s s' (fun _ => ()) (fun _ => ()) [mesh, op] op [ls] [mesh] ∧ s'.getFrameNode mesh = some fn ∧ s'.getParent mesh = none ∧ s'.kind mesh = .cmap ∧ s'.kind op = .op := by
  obtain ⟨⟨-, hfh⟩, -, kf⟩ := hc.cmap _ (look_some_mem hf)
  have hlm : ls ≠ mesh := by rintro rfl; rw [hl] at h1; cases h1
  have hlo : ls ≠ op := by rintro rfl; rw [hl] at h2; cases h2
  obtain ⟨s1, s2, e1, g1, e2, w2, c2, kept, f2, p2, k2⟩ := placed hw hc hroot hfh kf h1
  have ho2 : s2.owner op = .dead := by rw [kept.owner op (by simpa using hne.symm)]; exact h2
  obtain ⟨s3, e3, a3, r3⟩ := OpTool.attached w2 c2 ho2 0 0
  have hl3 : s3.owner ls = .here := by rw [r3.owners ls hlo, kept.owner ls (by simpa using hlm)]; exact hl
  have kl3 : s3.kind ls = .cmap := by rw [r3.kinds ls hlo, kept.kind ls (by simpa using hlm)]; exact kl
  obtain ⟨s4, e4, a4, r4⟩ := OpTool.added_in a3 r3 hl3 (by rw [kl3]; rfl)
  have hm4 : s4.owner mesh = .here := by rw [r4.owners mesh hne]; exact (kept.fresh mesh (by simp)).2
  have km4 : s4.kind mesh = .cmap := by rw [r4.kinds mesh hne]; exact k2
  obtain ⟨s5, e5, a5, r5⟩ := OpTool.added_out a4 r4 hm4 (by rw [km4]; rfl)
  have hroot5 : s5.rootNode = s2.rootNode := by
    have t3 := attachItem_eff (OpTool.new s2 op 0 0) op
    rw [e3] at t3
    have q3 : s3.rootNode = s2.rootNode := t3.1.stat.rootNode
    exact (root_out e5).trans ((root_in e4).trans q3)
  have nodes : ∀ x, x ∉ [mesh, op] → x ≠ mesh ∧ x ≠ op := fun x hx => by simpa using hx
  refine ⟨s5, ?_, { fresh := ?_, root := hroot5.trans kept.root, owner := ?_, uid := ?_, kind := ?_, tf := fun _ _ => rfl, item := ?_, parent := ?_, frame := ?_, ltree := ?_, inputs := ?_, outputs := ?_ }, ?_, ?_, ?_, r5.kind⟩
  · unfold createMesh
    dsimp only
    rw [e1]
    show (match s1.getFrameNode ls with | none => _ | some fn => _) = _
    rw [g1 ls hlm, hf]
    dsimp only
    rw [e2]
    show ((OpTool.new s2 op 0 0).attachItem op).bind _ = _
    rw [e3]
    show (s3.opAddInput op ls).bind _ = _
    rw [e4]
    show (if 0 < (s4.getOutputs op).length then _ else _) = _
    rw [if_neg (by rw [a4.outputs, if_pos rfl]; decide), e5]
    show (if connected s5 op = true then _ else _) = _
    rw [if_pos (by unfold connected; rw [a5.inputs, a5.outputs, if_pos rfl, if_pos rfl]; rfl)]
  · intro a ha
    simp only [List.mem_cons, List.not_mem_nil, or_false] at ha
    rcases ha with rfl | rfl
    · exact ⟨h1, by rw [r5.owners _ hne]; exact (kept.fresh _ (by simp)).2⟩
    · exact ⟨h2, r5.here⟩
  · intro x hx
    obtain ⟨a, b⟩ := nodes x hx
    rw [r5.owners x b, kept.owner x (by simpa using a)]
  · intro x hx
    obtain ⟨a, b⟩ := nodes x hx
    rw [a5.ids x b, kept.uid x (by simpa using a)]
  · intro x hx
    obtain ⟨a, b⟩ := nodes x hx
    rw [r5.kinds x b, kept.kind x (by simpa using a)]
  · intro id x hx
    exact (a5.items id x).2 (.inl (kept.item id x hx))
  · intro x hx
    obtain ⟨a, b⟩ := nodes x hx
    have : s5.getParent x = s2.getParent x := by unfold getParent; rw [a5.frames]
    rw [this, kept.parent x (by simpa using a)]
  · intro x hx
    obtain ⟨a, b⟩ := nodes x hx
    have : s5.getFrameNode x = s2.getFrameNode x := by unfold getFrameNode; rw [a5.maps]
    rw [this, kept.frame x (by simpa using a)]
  · rw [a5.layers, kept.ltree]
  · intro p
    rw [a5.inputs]
    split
    · rfl
    · unfold getInputs; rw [kept.opIn]
  · intro p
    rw [a5.outputs]
    split
    · rfl
    · unfold getOutputs; rw [kept.opOut]
  · have : s5.getFrameNode mesh = s2.getFrameNode mesh := by unfold getFrameNode; rw [a5.maps]
    rw [this]; exact f2
  · have : s5.getParent mesh = s2.getParent mesh := by unfold getParent; rw [a5.frames]
    rw [this]; exact p2
  · rw [r5.kinds mesh hne]; exact k2

theorem emit_here {s : Env} {o : Obj} (ho : s.owner o = .here) : s.emit .item .update o none = .ok { s with log := s.log ++ [⟨.item, .update, o, none, s.uid o, []⟩] } := by
  unfold emit
  dsimp only
  rw [if_neg (by rw [ho]; decide), dropTmp_of_not_free (by show s.owner o ≠ _; rw [ho]; decide)]

/-- **C198 (adding a scan)** A scan file is added as exactly four items: the scan in a new frame below the root with the pose of the file, the mesh in the same frame, and the operator with the
scan as its only input and the mesh as its only output. Everything else is as before. -/
theorem C198_scan {r : Obj} {s : Env} (hs : Reach Good r s) (hroot : rootOk s) (tf : Obj → Pose) (l : List Import.PoseLine) {scan fm mesh op : Obj}
    (hd : ∀ a ∈ [scan, fm, mesh, op], s.owner a = .dead) (hne : [scan, fm, mesh, op].Nodup) :
    ∃ s' tf', addScan s tf (some (.lines l)) scan fm mesh op = .ok (s', tf') ∧ Extended s s' tf tf' [scan, fm, mesh, op] op [scan] [mesh] ∧
      s'.getParent fm = some s.rootNode ∧ tf' fm = Import.pose l ∧ s'.getFrameNode scan = some fm ∧ s'.getFrameNode mesh = some fm ∧
      s'.kind scan = .cmap ∧ s'.kind fm = .frame ∧ s'.kind mesh = .cmap ∧ s'.kind op = .op := by
  obtain ⟨hw, hc⟩ := hs.wf_closed
  have d1 := hd scan (by simp)
  have d2 := hd fm (by simp)
  have d3 := hd mesh (by simp)
  have d4 := hd op (by simp)
  simp only [List.nodup_cons, List.mem_cons, List.not_mem_nil, or_false, not_or, List.nodup_nil, and_true, not_false_eq_true] at hne
  obtain ⟨⟨n12, n13, n14⟩, ⟨n23, n24⟩, n34⟩ := hne
  obtain ⟨s1, tf1, e1, kept, f1, p1, -, t1, k1, k1'⟩ := Import.C188_import hs hroot tf l s.rootNode scan fm hroot.1 hroot.2 d1 d2 n12
  obtain ⟨w1, c1⟩ := inv_import hw hc hroot hroot.1 hroot.2 d1 d2 n12 e1
  have hrs : s.rootNode ≠ scan := by rintro h; rw [← h, hroot.1] at d1; cases d1
  have hrf : s.rootNode ≠ fm := by rintro h; rw [← h, hroot.1] at d2; cases d2
  have hr1 : rootOk s1 := by
    unfold rootOk
    rw [kept.root, kept.owner _ (by simp [hrs, hrf]), kept.kind _ (by simp [hrs, hrf])]
    exact hroot
  have hs1 : s1.owner scan = .here := (kept.fresh scan (by simp)).2
  obtain ⟨s2, e2, x, f2, -, k2, k2'⟩ := mesh_made w1 c1 hr1 hs1 k1 f1 (mesh := mesh) (op := op) (by rw [kept.owner _ (by simp [Ne.symm n13, Ne.symm n23])]; exact d3)
    (by rw [kept.owner _ (by simp [Ne.symm n14, Ne.symm n24])]; exact d4) n34
  have hm : s2.owner mesh = .here := (x.fresh mesh (by simp)).2
  have nodes : ∀ y, y ∉ [scan, fm, mesh, op] → y ∉ [scan, fm] ∧ y ∉ [mesh, op] := fun y hy => by
    simp only [List.mem_cons, List.not_mem_nil, or_false, not_or] at hy ⊢
    exact ⟨⟨hy.1, hy.2.1⟩, hy.2.2⟩
  have m1 : scan ∉ [mesh, op] := by simp [n13, n14]
  have m2 : fm ∉ [mesh, op] := by simp [n23, n24]
  refine ⟨{ s2 with log := s2.log ++ [⟨.item, .update, mesh, none, s2.uid mesh, []⟩] }, tf1, ?_,
    { fresh := ?_, root := x.root.trans kept.root, owner := ?_, uid := ?_, kind := ?_, tf := fun y hy => kept.tf y (nodes y hy).1, item := ?_, parent := ?_, frame := ?_,
      ltree := x.ltree.trans kept.ltree, inputs := ?_, outputs := ?_ }, ?_, t1, ?_, f2, ?_, ?_, k2, k2'⟩
  · unfold addScan
    dsimp only
    rw [e1]
    dsimp only
    rw [e2, emit_here hm]
  · intro a ha
    refine ⟨hd a ha, ?_⟩
    show s2.owner a = _
    by_cases h : a ∈ [mesh, op]
    · exact (x.fresh a h).2
    · rw [x.owner a h]
      refine (kept.fresh a ?_).2
      simp only [List.mem_cons, List.not_mem_nil, or_false, not_or] at ha h ⊢
      rcases ha with h' | h' | h' | h'
      · exact Or.inl h'
      · exact Or.inr h'
      · exact absurd h' h.1
      · exact absurd h' h.2
  · intro y hy
    exact (x.owner y (nodes y hy).2).trans (kept.owner y (nodes y hy).1)
  · intro y hy
    exact (x.uid y (nodes y hy).2).trans (kept.uid y (nodes y hy).1)
  · intro y hy
    exact (x.kind y (nodes y hy).2).trans (kept.kind y (nodes y hy).1)
  · intro id y hy
    exact x.item id y (kept.item id y hy)
  · intro y hy
    exact (x.parent y (nodes y hy).2).trans (kept.parent y (nodes y hy).1)
  · intro y hy
    exact (x.frame y (nodes y hy).2).trans (kept.frame y (nodes y hy).1)
  · intro p
    refine (x.inputs p).trans ?_
    split
    · rfl
    · unfold getInputs; rw [kept.opIn]
  · intro p
    refine (x.outputs p).trans ?_
    split
    · rfl
    · unfold getOutputs; rw [kept.opOut]
  · exact (x.parent fm m2).trans p1
  · exact (x.frame scan m1).trans f1
  · exact (x.kind scan m1).trans k1
  · exact (x.kind fm m2).trans k1'

/-- **C198 (nothing added)** If the dialog is cancelled nothing happens; if the file cannot be opened or is no scan the action fails and nothing in the environment changes. -/
theorem C198_unchanged (s : Env) (tf : Obj → Pose) (scan fm mesh op : Obj) :
    addScan s tf none scan fm mesh op = .ok (s, tf) ∧
    ∀ file, file = .missing ∨ file = .broken → ∃ s', addScan s tf (some file) scan fm mesh op = .throw (s', tf) ∧ Import.Same s s' ∧ ∀ x, x ≠ scan → s'.owner x = s.owner x := by
  refine ⟨rfl, fun file h => ?_⟩
  obtain ⟨s', e, a, b⟩ := Import.C188_failed s tf file s.rootNode scan fm (.inr h)
  refine ⟨s', ?_, a, b⟩
  unfold addScan
  dsimp only
  rw [e]

/-- **C198 (meshes)** For any scan of the environment that has a frame the mesh is made in this frame and connected by a new operator. -/
theorem C198_mesh {r : Obj} {s : Env} (hs : Reach Good r s) (hroot : rootOk s) {ls fn mesh op : Obj} (hl : s.owner ls = .here) (kl : s.kind ls = .cmap) (hf : s.getFrameNode ls = some fn)
    (h1 : s.owner mesh = .dead) (h2 : s.owner op = .dead) (hne : mesh ≠ op) :
    ∃ s', createMesh s (some ls) mesh op = .ok s' ∧ Extended s s' (fun _ => ()) (fun _ => ()) [mesh, op] op [ls] [mesh] ∧ s'.getFrameNode mesh = some fn := by
  obtain ⟨hw, hc⟩ := hs.wf_closed
  obtain ⟨s', e, x, f, -⟩ := mesh_made hw hc hroot hl kl hf h1 h2 hne
  rw [emit_here (x.fresh mesh (by simp)).2] at e
  exact ⟨_, e, ⟨x.fresh, x.root, x.owner, x.uid, x.kind, x.tf, x.item, x.parent, x.frame, x.ltree, x.inputs, x.outputs⟩, f⟩

/-! ### examples -/

example (tf : Obj → Pose) : ∃ s' tf', addScan (init 0) tf (some (.lines [.origin 1 2 3])) 1 2 3 4 = .ok (s', tf') ∧ s'.getInputs 4 = [1] ∧ s'.getOutputs 4 = [3] ∧ (tf' 2).t = ![1, 2, 3] := by
  obtain ⟨s', tf', h, x, -, t, -⟩ := C198_scan (Reach.init (G := Good) (r := 0)) ⟨rfl, rfl⟩ tf [.origin 1 2 3] (scan := 1) (fm := 2) (mesh := 3) (op := 4)
    (by intro a ha; simp only [List.mem_cons, List.not_mem_nil, or_false] at ha; rcases ha with rfl | rfl | rfl | rfl <;> rfl) (by decide)
  refine ⟨s', tf', h, (x.inputs 4).trans (if_pos rfl), (x.outputs 4).trans (if_pos rfl), ?_⟩
  rw [t, (Import.C188_pose _).2]
  simp [Import.origins]

#print axioms C198_scan
#print axioms C198_unchanged
#print axioms C198_mesh
end Envire.ScanAdd
