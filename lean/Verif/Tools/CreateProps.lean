import Verif.Tools.CreateModel
import Verif.Tools.GridArgsProps
import Verif.Viz.AddProps

/-! C196: creating grids. -/
namespace Envire.Create
open Envire Envire.Env

variable {R : Type} [OfNat R 0]

/-- assumption on `boost::lexical_cast`: what is written is read again -/
def Texts.Lossless (T : Texts R) : Prop := (∀ x, T.readR (T.writeR x) = some x) ∧ ∀ n, T.readN (T.writeN n) = some n

/-- **C196 (create)** GridBase::create of the class of a grid gives a grid of this class without bands and with exactly the given size, scale and offset; of an unknown class it throws, of
another class it gives the null pointer. -/
theorem C196_create (T : Texts R) (hT : T.Lossless) (factory : String → Option Class) (type : String) (g : Shape R) :
    create T factory type g = match factory type with
      | none => .exception
      | some c => if c.grid then .grid ⟨type, g, []⟩ else .null := by
  have h : unserialize T (document T type g) = some g := by
    simp [unserialize, document, read, find, hT.1, hT.2]
  unfold create
  rw [h]
  cases factory type with
  | none => rfl
  | some c => rfl

/-- the frame of the request is there -/
theorem frame_there {D : GridArgs.Reader R} {s : Env} (hw : WF s) (hc : Closed s) (hroot : rootOk s) {shape : Obj → Option (Shape R)} {args : List String} {r : GridArgs.Request R}
    (h : GridArgs.Documented D (world s shape) args r) : ∃ fn, s.getItem r.frame.toList = some fn ∧ s.owner fn = .here ∧ s.kind fn = .frame := by
  have hname : ∀ o, s.owner o = .here → s.getItem (name s o).toList = some o := by
    intro o ho
    unfold name
    rw [String.toList_ofList]
    exact hw.look_uid ho
  rcases h with ⟨p, env, size, offs, place, -, -, -, hf⟩ | ⟨p, env, id, m, -, hm, hfr, -⟩
  · rcases hf with ⟨-, hf, -⟩ | ⟨hf, -⟩
    · rw [hf]
      exact ⟨s.rootNode, hname _ hroot.1, hroot⟩
    · have hf' : (s.getItem r.frame.toList).any (fun o => s.kind o = .frame) = true := hf
      cases hi : s.getItem r.frame.toList with
      | none => rw [hi] at hf'; cases hf'
      | some fn =>
        rw [hi] at hf'
        exact ⟨fn, rfl, ((hw.items_iff _ _).1 (look_some_mem hi)).1, by simpa using hf'⟩
  · have hm' : ((s.getItem id.toList).bind fun o => (shape o).map fun g => (⟨Int.bmod g.cx (2 ^ 32), Int.bmod g.cy (2 ^ 32), g.sx, g.sy, g.ox, g.oy, (s.getFrameNode o).map (name s)⟩ : GridArgs.MapInfo R)) = some m := hm
    cases hi : s.getItem id.toList with
    | none => rw [hi] at hm'; cases hm'
    | some o =>
      rw [hi] at hm'
      change (shape o).map _ = _ at hm'
      cases hg : shape o with
      | none => rw [hg] at hm'; cases hm'
      | some g =>
        rw [hg] at hm'
        have := Option.some.inj hm'
        rw [← this] at hfr
        dsimp only at hfr
        cases hfn : s.getFrameNode o with
        | none => rw [hfn] at hfr; cases hfr
        | some fn =>
          rw [hfn] at hfr
          have hr : name s fn = r.frame := Option.some.inj hfr
          obtain ⟨⟨-, h2⟩, -, h4⟩ := hc.cmap _ (look_some_mem hfn)
          exact ⟨fn, by rw [← hr]; exact hname fn h2, h2, h4⟩

theorem put_kept {s : Env} (hw : WF s) (hc : Closed s) (hroot : rootOk s) {fn o : Obj} (hn : s.owner fn = .here) (h1 : s.owner o = .dead) {T : Type} (tf : Obj → T) :
    ∃ s', put s o fn = .ok s' ∧ Clone.Kept s s' tf tf [o] ∧ s'.getFrameNode o = some fn ∧ s'.kind o = .cmap := by
  obtain ⟨s', e, k, f, -, kk⟩ := Add.import_kept hw hc hroot hn h1 tf
  refine ⟨s', ?_, k, f, kk⟩
  rw [← e]
  unfold put Add.importCsv
  rw [if_neg (by decide), if_neg (by simp [hn])]

theorem toSize_nat {n : Int} (h0 : 0 ≤ n) (h1 : n < 2 ^ 31) : (toSize n : Int) = n := by
  unfold toSize
  omega

theorem bands_spec (l : List String) : ∀ g : Grid R, g.bands.Nodup → (l.foldl createBand g).cls = g.cls ∧ (l.foldl createBand g).shape = g.shape ∧ (l.foldl createBand g).bands.Nodup ∧
    ∀ b, b ∈ (l.foldl createBand g).bands ↔ b ∈ g.bands ∨ b ∈ l := by
  induction l with
  | nil => intro g hg; exact ⟨rfl, rfl, hg, fun b => by simp⟩
  | cons a l ih =>
    intro g hg
    rw [List.foldl_cons]
    have hs : (createBand g a).cls = g.cls ∧ (createBand g a).shape = g.shape ∧ (createBand g a).bands.Nodup ∧ ∀ b, b ∈ (createBand g a).bands ↔ b ∈ g.bands ∨ b = a := by
      unfold createBand
      by_cases h : a ∈ g.bands
      · rw [if_pos h]
        refine ⟨rfl, rfl, hg, fun b => ⟨Or.inl, ?_⟩⟩
        rintro (hb | rfl)
        · exact hb
        · exact h
      · rw [if_neg h]
        refine ⟨rfl, rfl, ?_, fun b => by simp⟩
        rw [List.nodup_append]
        refine ⟨hg, by simp, ?_⟩
        intro x hx y hy
        rw [List.mem_singleton] at hy
        subst hy
        rintro rfl
        exact h hx
    obtain ⟨i1, i2, i3, i4⟩ := ih (createBand g a) hs.2.2.1
    refine ⟨i1.trans hs.1, i2.trans hs.2.1, i3, fun b => ?_⟩
    rw [i4, hs.2.2.2, List.mem_cons, or_assoc]

variable {D : GridArgs.Reader R} {T : Texts R} {factory : String → Option Class} {s : Env} {shape : Obj → Option (Shape R)} {o : Obj} {args : List String} {r : GridArgs.Request R} {root : Obj}

/-- **C196 (env_create_grid)** For each documented line that the tool accepts (see C150), with sizes that are not negative and the class of a grid, which has bands if bands are wanted, the
environment is written with one more item: a grid of this class, with the size, scale and offset of the line, exactly the bands of the line, in the frame of the line; everything else is as before. -/
theorem C196_tool_partial (hs : Reach Good root s) (hroot : rootOk s) (hD : GridArgs.Sound D) (hT : T.Lossless) (h : GridArgs.Documented D (world s shape) args r)
    (hl : args.length ≤ 7 ∨ 11 ≤ args.length) (hsize : (0 ≤ r.width ∧ r.width < 2 ^ 31) ∧ 0 ≤ r.height ∧ r.height < 2 ^ 31) {c : Class} (hf : factory r.type = some c)
    (hg : c.grid = true) (hb : r.bands = [] ∨ c.banded = true) (ho : s.owner o = .dead) {V : Type} (tf : Obj → V) :
    ∃ s' g fn, tool D T factory s shape o args = .written s' o g ∧ Clone.Kept s s' tf tf [o] ∧ s'.kind o = .cmap ∧
      s.getItem r.frame.toList = some fn ∧ s'.getFrameNode o = some fn ∧ s.kind fn = .frame ∧
      g.cls = r.type ∧ ((g.shape.cx : Int) = r.width ∧ (g.shape.cy : Int) = r.height ∧ g.shape.sx = r.sx ∧ g.shape.sy = r.sy ∧ g.shape.ox = r.ox ∧ g.shape.oy = r.oy) ∧
      g.bands.Nodup ∧ ∀ b, b ∈ g.bands ↔ b ∈ r.bands := by
  obtain ⟨hw, hc⟩ := hs.wf_closed
  obtain ⟨fn, hfn, hfo, hfk⟩ := frame_there hw hc hroot h
  obtain ⟨s', e, k, f, kk⟩ := put_kept hw hc hroot hfo ho tf
  let g0 : Grid R := ⟨r.type, ⟨toSize r.width, toSize r.height, r.sx, r.sy, r.ox, r.oy⟩, []⟩
  obtain ⟨b1, b2, b3, b4⟩ := bands_spec r.bands g0 List.nodup_nil
  refine ⟨s', r.bands.foldl createBand g0, fn, ?_, k, kk, hfn, f, hfk, b1, ?_, b3, fun b => by rw [b4]; simp [g0]⟩
  · unfold tool
    rw [GridArgs.C150_create_partial hD h hl]
    dsimp only
    unfold build
    rw [C196_create T hT, hf]
    dsimp only
    rw [if_pos hg]
    dsimp only
    rw [if_neg (by
      rintro ⟨h1, h2⟩
      rcases hb with hb | hb
      · exact h1 hb
      · simp [hb] at h2), hfn]
    dsimp only
    rw [e]
  · rw [b2]
    exact ⟨toSize_nat hsize.1.1 hsize.1.2, toSize_nat hsize.2.1 hsize.2.2, rfl, rfl, rfl, rfl⟩

/-- **C196 (-map)** With the id of a grid of the environment the new grid has the shape and the frame of this grid. -/
theorem C196_map_partial (hs : Reach Good root s) (hroot : rootOk s) (hD : GridArgs.Sound D) (hT : T.Lossless) {p env type : String} {m fn : Obj} {g : Shape R} (hm : s.owner m = .here)
    (hg : shape m = some g) (hsize : g.cx < 2 ^ 31 ∧ g.cy < 2 ^ 31) (hfn : s.getFrameNode m = some fn) {c : Class} (hf : factory type = some c) (hgr : c.grid = true)
    (ho : s.owner o = .dead) {V : Type} (tf : Obj → V) :
    ∃ s', tool D T factory s shape o [p, env, type, "-map", name s m] = .written s' o ⟨type, g, []⟩ ∧ Clone.Kept s s' tf tf [o] ∧ s'.getFrameNode o = some fn := by
  obtain ⟨hw, hc⟩ := hs.wf_closed
  have hitem : s.getItem (name s m).toList = some m := by
    unfold name
    rw [String.toList_ofList]
    exact hw.look_uid hm
  have hbx : Int.bmod (g.cx : Int) (2 ^ 32) = g.cx := by
    have := hsize.1
    rw [Int.bmod_def]
    omega
  have hby : Int.bmod (g.cy : Int) (2 ^ 32) = g.cy := by
    have := hsize.2
    rw [Int.bmod_def]
    omega
  have hmaps : (world s shape).maps (name s m) = some ⟨g.cx, g.cy, g.sx, g.sy, g.ox, g.oy, some (name s fn)⟩ := by
    show (s.getItem (name s m).toList).bind _ = _
    rw [hitem]
    simp only [Option.bind_some, hg, hfn, hbx, hby, Option.map_some]
  obtain ⟨s', g', fn', e, k, -, h1, h2, -, -⟩ := C196_tool_partial (D := D) (T := T) (factory := factory) (shape := shape) (o := o) (r := ⟨type, g.cx, g.cy, g.sx, g.sy, g.ox, g.oy, name s fn, []⟩) hs hroot hD hT
    (Or.inr ⟨p, env, name s m, _, rfl, hmaps, rfl, rfl⟩) (Or.inl (by simp)) ⟨⟨by simp, by have := hsize.1; simp only []; omega⟩, by simp, by have := hsize.2; simp only []; omega⟩ hf hgr (Or.inl rfl) ho tf
  have hfh : s.owner fn = .here := (hc.cmap _ (look_some_mem hfn)).1.2
  have hfi : s.getItem (name s fn).toList = some fn := by
    unfold name
    rw [String.toList_ofList]
    exact hw.look_uid hfh
  rw [hfi] at h1
  cases h1
  refine ⟨s', ?_, k, h2⟩
  rw [e]
  have e' := e
  unfold tool at e'
  rw [show GridArgs.createGrid D (world s shape) [p, env, type, "-map", name s m] = .make ⟨type, g.cx, g.cy, g.sx, g.sy, g.ox, g.oy, name s fn, []⟩ from
    GridArgs.C150_create_partial hD (Or.inr ⟨p, env, name s m, _, rfl, hmaps, rfl, rfl⟩) (Or.inl (by simp))] at e'
  dsimp only at e'
  unfold build at e'
  rw [C196_create T hT, hf] at e'
  dsimp only at e'
  rw [if_pos hgr] at e'
  dsimp only at e'
  rw [if_neg (by rintro ⟨h1, -⟩; exact h1 rfl), hfi] at e'
  dsimp only at e'
  have hx : toSize (g.cx : Int) = g.cx := by have := toSize_nat (n := g.cx) (by simp) (by have := hsize.1; omega); omega
  have hy : toSize (g.cy : Int) = g.cy := by have := toSize_nat (n := g.cy) (by simp) (by have := hsize.2; omega); omega
  split at e'
  · cases e'
    simp only [List.foldl_nil, hx, hy]
  · cases e'
  · cases e'

/-- **C196, the code violates the property**: a negative width is accepted; the grid that is written has almost 2^64 columns. -/
theorem C196_negative_deviation (hs : Reach Good root s) (hroot : rootOk s) (hD : GridArgs.Sound D) (hT : T.Lossless) (h : GridArgs.Documented D (world s shape) args r)
    (hl : args.length ≤ 7 ∨ 11 ≤ args.length) (hneg : r.width < 0 ∧ -2 ^ 31 ≤ r.width) {c : Class} (hf : factory r.type = some c) (hg : c.grid = true) (hb : r.bands = [])
    (ho : s.owner o = .dead) : ∃ s' g, tool D T factory s shape o args = .written s' o g ∧ (g.shape.cx : Int) = 2 ^ 64 + r.width := by
  obtain ⟨hw, hc⟩ := hs.wf_closed
  obtain ⟨fn, hfn, hfo, hfk⟩ := frame_there hw hc hroot h
  obtain ⟨s', e, k, f, kk⟩ := put_kept hw hc hroot hfo ho (fun _ => ())
  refine ⟨s', ⟨r.type, ⟨toSize r.width, toSize r.height, r.sx, r.sy, r.ox, r.oy⟩, []⟩, ?_, ?_⟩
  · unfold tool
    rw [GridArgs.C150_create_partial hD h hl]
    dsimp only
    unfold build
    rw [C196_create T hT, hf]
    dsimp only
    rw [if_pos hg]
    dsimp only
    rw [if_neg (by rintro ⟨h1, -⟩; exact h1 hb), hfn]
    dsimp only
    rw [e, hb]
    rfl
  · show (toSize r.width : Int) = _
    unfold toSize
    omega

/-- **C196 (other classes)** With an unknown class the tool throws. **The code violates the property** for classes that are no grids: a null pointer is used. Nothing is written. -/
theorem C196_class_deviation (hD : GridArgs.Sound D) (hT : T.Lossless) (h : GridArgs.Documented D (world s shape) args r) (hl : args.length ≤ 7 ∨ 11 ≤ args.length) :
    (factory r.type = none → tool D T factory s shape o args = .exception) ∧
    (∀ c, factory r.type = some c → c.grid = false → tool D T factory s shape o args = if r.bands = [] then .crash else .refused) := by
  unfold tool
  rw [GridArgs.C150_create_partial hD h hl]
  dsimp only
  unfold build
  rw [C196_create T hT]
  refine ⟨fun hf => by rw [hf], fun c hf hg => ?_⟩
  rw [hf]
  dsimp only
  rw [if_neg (by rw [hg]; decide)]

/-! ### examples -/

/-- texts of strokes -/
def strokes : Texts Nat := ⟨fun n => String.ofList (List.replicate n '|'), fun t => some t.toList.length, fun n => String.ofList (List.replicate n '|'), fun t => some t.toList.length⟩

theorem strokes_lossless : strokes.Lossless := ⟨fun n => by simp [strokes], fun n => by simp [strokes]⟩

def classes : String → Option Class := fun t => if t = "grid" then some ⟨true, true⟩ else if t = "frame" then some ⟨false, false⟩ else none

theorem line (t : String) : GridArgs.Documented GridArgs.digits (world (init 0) fun _ => none) ["env_create_grid", "e", t, "4", "5", "1", "2"]
    ⟨t, 4, 5, 1, 2, 0, 0, name (init 0) 0, []⟩ :=
  Or.inl ⟨_, _, ["4", "5", "1", "2"], [], [], rfl, ⟨"4", "5", "1", "2", rfl, show GridArgs.digits.int "4" = some 4 by decide +kernel,
    show GridArgs.digits.int "5" = some 5 by decide +kernel, show GridArgs.digits.dbl "1" = some 1 by decide +kernel, show GridArgs.digits.dbl "2" = some 2 by decide +kernel⟩,
    Or.inl ⟨rfl, rfl, rfl⟩, Or.inl ⟨rfl, rfl, rfl⟩⟩

/-- a grid of 4 times 5 cells in the root frame -/
example : ∃ s' g, tool GridArgs.digits strokes classes (init 0) (fun _ => none) 1 ["env_create_grid", "e", "grid", "4", "5", "1", "2"] = .written s' 1 g ∧ s'.getFrameNode 1 = some 0 ∧
    (g.shape.cx : Int) = 4 := by
  obtain ⟨s', g, fn, h, -, -, h1, h2, -, -, ⟨h3, -⟩, -⟩ := C196_tool_partial (Reach.init (G := Good) (r := 0)) ⟨rfl, rfl⟩ ⟨by decide +kernel, by decide +kernel⟩ strokes_lossless (line "grid")
    (Or.inl (by decide)) ⟨⟨by decide, by decide⟩, by decide, by decide⟩ (factory := classes) (c := ⟨true, true⟩) (by decide +kernel) rfl (Or.inl rfl) (o := 1) rfl (fun _ => ())
  refine ⟨s', g, h, ?_, h3⟩
  rw [h2]
  rw [show (init 0).getItem (name (init 0) 0).toList = some 0 by decide +kernel] at h1
  exact h1.symm

example : tool GridArgs.digits strokes classes (init 0) (fun _ => none) 1 ["env_create_grid", "e", "frame", "4", "5", "1", "2"] = .crash :=
  ((C196_class_deviation ⟨by decide +kernel, by decide +kernel⟩ strokes_lossless (line "frame") (Or.inl (by decide))).2 ⟨false, false⟩ (by decide +kernel) rfl).trans (if_pos rfl)

/-- numbers of one digit, with "n" for -1 -/
def signed : GridArgs.Reader Nat := ⟨fun w => if w = "n" then some (-1) else (GridArgs.digit w).map Int.ofNat, GridArgs.digit⟩

example : ∃ s' g, tool signed strokes classes (init 0) (fun _ => none) 1 ["env_create_grid", "e", "grid", "n", "5", "1", "2"] = .written s' 1 g ∧ (g.shape.cx : Int) = 2 ^ 64 + -1 :=
  C196_negative_deviation (Reach.init (G := Good) (r := 0)) ⟨rfl, rfl⟩ ⟨by decide +kernel, by decide +kernel⟩ strokes_lossless (r := ⟨"grid", -1, 5, 1, 2, 0, 0, name (init 0) 0, []⟩)
    (Or.inl ⟨_, _, ["n", "5", "1", "2"], [], [], rfl, ⟨"n", "5", "1", "2", rfl, by decide +kernel, by decide +kernel, by decide +kernel, by decide +kernel⟩, Or.inl ⟨rfl, rfl, rfl⟩,
      Or.inl ⟨rfl, rfl, rfl⟩⟩) (Or.inl (by decide)) ⟨by decide, by decide⟩ (factory := classes) (c := ⟨true, true⟩) (by decide +kernel) rfl rfl (o := 1) rfl

#print axioms C196_create
#print axioms C196_tool_partial
#print axioms C196_map_partial
#print axioms C196_negative_deviation
#print axioms C196_class_deviation
end Envire.Create
