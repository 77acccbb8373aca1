import Verif.Tools.GridArgsModel
/-! Properties C150 and C151: the documented command lines of env_create_grid and env_add_grid. -/
namespace Envire
namespace GridArgs

variable {R : Type} [OfNat R 0]

/-! ## C150 -/

/-! The documented lines, env_create_grid.cpp l.14-21, without looking at the parser. -/

/-- `<width> <height> <scale_x> <scale_y>` -/
def SizeWords (D : Reader R) (ws : List String) (w h : Int) (sx sy : R) : Prop :=
  ∃ a b c d, ws = [a, b, c, d] ∧ D.int a = some w ∧ D.int b = some h ∧ D.dbl c = some sx ∧ D.dbl d = some sy

/-- `[<offset_x> <offset_y>]` -/
def OffsetWords (D : Reader R) (ws : List String) (ox oy : R) : Prop :=
  (ws = [] ∧ ox = 0 ∧ oy = 0) ∨ ∃ a b, ws = [a, b] ∧ D.dbl a = some ox ∧ D.dbl b = some oy

/-- `-frame <frame_id> [-bands band1 band2 ...]`, or nothing, where the grid goes to the root -/
def FrameWords (W : World R) (ws : List String) (f : String) (bands : List String) : Prop :=
  (ws = [] ∧ f = W.root ∧ bands = []) ∨
  (W.frames f = true ∧ ((ws = ["-frame", f] ∧ bands = []) ∨ ws = "-frame" :: f :: "-bands" :: bands))

/-- `args` is a documented line that asks for `r` -/
def Documented (D : Reader R) (W : World R) (args : List String) (r : Request R) : Prop :=
  (∃ p env size offs place, args = p :: env :: r.type :: (size ++ offs ++ place) ∧
    SizeWords D size r.width r.height r.sx r.sy ∧ OffsetWords D offs r.ox r.oy ∧ FrameWords W place r.frame r.bands) ∨
  (∃ p env id m, args = [p, env, r.type, "-map", id] ∧ W.maps id = some m ∧ m.frame = some r.frame ∧
    r = ⟨r.type, m.width, m.height, m.sx, m.sy, m.ox, m.oy, r.frame, []⟩)

/-- the option words are no numbers -/
def Sound (D : Reader R) : Prop := D.int "-map" = none ∧ D.dbl "-frame" = none

theorem map_ne {D : Reader R} (hD : Sound D) {w : String} {n : Int} (h : D.int w = some n) : w ≠ "-map" := by
  rintro rfl; rw [hD.1] at h; cases h

theorem frame_ne {D : Reader R} (hD : Sound D) {w : String} {n : R} (h : D.dbl w = some n) : w ≠ "-frame" := by
  rintro rfl; rw [hD.2] at h; cases h

/-- **C150** (partial: the tool understands the documented lines, but for the ones of 9 and 10 words) A documented line
with at most 7 or at least 11 words (counting the name of the program) makes exactly the grid it asks for. -/
theorem C150_create_partial {D : Reader R} (hD : Sound D) {W : World R} {args : List String} {r : Request R}
    (h : Documented D W args r) (hl : args.length ≤ 7 ∨ 11 ≤ args.length) : createGrid D W args = .make r := by
  obtain ⟨type, w, hh, sx, sy, ox, oy, f, bands⟩ := r
  rcases h with ⟨p, env, size, offs, place, rfl, ⟨a, b, c, d, rfl, h1, h2, h3, h4⟩, ho, hf⟩ | ⟨p, env, id, m, rfl, hm, hfr, hr⟩
  · dsimp only at h1 h2 h3 h4 ho hf hl ⊢
    have hne := map_ne hD h1
    rcases ho with ⟨rfl, rfl, rfl⟩ | ⟨u, v, rfl, hu, hv⟩
    · rcases hf with ⟨rfl, rfl, rfl⟩ | ⟨hfr, ⟨rfl, rfl⟩ | rfl⟩
      · simp [createGrid, word, num, hne, h1, h2, h3, h4]
      · simp at hl
      · simp only [List.cons_append, List.nil_append, List.length_cons] at hl
        have : 11 ≤ bands.length + 10 := by omega
        simp only [createGrid, word, num, framePart, h1, h2, h3, h4, List.cons_append, List.nil_append, List.length_cons,
          List.getElem?_cons_succ, List.getElem?_cons_zero, hne, hfr, if_false, ne_eq, not_true_eq_false,
          List.drop_succ_cons, List.drop_zero]
        simp
        rw [if_neg (by omega), if_neg (by omega), if_neg (by omega), if_neg (by omega)]
    · have hue := frame_ne hD hu
      rcases hf with ⟨rfl, rfl, rfl⟩ | ⟨hfr, ⟨rfl, rfl⟩ | rfl⟩
      · simp at hl
      · simp [createGrid, word, num, framePart, h1, h2, h3, h4, hne, hu, hv, hue, hfr]
      · simp only [createGrid, word, num, framePart, h1, h2, h3, h4, List.cons_append, List.nil_append, List.length_cons,
          List.getElem?_cons_succ, List.getElem?_cons_zero, hne, hfr, hu, hv, hue, if_false, ne_eq, not_true_eq_false,
          List.drop_succ_cons, List.drop_zero]
        simp
        rw [if_neg (by omega), if_neg (by omega), if_neg (by omega), if_neg (by omega)]
  · dsimp only at hm hfr hr ⊢
    rw [hr]
    simp [createGrid, word, hm, hfr]

/-- **C150** The other documented lines are not understood: no grid is made. -/
theorem C150_short {D : Reader R} (hD : Sound D) {W : World R} {args : List String} {r : Request R}
    (h : Documented D W args r) (hl : 7 < args.length ∧ args.length < 11) :
    createGrid D W args = .usage ∨ createGrid D W args = .crash := by
  obtain ⟨type, w, hh, sx, sy, ox, oy, f, bands⟩ := r
  rcases h with ⟨p, env, size, offs, place, rfl, ⟨a, b, c, d, rfl, h1, h2, h3, h4⟩, ho, hf⟩ | ⟨p, env, id, m, rfl, hm, hfr, hr⟩
  · dsimp only at h1 h2 h3 h4 ho hf hl ⊢
    have hne := map_ne hD h1
    rcases ho with ⟨rfl, rfl, rfl⟩ | ⟨u, v, rfl, hu, hv⟩
    · rcases hf with ⟨rfl, rfl, rfl⟩ | ⟨hfr, ⟨rfl, rfl⟩ | rfl⟩
      · simp at hl
      · left; simp [createGrid, word, num, framePart, hne, h1, h2, h3, h4]
      · simp only [List.cons_append, List.nil_append, List.length_cons] at hl
        have : bands = [] := by
          cases bands with
          | nil => rfl
          | cons x t => simp at hl; omega
        subst this
        left; simp [createGrid, word, num, framePart, hne, h1, h2, h3, h4]
    · have hue := frame_ne hD hu
      rcases hf with ⟨rfl, rfl, rfl⟩ | ⟨hfr, ⟨rfl, rfl⟩ | rfl⟩
      · right; simp [createGrid, word, num, framePart, h1, h2, h3, h4, hne, hu, hv, hue]
      · simp at hl
      · simp at hl; omega
  · simp at hl

/-- **C150** (refuted part) The documented line with a frame and without offsets is answered with the usage. -/
theorem C150_frame_rejected {D : Reader R} (hD : Sound D) {W : World R} {p env type w h sx sy f : String} {n m : Int}
    {x y : R} (h1 : D.int w = some n) (h2 : D.int h = some m) (h3 : D.dbl sx = some x) (h4 : D.dbl sy = some y) :
    createGrid D W [p, env, type, w, h, sx, sy, "-frame", f] = .usage := by
  simp [createGrid, word, num, framePart, map_ne hD h1, h1, h2, h3, h4]

/-- **C150** (refuted part) The documented line with offsets and without a frame reads the null pointer behind the words. -/
theorem C150_offsets_crash {D : Reader R} (hD : Sound D) {W : World R} {p env type w h sx sy ox oy : String} {n m : Int}
    {x y u v : R} (h1 : D.int w = some n) (h2 : D.int h = some m) (h3 : D.dbl sx = some x) (h4 : D.dbl sy = some y)
    (h5 : D.dbl ox = some u) (h6 : D.dbl oy = some v) :
    createGrid D W [p, env, type, w, h, sx, sy, ox, oy] = .crash := by
  simp [createGrid, word, num, framePart, map_ne hD h1, frame_ne hD h5, h1, h2, h3, h4, h5, h6]

/-- **C150** (refuted part) A grid without a frame as the example is a crash. -/
theorem C150_map_crash {D : Reader R} {W : World R} {p env type id : String} {m : MapInfo R} (h : W.maps id = some m)
    (hf : m.frame = none) : createGrid D W [p, env, type, "-map", id] = .crash := by
  simp [createGrid, word, h, hf]

theorem word_make {a : List String} {i : Nat} {k : String → Outcome R} {r : Request R} (h : word a i k = .make r) :
    ∃ w, a[i]? = some w ∧ k w = .make r := by
  unfold word at h
  split at h
  · cases h
  · rename_i w hw; exact ⟨w, hw, h⟩

theorem num_make {N : Type} {o : Option N} {k : N → Outcome R} {r : Request R} (h : num o k = .make r) :
    ∃ n, o = some n ∧ k n = .make r := by
  cases o with
  | none => cases h
  | some n => exact ⟨n, rfl, h⟩

theorem take_of_getElem? {a : List String} {i : Nat} {w : String} (h : a[i]? = some w) :
    a.take (i + 1) = a.take i ++ [w] := by
  rw [List.take_add_one, h]; rfl

theorem split_at {a : List String} {i : Nat} {w : String} (h : a[i]? = some w) :
    a = a.take i ++ w :: a.drop (i + 1) := by
  obtain ⟨hi, rfl⟩ := List.getElem?_eq_some_iff.1 h
  rw [List.getElem_cons_drop]
  exact (List.take_append_drop i a).symm

theorem framePart_make {W : World R} {a : List String} {i : Nat} {mk : String → List String → Request R} {r : Request R}
    (h : framePart W a i mk = .make r) :
    ∃ f bands k ws, r = mk f bands ∧ a.take k = a.take i ++ ws ∧ FrameWords W ws f bands := by
  unfold framePart at h
  obtain ⟨w, hw, h⟩ := word_make h
  split at h
  · cases h
  rename_i hwf
  have hwf : w = "-frame" := by simpa using hwf
  subst hwf
  split at h
  · cases h
  obtain ⟨f, hf, h⟩ := word_make h
  split at h
  · cases h
  rename_i hfr
  have hfr : W.frames f = true := by simpa using hfr
  have h := Outcome.make.inj h
  by_cases hb : i + 2 < a.length ∧ a[i + 2]? = some "-bands"
  · rw [if_pos hb] at h
    refine ⟨f, a.drop (i + 3), a.length, "-frame" :: f :: "-bands" :: a.drop (i + 3), h.symm, ?_, Or.inr ⟨hfr, Or.inr rfl⟩⟩
    rw [List.take_length]
    have e := split_at hb.2
    rw [take_of_getElem? hf, take_of_getElem? hw] at e
    simpa using e
  · rw [if_neg hb] at h
    refine ⟨f, [], i + 2, ["-frame", f], h.symm, ?_, Or.inr ⟨hfr, Or.inl ⟨rfl, rfl⟩⟩⟩
    rw [take_of_getElem? hf, take_of_getElem? hw]
    simp

/-- **C150** A grid is only made for a documented line: a line that makes a grid is a documented one that asks for that
grid, or starts with one (further words behind the frame are not looked at). -/
theorem C150_sound {D : Reader R} {W : World R} {args : List String} {r : Request R}
    (h : createGrid D W args = .make r) : ∃ k, Documented D W (args.take k) r := by
  unfold createGrid at h
  split at h
  · cases h
  rename_i hlen
  obtain ⟨type, ht, h⟩ := word_make h
  obtain ⟨w3, h3, h⟩ := word_make h
  obtain ⟨p, env, rest, rfl⟩ : ∃ p env rest, args = p :: env :: rest := by
    match args, hlen with
    | p :: env :: rest, _ => exact ⟨p, env, rest, rfl⟩
    | [_], h => simp at h
    | [], h => simp at h
  split at h
  · rename_i hm
    subst hm
    split at h
    · cases h
    rename_i h5
    obtain ⟨id, hid, h⟩ := word_make h
    split at h
    · cases h
    rename_i m hmm
    split at h
    · cases h
    rename_i f hf
    have h := (Outcome.make.inj h).symm
    refine ⟨5, Or.inr ⟨p, env, id, m, ?_, hmm, by rw [h]; exact hf, by rw [h]⟩⟩
    have e4 := take_of_getElem? hid
    rw [take_of_getElem? h3, take_of_getElem? ht] at e4
    rw [e4, h]
    simp
  · split at h
    · cases h
    obtain ⟨w, hw, h⟩ := num_make h
    obtain ⟨w4, h4, h⟩ := word_make h
    obtain ⟨hh, hhh, h⟩ := num_make h
    obtain ⟨w5, h5, h⟩ := word_make h
    obtain ⟨sx, hsx, h⟩ := num_make h
    obtain ⟨w6, h6, h⟩ := word_make h
    obtain ⟨sy, hsy, h⟩ := num_make h
    have e7 : (p :: env :: rest).take 7 = p :: env :: type :: [w3, w4, w5, w6] := by
      rw [take_of_getElem? h6, take_of_getElem? h5, take_of_getElem? h4, take_of_getElem? h3, take_of_getElem? ht]
      simp
    split at h
    · split at h
      · cases h
      obtain ⟨w7, h7, h⟩ := word_make h
      split at h
      · obtain ⟨ox, hox, h⟩ := num_make h
        obtain ⟨w8, h8, h⟩ := word_make h
        obtain ⟨oy, hoy, h⟩ := num_make h
        obtain ⟨f, bands, k, ws, rfl, hk, hfw⟩ := framePart_make h
        refine ⟨k, Or.inl ⟨p, env, [w3, w4, w5, w6], [w7, w8], ws, ?_, ⟨w3, w4, w5, w6, rfl, hw, hhh, hsx, hsy⟩,
          Or.inr ⟨w7, w8, rfl, hox, hoy⟩, hfw⟩⟩
        rw [hk, take_of_getElem? h8, take_of_getElem? h7, e7]
        simp
      · obtain ⟨f, bands, k, ws, rfl, hk, hfw⟩ := framePart_make h
        refine ⟨k, Or.inl ⟨p, env, [w3, w4, w5, w6], [], ws, ?_, ⟨w3, w4, w5, w6, rfl, hw, hhh, hsx, hsy⟩,
          Or.inl ⟨rfl, rfl, rfl⟩, hfw⟩⟩
        rw [hk, e7]
        simp
    · have h := (Outcome.make.inj h).symm
      subst h
      refine ⟨7, Or.inl ⟨p, env, [w3, w4, w5, w6], [], [], ?_, ⟨w3, w4, w5, w6, rfl, hw, hhh, hsx, hsy⟩,
        Or.inl ⟨rfl, rfl, rfl⟩, Or.inl ⟨rfl, rfl, rfl⟩⟩⟩
      rw [e7]
      simp

/-- numbers of one digit, for the examples -/
def digit (w : String) : Option Nat :=
  match w.toList with
  | [c] => if c.isDigit then some (c.toNat - '0'.toNat) else none
  | _ => none

def digits : Reader Nat := ⟨fun w => (digit w).map Int.ofNat, digit⟩

def smallWorld : World Nat := ⟨fun id => if id = "/m" then some ⟨7, 8, 1, 1, 0, 0, none⟩ else none, fun f => f = "/f", "/0"⟩

example : Sound digits := ⟨by decide +kernel, by decide +kernel⟩
example : createGrid digits smallWorld ["env_create_grid", "e", "envire::ElevationGrid", "4", "5", "1", "2", "3", "0",
    "-frame", "/f", "-bands", "x", "y"] = .make ⟨"envire::ElevationGrid", 4, 5, 1, 2, 3, 0, "/f", ["x", "y"]⟩ := by
  decide +kernel
example : createGrid digits smallWorld ["env_create_grid", "e", "t", "4", "5", "1", "2", "-frame", "/f"] = .usage := by
  decide +kernel
example : createGrid digits smallWorld ["env_create_grid", "e", "t", "4", "5", "1", "2", "3", "0"] = .crash := by
  decide +kernel
example : createGrid digits smallWorld ["env_create_grid", "e", "t", "-map", "/m"] = .crash := by decide +kernel
example : Documented digits smallWorld ["env_create_grid", "e", "t", "4", "5", "1", "2", "3", "0", "-frame", "/f"]
    ⟨"t", 4, 5, 1, 2, 3, 0, "/f", []⟩ :=
  Or.inl ⟨_, _, ["4", "5", "1", "2"], ["3", "0"], ["-frame", "/f"], rfl,
    ⟨"4", "5", "1", "2", rfl, by decide +kernel, by decide +kernel, by decide +kernel, by decide +kernel⟩,
    Or.inr ⟨"3", "0", rfl, by decide +kernel, by decide +kernel⟩, Or.inr ⟨by decide +kernel, Or.inl ⟨rfl, rfl⟩⟩⟩

/-! ## C151 -/

/-- what a documented line of env_add_grid asks for, env_add_grid.cpp l.12-20: the type of a new map, if any, and the
place; `map` stands for an existing map -/
inductive Asks : List String → Option String → Option Place → Option String → Prop
  /-- `<env_path> <grid_file> <band_name> [map_type] -frame <frame_id>` -/
  | frame (p e g b f : String) : Asks [p, e, g, b, "-frame", f] none (some (.frame f)) none
  | typedFrame (p e g b t f : String) : Asks [p, e, g, b, t, "-frame", f] (some t) (some (.frame f)) none
  /-- `<env_path> <grid_file> <band_name> -map <map_id>` -/
  | map (p e g b m : String) : Asks [p, e, g, b, "-map", m] none none (some m)
  /-- `<env_path> <grid_file> <band_name> [map_type]`: the root, or a child of it with the transform of the file -/
  | root (p e g b : String) : Asks [p, e, g, b] none none none
  | typedRoot (p e g b t : String) : t ≠ "" → t ≠ "-frame" → t ≠ "-map" → Asks [p, e, g, b, t] (some t) none none

/-- the place of a map for which no frame is given -/
def rootPlace (ident : Bool) : Place := if ident then .root else .ownFrame

/-- **C151** (partial: only the lines without `-frame` and `-map` do what is asked for) A line with the three first words,
or with a map type, adds the grid at the root (or at a new frame with the transform of the file). -/
theorem C151_add_partial (ident : Bool) {args : List String} {t : Option String} (h : Asks args t none none) :
    addGrid ident args = (match t with | none => .direct (rootPlace ident) | some t => .typed t (rootPlace ident)) := by
  cases h with
  | root p e g b => cases ident <;> simp [addGrid, options, rootPlace]
  | typedRoot p e g b t h1 h2 h3 => cases ident <;> simp [addGrid, options, rootPlace, h1, h2, h3]

/-- **C151** (refuted part) Every documented line with `-frame` or `-map` is answered with the usage. -/
theorem C151_options_rejected (ident : Bool) {args : List String} {t : Option String} {f : Option Place} {m : Option String}
    (h : Asks args t f m) (hfm : f ≠ none ∨ m ≠ none) : addGrid ident args = .usage := by
  cases h with
  | frame p e g b f => simp [addGrid, options]
  | typedFrame p e g b t f => simp [addGrid]
  | map p e g b m => simp [addGrid, options]
  | root => simp at hfm
  | typedRoot => simp at hfm

/-- **C151** (refuted part) No line at all adds a grid to a given frame or a band to a given map: whatever is accepted
goes to the root or to a new frame of its own. -/
theorem C151_no_option (ident : Bool) (args : List String) :
    addGrid ident args = .usage ∨ addGrid ident args = .direct (rootPlace ident) ∨
    ∃ t, args[4]? = some t ∧ addGrid ident args = .typed t (rootPlace ident) := by
  unfold addGrid
  by_cases hl : args.length < 4 ∨ 6 < args.length
  · left; rw [if_pos hl]
  rw [if_neg hl]
  match args, hl with
  | [], hl => simp at hl
  | [_], hl => simp at hl
  | [_, _], hl => simp at hl
  | [_, _, _], hl => simp at hl
  | [a, b, c, d], _ => right; left; cases ident <;> simp [options, rootPlace]
  | [a, b, c, d, t], _ =>
    by_cases h1 : t = "-frame"
    · subst h1; right; left; cases ident <;> simp [options, rootPlace]
    by_cases h2 : t = "-map"
    · subst h2; right; left; cases ident <;> simp [options, rootPlace]
    by_cases h3 : t = ""
    · subst h3; right; left; cases ident <;> simp [options, rootPlace]
    · right; right; refine ⟨t, rfl, ?_⟩; cases ident <;> simp [options, rootPlace, h1, h2, h3]
  | [a, b, c, d, t, v], _ =>
    by_cases h1 : t = "-frame"
    · subst h1; left; simp [options]
    by_cases h2 : t = "-map"
    · subst h2; left; simp [options]
    by_cases h3 : t = ""
    · subst h3; right; left; cases ident <;> simp [options, rootPlace]
    · right; right; refine ⟨t, rfl, ?_⟩; cases ident <;> simp [options, rootPlace, h1, h2, h3]
  | _ :: _ :: _ :: _ :: _ :: _ :: _ :: _, hl => simp at hl

/-- **C151** (refuted part) A line that names an option without its value is accepted and the option has no effect, and so
is a line with a word behind the map type. -/
theorem C151_ignored (ident : Bool) (p e g b v : String) {t : String} (h1 : t ≠ "") (h2 : t ≠ "-frame") (h3 : t ≠ "-map") :
    addGrid ident [p, e, g, b, "-frame"] = addGrid ident [p, e, g, b] ∧
    addGrid ident [p, e, g, b, "-map"] = addGrid ident [p, e, g, b] ∧
    addGrid ident [p, e, g, b, t, v] = addGrid ident [p, e, g, b, t] := by
  refine ⟨?_, ?_, ?_⟩ <;> cases ident <;> simp [addGrid, options, h1, h2, h3]

example : addGrid true ["env_add_grid", "e", "g.tif", "z"] = .direct .root := by decide +kernel
example : addGrid false ["env_add_grid", "e", "g.tif", "z", "envire::ElevationGrid"] =
    .typed "envire::ElevationGrid" .ownFrame := by decide +kernel
example : addGrid true ["env_add_grid", "e", "g.tif", "z", "-frame", "/5"] = .usage := by decide +kernel

#print axioms C150_create_partial
#print axioms C150_short
#print axioms C150_frame_rejected
#print axioms C150_offsets_crash
#print axioms C150_map_crash
#print axioms C150_sound
#print axioms C151_add_partial
#print axioms C151_options_rejected
#print axioms C151_no_option
#print axioms C151_ignored

end GridArgs
end Envire
