import Verif.Tools.SlamModel
import Verif.Core.Witness
/-! Property C153: the exchange of poses with slam6d. -/
namespace Envire
namespace Slam

/-! ### specification -/

/-- the x axis of slam6d is the y axis of envire, y is z, and z is x -/
def axis : Fin 3 → Fin 3
  | 0 => 1
  | 1 => 2
  | 2 => 0

/-- a pose in the coordinates of slam6d -/
def toSlam (p : Pose) : Pose := ⟨fun i j => p.rot (axis i) (axis j), fun i => p.pos (axis i)⟩

/-- a line of a frames file: the matrix of the pose by columns -/
def lineOf (p : Pose) : List (Option Rat) :=
  [p.rot 0 0, p.rot 1 0, p.rot 2 0, 0, p.rot 0 1, p.rot 1 1, p.rot 2 1, 0, p.rot 0 2, p.rot 1 2, p.rot 2 2, 0,
   p.pos 0, p.pos 1, p.pos 2, 1].map some

/-! ### coordinates -/

theorem fin3 {P : Fin 3 → Prop} (h0 : P 0) (h1 : P 1) (h2 : P 2) : ∀ i, P i
  | 0 => h0
  | 1 => h1
  | 2 => h2

theorem app_S (v : V3) : app S v = fun i => v (axis i) := by
  funext i
  revert i
  apply fin3 <;> simp [app, S, axis, Rat.add_zero, Rat.zero_add]

theorem conj_S (m : M3) : mul (mul S m) (tr S) = fun i j => m (axis i) (axis j) := by
  funext i j
  revert j
  revert i
  apply fin3 <;> apply fin3 <;> simp [mul, tr, S, axis, Rat.add_zero, Rat.zero_add]

theorem back_toSlam (p : Pose) : back (toSlam p) = p := by
  obtain ⟨m, v⟩ := p
  unfold back toSlam
  congr 1
  · funext i j
    revert j
    revert i
    apply fin3 <;> apply fin3 <;> simp [mul, tr, S, axis, Rat.add_zero, Rat.zero_add]
  · funext i
    revert i
    apply fin3 <;> simp [app, tr, S, axis, Rat.add_zero, Rat.zero_add]

theorem toSlam_back (p : Pose) : toSlam (back p) = p := by
  obtain ⟨m, v⟩ := p
  unfold back toSlam
  congr 1
  · funext i j
    revert j
    revert i
    apply fin3 <;> apply fin3 <;> simp [mul, tr, S, axis, Rat.add_zero, Rat.zero_add]
  · funext i
    revert i
    apply fin3 <;> simp [app, tr, S, axis, Rat.add_zero, Rat.zero_add]

theorem readFrames_last (junk : Nat → Rat) (pre : List (List (Option Rat))) (p : Pose) :
    parts (readFrames junk (pre ++ [lineOf p])) = p := by
  obtain ⟨m, v⟩ := p
  unfold readFrames
  rw [List.foldl_append]
  generalize List.foldl _ junk pre = q
  unfold parts
  congr 1
  · funext i j
    revert j
    revert i
    apply fin3 <;> apply fin3 <;> simp [readLine, lineOf]
  · funext i
    revert i
    apply fin3 <;> simp [readLine, lineOf]

/-! ### names -/

/-- the digits of the number in the names -/
def ds (k : Nat) : Text := List.replicate (3 - (Nat.toDigits 10 k).length) '0' ++ Nat.toDigits 10 k

theorem scan_eq (k : Nat) : scan k = 's' :: 'c' :: 'a' :: 'n' :: ds k := by
  unfold scan ds; rw [List.append_assoc]; rfl

theorem ds_digit (k : Nat) : ∀ c ∈ ds k, c.isDigit = true := by
  intro c hc
  rcases List.mem_append.1 hc with hc | hc
  · rw [(List.mem_replicate.1 hc).2]; decide
  · exact Nat.isDigit_of_mem_toDigits (by decide) (by decide) hc

theorem zeros (n : Nat) (l : Text) : Nat.ofDigitChars 10 (List.replicate n '0' ++ l) 0 = Nat.ofDigitChars 10 l 0 := by
  induction n with
  | zero => rfl
  | succ n ih => exact ih

theorem ds_val (k : Nat) : Nat.ofDigitChars 10 (ds k) 0 = k := by
  unfold ds; rw [zeros, Nat.ofDigitChars_toDigits (by decide) (by decide)]

theorem ds_length (k : Nat) : 3 ≤ (ds k).length ∧ (k < 1000 ↔ (ds k).length = 3) := by
  have h := Nat.length_toDigits_le_iff (b := 10) (n := k) (k := 3) (by decide) (by decide)
  have e : (ds k).length = 3 - (Nat.toDigits 10 k).length + (Nat.toDigits 10 k).length := by simp [ds]
  have h : (Nat.toDigits 10 k).length ≤ 3 ↔ k < 1000 := h
  refine ⟨by omega, ?_⟩
  rw [← h]
  omega

def exts : List Text := [".ply".toList, ".pose".toList, ".id".toList, ".frames".toList]

theorem takeWhile_ds {l ext : Text} (hl : ∀ c ∈ l, c.isDigit = true) (he : ext.takeWhile Char.isDigit = []) :
    (l ++ ext).takeWhile Char.isDigit = l := by
  induction l with
  | nil => exact he
  | cons c l ih =>
    rw [List.cons_append, List.takeWhile_cons_of_pos (hl c (by simp)), ih (fun d hd => hl d (by simp [hd]))]

theorem name_inj {k j : Nat} {e f : Text} (he : e ∈ exts) (hf : f ∈ exts) (h : scan k ++ e = scan j ++ f) : k = j ∧ e = f := by
  have hx : ∀ e ∈ exts, e.takeWhile Char.isDigit = [] := by decide
  rw [scan_eq, scan_eq] at h
  simp only [List.cons_append, List.cons.injEq, true_and] at h
  have h1 := congrArg (List.takeWhile Char.isDigit) h
  rw [takeWhile_ds (ds_digit k) (hx e he), takeWhile_ds (ds_digit j) (hx f hf)] at h1
  refine ⟨?_, ?_⟩
  · rw [← ds_val k, ← ds_val j, h1]
  · rw [h1] at h
    exact List.append_cancel_left h

theorem not_starts {c : Char} (h : c ≠ 's') (t : Text) : starts rx (c :: t) = false := by
  have : starts rx (c :: t) = ((c == 's') && starts rx.tail t) := rfl
  rw [this]
  simp [h]

theorem search_skip {c : Char} (h : c ≠ 's') (t : Text) : search (c :: t) = search t := by
  have : search (c :: t) = if starts rx (c :: t) then some (Nat.ofDigitChars 10 (((c :: t).drop 4).take 3) 0) else search t := rfl
  rw [this, not_starts h, if_neg (by decide)]

theorem search_digits {l : Text} (hl : ∀ c ∈ l, c.isDigit = true) (t : Text) : search (l ++ t) = search t := by
  induction l with
  | nil => rfl
  | cons c l ih =>
    rw [List.cons_append, search_skip, ih (fun d hd => hl d (by simp [hd]))]
    intro h
    have := hl c (by simp)
    rw [h] at this
    revert this; decide

/-- the end of the regular expression -/
def rxEnd : List (Char → Bool) := ".frames".toList.map (fun c d => d == c)

theorem starts_scan (k : Nat) (t : Text) :
    starts rx ('s' :: 'c' :: 'a' :: 'n' :: (ds k ++ t)) = true ↔ k < 1000 ∧ starts rxEnd t = true := by
  obtain ⟨h3, hk⟩ := ds_length k
  have hd := ds_digit k
  rw [hk]
  generalize ds k = l at *
  match l, h3 with
  | [a, b, c], _ =>
    have ha := hd a (by simp); have hb := hd b (by simp); have hc := hd c (by simp)
    have : starts rx ('s' :: 'c' :: 'a' :: 'n' :: ([a, b, c] ++ t)) =
      (a.isDigit && (b.isDigit && (c.isDigit && starts rxEnd t))) := rfl
    rw [this, ha, hb, hc]
    simp
  | a :: b :: c :: x :: l, _ =>
    have hx := hd x (by simp)
    have : starts rx ('s' :: 'c' :: 'a' :: 'n' :: (a :: b :: c :: x :: l ++ t)) =
      (a.isDigit && (b.isDigit && (c.isDigit && ((x == '.') && starts rxEnd.tail (l ++ t))))) := rfl
    rw [this]
    have : (x == '.') = false := by
      rw [beq_eq_false_iff_ne]
      rintro rfl
      revert hx; decide
    rw [this]
    simp

theorem search_name {k : Nat} {e : Text} (he : e ∈ exts) :
    search (scan k ++ e) = if k < 1000 ∧ e = ".frames".toList then some k else none := by
  have hx : ∀ e ∈ exts, (starts rxEnd e = true ↔ e = ".frames".toList) ∧ search e = none := by decide
  obtain ⟨h1, h2⟩ := hx e he
  rw [scan_eq]
  have e1 : search ('s' :: 'c' :: 'a' :: 'n' :: ds k ++ e) =
      if starts rx ('s' :: 'c' :: 'a' :: 'n' :: (ds k ++ e)) then
        some (Nat.ofDigitChars 10 (((ds k ++ e)).take 3) 0) else search ('c' :: 'a' :: 'n' :: (ds k ++ e)) := rfl
  rw [e1]
  by_cases hs : k < 1000 ∧ e = ".frames".toList
  · rw [if_pos hs, if_pos ((starts_scan k e).2 ⟨hs.1, h1.2 hs.2⟩)]
    have := (ds_length k).2.1 hs.1
    rw [List.take_append_of_le_length (by omega), List.take_of_length_le (by omega), ds_val]
  · rw [if_neg hs, if_neg, search_skip (by decide), search_skip (by decide), search_skip (by decide),
      search_digits (ds_digit k), h2]
    intro h
    have := (starts_scan k e).1 h
    exact hs ⟨this.1, h1.1 this.2⟩

theorem starts_slash : ∀ (ps : List (Char → Bool)), (∀ p ∈ ps, p '/' = false) → ∀ (u r : Text),
    starts ps (u ++ '/' :: r) = true → starts ps u = true := by
  intro ps
  induction ps with
  | nil => intro _ u _ _; cases u <;> rfl
  | cons p ps ih =>
    intro hp u r h
    cases u with
    | nil =>
      have : starts (p :: ps) ([] ++ '/' :: r) = (p '/' && starts ps r) := rfl
      rw [this, hp p (by simp)] at h
      simp at h
    | cons c u =>
      have e1 : starts (p :: ps) ((c :: u) ++ '/' :: r) = (p c && starts ps (u ++ '/' :: r)) := rfl
      have e2 : starts (p :: ps) (c :: u) = (p c && starts ps u) := rfl
      rw [e1, Bool.and_eq_true] at h
      rw [e2, Bool.and_eq_true]
      exact ⟨h.1, ih (fun q hq => hp q (by simp [hq])) u r h.2⟩

/-- in a directory whose own path does not match, the match is in the name of the file -/
theorem search_path {dir : Text} (hd : search dir = none) (n : Text) : search (dir ++ '/' :: n) = search n := by
  induction dir with
  | nil => exact search_skip (by decide) n
  | cons c t ih =>
    have e1 : search (c :: t) = if starts rx (c :: t) then some (Nat.ofDigitChars 10 (((c :: t).drop 4).take 3) 0) else search t := rfl
    rw [e1] at hd
    have hs : ¬ starts rx (c :: t) = true := by intro h; rw [if_pos h] at hd; cases hd
    rw [if_neg hs] at hd
    have e2 : search (c :: t ++ '/' :: n) = if starts rx (c :: t ++ '/' :: n) then
      some (Nat.ofDigitChars 10 (((c :: t ++ '/' :: n).drop 4).take 3) 0) else search (t ++ '/' :: n) := rfl
    rw [e2, if_neg, ih hd]
    intro h
    exact hs (starts_slash rx (by decide) (c :: t) n h)

/-! ### generate -/

theorem look_put_self (n : Text) (f : File) (d : Dir) : look n (put n f d) = some f := by
  unfold put look; rw [if_pos rfl]

theorem look_put_ne {m n : Text} (h : m ≠ n) (f : File) (d : Dir) : look m (put n f d) = look m d := by
  have : look m ((n, f) :: eraseKey n d) = if n = m then some f else look m (eraseKey n d) := rfl
  unfold put
  rw [this, if_neg (fun e => h e.symm), look_eraseKey_ne h]

theorem generate_spec (euler : M3 → V3) (T : Nat → Pose) (cs : List Cloud) : ∀ (k : Nat) (d : Dir),
    (∀ c ∈ cs, c.frame ≠ none) → (∀ j, k ≤ j → look (scan j ++ ".ply".toList) d = none) →
    ∃ d', generate euler T k cs d = .ok d' ∧
      (∀ n, (∀ j e, k ≤ j → j < k + cs.length → e ∈ exts → n ≠ scan j ++ e) → look n d' = look n d) ∧
      ∀ (j : Nat) (c : Cloud) (f : Nat), cs[j]? = some c → c.frame = some f →
        look (scan (k + j) ++ ".id".toList) d' = some (.id (c.id ++ ['\n'])) ∧
        look (scan (k + j) ++ ".ply".toList) d' = some .link ∧
        look (scan (k + j) ++ ".pose".toList) d' = some (.pose (toSlam (T f)).pos (euler (toSlam (T f)).rot)) := by
  have m1 : ".ply".toList ∈ exts := by decide
  have m2 : ".pose".toList ∈ exts := by decide
  have m3 : ".id".toList ∈ exts := by decide
  have n12 : ".ply".toList ≠ ".pose".toList := by decide
  have n13 : ".ply".toList ≠ ".id".toList := by decide
  have n23 : ".pose".toList ≠ ".id".toList := by decide
  induction cs with
  | nil => intro k d _ _; exact ⟨d, rfl, fun _ _ => rfl, fun j c f h => by simp at h⟩
  | cons c cs ih =>
    intro k d hf hp
    cases hc : c.frame with
    | none => exact absurd hc (hf c (by simp))
    | some f =>
      let d1 := put (scan k ++ ".ply".toList) .link d
      let d2 := put (scan k ++ ".pose".toList) (.pose (app S (T f).pos) (euler (mul (mul S (T f).rot) (tr S)))) d1
      let d3 := put (scan k ++ ".id".toList) (.id (c.id ++ ['\n'])) d2
      have e1 : writeScan euler T k c d = .ok d3 := by
        unfold writeScan
        rw [hp k (Nat.le_refl k)]
        dsimp only [Option.isSome]
        rw [if_neg (by decide), hc]
      have hother : ∀ n, (∀ e ∈ exts, n ≠ scan k ++ e) → look n d3 = look n d := by
        intro n hn
        rw [look_put_ne (hn _ m3), look_put_ne (hn _ m2), look_put_ne (hn _ m1)]
      obtain ⟨d', he, ho, hj⟩ := ih (k + 1) d3 (fun c hc => hf c (by simp [hc])) (by
        intro j hj
        rw [hother, hp j (by omega)]
        intro e he h
        have := (name_inj m1 he h).1
        omega)
      refine ⟨d', ?_, ?_, ?_⟩
      · unfold generate; rw [e1]; exact he
      · intro n hn
        rw [ho n (fun j e h1 h2 h3 => hn j e (by omega) (by simp; omega) h3), hother n]
        intro e h3
        exact hn k e (Nat.le_refl k) (by simp) h3
      · intro j x g hx hg
        cases j with
        | zero =>
          simp only [List.getElem?_cons_zero, Option.some.injEq] at hx
          subst hx
          rw [hc] at hg; cases hg
          have hk : ∀ e0 ∈ exts, ∀ (j : Nat) (e : Text), k + 1 ≤ j → j < k + 1 + cs.length → e ∈ exts →
              scan k ++ e0 ≠ scan j ++ e := by
            intro e0 h0 j e hj _ h3 h
            have := (name_inj h0 h3 h).1
            omega
          rw [Nat.add_zero, ho _ (hk _ m3), ho _ (hk _ m1), ho _ (hk _ m2)]
          refine ⟨look_put_self _ _ _, ?_, ?_⟩
          · rw [look_put_ne (fun h => n13 (name_inj m1 m3 h).2), look_put_ne (fun h => n12 (name_inj m1 m2 h).2),
              look_put_self]
          · rw [look_put_ne (fun h => n23 (name_inj m2 m3 h).2), look_put_self, app_S, conj_S]
            rfl
        | succ j =>
          have := hj j x g (by simpa using hx) hg
          rw [show k + 1 + j = k + (j + 1) by omega] at this
          exact this

/-- **C153** In a directory without links of scans, and with all clouds attached to frames, `generate` succeeds and writes
for the k-th cloud the link, its id, and its pose in the coordinates of slam6d; other files are left alone. -/
theorem C153_generate (euler : M3 → V3) (T : Nat → Pose) {cs : List Cloud} {d : Dir} (hf : ∀ c ∈ cs, c.frame ≠ none)
    (hp : ∀ j, look (scan j ++ ".ply".toList) d = none) :
    ∃ d', generate euler T 0 cs d = .ok d' ∧
      (∀ n, (∀ j e, j < cs.length → e ∈ exts → n ≠ scan j ++ e) → look n d' = look n d) ∧
      ∀ (k : Nat) (c : Cloud) (f : Nat), cs[k]? = some c → c.frame = some f →
        look (scan k ++ ".id".toList) d' = some (.id (c.id ++ ['\n'])) ∧
        look (scan k ++ ".ply".toList) d' = some .link ∧
        look (scan k ++ ".pose".toList) d' = some (.pose (toSlam (T f)).pos (euler (toSlam (T f)).rot)) := by
  obtain ⟨d', h1, h2, h3⟩ := generate_spec euler T cs 0 d hf (fun j _ => hp j)
  refine ⟨d', h1, fun n hn => h2 n (fun j e _ hj he => hn j e (by omega) he), ?_⟩
  intro k c f hc hcf
  have := h3 k c f hc hcf
  rwa [Nat.zero_add] at this

/-- **C153** (refuted part) `generate` fails in a directory it has been used in before. -/
theorem C153_again (euler : M3 → V3) (T : Nat → Pose) (c : Cloud) (cs : List Cloud) {d : Dir}
    (h : (look (scan 0 ++ ".ply".toList) d).isSome = true) : generate euler T 0 (c :: cs) d = .throw := by
  unfold generate writeScan
  rw [if_pos h]; rfl

/-- **C153** (refuted part) `generate` crashes on a cloud without frame. -/
theorem C153_no_frame (euler : M3 → V3) (T : Nat → Pose) {c : Cloud} (hc : c.frame = none) (cs : List Cloud) :
    generate euler T 0 (c :: cs) [] = .crash := by
  unfold generate writeScan
  rw [if_neg (by simp [look]), hc]; rfl

/-! ### update -/

/-- what an entry of the directory is for: the frame of the cloud and its new pose -/
def target (find : Text → Option Cloud) (d : Dir) (junk : Nat → Rat) (k : Nat) : Option (Nat × Pose) :=
  match find (idOf d k) with
  | none => none
  | some c => c.frame.map fun f => (f, back (parts (readFrames junk (linesOf d k))))

theorem updateOne_some {find : Text → Option Cloud} {d : Dir} {junk : Nat → Rat} {path : Text} {T : Nat → Pose} {k : Nat}
    {x : Nat × Pose} (hs : search path = some k) (ht : target find d junk k = some x) :
    updateOne find d junk path T = .ok (fun g => if g = x.1 then x.2 else T g) := by
  unfold updateOne
  rw [hs]
  dsimp only
  unfold target at ht
  split at ht
  · cases ht
  · rename_i c hc
    rw [hc]
    dsimp only
    cases hf : c.frame with
    | none => rw [hf] at ht; cases ht
    | some f => rw [hf] at ht; cases ht; rfl

theorem update_spec {find : Text → Option Cloud} {d : Dir} {junk : Nat → Rat} : ∀ (ps : List Text) (T : Nat → Pose),
    (∀ p ∈ ps, ∀ k, search p = some k → ∃ x, target find d junk k = some x) →
    (∀ p ∈ ps, ∀ p' ∈ ps, ∀ k k' x x', search p = some k → search p' = some k' → target find d junk k = some x →
      target find d junk k' = some x' → x.1 = x'.1 → k = k') →
    ∃ T', update find d junk ps T = .ok T' ∧
      (∀ p ∈ ps, ∀ k x, search p = some k → target find d junk k = some x → T' x.1 = x.2) ∧
      ∀ g, (∀ p ∈ ps, ∀ k x, search p = some k → target find d junk k = some x → x.1 ≠ g) → T' g = T g := by
  intro ps
  induction ps with
  | nil => intro T _ _; exact ⟨T, rfl, fun p hp => by simp at hp, fun _ _ => rfl⟩
  | cons p ps ih =>
    intro T h1 h2
    have ih' := fun T => ih T (fun q hq => h1 q (by simp [hq])) (fun q hq q' hq' => h2 q (by simp [hq]) q' (by simp [hq']))
    cases hs : search p with
    | none =>
      obtain ⟨T', e, a, b⟩ := ih' T
      refine ⟨T', ?_, ?_, ?_⟩
      · unfold update updateOne; rw [hs]; exact e
      · intro q hq k x hk hx
        rcases List.mem_cons.1 hq with rfl | hq
        · rw [hs] at hk; cases hk
        · exact a q hq k x hk hx
      · intro g hg
        exact b g (fun q hq => hg q (by simp [hq]))
    | some k =>
      obtain ⟨x, hx⟩ := h1 p (by simp) k hs
      obtain ⟨T', e, a, b⟩ := ih' (fun g => if g = x.1 then x.2 else T g)
      refine ⟨T', ?_, ?_, ?_⟩
      · unfold update; rw [updateOne_some hs hx]; exact e
      · intro q hq k' x' hk' hx'
        by_cases hin : ∃ q' ∈ ps, search q' = some k'
        · obtain ⟨q', hq', hs'⟩ := hin
          exact a q' hq' k' x' hs' hx'
        · rcases List.mem_cons.1 hq with rfl | hq
          · rw [hs] at hk'; cases hk'
            rw [hx] at hx'; cases hx'
            rw [b x.1]
            · simp
            · intro q' hq' k2 x2 hk2 hx2 h
              have := h2 q' (by simp [hq']) q (by simp) k2 k x2 x hk2 hs hx2 hx h
              subst this
              exact hin ⟨q', hq', hk2⟩
          · exact absurd ⟨q, hq, hk'⟩ hin
      · intro g hg
        rw [b g (fun q hq => hg q (by simp [hq])), if_neg]
        exact fun h => hg p (by simp) k x hs hx h.symm

theorem firstWord_id {id : Text} (h : ∀ c ∈ id, isBlank c = false) : firstWord (id ++ ['\n']) = id := by
  unfold firstWord
  have h1 : (id ++ ['\n']).dropWhile isBlank = id ++ ['\n'] ∨ id = [] := by
    cases id with
    | nil => exact Or.inr rfl
    | cons c t => left; rw [List.cons_append, List.dropWhile_cons_of_neg (by simp [h c (by simp)])]
  rcases h1 with h1 | h1
  · rw [h1]
    clear h1
    induction id with
    | nil => rfl
    | cons c t ih =>
      rw [List.cons_append, List.takeWhile_cons_of_pos (by simp [h c (by simp)]), ih (fun d hd => h d (by simp [hd]))]
  · subst h1; rfl

/-- the state of the exchange when `update` is called: `d` is what lies in the directory, `names` is the order in which its
files are listed -/
structure Exchange (find : Text → Option Cloud) (cs : List Cloud) (d : Dir) (names : List Text) : Prop where
  /-- each cloud has a frame of its own -/
  frame : ∀ c ∈ cs, c.frame ≠ none
  apart : ∀ (i j : Nat) (c c' : Cloud), cs[i]? = some c → cs[j]? = some c' → c.frame = c'.frame → i = j
  /-- the clouds are still in the environment, under ids without blanks -/
  found : ∀ c ∈ cs, find c.id = some c ∧ ∀ x ∈ c.id, isBlank x = false
  /-- the id files are as `generate` has written them -/
  ids : ∀ (k : Nat) (c : Cloud), cs[k]? = some c → look (scan k ++ ".id".toList) d = some (.id (c.id ++ ['\n']))
  /-- there are only files of the scans -/
  names : ∀ n ∈ names, ∃ k e, k < cs.length ∧ e ∈ exts ∧ n = scan k ++ e

/-- **C153** (partial: at most the first thousand scans are read back) `update` succeeds. For a scan with a frames file whose
last line is the pose `p` in the coordinates of slam6d, the frame of the cloud afterwards has the pose `p`; all other frames
keep theirs. The order in which the files are listed does not matter. -/
theorem C153_update_partial {find : Text → Option Cloud} {cs : List Cloud} {d : Dir} {names : List Text} {dir : Text}
    (h : Exchange find cs d names) (hdir : search dir = none) (junk : Nat → Rat) (T : Nat → Pose) :
    ∃ T', update find d junk (names.map (fun n => dir ++ '/' :: n)) T = .ok T' ∧
      (∀ (k : Nat) (c : Cloud) (f : Nat) (pre : List (List (Option Rat))) (p : Pose), k < 1000 → cs[k]? = some c → c.frame = some f → scan k ++ ".frames".toList ∈ names →
        look (scan k ++ ".frames".toList) d = some (.frames (pre ++ [lineOf (toSlam p)])) → T' f = p) ∧
      ∀ g, (∀ (k : Nat) (c : Cloud), k < 1000 → cs[k]? = some c → c.frame = some g → scan k ++ ".frames".toList ∉ names) → T' g = T g := by
  have hfr : ".frames".toList ∈ exts := by decide
  have hsearch : ∀ q ∈ names.map (fun n => dir ++ '/' :: n), ∀ k, search q = some k →
      k < 1000 ∧ k < cs.length ∧ scan k ++ ".frames".toList ∈ names := by
    intro q hq k hk
    obtain ⟨n, hn, rfl⟩ := List.mem_map.1 hq
    obtain ⟨j, e, hj, he, rfl⟩ := h.names n hn
    rw [search_path hdir, search_name he] at hk
    split at hk
    · next hc => cases hk; rw [hc.2] at hn; exact ⟨hc.1, hj, hn⟩
    · cases hk
  have htarget : ∀ (k : Nat) (c : Cloud) (f : Nat), cs[k]? = some c → c.frame = some f → target find d junk k = some (f, back (parts (readFrames junk (linesOf d k)))) := by
    intro k c f hc hf
    unfold target
    have hm := List.mem_of_getElem? hc
    have hid : idOf d k = c.id := by
      unfold idOf
      rw [h.ids k c hc]
      exact firstWord_id (h.found c hm).2
    rw [hid, (h.found c hm).1]
    dsimp only
    rw [hf]; rfl
  have hget : ∀ k, k < cs.length → ∃ c f, cs[k]? = some c ∧ c.frame = some f := by
    intro k hk
    have hm : cs[k] ∈ cs := List.getElem_mem hk
    cases hf : cs[k].frame with
    | none => exact absurd hf (h.frame _ hm)
    | some f => exact ⟨cs[k], f, List.getElem?_eq_getElem hk, hf⟩
  obtain ⟨T', e, a, b⟩ := update_spec (find := find) (d := d) (junk := junk) (names.map (fun n => dir ++ '/' :: n)) T
    (by
      intro q hq k hk
      obtain ⟨c, f, hc, hf⟩ := hget k (hsearch q hq k hk).2.1
      exact ⟨_, htarget k c f hc hf⟩)
    (by
      intro q hq q' hq' k k' x x' hk hk' hx hx' hxx
      obtain ⟨c, f, hc, hf⟩ := hget k (hsearch q hq k hk).2.1
      obtain ⟨c', f', hc', hf'⟩ := hget k' (hsearch q' hq' k' hk').2.1
      rw [htarget k c f hc hf] at hx; cases hx
      rw [htarget k' c' f' hc' hf'] at hx'; cases hx'
      dsimp only at hxx
      subst hxx
      exact h.apart k k' c c' hc hc' (hf.trans hf'.symm))
  refine ⟨T', e, ?_, ?_⟩
  · intro k c f pre p hk hc hf hn hl
    have := a (dir ++ '/' :: (scan k ++ ".frames".toList)) (List.mem_map.2 ⟨_, hn, rfl⟩) k _
      (by rw [search_path hdir, search_name hfr, if_pos ⟨hk, rfl⟩]) (htarget k c f hc hf)
    dsimp only at this
    have hlines : linesOf d k = pre ++ [lineOf (toSlam p)] := by unfold linesOf; rw [hl]
    rw [this, hlines, readFrames_last, back_toSlam]
  · intro g hg
    apply b g
    intro q hq k x hk hx hxg
    obtain ⟨h1, h2, h3⟩ := hsearch q hq k hk
    obtain ⟨c, f, hc, hf⟩ := hget k h2
    rw [htarget k c f hc hf] at hx; cases hx
    dsimp only at hxg
    subst hxg
    exact hg k c h1 hc hf h3

/-- **C153** (refuted part) The result for the thousandth scan and those after it is never read: its frames file does not
match, and the frame keeps its old pose. -/
theorem C153_thousand {find : Text → Option Cloud} {cs : List Cloud} {d : Dir} {names : List Text} {dir : Text}
    (h : Exchange find cs d names) (hdir : search dir = none) (junk : Nat → Rat) {T T' : Nat → Pose}
    (hu : update find d junk (names.map (fun n => dir ++ '/' :: n)) T = .ok T') {k : Nat} {c : Cloud} {f : Nat}
    (hk : 1000 ≤ k) (hc : cs[k]? = some c) (hf : c.frame = some f) : T' f = T f := by
  obtain ⟨T1, e, _, b⟩ := C153_update_partial h hdir junk T
  rw [hu] at e; cases e
  apply b f
  intro j c' hj hc' hf'
  have := h.apart j k c' c hc' hc (hf'.trans hf.symm)
  omega

/-- **C153** Poses that slam6d does not change come back as they were. -/
theorem C153_unchanged {find : Text → Option Cloud} {cs : List Cloud} {d : Dir} {names : List Text} {dir : Text}
    (h : Exchange find cs d names) (hdir : search dir = none) (junk : Nat → Rat) (T : Nat → Pose)
    (hsame : ∀ (k : Nat) (c : Cloud) (f : Nat), cs[k]? = some c → c.frame = some f → scan k ++ ".frames".toList ∈ names →
      ∃ pre, look (scan k ++ ".frames".toList) d = some (.frames (pre ++ [lineOf (toSlam (T f))]))) :
    update find d junk (names.map (fun n => dir ++ '/' :: n)) T = .ok T := by
  obtain ⟨T', e, a, b⟩ := C153_update_partial h hdir junk T
  rw [e]
  congr 1
  funext g
  by_cases hg : ∃ k c, k < 1000 ∧ cs[k]? = some c ∧ c.frame = some g ∧ scan k ++ ".frames".toList ∈ names
  · obtain ⟨k, c, hk, hc, hf, hn⟩ := hg
    obtain ⟨pre, hl⟩ := hsame k c g hc hf hn
    exact a k c g pre (T g) hk hc hf hn hl
  · exact b g (fun k c hk hc hf hn => hg ⟨k, c, hk, hc, hf, hn⟩)

/-- **C153** The coordinates are changed one to one. -/
theorem C153_coordinates (p : Pose) : back (toSlam p) = p ∧ toSlam (back p) = p := ⟨back_toSlam p, toSlam_back p⟩

/-! two clouds; slam6d moves the second one -/

def cloudA : Cloud := ⟨"/1".toList, some 1⟩
def cloudB : Cloud := ⟨"/2".toList, some 2⟩
def unit3 : M3 := fun i j => if i = j then 1 else 0
def startPoses : Nat → Pose := fun _ => ⟨unit3, fun _ => 0⟩
def moved : Pose := ⟨unit3, fun i => 5 + i.val⟩
def findAB (id : Text) : Option Cloud := if id = cloudA.id then some cloudA else if id = cloudB.id then some cloudB else none
def dirAB : Dir :=
  [("scan001.frames".toList, .frames [[], lineOf (toSlam moved)]), ("scan000.id".toList, .id "/1\n".toList),
   ("scan001.id".toList, .id "/2\n".toList)]

def Out.ok? {α : Type} : Out α → Option α
  | .ok a => some a
  | _ => none

example : ((update findAB dirAB (fun _ => 7) ["/data/scan001.frames".toList, "/data/scan000.id".toList] startPoses).ok?.map
    fun T => ((T 2).pos 0, (T 2).pos 1, (T 2).pos 2, (T 1).pos 0, (T 2).rot 1 1)) = some (5, 6, 7, 0, 1) := by decide +kernel
example : ((generate (fun _ _ => 0) startPoses 0 [cloudA, cloudB] []).ok?.map fun d => d.map (fun e => String.ofList e.1)) =
    some ["scan001.id", "scan001.pose", "scan001.ply", "scan000.id", "scan000.pose", "scan000.ply"] := by decide +kernel
example : search "/data/scan1000.frames".toList = none ∧ search "/data/scan999.frames".toList = some 999 := by
  decide +kernel

example : Exchange findAB [cloudA, cloudB] dirAB ["scan001.frames".toList, "scan000.id".toList] where
  frame := by intro c hc; simp at hc; rcases hc with rfl | rfl <;> simp [cloudA, cloudB]
  apart := by
    intro i j c c' hi hj h
    match i, j with
    | 0, 0 => rfl
    | 1, 1 => rfl
    | 0, 1 => simp at hi hj; subst hi; subst hj; simp [cloudA, cloudB] at h
    | 1, 0 => simp at hi hj; subst hi; subst hj; simp [cloudA, cloudB] at h
    | i + 2, _ => simp at hi
    | _, j + 2 => simp at hj
  found := by
    intro c hc
    simp at hc
    rcases hc with rfl | rfl
    · exact ⟨rfl, by decide⟩
    · exact ⟨rfl, by decide⟩
  ids := by
    intro k c hk
    match k with
    | 0 => simp at hk; subst hk; rfl
    | 1 => simp at hk; subst hk; rfl
    | k + 2 => simp at hk
  names := by
    intro n hn
    simp only [List.mem_cons, List.not_mem_nil, or_false] at hn
    rcases hn with rfl | rfl
    · exact ⟨1, ".frames".toList, by decide, by decide, rfl⟩
    · exact ⟨0, ".id".toList, by decide, by decide, rfl⟩

#print axioms C153_generate
#print axioms C153_again
#print axioms C153_no_frame
#print axioms C153_update_partial
#print axioms C153_thousand
#print axioms C153_unchanged
#print axioms C153_coordinates

end Slam
end Envire
