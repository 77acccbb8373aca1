import Verif.Viz.GridViewModel
import Verif.Grid.GridProps
import Mathlib.Tactic.Positivity
import Mathlib.Tactic.NormNum

/-!
C168: the pictures of traversability grids. C169: the pictures of grids and images.
-/
namespace Envire.GridView

theorem toByte_ok {q : ℚ} (h0 : 0 ≤ q) (h1 : q < 256) : toByte q = .ok ⌊q⌋.toNat := by
  unfold toByte
  rw [if_pos h0]
  have h2 : 0 ≤ ⌊q⌋ := Int.floor_nonneg.2 h0
  have h3 : ⌊q⌋ < 256 := by rw [Int.floor_lt]; exact_mod_cast h1
  exact if_pos ⟨h2, by omega⟩

theorem toByte_nat {n : Nat} (h : n ≤ 255) : toByte n = .ok n := by
  rw [toByte_ok (by positivity) (by exact_mod_cast Nat.lt_succ_of_le h)]
  simp

theorem toByte_undefined {q : ℚ} (h : q ≤ -1) : toByte q = .undefined := by
  have h0 : ¬ 0 ≤ q := by linarith
  have : ⌈q⌉ ≤ -1 := by rw [Int.ceil_le]; exact_mod_cast h
  unfold toByte
  rw [if_neg h0]
  exact if_neg (by omega)

theorem toByte_cases (q : ℚ) : (∃ n, n ≤ 255 ∧ toByte q = .ok n) ∨ toByte q = .undefined := by
  unfold toByte
  generalize (if 0 ≤ q then ⌊q⌋ else ⌈q⌉ : Int) = t
  dsimp only
  by_cases h : 0 ≤ t ∧ t ≤ 255
  · exact .inl ⟨t.toNat, by omega, if_pos h⟩
  · exact .inr (if_neg h)

theorem floor_toNat {q : ℚ} (h0 : 0 ≤ q) : ((⌊q⌋.toNat : Nat) : ℚ) ≤ q ∧ q < (⌊q⌋.toNat : Nat) + 1 := by
  have h : ((⌊q⌋.toNat : Nat) : Int) = ⌊q⌋ := Int.toNat_of_nonneg (Int.floor_nonneg.2 h0)
  have h' : ((⌊q⌋.toNat : Nat) : ℚ) = (⌊q⌋ : ℚ) := by exact_mod_cast congrArg (Int.cast (R := ℚ)) h
  rw [h']
  exact ⟨Int.floor_le q, Int.lt_floor_add_one q⟩

/-- a channel that is on shows the value, a channel that is off nothing -/
def shade (c : ℚ) (v : Nat) : Nat := if c = 1 then v else 0

theorem toByte_shade {c : ℚ} (hc : c = 0 ∨ c = 1) {v : Nat} (hv : v ≤ 255) : toByte (c * v) = .ok (shade c v) := by
  rcases hc with rfl | rfl
  · simp [shade, toByte]
  · rw [one_mul, toByte_nat hv]
    simp [shade]

/-- all channels are on or off -/
def Pure (c : ℚ × ℚ × ℚ) : Prop := (c.1 = 0 ∨ c.1 = 1) ∧ (c.2.1 = 0 ∨ c.2.1 = 1) ∧ (c.2.2 = 0 ∨ c.2.2 = 1)

theorem colourFor_mem (cycle : Bool) (id : Nat) : colourFor cycle id ∈ colours := by
  unfold colourFor
  cases cycle with
  | false => exact (by decide : colours.getD 0 (0, 0, 0) ∈ colours)
  | true =>
    have h : id % 6 < 6 := Nat.mod_lt _ (by decide)
    generalize id % 6 = k at h
    have : ∀ k < 6, colours.getD (k + 1) (0, 0, 0) ∈ colours := by decide
    exact this k h

theorem colourFor_pure (cycle : Bool) (id : Nat) : Pure (colourFor cycle id) := by
  have : ∀ c ∈ colours, (c.1 = 0 ∨ c.1 = 1) ∧ (c.2.1 = 0 ∨ c.2.1 = 1) ∧ (c.2.2 = 0 ∨ c.2.2 = 1) := by decide
  exact this _ (colourFor_mem cycle id)

/-- the pixel of a value -/
def pixel (scale : ℚ) (c : ℚ × ℚ × ℚ) (a : Nat) (d : ℚ) : Rgba :=
  (shade c.1 ⌊d * scale⌋.toNat, shade c.2.1 ⌊d * scale⌋.toNat, shade c.2.2 ⌊d * scale⌋.toNat, a)

theorem byte_le {q : ℚ} (h0 : 0 ≤ q) (h1 : q < 256) : ⌊q⌋.toNat ≤ 255 := by
  have h3 : ⌊q⌋ < 256 := by rw [Int.floor_lt]; exact_mod_cast h1
  omega

theorem copy_step {s : ℚ} {c : ℚ × ℚ × ℚ} (hc : Pure c) {hide : Bool} {behind : Option ℚ} {d : ℚ} {rest : List ℚ} (h0 : 0 ≤ d * s) (h1 : d * s < 256)
    {a : Nat} (ha : alpha hide behind ⌊d * s⌋.toNat rest = .ok a) {l : List Rgba} (hl : copyGridData s c hide behind rest = .ok l) :
    copyGridData s c hide behind (d :: rest) = .ok (pixel s c a d :: l) := by
  have hb := byte_le h0 h1
  rw [copyGridData, toByte_ok h0 h1]
  simp only [Out.bind, toByte_shade hc.1 hb, toByte_shade hc.2.1 hb, toByte_shade hc.2.2 hb, ha, hl, pixel]

theorem copy_shown {s : ℚ} {c : ℚ × ℚ × ℚ} (hc : Pure c) {behind : Option ℚ} {data : List ℚ} (h : ∀ d ∈ data, 0 ≤ d * s ∧ d * s < 256) :
    copyGridData s c false behind data = .ok (data.map (pixel s c 255)) := by
  induction data with
  | nil => rfl
  | cons d rest ih =>
    have h' := h d (by simp)
    exact copy_step hc h'.1 h'.2 rfl (ih fun e he => h e (by simp [he]))

theorem copy_undefined {s : ℚ} {c : ℚ × ℚ × ℚ} {hide : Bool} {behind : Option ℚ} {data : List ℚ} {d : ℚ} (hd : d ∈ data) (h : toByte (d * s) = .undefined)
    : copyGridData s c hide behind data = .undefined := by
  induction data with
  | nil => cases hd
  | cons e rest ih =>
    rw [copyGridData]
    rcases toByte_cases (e * s) with ⟨v, hv, he⟩ | he
    · rw [he]
      have hr : copyGridData s c hide behind rest = .undefined := by
        rcases List.mem_cons.1 hd with h' | h'
        · rw [h', he] at h; cases h
        · exact ih h'
      rw [hr]
      have ha : (∃ a, alpha hide behind v rest = .ok a) ∨ alpha hide behind v rest = .undefined := by
        unfold alpha
        cases hide with
        | false => exact .inl ⟨_, rfl⟩
        | true =>
          cases (rest.head?).or behind with
          | none => exact .inr rfl
          | some n =>
            by_cases hn : n = 0
            · exact .inl ⟨0, by simp [hn]⟩
            · rcases toByte_cases (128 + v / 2) with ⟨w, _, hw⟩ | hw
              · exact .inl ⟨w, by simp [hn, hw]⟩
              · exact .inr (by simp [hn, hw])
      rcases toByte_cases (c.1 * v) with ⟨r, _, hr⟩ | hr <;> rcases toByte_cases (c.2.1 * v) with ⟨g, _, hg⟩ | hg <;>
        rcases toByte_cases (c.2.2 * v) with ⟨b, _, hb⟩ | hb <;> rcases ha with ⟨a, ha⟩ | ha <;> simp [Out.bind, hr, hg, hb, ha]
    · rw [he]; rfl

theorem foldl_max {l : List ℚ} : ∀ {m M : ℚ}, (∀ v ∈ l, v ≤ M) → m ≤ M → (m = M ∨ M ∈ l) → l.foldl (fun m v => if v > m then v else m) m = M := by
  induction l with
  | nil => intro m M _ _ h; simpa using h
  | cons v l ih =>
    intro m M h1 h2 h3
    rw [List.foldl_cons]
    have hv := h1 v (by simp)
    refine ih (fun w hw => h1 w (by simp [hw])) ?_ ?_
    · split <;> assumption
    · rcases h3 with h3 | h3
      · subst h3
        left
        exact if_neg (not_lt.2 hv)
      · rcases List.mem_cons.1 h3 with rfl | h3
        · left
          split
          · rfl
          · rename_i h; exact le_antisymm h2 (not_lt.1 h)
        · exact .inr h3

/-- **C169** (partial) With the empty cells shown, the picture of a grid of numbers has a pixel for each cell; its brightness is 255
times the value of the cell divided by the largest value, rounded down, on the channels of the colour of the grid, and it is
opaque. So a cell with the largest value has brightness 255, a cell with the value 0 is black.
Missing: negative values (C169_negative_deviation), grids without positive values (C169_zero_deviation), hidden empty cells
(C169_hidden_deviation, C169_next_cell_deviation). -/
theorem C169_shown_partial {tiny M : ℚ} (ht : 0 < tiny) {data : List ℚ} (hM : M ∈ data) (hd : ∀ d ∈ data, 0 ≤ d ∧ d ≤ M) (hm : tiny ≤ M)
    (hs : 255 / M ≤ floatMax) (cycle : Bool) (id : Nat) :
    ∃ l, drawGrid tiny (colourFor cycle id) true data = .ok l ∧ l.length = data.length ∧
      ∀ (i : Nat) d, data[i]? = some d → ∃ v : Nat, (v : ℚ) ≤ 255 * d / M ∧ 255 * d / M < v + 1 ∧ v ≤ 255 ∧
        l[i]? = some (shade (colourFor cycle id).1 v, shade (colourFor cycle id).2.1 v, shade (colourFor cycle id).2.2 v, 255) := by
  have hM0 : 0 < M := lt_of_lt_of_le ht hm
  have hr : ∀ d ∈ data, 0 ≤ d * (255 / M) ∧ d * (255 / M) < 256 := by
    intro d h
    obtain ⟨h0, h1⟩ := hd d h
    refine ⟨by positivity, ?_⟩
    rw [mul_div_assoc', div_lt_iff₀ hM0]
    nlinarith
  refine ⟨data.map (pixel (255 / M) (colourFor cycle id) 255), ?_, by simp, ?_⟩
  · unfold drawGrid
    have hmv : maxValue tiny data = M := foldl_max (fun v hv => (hd v hv).2) hm (.inr hM)
    have : scaleFor (maxValue tiny data) = some (255 / M) := by rw [hmv]; exact if_pos hs
    rw [this]
    exact copy_shown (colourFor_pure cycle id) hr
  · intro i d hi
    obtain ⟨h0, h1⟩ := hr d (List.mem_of_getElem? hi)
    have he : 255 * d / M = d * (255 / M) := by ring
    refine ⟨⌊d * (255 / M)⌋.toNat, ?_, ?_, byte_le h0 h1, ?_⟩
    · rw [he]; exact (floor_toNat h0).1
    · rw [he]; exact (floor_toNat h0).2
    · rw [List.getElem?_map, hi]; rfl

/-- the smallest positive normal float -/
def floatMin : ℚ := 1 / 2 ^ 126

example : drawGrid floatMin (colourFor true 7) true [0, 1, 4, 2] = .ok [(0, 0, 0, 255), (0, 63, 0, 255), (0, 255, 0, 255), (0, 127, 0, 255)] := by decide +kernel

example : (4 : ℚ) ∈ [(0 : ℚ), 1, 4, 2] ∧ (∀ d ∈ [(0 : ℚ), 1, 4, 2], 0 ≤ d ∧ d ≤ 4) ∧ floatMin ≤ 4 ∧ 0 < floatMin ∧ 255 / (4 : ℚ) ≤ floatMax := by decide +kernel

/-- C169: grids of bytes show their values unchanged, on the channels of the colour of the grid. -/
theorem C169_bytes {data : List Nat} (h : ∀ n ∈ data, n ≤ 255) (cycle : Bool) (id : Nat) :
    drawBytes (colourFor cycle id) true data =
      .ok (data.map fun n => (shade (colourFor cycle id).1 n, shade (colourFor cycle id).2.1 n, shade (colourFor cycle id).2.2 n, 255)) := by
  unfold drawBytes
  have := copy_shown (s := 1) (behind := none) (colourFor_pure cycle id) (data := data.map fun n : Nat => (n : ℚ)) (by
    intro d hd
    obtain ⟨n, hn, rfl⟩ := List.mem_map.1 hd
    have := h n hn
    rw [mul_one]
    exact ⟨by positivity, by exact_mod_cast Nat.lt_succ_of_le this⟩)
  rw [show (!true) = false from rfl, this, List.map_map]
  congr 1
  refine List.map_congr_left fun n hn => ?_
  simp [pixel]

example : drawBytes (colourFor true 1) true [0, 200, 255] = .ok [(0, 0, 0, 255), (0, 200, 0, 255), (0, 255, 0, 255)] := by decide +kernel

/-- C169: when the colours cycle, the colour of a grid is never black, and grids whose ids differ by less than six have different
colours. -/
theorem C169_cycle (a b : Nat) : (1 ∈ [(colourFor true a).1, (colourFor true a).2.1, (colourFor true a).2.2]) ∧
    (a < b → b < a + 6 → colourFor true a ≠ colourFor true b) := by
  have ha : a % 6 < 6 := Nat.mod_lt _ (by decide)
  have hb : b % 6 < 6 := Nat.mod_lt _ (by decide)
  have h1 : ∀ k < 6, 1 ∈ [(colours.getD (k + 1) (0, 0, 0)).1, (colours.getD (k + 1) (0, 0, 0)).2.1, (colours.getD (k + 1) (0, 0, 0)).2.2] := by decide
  have h2 : ∀ k < 6, ∀ j < 6, colours.getD (k + 1) (0, 0, 0) = colours.getD (j + 1) (0, 0, 0) → k = j := by decide
  refine ⟨h1 _ ha, fun h h' he => ?_⟩
  have := h2 _ ha _ hb he
  omega

/-- C169: the picture of an image has in each pixel the red, green and blue of the cell. -/
theorem C169_image {r g b : List Nat} (hg : g.length = r.length) (hb : b.length = r.length) :
    (drawImage r g b).length = r.length ∧
      ∀ (i : Nat) x y z, r[i]? = some x → g[i]? = some y → b[i]? = some z → (drawImage r g b)[i]? = some (x, y, z) := by
  refine ⟨by simp [drawImage, hg, hb], fun i x y z h1 h2 h3 => ?_⟩
  simp [drawImage, List.getElem?_zipWith, List.zip, h1, h2, h3]

example : drawImage [1, 2] [3, 4] [5, 6] = [(1, 3, 5), (2, 4, 6)] := by decide

/-- Violation: with the default setting (empty cells hidden) the transparency of each cell is taken from the next cell, and for the last cell
memory behind the end of the array is read: drawing any grid that has cells is undefined. -/
theorem C169_hidden_deviation (tiny : ℚ) (c : ℚ × ℚ × ℚ) {data : List ℚ} (hd : data ≠ []) : drawGrid tiny c false data = .undefined := by
  have key : ∀ (s : ℚ) (rest : List ℚ) (d : ℚ), copyGridData s c true none (d :: rest) = .undefined := by
    intro s rest
    induction rest with
    | nil =>
      intro d
      rw [copyGridData]
      rcases toByte_cases (d * s) with ⟨v, _, hv⟩ | hv
      · rw [hv]
        rcases toByte_cases (c.1 * v) with ⟨r, _, hr⟩ | hr <;> rcases toByte_cases (c.2.1 * v) with ⟨g, _, hg⟩ | hg <;>
          rcases toByte_cases (c.2.2 * v) with ⟨b, _, hb⟩ | hb <;> simp [Out.bind, hr, hg, hb, alpha]
      · rw [hv]; rfl
    | cons e rest ih =>
      intro d
      rw [copyGridData, ih e]
      rcases toByte_cases (d * s) with ⟨v, _, hv⟩ | hv
      · rw [hv]
        have ha : (∃ a, alpha true none v (e :: rest) = .ok a) ∨ alpha true none v (e :: rest) = .undefined := by
          by_cases hn : e = 0
          · exact .inl ⟨0, by simp [alpha, hn]⟩
          · rcases toByte_cases (128 + v / 2) with ⟨w, _, hw⟩ | hw
            · exact .inl ⟨w, by simp [alpha, hn, hw]⟩
            · exact .inr (by simp [alpha, hn, hw])
        rcases toByte_cases (c.1 * v) with ⟨r, _, hr⟩ | hr <;> rcases toByte_cases (c.2.1 * v) with ⟨g, _, hg⟩ | hg <;>
          rcases toByte_cases (c.2.2 * v) with ⟨b, _, hb⟩ | hb <;> rcases ha with ⟨a, ha⟩ | ha <;> simp [Out.bind, hr, hg, hb, ha]
      · rw [hv]; rfl
  unfold drawGrid
  cases scaleFor (maxValue tiny data) with
  | none => exact if_neg hd
  | some s =>
    cases data with
    | nil => exact absurd rfl hd
    | cons d rest => exact key s rest d

example : drawGrid floatMin (1, 1, 1) false [1, 2] = .undefined := C169_hidden_deviation _ _ (by decide)

/-- Violation: if the memory behind the array can be read and has the value `b`, a cell is invisible exactly if the *next* cell is empty,
whatever its own value is. -/
theorem C169_next_cell_deviation {s b : ℚ} {c : ℚ × ℚ × ℚ} (hc : Pure c) {data : List ℚ} (h : ∀ d ∈ data, 0 ≤ d * s ∧ d * s < 256) :
    ∃ l, copyGridData s c true (some b) data = .ok l ∧ l.length = data.length ∧
      ∀ (i : Nat) p n, l[i]? = some p → (data ++ [b])[i + 1]? = some n → (p.2.2.2 = 0 ↔ n = 0) := by
  induction data with
  | nil => exact ⟨[], rfl, rfl, fun i p n hp => by simp at hp⟩
  | cons d rest ih =>
    obtain ⟨l, h1, h2, h3⟩ := ih fun e he => h e (by simp [he])
    obtain ⟨h4, h5⟩ := h d (by simp)
    have ha : ∃ a n, alpha true (some b) ⌊d * s⌋.toNat rest = .ok a ∧ (rest ++ [b])[0]? = some n ∧ (a = 0 ↔ n = 0) := by
      have hn : ∃ n, (rest.head?).or (some b) = some n ∧ (rest ++ [b])[0]? = some n := by
        cases rest with
        | nil => exact ⟨b, rfl, rfl⟩
        | cons e _ => exact ⟨e, rfl, rfl⟩
      obtain ⟨n, hn, hn'⟩ := hn
      unfold alpha
      rw [if_pos rfl, hn]
      by_cases h0 : n = 0
      · exact ⟨0, n, by simp [h0], hn', by simp [h0]⟩
      · have hb := byte_le h4 h5
        have hb' : ((⌊d * s⌋.toNat : Nat) : ℚ) ≤ 255 := by exact_mod_cast hb
        have hq : (0 : ℚ) ≤ 128 + (⌊d * s⌋.toNat : Nat) / 2 := by positivity
        refine ⟨_, n, by dsimp only; rw [if_neg h0, toByte_ok hq (by linarith)], hn', ?_⟩
        have hf : (128 : Int) ≤ ⌊(128 : ℚ) + (⌊d * s⌋.toNat : Nat) / 2⌋ := by
          rw [Int.le_floor]
          have : (0 : ℚ) ≤ (⌊d * s⌋.toNat : Nat) / 2 := by positivity
          push_cast
          linarith
        exact ⟨fun h => by omega, fun h => absurd h h0⟩
    obtain ⟨a, n, ha, hn, han⟩ := ha
    refine ⟨_, copy_step hc h4 h5 ha h1, by simp [h2], fun i p m hp hm => ?_⟩
    cases i with
    | zero =>
      have hp' : pixel s c a d = p := by simpa using hp
      subst hp'
      have hm' : (rest ++ [b])[0]? = some m := by simpa using hm
      rw [hn] at hm'
      cases hm'
      exact han
    | succ i =>
      exact h3 i p m (by simpa using hp) (by simpa using hm)

/-- the empty first cell is seen, the full second cell is not -/
example : copyGridData 50 (1, 1, 1) true (some 1) [0, 5, 0] = .ok [(0, 0, 0, 128), (250, 250, 250, 0), (0, 0, 0, 128)] ∧ Pure (1, 1, 1) ∧
    ∀ d ∈ [(0 : ℚ), 5, 0], 0 ≤ d * 50 ∧ d * 50 < 256 := by
  refine ⟨by decide +kernel, ⟨.inr rfl, .inr rfl, .inr rfl⟩, by decide +kernel⟩

/-- Violation: a grid whose cells are all zero cannot be drawn, since 255 is divided by the smallest positive number. -/
theorem C169_zero_deviation {tiny : ℚ} (h : floatMax < 255 / tiny) (ht : 0 < tiny) (c : ℚ × ℚ × ℚ) (b : Bool) (n : Nat) :
    drawGrid tiny c b (List.replicate (n + 1) 0) = .undefined := by
  have hm : maxValue tiny (List.replicate (n + 1) 0) = tiny := by
    refine foldl_max (fun v hv => ?_) le_rfl (.inl rfl)
    rw [List.eq_of_mem_replicate hv]
    exact ht.le
  unfold drawGrid
  rw [hm, scaleFor, if_neg (not_le.2 h)]
  rfl

example : floatMax < 255 / floatMin ∧ 0 < floatMin := by decide +kernel

/-- Violation: a grid with a value that is at least 1/255 of the largest value below zero cannot be drawn. -/
theorem C169_negative_deviation {tiny M d : ℚ} (ht : 0 < tiny) {data : List ℚ} (hM : M ∈ data) (hmax : ∀ v ∈ data, v ≤ M) (hm : tiny ≤ M)
    (hd : d ∈ data) (hneg : 255 * d ≤ -M) (c : ℚ × ℚ × ℚ) (b : Bool) : drawGrid tiny c b data = .undefined := by
  have hM0 : 0 < M := lt_of_lt_of_le ht hm
  have hmv : maxValue tiny data = M := foldl_max hmax hm (.inr hM)
  unfold drawGrid
  rw [hmv]
  unfold scaleFor
  by_cases hs : 255 / M ≤ floatMax
  · rw [if_pos hs]
    refine copy_undefined hd (toByte_undefined ?_)
    rw [mul_div_assoc', div_le_iff₀ hM0]
    linarith
  · rw [if_neg hs]
    cases data with
    | nil => cases hM
    | cons _ _ => rfl

example : drawGrid floatMin (1, 1, 1) true [-3, 5, 2] = .undefined :=
  C169_negative_deviation (M := 5) (d := -3) (by decide +kernel) (by decide) (by decide +kernel) (by decide +kernel) (by decide) (by decide +kernel) _ _

/-- C168, C169: the pixel that is seen at a point of the plane of a grid is that of the cell that contains the point; outside of the grid nothing is seen. -/
theorem C168_place_partial {conv : Int → Nat} (hc : Grid.ConvOk conv) {g : Grid.GridBase ℚ} (hg : Grid.Ok g) {x y : ℚ} (hn : Grid.Near g x y) :
    seenPixel g.nx g.ny (rect g) x y = (g.toGrid conv x y).map fun r => (r.1, r.2.1) := by
  have hin := Grid.C30_toGrid_iff_inside_partial hc hg hn
  unfold seenPixel rect
  dsimp only
  cases ht : g.toGrid conv x y with
  | none =>
    rw [ht] at hin
    rw [if_neg]
    · rfl
    · rintro ⟨h1, h2, h3, h4⟩
      exact absurd (hin.2 ⟨h1, by linarith, h3, by linarith⟩) (by simp)
  | some r =>
    rw [ht] at hin
    obtain ⟨h1, h2, h3, h4⟩ := hin.1 rfl
    rw [if_pos ⟨h1, by linarith, h3, by linarith⟩]
    obtain ⟨hr, hx, hy⟩ := Grid.toGrid_eq ht
    have ax := (Grid.axis hc hg.sx hg.nx hn.xlo hn.xhi).2 hx
    have ay := (Grid.axis hc hg.sy hg.ny hn.ylo hn.yhi).2 hy
    have key : ∀ (n k : Nat) (s o t : ℚ), 0 < s → k < n → (k : ℚ) * s ≤ t - o → t - o < ((k : ℚ) + 1) * s → ⌊(t - o) / (n * s + o - o) * n⌋.toNat = k := by
      intro n k s o t hs hk h1 h2
      have hn0 : (0 : ℚ) < n := by exact_mod_cast Nat.lt_of_le_of_lt (Nat.zero_le _) hk
      have he : (t - o) / (n * s + o - o) * n = (t - o) / s := by
        rw [add_sub_cancel_right]
        field_simp
      rw [he]
      have : ⌊(t - o) / s⌋ = (k : Int) := by
        rw [Int.floor_eq_iff]
        refine ⟨?_, ?_⟩
        · rw [le_div_iff₀ hs]; exact_mod_cast h1
        · rw [div_lt_iff₀ hs]; exact_mod_cast h2
      rw [this]
      rfl
    rw [hr]
    simp only [Option.map_some, Option.some.injEq, Prod.mk.injEq]
    exact ⟨key _ _ _ _ _ hg.sx hx ax.1 ax.2, key _ _ _ _ _ hg.sy hy ay.1 ay.2⟩

example : seenPixel 4 3 (rect ⟨4, 3, 1 / 2, 1, 10, -1⟩) 11 (1 / 2) = some (2, 1) := by decide +kernel

theorem row_ok {f : Nat → Out Rgb} {p : Nat → Rgb} : ∀ {n x : Nat}, (∀ k < n, f (x + k) = .ok (p (x + k))) →
    rowPixels f x n = .ok ((List.range n).map fun k => p (x + k)) := by
  intro n
  induction n with
  | zero => intro x _; rfl
  | succ n ih =>
    intro x h
    have h0 := h 0 (Nat.succ_pos n)
    have ih' := ih (x := x + 1) fun k hk => by
      have := h (k + 1) (Nat.succ_lt_succ hk)
      rwa [show x + (k + 1) = x + 1 + k by omega] at this
    rw [rowPixels]
    rw [show x + 0 = x from rfl] at h0
    simp only [h0, Out.bind, ih', List.range_succ_eq_map, List.map_cons, List.map_map]
    congr 2
    refine List.map_congr_left fun k _ => ?_
    show p (x + 1 + k) = p (x + (k + 1))
    congr 1
    omega

theorem image_ok {f : Nat → Nat → Out Rgb} {p : Nat → Nat → Rgb} {w : Nat} : ∀ {n y : Nat}, (∀ k < n, ∀ x < w, f x (y + k) = .ok (p x (y + k))) →
    ∃ l, imagePixels f w y n = .ok l ∧ l.length = n * w ∧ ∀ k < n, ∀ x < w, l[k * w + x]? = some (p x (y + k)) := by
  intro n
  induction n with
  | zero => intro y _; exact ⟨[], rfl, by simp, fun k hk => absurd hk (Nat.not_lt_zero k)⟩
  | succ n ih =>
    intro y h
    obtain ⟨l, h1, h2, h3⟩ := ih (y := y + 1) fun k hk x hx => by
      have := h (k + 1) (Nat.succ_lt_succ hk) x hx
      rwa [show y + (k + 1) = y + 1 + k by omega] at this
    have hr := row_ok (f := fun x => f x y) (p := fun x => p x y) (n := w) (x := 0) fun k hk => by
      rw [Nat.zero_add]
      exact h 0 (Nat.succ_pos n) k hk
    rw [imagePixels]
    simp only [hr, h1, Out.bind]
    refine ⟨_, rfl, by simp [h2, Nat.succ_mul, Nat.add_comm], fun k hk x hx => ?_⟩
    cases k with
    | zero =>
      rw [Nat.zero_mul, Nat.zero_add, List.getElem?_append_left (by simpa using hx)]
      simp [hx]
    | succ k =>
      rw [List.getElem?_append_right (by simp [Nat.succ_mul]; omega)]
      have hi : (k + 1) * w + x - ((List.range w).map fun j => p (0 + j) y).length = k * w + x := by
        simp [Nat.succ_mul]
        omega
      rw [hi, h3 k (Nat.lt_of_succ_lt_succ hk) x hx, show y + 1 + k = y + (k + 1) by omega]

/-- specification: the colour of a cell: blue for cells that are unknown, red for obstacles, otherwise from red to green with the
drivability of the class -/
def Colour (t : Trav.Table) (prob value : Nat) (c : Rgb) : Prop :=
  if prob = 0 ∨ value = 0 then c = (0, 0, 255)
  else if value = 1 then c = (255, 0, 0)
  else ∃ k, t[value]? = some k ∧ c.2.2 = 0 ∧
    (c.1 : ℚ) ≤ max 0 (255 - 255 * k.getDrivability) ∧ 255 - 255 * k.getDrivability < c.1 + 1 ∧
    (c.2.1 : ℚ) ≤ 255 * k.getDrivability ∧ 255 * k.getDrivability < c.2.1 + 1

/-- a class that can be made: TraversabilityClass() or TraversabilityClass( d ) -/
def Made (k : Trav.Class) : Prop := k = Trav.Class.empty ∨ ∃ d, Trav.Class.make d = .ok k

theorem made_range {k : Trav.Class} (h : Made k) : 0 ≤ k.getDrivability ∧ k.getDrivability < 1000001 / 1000000 := by
  rcases h with rfl | ⟨d, h⟩
  · decide +kernel
  · unfold Trav.Class.make at h
    split at h
    · cases h
    · rename_i hd
      cases h
      rw [not_or, not_lt, ge_iff_le, not_le] at hd
      unfold Trav.Class.getDrivability
      dsimp only
      rw [if_neg (not_lt.2 hd.1)]
      exact hd

theorem colour_unknown (t : Trav.Table) {prob value : Nat} (h : prob = 0 ∨ value = 0) : Colour t prob value (0, 0, 255) := by
  unfold Colour
  rw [if_pos h]

theorem colour_obstacle (t : Trav.Table) {prob value : Nat} (h : ¬ (prob = 0 ∨ value = 0)) (h1 : value = 1) : Colour t prob value (255, 0, 0) := by
  unfold Colour
  rw [if_neg h, if_pos h1]

theorem colour_class {t : Trav.Table} {prob value : Nat} (h : ¬ (prob = 0 ∨ value = 0)) (h1 : ¬ value = 1) {k : Trav.Class} (hk : t[value]? = some k)
    {r g : Nat} (hr : (r : ℚ) ≤ max 0 (255 - 255 * k.getDrivability)) (hr' : 255 - 255 * k.getDrivability < r + 1)
    (hg : (g : ℚ) ≤ 255 * k.getDrivability) (hg' : 255 * k.getDrivability < g + 1) : Colour t prob value (r, g, 0) := by
  unfold Colour
  rw [if_neg h, if_neg h1]
  exact ⟨k, hk, rfl, hr, hr', hg, hg'⟩

theorem colour_ok {t : Trav.Table} (ht : ∀ k ∈ t, Made k) {x y prob value : Nat} (hx : x < 1600) (hy : y < 1600)
    (hv : prob ≠ 0 → value < t.length ∨ value ≤ 1) : ∃ c, colorForCoordinate t x y prob value = .ok c ∧ Colour t prob value c := by
  unfold colorForCoordinate
  rw [if_neg (not_not.2 ⟨hx, hy⟩)]
  by_cases hp : prob = 0
  · subst hp
    rw [if_pos (by decide +kernel)]
    exact ⟨_, rfl, colour_unknown t (.inl rfl)⟩
  · have h1 : ¬ Trav.loadProb prob < 1 / 1000 := by
      unfold Trav.loadProb
      rw [not_lt, le_div_iff₀ (by norm_num)]
      have : (1 : ℚ) ≤ prob := by exact_mod_cast Nat.one_le_iff_ne_zero.2 hp
      linarith
    rw [if_neg h1]
    by_cases h0 : value = 0
    · rw [if_pos h0]
      exact ⟨_, rfl, colour_unknown t (.inr h0)⟩
    · rw [if_neg h0]
      by_cases h2 : value = 1
      · rw [if_pos h2]
        exact ⟨_, rfl, colour_obstacle t (not_or.2 ⟨hp, h0⟩) h2⟩
      · rw [if_neg h2]
        have hl : value < t.length := (hv hp).resolve_right (by omega)
        have hk : t[value]? = some t[value] := List.getElem?_eq_getElem hl
        obtain ⟨ha, hb⟩ := made_range (ht _ (List.getElem_mem hl))
        have hg : Trav.getClass t value = .ok t[value] := by unfold Trav.getClass; rw [hk]
        rw [hg]
        dsimp only
        generalize t[value] = k at *
        rcases le_or_gt (255 - 255 * k.getDrivability) (-1) with h3 | h3
        · exfalso; linarith
        · have hr : ∃ r : Nat, toByte (255 - 255 * k.getDrivability) = .ok r ∧ (r : ℚ) ≤ max 0 (255 - 255 * k.getDrivability) ∧
              255 - 255 * k.getDrivability < r + 1 := by
            rcases le_or_gt 0 (255 - 255 * k.getDrivability) with h4 | h4
            · have := floor_toNat h4
              exact ⟨_, toByte_ok h4 (by linarith), le_max_of_le_right this.1, this.2⟩
            · refine ⟨0, ?_, by simp, by push_cast; linarith⟩
              unfold toByte
              rw [if_neg (not_le.2 h4)]
              have : ⌈255 - 255 * k.getDrivability⌉ = 0 := by
                rw [Int.ceil_eq_iff]
                exact ⟨by push_cast; linarith, by push_cast; linarith⟩
              rw [this]
              decide
          obtain ⟨r, hr1, hr2, hr3⟩ := hr
          have h5 : 0 ≤ 255 * k.getDrivability := by linarith
          have h6 := floor_toNat h5
          rw [hr1, toByte_ok h5 (by linarith)]
          exact ⟨_, rfl, colour_class (not_or.2 ⟨hp, h0⟩) h2 hk hr2 hr3 h6.1 h6.2⟩

/-- **C168** (partial) The picture of a traversability grid has a pixel for each cell, row by row, in the colour of its class.
Missing: grids with more than 1600 columns or rows (C168_large_deviation), cells whose class is not in the table
(C168_legacy_deviation); the class with the number 1 is always shown as an obstacle (C168_first_class_deviation). -/
theorem C168_colours_partial {t : Trav.Table} (ht : ∀ k ∈ t, Made k) {w h : Nat} (hw : w ≤ 1600) (hh : h ≤ 1600) {prob value : Nat → Nat → Nat}
    (hv : ∀ x < w, ∀ y < h, prob x y ≠ 0 → value x y < t.length ∨ value x y ≤ 1) :
    ∃ l, drawTraversability t w h prob value = .ok l ∧ l.length = h * w ∧
      ∀ x < w, ∀ y < h, ∃ c, l[y * w + x]? = some c ∧ Colour t (prob x y) (value x y) c := by
  classical
  let p : Nat → Nat → Rgb := fun x y =>
    if hxy : x < w ∧ y < h then Classical.choose (colour_ok ht (x := x) (y := y) (by omega) (by omega) (hv x hxy.1 y hxy.2)) else (0, 0, 0)
  have hp : ∀ x < w, ∀ y < h, colorForCoordinate t x y (prob x y) (value x y) = .ok (p x y) ∧ Colour t (prob x y) (value x y) (p x y) := by
    intro x hx y hy
    have hxy : x < w ∧ y < h := ⟨hx, hy⟩
    simp only [p, dif_pos hxy]
    exact Classical.choose_spec (colour_ok ht (x := x) (y := y) (by omega) (by omega) (hv x hxy.1 y hxy.2))
  obtain ⟨l, h1, h2, h3⟩ := image_ok (f := fun x y => colorForCoordinate t x y (prob x y) (value x y)) (p := p) (w := w) (n := h) (y := 0) fun k hk x hx => by
    rw [Nat.zero_add]
    exact (hp x hx k hk).1
  refine ⟨l, h1, h2, fun x hx y hy => ⟨p x y, ?_, (hp x hx y hy).2⟩⟩
  have := h3 y hy x hx
  rwa [Nat.zero_add] at this

example : drawTraversability [⟨-1⟩, ⟨0⟩, ⟨1 / 2⟩, ⟨1⟩] 2 2 (fun x y => if x = 1 ∧ y = 1 then 0 else 9) (fun x y => 1 + x + y) =
    .ok [(255, 0, 0), (127, 127, 0), (127, 127, 0), (0, 0, 255)] := by decide +kernel

example : ∀ k ∈ ([⟨-1⟩, ⟨0⟩, ⟨1 / 2⟩, ⟨1⟩] : Trav.Table), Made k := by
  intro k hk
  simp only [List.mem_cons, List.not_mem_nil, or_false] at hk
  rcases hk with rfl | rfl | rfl | rfl
  · exact .inl rfl
  · exact .inr ⟨0, by decide +kernel⟩
  · exact .inr ⟨1 / 2, by decide +kernel⟩
  · exact .inr ⟨1, by decide +kernel⟩

theorem row_stops {f : Nat → Out Rgb} {o : Out (List Rgb)} (ho : o = .aborts ∨ o = .undefined) : ∀ {n x j : Nat}, j < n →
    (∀ k < j, ∃ c, f (x + k) = .ok c) → (f (x + j)).bind (fun _ => o) = o → (∀ c, f (x + j) ≠ .ok c) → rowPixels f x n = o := by
  intro n
  induction n with
  | zero => intro x j hj; exact absurd hj (Nat.not_lt_zero j)
  | succ n ih =>
    intro x j hj h1 h2 h3
    rw [rowPixels]
    cases j with
    | zero =>
      rw [Nat.add_zero] at h2 h3
      cases hf : f x with
      | ok c => exact absurd hf (h3 c)
      | aborts => rw [hf] at h2; exact h2
      | undefined => rw [hf] at h2; exact h2
    | succ j =>
      obtain ⟨c, hc⟩ := h1 0 (Nat.succ_pos j)
      rw [Nat.add_zero] at hc
      rw [hc]
      have := ih (x := x + 1) (j := j) (Nat.lt_of_succ_lt_succ hj)
        (fun k hk => by rw [show x + 1 + k = x + (k + 1) by omega]; exact h1 (k + 1) (Nat.succ_lt_succ hk))
        (by rw [show x + 1 + j = x + (j + 1) by omega]; exact h2)
        (by rw [show x + 1 + j = x + (j + 1) by omega]; exact h3)
      show (rowPixels f (x + 1) n).bind _ = o
      rw [this]
      rcases ho with rfl | rfl <;> rfl

/-- Violation: a grid with more than 1600 columns cannot be drawn, an assertion fails. -/
theorem C168_large_deviation {t : Trav.Table} (ht : ∀ k ∈ t, Made k) {w h : Nat} (hw : 1600 < w) (hh : 0 < h) {prob value : Nat → Nat → Nat}
    (hv : ∀ x < w, ∀ y < h, prob x y ≠ 0 → value x y < t.length ∨ value x y ≤ 1) : drawTraversability t w h prob value = .aborts := by
  unfold drawTraversability
  obtain ⟨n, rfl⟩ : ∃ n, h = n + 1 := ⟨h - 1, by omega⟩
  rw [imagePixels]
  have : rowPixels (fun x => colorForCoordinate t x 0 (prob x 0) (value x 0)) 0 w = .aborts := by
    refine row_stops (.inl rfl) (j := 1600) hw (fun k hk => ?_) ?_ ?_
    · rw [Nat.zero_add]
      obtain ⟨c, hc, _⟩ := colour_ok ht (x := k) (y := 0) hk (by decide) (hv k (by omega) 0 hh)
      exact ⟨c, hc⟩
    · rw [Nat.zero_add]
      unfold colorForCoordinate
      rw [if_pos (by omega)]
      rfl
    · intro c
      rw [Nat.zero_add]
      unfold colorForCoordinate
      rw [if_pos (by omega)]
      exact fun h => by cases h
  rw [this]
  rfl

example : drawTraversability [] 1601 1 (fun _ _ => 0) (fun _ _ => 0) = .aborts :=
  C168_large_deviation (fun _ h => by cases h) (by decide) (by decide) (fun _ _ _ _ h => absurd rfl h)

/-- Violation: the gradient for old grids without a table of classes is never drawn as intended: the red part is negative for each of the
classes 2 to 12, so that its conversion is undefined. -/
theorem C168_legacy_deviation {t : Trav.Table} {x y prob value : Nat} (hx : x < 1600) (hy : y < 1600) (hp : prob ≠ 0) (h2 : 2 ≤ value) (h13 : value < 13)
    (ht : t.length ≤ value) : colorForCoordinate t x y prob value = .undefined := by
  have h1 : ¬ Trav.loadProb prob < 1 / 1000 := by
    unfold Trav.loadProb
    rw [not_lt, le_div_iff₀ (by norm_num)]
    have : (1 : ℚ) ≤ prob := by exact_mod_cast Nat.one_le_iff_ne_zero.2 hp
    linarith
  have hg : Trav.getClass t value = .throws := by
    unfold Trav.getClass
    rw [List.getElem?_eq_none ht]
  unfold colorForCoordinate
  rw [if_neg (not_not.2 ⟨hx, hy⟩), if_neg h1, if_neg (by omega), if_neg (by omega), hg]
  dsimp only
  rw [if_pos h13, toByte_undefined]
  · rfl
  · have : (2 : ℚ) ≤ value := by exact_mod_cast h2
    linarith

example : colorForCoordinate [] 0 0 255 5 = .undefined := C168_legacy_deviation (by decide) (by decide) (by decide) (by decide) (by decide) (by decide)

/-- Violation: the first class that is registered in an empty table gets the number 1, so its cells are shown as obstacles, even if it
has full drivability. -/
theorem C168_first_class_deviation : ∃ id t, Trav.register [] ⟨1⟩ = some (id, t) ∧ (∃ k, t[id]? = some k ∧ k.getDrivability = 1) ∧
    colorForCoordinate t 0 0 255 id = .ok (255, 0, 0) :=
  ⟨1, [⟨-1⟩, ⟨1⟩], by decide +kernel, ⟨⟨1⟩, by decide +kernel, by decide +kernel⟩, by decide +kernel⟩

#print axioms C168_place_partial
#print axioms C168_colours_partial
#print axioms C168_large_deviation
#print axioms C168_legacy_deviation
#print axioms C168_first_class_deviation
#print axioms C169_shown_partial
#print axioms C169_bytes
#print axioms C169_cycle
#print axioms C169_image
#print axioms C169_hidden_deviation
#print axioms C169_next_cell_deviation
#print axioms C169_zero_deviation
#print axioms C169_negative_deviation

end Envire.GridView
