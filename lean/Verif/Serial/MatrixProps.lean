import Verif.Serial.MatrixModel
/-! Property C25: transforms and covariances survive writing and reading. -/
namespace Envire.Serial

variable {α : Type}

/-- an element at place k of the stored sequence -/
theorem writeMat_get (n : Nat) (f : Nat → Nat → Node) :
    ((List.range n).flatMap fun i => (List.range n).map fun j => f i j).length = n * n ∧
    ∀ k (h : k < n * n) (h' : k < ((List.range n).flatMap fun i => (List.range n).map fun j => f i j).length),
      ((List.range n).flatMap fun i => (List.range n).map fun j => f i j)[k] = f (k / n) (k % n) := by
  have gen : ∀ m, ((List.range m).flatMap fun i => (List.range n).map fun j => f i j).length = m * n ∧
      ∀ k, k < m * n → ((List.range m).flatMap fun i => (List.range n).map fun j => f i j)[k]? = some (f (k / n) (k % n)) := by
    intro m
    induction m with
    | zero => exact ⟨by simp, fun k hk => by simp at hk⟩
    | succ m ih =>
      rw [List.range_succ, List.flatMap_append]
      refine ⟨by rw [List.length_append, ih.1]; simp [Nat.succ_mul], fun k hk => ?_⟩
      by_cases h : k < m * n
      · rw [List.getElem?_append_left (by rw [ih.1]; exact h)]; exact ih.2 k h
      · rw [List.getElem?_append_right (by rw [ih.1]; omega), ih.1]
        rw [Nat.succ_mul] at hk
        have hn : 0 < n := by omega
        have h1 : k - m * n < n := by omega
        have h2 : k / n = m := by
          rw [Nat.div_eq_iff hn]
          constructor <;> omega
        have h3 : k % n = k - m * n := by
          have h4 := Nat.div_add_mod k n
          rw [h2, Nat.mul_comm] at h4
          omega
        simp [h1, h2, h3]
  refine ⟨(gen n).1, fun k h h' => ?_⟩
  have := (gen n).2 k h
  rw [List.getElem?_eq_getElem h'] at this
  exact Option.some.inj this

/-- reading a sequence of printed numbers that fits -/
theorem readLoop_ok (c : Codec α) (hc : ∀ x, c.parse (c.print x) = some x) {n : Nat} (v : Nat → α) :
    ∀ (l : List Node) (i : Nat) (m : Mat α), (∀ k (h : k < l.length), l[k] = .scalar (c.print (v (i + k)))) → i + l.length ≤ n * n →
      ∃ m', readLoop c n l i m = .ok (i + l.length, m') ∧
        (∀ a b, a < n → b < n → m' a b = if i ≤ a * n + b ∧ a * n + b < i + l.length then v (a * n + b) else m a b) ∧
        (∀ a b, ¬ (a < n ∧ b < n) → m' a b = m a b) := by
  intro l
  induction l with
  | nil =>
    intro i m _ _
    refine ⟨m, rfl, fun a b _ _ => ?_, fun _ _ _ => rfl⟩
    rw [if_neg (by rw [List.length_nil]; omega)]
  | cons x l ih =>
    intro i m hl hlen
    rw [List.length_cons] at hlen
    have hi : i < n * n := by omega
    have hn : 0 < n := by
      rcases Nat.eq_zero_or_pos n with h | h
      · rw [h] at hi; simp at hi
      · exact h
    have hdiv : i / n < n := Nat.div_lt_of_lt_mul hi
    have hmod : i % n < n := Nat.mod_lt _ hn
    have hx : x = .scalar (c.print (v i)) := hl 0 (by simp)
    have hrest : ∀ k (h : k < l.length), l[k] = .scalar (c.print (v (i + 1 + k))) := by
      intro k h
      have := hl (k + 1) (by simp; omega)
      rw [List.getElem_cons_succ] at this
      rw [this, show i + (k + 1) = i + 1 + k by omega]
    obtain ⟨m', e, h1, h2⟩ := ih (i + 1) (m.set (i / n) (i % n) (v i)) hrest (by omega)
    refine ⟨m', ?_, ?_, ?_⟩
    · rw [hx]
      unfold readLoop
      rw [if_neg (by omega), hc]
      dsimp only
      rw [e, List.length_cons, show i + 1 + l.length = i + (l.length + 1) by omega]
    · intro a b ha hb
      rw [h1 a b ha hb, List.length_cons]
      have hidx : a * n + b = i ↔ a = i / n ∧ b = i % n := by
        constructor
        · intro h
          rw [← h]
          constructor
          · rw [Nat.mul_comm, Nat.mul_add_div hn, Nat.div_eq_of_lt hb, Nat.add_zero]
          · rw [Nat.mul_comm, Nat.mul_add_mod, Nat.mod_eq_of_lt hb]
        · rintro ⟨rfl, rfl⟩
          rw [Nat.mul_comm]; exact Nat.div_add_mod i n
      by_cases hi' : a * n + b = i
      · rw [if_neg (by omega), if_pos (by omega), hi']
        unfold Mat.set
        rw [if_pos (hidx.1 hi')]
      · have hset : m.set (i / n) (i % n) (v i) a b = m a b := by
          unfold Mat.set
          rw [if_neg (fun h => hi' (hidx.2 h))]
        rw [hset]
        by_cases hr : i + 1 ≤ a * n + b ∧ a * n + b < i + 1 + l.length
        · rw [if_pos hr, if_pos (by omega)]
        · rw [if_neg hr, if_neg (by omega)]
    · intro a b hab
      rw [h2 a b hab]
      unfold Mat.set
      rw [if_neg]
      rintro ⟨rfl, rfl⟩
      exact hab ⟨hdiv, hmod⟩

/-- the two matrices agree in the first n rows and columns -/
def Same (n : Nat) (m m' : Mat α) : Prop := ∀ a b, a < n → b < n → m a b = m' a b

theorem readMat_writeMat (c : Codec α) (hc : ∀ x, c.parse (c.print x) = some x) (n : Nat) (m m0 : Mat α) :
    ∃ m', readMat c n (some (writeMat c n m)) m0 = .ok m' ∧ Same n m' m := by
  obtain ⟨hlen, hget⟩ := writeMat_get n (fun i j => Node.scalar (c.print (m i j)))
  obtain ⟨m', e, h1, h2⟩ := readLoop_ok c hc (n := n) (fun k => m (k / n) (k % n)) _ 0 m0
    (fun k h => by rw [hget k (by rw [hlen] at h; exact h) h, Nat.zero_add]) (by rw [hlen]; omega)
  refine ⟨m', ?_, fun a b ha hb => ?_⟩
  · unfold readMat writeMat
    dsimp only
    rw [e, hlen]
    dsimp only
    rw [Nat.zero_add, if_neg (by simp)]
  · have hn : 0 < n := by omega
    have hlt : a * n + b < n * n := by
      have : a * n + n ≤ n * n := by
        rw [← Nat.succ_mul]; exact Nat.mul_le_mul_right n ha
      omega
    rw [h1 a b ha hb, hlen, if_pos (by omega)]
    congr 1
    · rw [Nat.mul_comm, Nat.mul_add_div hn, Nat.div_eq_of_lt hb, Nat.add_zero]
    · rw [Nat.mul_comm, Nat.mul_add_mod, Nat.mod_eq_of_lt hb]

/-- **C25** A 4 × 4 transform and a 6 × 6 covariance are read back element by element as they were written, in row major order, and
so is a frame node: transform, uncertainty flag and (if there is one) covariance. A stored sequence of numbers with too few
elements is rejected with an exception. -/
theorem C25_matrix_roundtrip (c : Codec α) (hc : ∀ x, c.parse (c.print x) = some x) :
    (∀ n (m m0 : Mat α), ∃ m', readMat c n (some (writeMat c n m)) m0 = .ok m' ∧ Same n m' m) ∧
    (∀ n (m : Mat α), ∃ l, writeMat c n m = .seq l ∧ l.length = n * n ∧
      ∀ i j (_ : i < n) (_ : j < n), l[n * i + j]? = some (.scalar (c.print (m i j)))) ∧
    (∀ n (l : List α) (m0 : Mat α), l.length < n * n → ∃ m', readMat c n (some (.seq (l.map fun x => .scalar (c.print x)))) m0 = .throw m') ∧
    (∀ (f g : Frame α) (t0 c0 : Mat α), g.uncertain = false → ∃ f', Frame.read c t0 c0 (f.write c) g = .ok f' ∧
      Same 4 f'.trans f.trans ∧ f'.uncertain = f.uncertain ∧ (f.uncertain = true → Same 6 f'.cov f.cov)) := by
  refine ⟨readMat_writeMat c hc, ?_, ?_, ?_⟩
  · intro n m
    obtain ⟨hlen, hget⟩ := writeMat_get n (fun i j => Node.scalar (c.print (m i j)))
    refine ⟨_, rfl, hlen, fun i j hi hj => ?_⟩
    have hn : 0 < n := by omega
    have hlt : n * i + j < n * n := by
      have : n * i + n ≤ n * n := by
        rw [← Nat.mul_succ]; exact Nat.mul_le_mul_left n hi
      omega
    rw [List.getElem?_eq_getElem (by rw [hlen]; exact hlt), hget _ hlt]
    congr 3
    congr 1
    · rw [Nat.mul_add_div hn, Nat.div_eq_of_lt hj, Nat.add_zero]
    · rw [Nat.mul_add_mod, Nat.mod_eq_of_lt hj]
  · intro n l m0 hlt
    rcases l with _ | ⟨x0, t⟩
    · refine ⟨m0, ?_⟩
      rw [List.length_nil] at hlt
      show (if 0 ≠ n * n then Out.throw m0 else Out.ok m0) = _
      rw [if_pos (by omega)]
    · obtain ⟨m', e, _, _⟩ := readLoop_ok c hc (n := n) (fun k => (x0 :: t).getD k x0) ((x0 :: t).map fun x => .scalar (c.print x)) 0 m0
        (fun k h => by
          rw [List.length_map] at h
          rw [List.getElem_map, Nat.zero_add, List.getD_eq_getElem?_getD, List.getElem?_eq_getElem h]; rfl)
        (by rw [List.length_map]; omega)
      refine ⟨m', ?_⟩
      unfold readMat
      dsimp only
      rw [e, List.length_map]
      dsimp only
      rw [if_pos (by omega)]
  · intro f g t0 c0 hg
    obtain ⟨t, e1, h1⟩ := readMat_writeMat c hc 4 f.trans t0
    obtain ⟨v, e2, h2⟩ := readMat_writeMat c hc 6 f.cov c0
    unfold Frame.read Frame.write
    dsimp only
    rw [e1]
    dsimp only
    cases hu : f.uncertain with
    | false => exact ⟨_, rfl, h1, hg, fun h => by cases h⟩
    | true =>
      rw [if_pos rfl]
      dsimp only
      rw [e2]
      exact ⟨_, rfl, h1, rfl, fun _ => h2⟩

/-- a codec for natural numbers, and a transform that is not symmetric -/
def natCodec : Codec Nat := ⟨fun n => List.replicate n '1', fun l => some l.length⟩

example : (∀ x, natCodec.parse (natCodec.print x) = some x) ∧
    (match readMat natCodec 4 (some (writeMat natCodec 4 (fun i j => 10 * i + j))) (fun _ _ => 99) with
      | .ok m => m 1 2 == 12 && m 3 0 == 30 && m 0 3 == 3 && m 4 0 == 99
      | _ => false) = true := ⟨fun x => by simp [natCodec], by decide +kernel⟩

/-- **C25, beyond the stated claim**: too few numbers are rejected, too many write outside of the matrix, and a file without
the key "transform" dereferences NULL -/
theorem C25_too_many_elements :
    readMat natCodec 4 (some (.seq (List.replicate 17 (.scalar [])))) (fun _ _ => 0) = .fault ∧
    Frame.read natCodec (fun _ _ => 0) (fun _ _ => 0) ⟨none, none⟩ ⟨fun _ _ => 0, fun _ _ => 0, false⟩ = .fault := ⟨rfl, rfl⟩

/-- reading into a frame node that already has a covariance keeps the old one when the file has none -/
theorem C25_stale_covariance :
    (match Frame.read natCodec (fun _ _ => 0) (fun _ _ => 0) (Frame.write natCodec ⟨fun _ _ => 1, fun _ _ => 0, false⟩) ⟨fun _ _ => 0, fun _ _ => 7, true⟩ with
      | .ok f => f.uncertain && f.cov 0 0 == 7
      | _ => false) = true := by decide +kernel

end Envire.Serial

#print axioms Envire.Serial.C25_matrix_roundtrip
#print axioms Envire.Serial.C25_too_many_elements
#print axioms Envire.Serial.C25_stale_covariance
