import Verif.Core.EnvModel
import Batteries.Data.List.Perm
/-! Helper lemmas about the association lists, `Res` and digits used by the environment model. -/
namespace Envire

/-! ### containers -/
section cont
variable {κ ν : Type}

theorem ins_perm [LT κ] [DecidableLT κ] (k : κ) (v : ν) (l : List (κ × ν)) :
    (ins k v l).Perm ((k, v) :: l) := by
  induction l with
  | nil => exact List.Perm.refl _
  | cons p t ih =>
    unfold ins
    split
    · exact List.Perm.refl _
    · exact (ih.cons p).trans (List.Perm.swap _ _ _)

@[simp] theorem mem_ins [LT κ] [DecidableLT κ] {k : κ} {v : ν} {l : List (κ × ν)} {x : κ × ν} :
    x ∈ ins k v l ↔ x = (k, v) ∨ x ∈ l := by
  rw [(ins_perm k v l).mem_iff]; simp

theorem keys_ins_perm [LT κ] [DecidableLT κ] (k : κ) (v : ν) (l : List (κ × ν)) :
    ((ins k v l).map (·.1)).Perm (k :: l.map (·.1)) := (ins_perm k v l).map _

theorem nodup_keys_ins [LT κ] [DecidableLT κ] {k : κ} {v : ν} {l : List (κ × ν)}
    (h : (l.map (·.1)).Nodup) (hk : k ∉ l.map (·.1)) : ((ins k v l).map (·.1)).Nodup := by
  rw [(keys_ins_perm k v l).nodup_iff]; exact List.nodup_cons.2 ⟨hk, h⟩

theorem look_some_mem [DecidableEq κ] {k : κ} {v : ν} {l : List (κ × ν)} (h : look k l = some v) :
    (k, v) ∈ l := by
  induction l with
  | nil => simp [look] at h
  | cons p t ih =>
    unfold look at h
    split at h
    · rename_i hp; cases h; subst hp; simp
    · exact List.mem_cons_of_mem _ (ih h)

theorem look_none_iff [DecidableEq κ] {k : κ} {l : List (κ × ν)} :
    look k l = none ↔ k ∉ l.map (·.1) := by
  induction l with
  | nil => simp [look]
  | cons p t ih =>
    unfold look
    split
    · rename_i h; subst h; simp
    · rename_i h
      rw [ih]; simp only [List.map_cons, List.mem_cons, not_or]
      exact ⟨fun h' => ⟨fun e => h e.symm, h'⟩, fun h' => h'.2⟩

theorem look_isSome_iff [DecidableEq κ] {k : κ} {l : List (κ × ν)} :
    (∃ v, look k l = some v) ↔ k ∈ l.map (·.1) := by
  constructor
  · rintro ⟨v, hv⟩; exact List.mem_map.2 ⟨_, look_some_mem hv, rfl⟩
  · intro h
    cases hl : look k l with
    | none => exact absurd h (look_none_iff.1 hl)
    | some v => exact ⟨v, rfl⟩

theorem look_eq_some_iff [DecidableEq κ] {k : κ} {v : ν} {l : List (κ × ν)}
    (hn : (l.map (·.1)).Nodup) : look k l = some v ↔ (k, v) ∈ l := by
  refine ⟨look_some_mem, ?_⟩
  induction l with
  | nil => simp
  | cons p t ih =>
    intro h
    rw [List.map_cons, List.nodup_cons] at hn
    unfold look
    rcases List.mem_cons.1 h with h | h
    · subst h; simp
    · split
      · rename_i hp
        exact absurd (List.mem_map.2 ⟨_, h, rfl⟩) (hp ▸ hn.1)
      · exact ih hn.2 h

@[simp] theorem mem_eraseKey [DecidableEq κ] {k : κ} {l : List (κ × ν)} {x : κ × ν} :
    x ∈ eraseKey k l ↔ x ∈ l ∧ x.1 ≠ k := by
  simp [eraseKey]

theorem eraseKey_sublist [DecidableEq κ] (k : κ) (l : List (κ × ν)) : (eraseKey k l).Sublist l :=
  List.filter_sublist

theorem nodup_keys_sublist {l l' : List (κ × ν)} (hs : l'.Sublist l) (h : (l.map (·.1)).Nodup) :
    (l'.map (·.1)).Nodup := h.sublist (hs.map _)

theorem not_mem_keys_eraseKey [DecidableEq κ] (k : κ) (l : List (κ × ν)) :
    k ∉ (eraseKey k l).map (·.1) := by
  simp only [List.mem_map, not_exists, not_and]
  intro x hx h
  exact (mem_eraseKey.1 hx).2 h

theorem mem_keys_eraseKey [DecidableEq κ] {k k' : κ} {l : List (κ × ν)} (h : k' ≠ k) :
    k' ∈ (eraseKey k l).map (·.1) ↔ k' ∈ l.map (·.1) := by
  simp only [List.mem_map, mem_eraseKey]
  constructor
  · rintro ⟨x, ⟨hx, _⟩, e⟩; exact ⟨x, hx, e⟩
  · rintro ⟨x, hx, e⟩; exact ⟨x, ⟨hx, e ▸ h⟩, e⟩

theorem look_ins_self [LT κ] [DecidableLT κ] [DecidableEq κ] {k : κ} {v : ν} {l : List (κ × ν)}
    (hn : (l.map (·.1)).Nodup) (hk : k ∉ l.map (·.1)) : look k (ins k v l) = some v := by
  rw [look_eq_some_iff (nodup_keys_ins hn hk)]; simp

theorem look_ins_ne [LT κ] [DecidableLT κ] [DecidableEq κ] {k k' : κ} {v : ν} {l : List (κ × ν)}
    (h : k' ≠ k) : look k' (ins k v l) = look k' l := by
  induction l with
  | nil => simp [ins, look, h.symm]
  | cons p t ih =>
    unfold ins
    split
    · show (if k = k' then some v else look k' (p :: t)) = _
      rw [if_neg (fun e => h e.symm)]
    · show (if p.1 = k' then some p.2 else look k' (ins k v t)) = (if p.1 = k' then some p.2 else look k' t)
      rw [ih]

theorem look_eraseKey_ne [DecidableEq κ] {k k' : κ} {l : List (κ × ν)} (h : k' ≠ k) :
    look k' (eraseKey k l) = look k' l := by
  induction l with
  | nil => rfl
  | cons p t ih =>
    unfold eraseKey at *
    by_cases hp : p.1 = k
    · have : (decide (p.1 ≠ k)) = false := by simp [hp]
      rw [List.filter_cons_of_neg (by simp [hp]), ih]
      show _ = (if p.1 = k' then some p.2 else look k' t)
      rw [if_neg (by rw [hp]; exact fun e => h e.symm)]
    · rw [List.filter_cons_of_pos (by simp [hp])]
      show (if p.1 = k' then some p.2 else _) = (if p.1 = k' then some p.2 else _)
      rw [ih]

theorem look_eraseKey_self [DecidableEq κ] (k : κ) (l : List (κ × ν)) : look k (eraseKey k l) = none :=
  look_none_iff.2 (not_mem_keys_eraseKey k l)

theorem eraseKey_of_not_mem [DecidableEq κ] {k : κ} {l : List (κ × ν)} (h : k ∉ l.map (·.1)) :
    eraseKey k l = l := by
  unfold eraseKey
  rw [List.filter_eq_self]
  intro x hx
  simp only [decide_eq_true_eq]
  rintro rfl
  exact h (List.mem_map.2 ⟨x, hx, rfl⟩)

theorem keys_unique {l : List (κ × ν)} (hn : (l.map (·.1)).Nodup) {k : κ} {v w : ν}
    (h1 : (k, v) ∈ l) (h2 : (k, w) ∈ l) : v = w := by
  induction l with
  | nil => cases h1
  | cons p t ih =>
    rw [List.map_cons, List.nodup_cons] at hn
    rcases List.mem_cons.1 h1 with h1 | h1 <;> rcases List.mem_cons.1 h2 with h2 | h2
    · rw [← h1] at h2; exact (Prod.mk.inj h2).2.symm
    · exact absurd (List.mem_map.2 ⟨_, h2, rfl⟩) (by rw [← h1] at hn; exact hn.1)
    · exact absurd (List.mem_map.2 ⟨_, h1, rfl⟩) (by rw [← h2] at hn; exact hn.1)
    · exact ih hn.2 h1 h2

end cont

/-- keys in non-decreasing order -/
def KeySorted (l : List (Obj × Obj)) : Prop := l.Pairwise (fun a b => a.1 ≤ b.1)

theorem KeySorted.sublist {l l' : List (Obj × Obj)} (h : KeySorted l) (hs : l'.Sublist l) : KeySorted l' :=
  List.Pairwise.sublist hs h

theorem keySorted_ins {k v : Obj} {l : List (Obj × Obj)} (h : KeySorted l) : KeySorted (ins k v l) := by
  induction l with
  | nil => simp [ins, KeySorted]
  | cons p t ih =>
    unfold KeySorted at *
    rw [List.pairwise_cons] at h
    unfold ins
    split
    · rename_i hk
      refine List.pairwise_cons.2 ⟨?_, List.pairwise_cons.2 h⟩
      intro x hx
      rcases List.mem_cons.1 hx with rfl | hx
      · exact Nat.le_of_lt hk
      · exact Nat.le_trans (Nat.le_of_lt hk) (h.1 x hx)
    · rename_i hk
      refine List.pairwise_cons.2 ⟨?_, ih h.2⟩
      intro x hx
      rcases mem_ins.1 hx with rfl | hx
      · exact Nat.le_of_not_lt hk
      · exact h.1 x hx

/-- the new entry is the last one among the entries with its key -/
theorem filter_key_ins_self {k v : Obj} {l : List (Obj × Obj)} (h : KeySorted l) :
    (ins k v l).filter (fun e => decide (e.1 = k)) = l.filter (fun e => decide (e.1 = k)) ++ [(k, v)] := by
  induction l with
  | nil => simp [ins]
  | cons p t ih =>
    unfold KeySorted at *
    rw [List.pairwise_cons] at h
    unfold ins
    split
    · rename_i hk
      have : (p :: t).filter (fun e => decide (e.1 = k)) = [] := by
        rw [List.filter_eq_nil_iff]
        intro x hx
        simp only [decide_eq_true_eq]
        rcases List.mem_cons.1 hx with rfl | hx
        · exact fun e => absurd (e ▸ hk) (Nat.lt_irrefl _)
        · exact fun e => absurd (Nat.lt_of_lt_of_le hk (h.1 x hx)) (e ▸ Nat.lt_irrefl _)
      rw [this]
      rw [List.filter_cons_of_pos (by simp), this]; rfl
    · rw [List.filter_cons, List.filter_cons, ih h.2]
      split <;> simp

theorem filter_key_ins_ne {k v k' : Obj} {l : List (Obj × Obj)} (hk : k ≠ k') :
    (ins k v l).filter (fun e => decide (e.1 = k')) = l.filter (fun e => decide (e.1 = k')) := by
  induction l with
  | nil => simp [ins, hk]
  | cons p t ih =>
    unfold ins
    split
    · rw [List.filter_cons_of_neg (by simpa using hk)]
    · rw [List.filter_cons, List.filter_cons, ih]

theorem filter_val_ins_ne {k v v' : Obj} {l : List (Obj × Obj)} (hv : v ≠ v') :
    (ins k v l).filter (fun e => decide (e.2 = v')) = l.filter (fun e => decide (e.2 = v')) := by
  induction l with
  | nil => simp [ins, hv]
  | cons p t ih =>
    unfold ins
    split
    · rw [List.filter_cons_of_neg (by simpa using hv)]
    · rw [List.filter_cons, List.filter_cons, ih]

/-! ### Res -/

/-- `P` holds in the state after a normal return or an exception -/
def Res.All {σ : Type} (P : σ → Prop) : Res σ → Prop
  | .ok s => P s
  | .throw s => P s
  | .fault _ => True

/-- `P` holds in the state after a normal return -/
def Res.Ok {σ : Type} (P : σ → Prop) : Res σ → Prop
  | .ok s => P s
  | _ => True

@[simp] theorem Res.all_ok {σ : Type} {P : σ → Prop} {s : σ} : Res.All P (.ok s) ↔ P s := Iff.rfl
@[simp] theorem Res.all_throw {σ : Type} {P : σ → Prop} {s : σ} : Res.All P (.throw s) ↔ P s := Iff.rfl
@[simp] theorem Res.all_fault {σ : Type} {P : σ → Prop} {f : Fault} : Res.All P (.fault f) ↔ True := Iff.rfl
@[simp] theorem Res.Ok_ok {σ : Type} {P : σ → Prop} {s : σ} : Res.Ok P (.ok s) ↔ P s := Iff.rfl
@[simp] theorem Res.Ok_throw {σ : Type} {P : σ → Prop} {s : σ} : Res.Ok P (.throw s) ↔ True := Iff.rfl
@[simp] theorem Res.Ok_fault {σ : Type} {P : σ → Prop} {f : Fault} : Res.Ok P (.fault f) ↔ True := Iff.rfl

@[simp] theorem Res.ok_bind {σ : Type} (s : σ) (f : σ → Res σ) : (Res.ok s).bind f = f s := rfl
@[simp] theorem Res.throw_bind {σ : Type} (s : σ) (f : σ → Res σ) : (Res.throw s).bind f = .throw s := rfl
@[simp] theorem Res.fault_bind {σ : Type} (e : Fault) (f : σ → Res σ) : (Res.fault e).bind f = .fault e := rfl

theorem Res.All.bind {σ : Type} {P Q : σ → Prop} {r : Res σ} {f : σ → Res σ} (h : r.All P)
    (hf : ∀ s, P s → (f s).All Q) (ht : ∀ s, P s → Q s) : (r.bind f).All Q := by
  cases r with
  | ok s => exact hf s h
  | throw s => exact ht s h
  | fault => trivial

theorem Res.All.bind' {σ : Type} {P : σ → Prop} {r : Res σ} {f : σ → Res σ} (h : r.All P)
    (hf : ∀ s, P s → (f s).All P) : (r.bind f).All P := h.bind hf (fun _ h => h)

theorem Res.Ok.bind {σ : Type} {P Q : σ → Prop} {r : Res σ} {f : σ → Res σ} (h : r.Ok P)
    (hf : ∀ s, P s → (f s).Ok Q) : (r.bind f).Ok Q := by
  cases r with
  | ok s => exact hf s h
  | throw s => trivial
  | fault => trivial

theorem Res.All.mono {σ : Type} {P Q : σ → Prop} {r : Res σ} (h : r.All P) (hpq : ∀ s, P s → Q s) :
    r.All Q := by
  cases r <;> simp_all

theorem Res.All.toOk {σ : Type} {P : σ → Prop} {r : Res σ} (h : r.All P) : r.Ok P := by
  cases r <;> simp_all

theorem Res.Ok.mono {σ : Type} {P Q : σ → Prop} {r : Res σ} (h : r.Ok P) (hpq : ∀ s, P s → Q s) :
    r.Ok Q := by
  cases r <;> simp_all

/-- combine a fact about all outcomes with one about normal returns -/
theorem Res.All.bind2 {σ : Type} {P Q R : σ → Prop} {r : Res σ} {f : σ → Res σ} (h : r.All P) (h' : r.Ok R)
    (hf : ∀ s, P s → R s → (f s).All Q) (ht : ∀ s, P s → Q s) : (r.bind f).All Q := by
  cases r with
  | ok s => exact hf s h h'
  | throw s => exact ht s h
  | fault => trivial

theorem Res.All.and {σ : Type} {P Q : σ → Prop} {r : Res σ} (h : r.All P) (h' : r.All Q) :
    r.All (fun s => P s ∧ Q s) := by
  cases r <;> simp_all

theorem Res.Ok.and {σ : Type} {P Q : σ → Prop} {r : Res σ} (h : r.Ok P) (h' : r.Ok Q) :
    r.Ok (fun s => P s ∧ Q s) := by
  cases r <;> simp_all

theorem foldRes_all {σ α : Type} {f : σ → α → Res σ} {P : σ → Prop} (l : List α)
    (hf : ∀ s x, x ∈ l → P s → (f s x).All P) (s : σ) (h : P s) : (foldRes f l s).All P := by
  induction l generalizing s with
  | nil => exact h
  | cons x xs ih =>
    unfold foldRes
    exact (hf s x (by simp) h).bind' (fun s' h' => ih (fun s y hy => hf s y (by simp [hy])) s' h')

@[simp] theorem upd_self {β : Type} (f : Obj → β) (o : Obj) (v : β) : upd f o v o = v := by simp [upd]
theorem upd_ne {β : Type} (f : Obj → β) {o x : Obj} (v : β) (h : x ≠ o) : upd f o v x = f x := by
  simp [upd, h]

/-! ### digits -/

theorem toDigits_inj {m n : Nat} (h : Nat.toDigits 10 m = Nat.toDigits 10 n) : m = n := by
  have h1 := Nat.ofDigitChars_toDigits (b := 10) (n := m) (by decide) (by decide)
  have h2 := Nat.ofDigitChars_toDigits (b := 10) (n := n) (by decide) (by decide)
  rw [← h1, ← h2, h]

theorem slash_not_mem_toDigits (n : Nat) : '/' ∉ Nat.toDigits 10 n := by
  intro h
  have := Nat.isDigit_of_mem_toDigits (by decide) (by decide) h
  revert this; decide

theorem getLast?_append_toDigits (id : Uid) (n : Nat) :
    (id ++ Nat.toDigits 10 n).getLast? ≠ some '/' := by
  rw [List.getLast?_append]
  intro h
  cases hd : (Nat.toDigits 10 n).getLast? with
  | none => rw [List.getLast?_eq_none_iff] at hd; exact Nat.toDigits_ne_nil hd
  | some c =>
    rw [hd] at h
    simp at h
    subst h
    exact slash_not_mem_toDigits n (List.mem_of_getLast? hd)

/-! ### the search loop of attachItem -/

/-- pigeonhole: `freshNum` returns the first free number, whatever the taken ids are -/
theorem freshNum_spec (keys : List Uid) (base : Uid) (n : Nat) :
    let m := Env.freshNum keys base keys.length n
    n ≤ m ∧ base ++ Nat.toDigits 10 m ∉ keys ∧
      ∀ k, n ≤ k → k < m → base ++ Nat.toDigits 10 k ∈ keys := by
  -- generalised over fuel: ids `n0 .. n-1` are already known to be taken
  have gen : ∀ fuel n0 n, n0 ≤ n → n - n0 + fuel = keys.length →
      (∀ k, n0 ≤ k → k < n → base ++ Nat.toDigits 10 k ∈ keys) →
      n0 ≤ Env.freshNum keys base fuel n ∧
      base ++ Nat.toDigits 10 (Env.freshNum keys base fuel n) ∉ keys ∧
      ∀ k, n0 ≤ k → k < Env.freshNum keys base fuel n → base ++ Nat.toDigits 10 k ∈ keys := by
    intro fuel
    induction fuel with
    | zero =>
      intro n0 n hle hlen hall
      refine ⟨hle, ?_, hall⟩
      show base ++ Nat.toDigits 10 n ∉ keys
      intro hmem
      -- the ids n0 .. n are keys.length + 1 different members of keys
      have hinj : ((List.range (n - n0 + 1)).map (fun i => base ++ Nat.toDigits 10 (n0 + i))).Nodup := by
        refine List.Pairwise.map _ ?_ List.nodup_range
        intro a b hab h
        have := toDigits_inj (List.append_cancel_left h)
        omega
      have hsub : ((List.range (n - n0 + 1)).map (fun i => base ++ Nat.toDigits 10 (n0 + i))) ⊆ keys := by
        intro x hx
        obtain ⟨i, hi, rfl⟩ := List.mem_map.1 hx
        rw [List.mem_range] at hi
        by_cases hin : n0 + i < n
        · exact hall _ (by omega) hin
        · have : n0 + i = n := by omega
          rw [this]; exact hmem
      have := (List.subperm_of_subset hinj hsub).length_le
      simp at this
      omega
    | succ f ih =>
      intro n0 n hle hlen hall
      unfold Env.freshNum
      split
      · rename_i hmem
        refine ih n0 (n + 1) (by omega) (by omega) ?_
        intro k h1 h2
        by_cases hk : k < n
        · exact hall k h1 hk
        · have : k = n := by omega
          rw [this]; exact hmem
      · rename_i hmem
        exact ⟨hle, hmem, hall⟩
  exact gen keys.length n n (Nat.le_refl _) (by omega) (fun k h1 h2 => absurd h2 (by omega))

end Envire
