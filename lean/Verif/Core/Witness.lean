import Verif.Core.EnvModel
/-! Evaluation of concrete histories (used for examples and counterexamples only). -/
namespace Envire

theorem ex_of_any {α : Type} {o : Option α} {P : α → Prop} [DecidablePred P]
    (h : o.any (fun s => decide (P s)) = true) : ∃ s, o = some s ∧ P s := by
  cases o with
  | none => cases h
  | some a => exact ⟨a, rfl, of_decide_eq_true h⟩

theorem ex_of_any2 {α : Type} {o : Option α} {f : α → Option α} {P : α → α → Prop} [∀ a, DecidablePred (P a)]
    (h : o.any (fun s => (f s).any (fun s' => decide (P s s'))) = true) : ∃ s, o = some s ∧ ∃ s', f s = some s' ∧ P s s' := by
  cases o with
  | none => cases h
  | some a => exact ⟨a, rfl, ex_of_any h⟩

/-- the state after a normal return -/
def Res.ok? {σ : Type} : Res σ → Option σ
  | .ok s => some s
  | _ => none
/-- the state after an exception -/
def Res.thrown? {σ : Type} : Res σ → Option σ
  | .throw s => some s
  | _ => none

theorem Res.eq_ok_of {σ : Type} {r : Res σ} {s : σ} (h : r.ok? = some s) : r = .ok s := by
  cases r <;> simp [Res.ok?] at h <;> simp [h]
theorem Res.eq_throw_of {σ : Type} {r : Res σ} {s : σ} (h : r.thrown? = some s) : r = .throw s := by
  cases r <;> simp [Res.thrown?] at h <;> simp [h]

end Envire
