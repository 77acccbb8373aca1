import Verif.Viz.ShownModel
import Mathlib.Data.Rat.Defs

/-!
Model of the window of enview, /repo/viz/enview/ApplicationWindow.cpp (constructor l.44-46, setEnvironment l.51-55, loadEnvironment l.137-148, saveEnvironment l.150-156,
saveAsEnvironment l.158-169) and of the form for the alignment, ICPHandler.cpp l.38-102.

Simplifications: a dialog is the text it returns, the empty text if it is cancelled. The environments are those of the model of the visualization (Viz/ShownModel). What is written to a
directory is the number of the environment; how an environment is written is the matter of other models. The alignment itself is not run.
-/
namespace Envire.Window

open Envire.Shown

structure State where
  viz : Shown.State
  /-- `env`, which the window owns -/
  env : Option Nat
  fileName : String
  /-- calls of serialize: directory and environment -/
  writes : List (String × Nat)

/-- setEnvironment of a new environment, l.51-55: the assignment of the shared pointer frees the old environment -/
def State.setEnvironment (w : State) : Option State :=
  let n := w.viz.made.length
  let freed : Out := match w.env with
    | none => .ok (w.viz.make .user)
    | some m => (w.viz.make .user).free m
  match freed with
  | .ok v =>
    match v.updateData n with
    | .ok v => some { w with viz := v, env := some n }
    | _ => none
  | _ => none

/-- the constructor -/
def start : Option State := State.setEnvironment ⟨Shown.start, none, "", []⟩

/-- env->serialize( envFileName ) -/
def State.write (w : State) : State :=
  match w.env with
  | some n => { w with writes := w.writes ++ [(w.fileName, n)] }
  | none => w

/-- l.158-169; the call of saveEnvironment l.166 finds a name that is not empty -/
def State.saveAs (w : State) (dialog : String) : State :=
  if dialog = "" then w else { w with fileName := dialog }.write

/-- l.150-156 -/
def State.save (w : State) (dialog : String) : State :=
  (if w.fileName = "" then w.saveAs dialog else w).write

inductive Op
  | load (dialog : String)
  | save (dialog : String)
  | saveAs (dialog : String)

/-- none: an environment is used that was freed -/
def State.step (w : State) : Op → Option State
  | .load d => if d = "" then some w else w.setEnvironment
  | .save d => some (w.save d)
  | .saveAs d => some (w.saveAs d)

def run (w : State) : List Op → Option State
  | [] => some w
  | o :: l => match w.step o with
    | some w => run w l
    | none => none

/-! ### the form for the alignment -/

/-- the parameters of align -/
structure Params where
  maxIter : Int
  minMse : ℚ
  minMseDiff : ℚ
  density : ℚ
  overlap : ℚ
  deriving DecidableEq

/-- l.68-78 -/
def defaults : Params := ⟨10, 2 / 100, 1 / 100, 1 / 10, 8 / 10⟩

/-- the texts of the form -/
structure Form where
  iterations : String
  minMse : String
  minMseDiff : String
  density : String
  overlap : String

/-- l.80-88: the first text that is no number ends the assignments. The number of rounds becomes an unsigned one of 64 bits. -/
def params (int : String → Option Int) (num : String → Option ℚ) (f : Form) : Params :=
  let p := defaults
  match int f.iterations with
  | none => p
  | some v =>
    let p := { p with maxIter := v % 2 ^ 64 }
    match num f.minMse with
    | none => p
    | some v =>
      let p := { p with minMse := v }
      match num f.minMseDiff with
      | none => p
      | some v =>
        let p := { p with minMseDiff := v }
        match num f.density with
        | none => p
        | some v =>
          let p := { p with density := v }
          match num f.overlap with
          | none => p
          | some v => { p with overlap := v }

/-- the list of the model, with the items that are there -/
structure Lists where
  model : List Nat
  there : List Nat

inductive Press
  /-- addToModel l.38-50 with the selected item; none: no cloud -/
  | add (selected : Option Nat)
  /-- clearModel l.52-55 -/
  | clear
  /-- an item is freed -/
  | free (o : Nat)

def Lists.step (l : Lists) : Press → Lists
  | .add (some o) => { l with model := l.model ++ [o] }
  | .add none => l
  | .clear => { l with model := [] }
  | .free o => { l with there := l.there.filter (fun x => decide (x ≠ o)) }

inductive Aligned
  /-- no cloud is selected, l.62-66 -/
  | nothing
  /-- align of the cloud with the model -/
  | aligned (mesh : Nat) (model : List Nat)
  /-- a cloud is used that was freed -/
  | fault
  deriving DecidableEq

/-- runICP l.57-102 -/
def Lists.runICP (l : Lists) (selected : Option Nat) : Aligned :=
  match selected with
  | none => .nothing
  | some m => if l.model.all (fun o => decide (o ∈ l.there)) then .aligned m l.model else .fault

end Envire.Window
