import Verif.Maps.CloudTextModel
import Verif.Maps.DecimalProps
import Mathlib.Algebra.Order.Archimedean.Real.Basic

/-!
Model of key points as text: KeyPoint::store and load, /repo/src/core/Features.hpp l.29-51.

The stream is that of Verif/Maps/CloudTextModel, numbers as text those of Verif/Maps/DecimalModel. A number may also be `nan` or
infinite: `<<` prints these as "nan", "inf" and "-inf", which `>>` does not read. Simplifications: `float` and `double` are exact.
A member that was never set, and a variable without a value, is `none`.
-/
namespace Envire.KeyPoint
open Envire.CloudText (Stream isSpace skip)

noncomputable section

/-- numbers with six digits as in Verif/Maps/CloudTextModel -/
def six : CloudText.Numbers where
  print := Decimal.print
  round := Decimal.round
  read := Decimal.read
  print_ne x := (Decimal.print_chars x).1
  print_space x c hc := by
    obtain ⟨h1, h2, h3, h4⟩ := (Decimal.print_chars x).2.1 c hc
    simp [isSpace, h1, h2, h3, h4]
  print_length x := (Decimal.print_chars x).2.2
  read_print x rest h := by
    refine Decimal.read_print x rest (Decimal.ends_space fun c hc => ?_)
    have := h c hc
    simp only [isSpace, Bool.or_eq_true, decide_eq_true_eq] at this
    tauto
  read_other c rest h := by
    rcases h with rfl | rfl | rfl <;> simp [Decimal.read, Decimal.takeSign, Decimal.takeDigits, Decimal.takeFrac, Decimal.digitVal]
  read_before x c rest h := by
    refine Decimal.read_print x _ (Decimal.ends_space fun d hd => ?_)
    simp only [List.head?_cons, Option.mem_some_iff] at hd
    subst hd
    tauto

/-- a value of type float or double -/
inductive Val where
  | fin (x : ℝ)
  | nan
  | inf (neg : Bool)

/-- `os << x` -/
def Val.print : Val → List Char
  | .fin x => six.print x
  | .nan => "nan".toList
  | .inf neg => (if neg then "-inf" else "inf").toList

/-- l.17-31 -/
structure Point where
  x : Val
  y : Val
  size : Val
  angle : Val
  response : Val

/-- store l.29-35 -/
def store (k : Point) : List Char :=
  k.x.print ++ ' ' :: (k.y.print ++ '\n' :: (k.size.print ++ '\n' :: (k.angle.print ++ '\n' :: (k.response.print ++ ['\n']))))

/-- `is >> v` for a variable with the value `v`, or without one: if nothing can be read the value is 0, if the stream has
failed before it does not change -/
def get (s : Stream) (v : Option Val) : Option Val × Stream :=
  match s.number six with
  | (some x, s) => (some (.fin x), s)
  | (none, s) => (v, s)

/-- `is.ignore(10, '\n')` -/
def ignore (s : Stream) : Stream :=
  if s.good then { text := (skip 10 s.text).1, eof := (skip 10 s.text).2, fail := false } else { s with fail := true }

/-- a key point of which members may have no value -/
structure Slot where
  x : Option Val
  y : Option Val
  size : Option Val
  angle : Option Val
  response : Option Val

/-- a new key point -/
def Slot.new : Slot := ⟨none, none, none, none, none⟩

/-- load l.36-50 -/
def load (s : Stream) (k : Slot) : Slot × Stream :=
  let d1 := get s none
  let d2 := get d1.2 none
  let sz := get (ignore d2.2) k.size
  let an := get (ignore sz.2) k.angle
  let re := get (ignore an.2) k.response
  (⟨d1.1, d2.1, sz.1, an.1, re.1⟩, ignore re.2)

/-- n new key points, one after the other -/
def loadAll : Nat → Stream → List Slot × Stream
  | 0, s => ([], s)
  | n + 1, s =>
    let k := load s .new
    let r := loadAll n k.2
    (k.1 :: r.1, r.2)

end
end Envire.KeyPoint
