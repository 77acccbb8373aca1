import Mathlib.Data.Real.Basic
import Mathlib.Tactic.Linarith
import Mathlib.Tactic.NormNum

/-!
Model of GoldenBracket::findMin, icp/icp.hpp l.266-327, and of its use in Trimmed::align l.385-401.

Simplifications: real numbers for `double`. The values of `f` are real numbers: of a Result the operator < compares
optFunc() only (l.362-363). The model returns the argument together with the value, where the code returns the value. The
arguments of the inline functions SHIFT2 and SHIFT3 that are passed by value are evaluated before the call.
-/

namespace Envire.Icp.Golden

noncomputable section

/-- l.287-288 -/
def R : ℝ := 6180339 / 10000000
def C : ℝ := 1 - R

/-- the local variables; `seen` are the arguments that `f` was called with -/
structure St where
  x0 : ℝ
  x1 : ℝ
  x2 : ℝ
  x3 : ℝ
  f1 : ℝ
  f2 : ℝ
  seen : List ℝ

open Classical in
/-- l.292-305 -/
def start (f : ℝ → ℝ) (ax bx cx : ℝ) : St :=
  if |bx - ax| < |cx - bx| then
    ⟨ax, bx, bx + C * (cx - bx), cx, f bx, f (bx + C * (cx - bx)), [bx, bx + C * (cx - bx)]⟩
  else
    ⟨ax, bx - C * (bx - ax), bx, cx, f (bx - C * (bx - ax)), f bx, [bx - C * (bx - ax), bx]⟩

open Classical in
/-- the body of the loop, l.308-316 -/
def step (f : ℝ → ℝ) (s : St) : St :=
  if s.f2 < s.f1 then
    let d := R * s.x1 + C * s.x3
    ⟨s.x1, s.x2, d, s.x3, s.f2, f d, d :: s.seen⟩
  else
    let d := R * s.x2 + C * s.x0
    ⟨s.x0, d, s.x1, s.x2, f d, s.f1, d :: s.seen⟩

/-- the condition of the loop, l.306 -/
def goesOn (eps : ℝ) (s : St) : Prop := eps * (|s.x1| + |s.x2|) < |s.x3 - s.x0|

open Classical in
/-- the loop; `none`: it has not ended after that many rounds -/
def run (f : ℝ → ℝ) (eps : ℝ) : Nat → St → Option St
  | 0, s => if goesOn eps s then none else some s
  | n + 1, s => if goesOn eps s then run f eps n (step f s) else some s

open Classical in
/-- l.318-325, the argument and the value -/
def result (s : St) : ℝ × ℝ := if s.f1 < s.f2 then (s.x1, s.f1) else (s.x2, s.f2)

/-- findMin, l.284-326, with a bound of the number of rounds -/
def findMin (f : ℝ → ℝ) (ax bx cx eps : ℝ) (n : Nat) : Option (ℝ × ℝ) := (run f eps n (start f ax bx cx)).map result

/-- the search of Trimmed::align, l.393-398 -/
def search (f : ℝ → ℝ) (alpha beta eps : ℝ) (n : Nat) : Option (ℝ × ℝ) := findMin f alpha ((alpha + beta) / 2) beta eps n

end

end Envire.Icp.Golden
