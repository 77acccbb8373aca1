import Verif.Ops.GrowModel

/-!
Model of src/operators/Fold.hpp l.24-80 (`FoldOperator`).

Simplifications: the values are rationals (no rounding); sizes do not overflow (a negative index wraps to a huge `size_t` and is
bigger than the extent, l.36); an access outside of the array is `none` (undefined behaviour).
-/

namespace Envire.Fold

open Envire.Grow (Cell cells)

/-- `for (i = -n; i < n; i++)` -/
def span (n : Nat) : List ℤ := (List.range (2 * n)).map fun i : Nat => (i : ℤ) - n

/-- l.28: `ceil(neighbourhood / 2.0)` -/
def half (neighbourhood : Nat) : Nat := (neighbourhood + 1) / 2

/-- `inputData[yr][xr]` -/
def read (w h : Nat) (data : Cell → ℚ) (c : Cell) : Option ℚ := if c.1 < w ∧ c.2 < h then some (data c) else none

/-- body of the inner loop on (cnt, sum); l.33-42. The check skips negative indices and those bigger than the extent. -/
def step (w h : Nat) (data : Cell → ℚ) (c : Cell) (s : Nat × ℚ) (o : ℤ × ℤ) : Option (Nat × ℚ) :=
  let xr := (c.1 : ℤ) + o.1
  let yr := (c.2 : ℤ) + o.2
  if (xr < 0 ∨ (w : ℤ) < xr) ∨ yr < 0 ∨ (h : ℤ) < yr then some s
  else (read w h data (xr.toNat, yr.toNat)).map fun v => (s.1 + 1, s.2 + v)

/-- l.29-31 -/
def offs (n : Nat) : List (ℤ × ℤ) := (span n).flatMap fun y => (span n).map fun x => (x, y)

/-- `fold`; l.24-50: the value that is written to the output cell -/
def fold (w h : Nat) (neighbourhood : Nat) (data : Cell → ℚ) (c : Cell) : Option ℚ :=
  ((offs (half neighbourhood)).foldlM (step w h data c) (0, 0)).map fun s => if s.1 ≠ 0 then s.2 / s.1 else s.2

/-- the loops of `updateAll`; l.71-77 -/
def updateAll (w h : Nat) (neighbourhood : Nat) (data out : Cell → ℚ) : Option (Cell → ℚ) :=
  (cells w h).foldlM (fun out c => (fold w h neighbourhood data c).map fun v => Function.update out c v) out

end Envire.Fold
