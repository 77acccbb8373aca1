import Mathlib.Algebra.Order.Floor.Ring
import Mathlib.Algebra.Order.Field.Basic
/-!
Model of the coordinate conversions of grids.

Source modelled: /repo/src/maps/GridBase.cpp l.392-408 (toGrid), l.410-414, l.451-455 (fromGrid), l.474-478 (contains),
l.480-495 (getExtents, getCellExtents), l.416-431 (toGridTimesX).

Simplifications: exact arithmetic in an ordered field with floor (ℝ or ℚ) instead of double. The conversion of a floating point
number to size_t is undefined in C++ when the value does not fit; it is a parameter `conv`, the properties say what they need
of it. `x86ToSize` is what gcc does on x86-64 (cvttsd2si, with the upper half of the range handled by subtracting 2^63).
-/
namespace Envire.Grid

/-- GridBase.hpp l.80-83 -/
structure GridBase (K : Type) where
  nx : Nat
  ny : Nat
  sx : K
  sy : K
  ox : K
  oy : K

/-- signed 64 bit conversion of an integral double: out of range values give the "integer indefinite" -/
def cvttsd2si (n : Int) : Int := if -2 ^ 63 ≤ n ∧ n < 2 ^ 63 then n else -2 ^ 63

/-- (size_t)(double), gcc on x86-64 -/
def x86ToSize (n : Int) : Nat :=
  if n < 2 ^ 63 then (cvttsd2si n % 2 ^ 64).toNat
  else ((cvttsd2si (n - 2 ^ 63) + 2 ^ 63) % 2 ^ 64).toNat

/-- what is needed of the conversion: exact on the range of size_t, not small for moderately negative numbers -/
structure ConvOk (conv : Int → Nat) : Prop where
  exact : ∀ n : Int, 0 ≤ n → n < 2 ^ 64 → (conv n : Int) = n
  neg : ∀ n : Int, -2 ^ 63 ≤ n → n < 0 → 2 ^ 63 ≤ conv n

section
variable {K : Type} [Field K] [LinearOrder K] [IsStrictOrderedRing K] [FloorRing K]

/-- GridBase::toGrid( x, y, xi, yi, xmod, ymod ) l.392-408 -/
def GridBase.toGrid (conv : Int → Nat) (g : GridBase K) (x y : K) : Option (Nat × Nat × K × K) :=
  let am := conv ⌊(x - g.ox) / g.sx⌋
  let an := conv ⌊(y - g.oy) / g.sy⌋
  if 0 ≤ am ∧ am < g.nx ∧ 0 ≤ an ∧ an < g.ny then
    some (am, an, x - (am * g.sx + g.ox), y - (an * g.sy + g.oy))
  else none

/-- GridBase::toGridTimesX l.416-431 -/
def GridBase.toGridTimesX (conv : Int → Nat) (g : GridBase K) (x y : K) (m : Nat) : Option (Nat × Nat) :=
  let am := conv ⌊(x - g.ox) / g.sx * m⌋
  let an := conv ⌊(y - g.oy) / g.sy * m⌋
  if am < g.nx * m ∧ an < g.ny * m then some (am, an) else none

/-- GridBase::fromGrid l.451-455 -/
def GridBase.fromGrid (g : GridBase K) (xi yi : Nat) : K × K := ((xi + 1 / 2) * g.sx + g.ox, (yi + 1 / 2) * g.sy + g.oy)

/-- GridBase::contains l.474-478 -/
def GridBase.contains (g : GridBase K) (xi yi : Nat) : Bool := xi < g.nx && yi < g.ny

/-- Eigen::AlignedBox<int, 2>: smallest and largest corner -/
structure Box (A : Type) where
  xmin : A
  ymin : A
  xmax : A
  ymax : A

/-- GridBase::getCellExtents l.492-495 -/
def GridBase.getCellExtents (g : GridBase K) : Box Int := ⟨0, 0, g.nx, g.ny⟩

/-- GridBase::getExtents l.480-490 -/
def GridBase.getExtents (g : GridBase K) : Box K :=
  let c := g.getCellExtents
  ⟨g.ox + c.xmin * g.sx, g.oy + c.ymin * g.sy, g.ox + (c.xmax + 1) * g.sx, g.oy + (c.ymax + 1) * g.sy⟩

/-- AlignedBox::contains( point ) -/
def Box.Contains (b : Box K) (x y : K) : Prop := b.xmin ≤ x ∧ x ≤ b.xmax ∧ b.ymin ≤ y ∧ y ≤ b.ymax

end
end Envire.Grid
