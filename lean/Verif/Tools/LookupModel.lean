import Mathlib.Analysis.SpecialFunctions.Complex.Arg
import Mathlib.Analysis.SpecialFunctions.Sqrt
import Mathlib.Data.Real.Archimedean
import Mathlib.Algebra.Order.Round

/-!
Model of src/tools/RadialLookUpTable.cpp and src/tools/BoxLookUpTable.cpp.

Simplifications: real arithmetic without rounding (the running additions of the loops in BoxLookUpTable.cpp l.65, l.71 are
multiplications); the sizes of the tables fit into an `int`; `atan2(y, x)` is the argument of the complex number x + iy. A read outside of
an array is undefined behaviour, outcome `none`.
-/

namespace Envire.Lookup

/-- conversion of a `double` to `int`: towards zero -/
noncomputable def trunc (r : ℝ) : ℤ := if r < 0 then ⌈r⌉ else ⌊r⌋

/-! ### RadialLookUpTable -/

/-- `RadialLookUpTable`. `table` stands for both arrays: entry i is (distance, angle); `none` before the first computation. -/
structure Radial where
  n : ℤ := 0
  half : ℤ := 0
  scale : ℝ := 0
  maxRadius : ℝ := 0
  table : Option (ℤ → ℝ × ℝ) := none

/-- entry of the loops of `computeDistances` and `computeAngles`; RadialLookUpTable.cpp l.32-41, l.50-58: for the index
`n * y + x` with `0 ≤ x, y < n` -/
noncomputable def radialEntry (n half : ℤ) (scale : ℝ) (i : ℤ) : ℝ × ℝ :=
  let xd : ℝ := ((i % n - half : ℤ) : ℝ) * scale
  let yd : ℝ := ((i / n - half : ℤ) : ℝ) * scale
  (Real.sqrt (xd * xd + yd * yd), Complex.arg ⟨xd, yd⟩)

open Classical in
/-- `recompute`; l.11-23 -/
noncomputable def Radial.recompute (t : Radial) (scale maxRadius : ℝ) : Radial :=
  if t.scale = scale ∧ t.maxRadius = maxRadius then t
  else
    let n := trunc (maxRadius / scale * 2)
    let half := trunc (maxRadius / scale)
    { n := n, half := half, scale := scale, maxRadius := maxRadius, table := some (radialEntry n half scale) }

/-- `getDistance` and `getAngle`; l.61-75. The index is an `unsigned int`. -/
def Radial.get (t : Radial) (x y : ℤ) : Option (ℝ × ℝ) :=
  let i := (t.n * (y + t.half) + (x + t.half)) % 2 ^ 32
  match t.table with
  | none => none
  | some f => if i < t.n * t.n then some (f i) else none

/-- a history of calls of `recompute`, the last one first -/
noncomputable def Radial.run : List (ℝ × ℝ) → Radial
  | [] => {}
  | a :: l => (Radial.run l).recompute a.1 a.2

/-! ### BoxLookUpTable -/

/-- `BoxLookUpTable`; `table` is the flat array -/
structure Box where
  scale : ℝ := 0
  sizeX : ℝ := 0
  sizeY : ℝ := 0
  maxDist : ℝ := 0
  cellsX : ℤ := 0
  cellsY : ℤ := 0
  centerX : ℝ := 0
  centerY : ℝ := 0
  table : Option (ℤ → ℝ) := none

/-- `fmod` for non-negative arguments -/
noncomputable def fmod (a b : ℝ) : ℝ := a - b * ⌊a / b⌋

/-- the offset of one axis; BoxLookUpTable.cpp l.34-39. `r` is half the size plus the distance. -/
noncomputable def offset (r scale : ℝ) : ℝ :=
  let o := scale / 2 - fmod r scale
  if o < 0 then o + scale else o

/-- the values of a loop variable that runs from `-r` to `r` in steps of `scale / 10`; l.65, l.71 -/
noncomputable def ticks (r scale : ℝ) : List ℝ :=
  (List.range ⌈2 * r / (scale / 10)⌉₊).map fun i : Nat => -r + (i : ℝ) * (scale / 10)

/-- distance of the point to the box in the loop; l.78-108 -/
noncomputable def distOf (hx hy x y : ℝ) : ℝ :=
  let xp := if x < 0 then x * -1 else x
  let yp := if y < 0 then y * -1 else y
  if xp > hx then
    if yp > hy then Real.sqrt ((xp - hx) ^ 2 + (yp - hy) ^ 2) else xp - hx
  else if yp > hy then yp - hy else 0

/-- inner loop; l.71-113 -/
noncomputable def rowLoop (b : Box) (x : ℝ) (xi : ℤ) (table : ℤ → ℝ) : ℤ → ℝ :=
  (ticks (b.sizeY / 2 + b.maxDist) b.scale).foldl (fun table y =>
    let yi := trunc ((y + b.centerY) / b.scale)
    if yi < 0 ∨ yi ≥ b.cellsY then table
    else
      let i := b.cellsX * yi + xi
      Function.update table i (max (distOf (b.sizeX / 2) (b.sizeY / 2) x y) (table i))) table

/-- `computeDistances`; l.50-115 -/
noncomputable def computeTable (b : Box) : ℤ → ℝ :=
  (ticks (b.sizeX / 2 + b.maxDist) b.scale).foldl (fun table x =>
    let xi := trunc ((x + b.centerX) / b.scale)
    if xi < 0 ∨ xi ≥ b.cellsX then table else rowLoop b x xi table) fun _ => 0

/-- `recompute`; l.15-48 -/
noncomputable def Box.recompute (b : Box) (scale sizeX sizeY maxDist : ℝ) : Box :=
  if |b.scale - scale| < 0.00001 ∧ |sizeX - b.sizeX| < 0.00001 ∧ |sizeY - b.sizeY| < 0.00001 ∧ b.maxDist + 0.00001 > maxDist then b
  else
    let offX := offset (sizeX / 2 + maxDist) scale
    let offY := offset (sizeY / 2 + maxDist) scale
    let b' : Box :=
      { scale := scale, sizeX := sizeX, sizeY := sizeY, maxDist := maxDist
        cellsX := ⌈(offX + sizeX + maxDist * 2) / scale⌉
        cellsY := ⌈(offY + sizeY + maxDist * 2) / scale⌉
        centerX := sizeX / 2 + maxDist + offX
        centerY := sizeY / 2 + maxDist + offY }
    { b' with table := some (computeTable b') }

/-- outcome of a query -/
inductive Answer where
  | value (d : ℝ)
  | exception
  | undefined

/-- `getDistanceToBox`; l.117-132 -/
noncomputable def Box.get (b : Box) (xp yp : ℝ) : Answer :=
  match b.table with
  | none => .exception
  | some f =>
    let x := trunc ((xp + b.centerX) / b.scale)
    let y := trunc ((yp + b.centerY) / b.scale)
    if x < 0 ∨ x > b.cellsX ∨ y < 0 ∨ y > b.cellsY then .exception
    else
      let i := b.cellsX * y + x
      if 0 ≤ i ∧ i < b.cellsX * b.cellsY then .value (f i) else .undefined

/-- a history of calls of `recompute`, the last one first -/
noncomputable def Box.run : List (ℝ × ℝ × ℝ × ℝ) → Box
  | [] => {}
  | a :: l => (Box.run l).recompute a.1 a.2.1 a.2.2.1 a.2.2.2

end Envire.Lookup
