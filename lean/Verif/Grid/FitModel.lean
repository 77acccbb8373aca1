import Verif.Grid.PatchModel

/-!
Model of the patches with slope of multi level surface maps (update model SLOPE): src/maps/MLSPatch.hpp l.66-77 (constructor for a point), l.79-92 (updateSum), l.94-105
(updatePlane), l.202-217 (getHeight, getSlope, getNormal), l.245-264 (mergePlane); src/maps/MLSGrid.cpp l.446-470 (get), l.523-542 (update), l.590-600 (the patch that merge takes
over); src/maps/GridBase.cpp l.392-408 (the place in the cell).

numeric::PlaneFitting of the external library base/numeric by specification: it keeps weighted sums; `update` adds to them; getCoeffs returns the solution of the normal equations
where it is unique, and any numbers otherwise; getResiduals is the weighted sum of the squared distances in z. Simplifications: real numbers for `float`; colors are left out.
-/
namespace Envire.Fit

noncomputable section

/-- the sums of numeric::PlaneFitting -/
@[ext] structure Sums where
  n : ℝ
  x : ℝ
  y : ℝ
  z : ℝ
  xx : ℝ
  xy : ℝ
  yy : ℝ
  xz : ℝ
  yz : ℝ
  zz : ℝ

/-- `PlaneFitting( p, weight )` -/
def Sums.one (x y z w : ℝ) : Sums := ⟨w, x * w, y * w, z * w, x * x * w, x * y * w, y * y * w, x * z * w, y * z * w, z * z * w⟩

/-- `PlaneFitting()` -/
def Sums.zero : Sums := ⟨0, 0, 0, 0, 0, 0, 0, 0, 0, 0⟩

/-- `update( other )` -/
def Sums.add (s t : Sums) : Sums := ⟨s.n + t.n, s.x + t.x, s.y + t.y, s.z + t.z, s.xx + t.xx, s.xy + t.xy, s.yy + t.yy, s.xz + t.xz, s.yz + t.yz, s.zz + t.zz⟩

/-- coefficients of the plane z = a x + b y + c -/
@[ext] structure Plane where
  a : ℝ
  b : ℝ
  c : ℝ

def Plane.at (p : Plane) (x y : ℝ) : ℝ := p.a * x + p.b * y + p.c

/-- the normal equations -/
def Normal (s : Sums) (p : Plane) : Prop :=
  s.xx * p.a + s.xy * p.b + s.x * p.c = s.xz ∧ s.xy * p.a + s.yy * p.b + s.y * p.c = s.yz ∧ s.x * p.a + s.y * p.b + s.n * p.c = s.z

/-- the determinant of the normal equations -/
def Sums.det (s : Sums) : ℝ := s.xx * (s.yy * s.n - s.y * s.y) - s.xy * (s.xy * s.n - s.y * s.x) + s.x * (s.xy * s.y - s.yy * s.x)

/-- `getCoeffs` -/
structure Solver where
  coeffs : Sums → Plane
  solves : ∀ s, s.det ≠ 0 → Normal s (coeffs s)

/-- `getResiduals`, for given coefficients -/
def Sums.residuals (s : Sums) (p : Plane) : ℝ :=
  s.zz - 2 * (p.a * s.xz + p.b * s.yz + p.c * s.z) + (p.a ^ 2 * s.xx + p.b ^ 2 * s.yy + p.c ^ 2 * s.n + 2 * p.a * p.b * s.xy + 2 * p.a * p.c * s.x + 2 * p.b * p.c * s.y)

/-- SurfacePatch -/
structure Patch where
  mean : ℝ
  stdev : ℝ
  height : ℝ
  plane : Sums
  min : ℝ
  max : ℝ
  n : ℝ
  normsq : ℝ
  updateIdx : Nat
  kind : Patch.Kind

/-- updateSum l.79-92 -/
def Patch.updateSum (p : Patch) : Patch :=
  let mean := p.plane.z / p.plane.n
  let norm := p.plane.n / (p.plane.n ^ 2 - p.normsq)
  { p with
    mean := mean
    stdev := if p.n > 1 then √(Max.max (1 / 1000000) ((p.plane.zz - mean ^ 2 * (p.plane.n - 2)) * norm - p.n / p.plane.n)) else √(1 / p.plane.n) }

open Classical in
/-- updatePlane l.94-105 -/
def Patch.updatePlane (S : Solver) (p : Patch) : Patch :=
  if p.n ≤ 3 then p.updateSum
  else
    let norm := p.plane.n / (p.plane.n ^ 2 - 3 * p.normsq)
    { p with mean := (S.coeffs p.plane).c, stdev := √(Max.max (1 / 1000000) (p.plane.residuals (S.coeffs p.plane) * norm)) }

/-- SurfacePatch( p, stdev ) l.66-77 -/
def Patch.make (S : Solver) (x y z stdev : ℝ) : Patch :=
  Patch.updatePlane S ⟨z, stdev, 0, Sums.one x y z (1 / stdev ^ 2), z, z, 1, 1 / stdev ^ 4, 0, .horizontal⟩

open Classical in
/-- mergePlane l.245-264, with the update index of merge l.385-386 -/
def Patch.merge (S : Solver) (gap : ℝ) (p o : Patch) : Bool × Patch :=
  if Envire.Patch.overlap (p.min - gap) (p.max + gap) o.min o.max then
    let q := Patch.updatePlane S { p with n := p.n + o.n, normsq := p.normsq + o.normsq, min := Min.min p.min o.min, max := Max.max p.max o.max, plane := p.plane.add o.plane }
    (true, { q with updateIdx := Max.max p.updateIdx o.updateIdx })
  else (false, p)

/-- getHeight l.202-207 -/
def Patch.getHeight (S : Solver) (p : Patch) (x y : ℝ) : ℝ := (S.coeffs p.plane).at x y

/-- getNormal l.214-217 -/
def Patch.getNormal (S : Solver) (p : Patch) : ℝ × ℝ × ℝ :=
  let c := S.coeffs p.plane
  let l := √(c.a ^ 2 + c.b ^ 2 + 1)
  (-c.a / l, -c.b / l, 1 / l)

/-- the argument of acos in getSlope l.209-212 -/
def Patch.cosSlope (S : Solver) (p : Patch) : ℝ := (p.getNormal S).2.2

/-- the place in the cell, GridBase.cpp l.400-401 -/
def inCell (x scale offset : ℝ) (i : Nat) : ℝ := x - (i * scale + offset)

/-- the patch that MLSGrid::update hands to the cell, l.529-535: of the patch that is given only mean and stdev are used -/
def updated (S : Solver) (x y scalex scaley offsetx offsety : ℝ) (xi yi : Nat) (p : Patch) : Patch :=
  Patch.make S (inCell x scalex offsetx xi) (inCell y scaley offsety yi) p.mean p.stdev

/-- the patch that MLSGrid::merge hands to the cell, l.612-617 -/
def taken (p : Patch) (dz dstdev : ℝ) (idx : Nat) : Patch := { p with mean := p.mean + dz, stdev := √(p.stdev ^ 2 + dstdev ^ 2), updateIdx := idx }

/-- the height that MLSGrid::get returns, l.456-460 -/
def got (S : Solver) (p : Patch) (x y scalex scaley offsetx offsety : ℝ) (xi yi : Nat) : ℝ := p.getHeight S (inCell x scalex offsetx xi) (inCell y scaley offsety yi)

end

end Envire.Fit
