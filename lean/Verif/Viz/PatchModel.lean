import Mathlib.Algebra.Order.Field.Rat
import Mathlib.Data.Rat.Floor

/-!
Model of how the patches of a multi level surface grid are drawn
(viz/MLSVisualization.cpp): the polygon of a slanted patch (PatchesGeode::drawPlane l.140-200),
the box of the other patches (drawBox l.202-257), their colours (l.259-295, l.525-532), the estimate
of the normals (l.311-341) and the loop over the cells (updateNode l.344-458).

Simplifications: rational numbers for double and float, so a comparison of heights is exact.  The
objects of OpenSceneGraph are lists of vertices, each with its normal and its colour.  The length
of a normal is left out: only its direction is given (`normalize` divides by the length).  Colours
are either given ones or made from hue, saturation, luminance and alpha; hslToRgb is not modelled.
-/

namespace Envire.PatchView

structure P where
  x : ℚ
  y : ℚ
  z : ℚ
  deriving DecidableEq, Repr

/-- LOW, BOX, HIGH of l.155 -/
inductive Side where
  | low
  | box
  | high
  deriving DecidableEq, Repr

/-- l.167-172 -/
def side (lo hi : ℚ) (p : P) : Side :=
  if p.z < lo then .low else if p.z > hi then .high else .box

/-- `prev_p + (p - prev_p) * s`, l.179 and l.191 -/
def lerp (a b : P) (s : ℚ) : P :=
  ⟨a.x + (b.x - a.x) * s, a.y + (b.y - a.y) * s, a.z + (b.z - a.z) * s⟩

/-- the factor of l.178 and l.190 -/
def factor (h : ℚ) (a b : P) : ℚ := (h - a.z) / (b.z - a.z)

/-- the vertices that are added for a corner `p` after the corner `a`, l.174-193 -/
def step (lo hi : ℚ) (a p : P) : List P :=
  (if side lo hi a ≠ .box ∧ side lo hi p ≠ side lo hi a then
    [lerp a p (factor (if side lo hi a = .low then lo else hi) a p)] else []) ++
  (if side lo hi p = .box then [p]
   else if side lo hi p ≠ side lo hi a then
    [lerp a p (factor (if side lo hi p = .low then lo else hi) a p)]
   else [])

/-- the corners after `a`, l.157-197 -/
def draw (lo hi : ℚ) (a : P) : List P → List P
  | [] => []
  | p :: l => step lo hi a p ++ draw lo hi p l

/-- the corners of l.159-165, from the centre of the cell, its size and the heights -/
def corners (xp yp xs ys h0 h1 h2 h3 : ℚ) : List P :=
  [⟨xp - xs / 2, yp - ys / 2, h0⟩, ⟨xp + xs / 2, yp - ys / 2, h1⟩,
   ⟨xp + xs / 2, yp + ys / 2, h2⟩, ⟨xp - xs / 2, yp + ys / 2, h3⟩]

/-- the polygon of the loop over the corners; there is no previous corner (NONE) for the first -/
def polygon (lo hi : ℚ) : List P → List P
  | [] => []
  | p :: l => (if side lo hi p = .box then [p] else []) ++ draw lo hi p l

/-- drawPlane, l.140-200 -/
def drawPlane (xp yp xs ys h0 h1 h2 h3 lo hi : ℚ) : List P :=
  polygon lo hi (corners xp yp xs ys h0 h1 h2 h3)

/-! ### colours -/

/-- the hue of a vertex, l.289, and of a patch, l.397 -/
def hue (z interval : ℚ) : ℚ := (z - ⌊z / interval⌋ * interval) / interval

/-- setCycleColorInterval, l.525-532 -/
def setCycleColorInterval (interval : ℚ) : ℚ := if interval = 0 then 1 else interval

/-- a colour: a given one, or one made by hslToRgb (updateColor l.276-280) -/
inductive Col where
  | given (c : ℕ)
  | hsl (hue sat lum alpha : ℚ)
  deriving DecidableEq, Repr

structure Vertex where
  p : P
  n : P
  c : Col
  deriving DecidableEq, Repr

/-- PatchesGeode, l.102-138 (without the OpenSceneGraph objects) -/
structure Geode where
  verts : List Vertex
  sat : ℚ
  lum : ℚ
  alpha : ℚ
  color : Col
  cycleColor : Bool
  interval : ℚ

/-- the constructor, l.121-138 (the colour is not set there) -/
def Geode.new (c : Col) : Geode := ⟨[], 1, 1, 1, c, false, 1⟩

/-- setColor, l.269-273 -/
def Geode.setColor (g : Geode) (c : ℕ) : Geode := { g with color := .given c }

/-- setColorHSVA, l.259-267, with updateColor -/
def Geode.setColorHSVA (g : Geode) (h sat lum alpha : ℚ) : Geode :=
  { g with sat := sat, lum := lum, alpha := alpha, color := .hsl h sat lum alpha }

/-- the colour at the time a vertex at the height `z` is added, l.287-291 -/
def Geode.colorAt (g : Geode) (z : ℚ) : Col :=
  if g.cycleColor then .hsl (hue z g.interval) g.sat g.lum g.alpha else g.color

/-- addVertex, l.282-295 -/
def Geode.addVertex (g : Geode) (p n : P) : Geode :=
  { g with color := g.colorAt p.z, verts := g.verts ++ [⟨p, n, g.colorAt p.z⟩] }

def Geode.addVertices (g : Geode) (l : List (P × P)) : Geode :=
  l.foldl (fun g v => g.addVertex v.1 v.2) g

/-- drawBox, l.202-257: four vertices for each face; only the top one when there is no height -/
def boxVertices (xp yp zp xs ys zs : ℚ) (normal : P) : List (P × P) :=
  let l := xp - xs * (1 / 2)
  let r := xp + xs * (1 / 2)
  let f := yp - ys * (1 / 2)
  let b := yp + ys * (1 / 2)
  let u := zp + zs * (1 / 2)
  let d := zp - zs * (1 / 2)
  [(⟨l, f, u⟩, normal), (⟨r, f, u⟩, normal), (⟨r, b, u⟩, normal), (⟨l, b, u⟩, normal)] ++
  (if zs > 0 then
    [(⟨l, f, u⟩, ⟨0, -1, 0⟩), (⟨r, f, u⟩, ⟨0, -1, 0⟩), (⟨r, f, d⟩, ⟨0, -1, 0⟩), (⟨l, f, d⟩, ⟨0, -1, 0⟩),
     (⟨r, f, u⟩, ⟨1, 0, 0⟩), (⟨r, b, u⟩, ⟨1, 0, 0⟩), (⟨r, b, d⟩, ⟨1, 0, 0⟩), (⟨r, f, d⟩, ⟨1, 0, 0⟩),
     (⟨r, b, u⟩, ⟨0, 1, 0⟩), (⟨l, b, u⟩, ⟨0, 1, 0⟩), (⟨l, b, d⟩, ⟨0, 1, 0⟩), (⟨r, b, d⟩, ⟨0, 1, 0⟩),
     (⟨l, b, u⟩, ⟨-1, 0, 0⟩), (⟨l, f, u⟩, ⟨-1, 0, 0⟩), (⟨l, f, d⟩, ⟨-1, 0, 0⟩), (⟨l, b, d⟩, ⟨-1, 0, 0⟩),
     (⟨l, f, d⟩, ⟨0, 0, -1⟩), (⟨r, f, d⟩, ⟨0, 0, -1⟩), (⟨r, b, d⟩, ⟨0, 0, -1⟩), (⟨l, b, d⟩, ⟨0, 0, -1⟩)]
   else [])

/-! ### patches -/

inductive Kind where
  | horizontal
  | vertical
  | negative
  deriving DecidableEq, Repr

/-- the fields of a SurfacePatch (MLSPatch.hpp) that are drawn; `a`, `b`, `c` are the coefficients of
its plane -/
structure Patch where
  mean : ℚ
  height : ℚ
  stdev : ℚ
  lo : ℚ
  hi : ℚ
  kind : Kind
  color : ℕ
  a : ℚ
  b : ℚ
  c : ℚ

/-- getHeight, MLSPatch.hpp l.202-207 -/
def Patch.at (p : Patch) (x y : ℚ) : ℚ := x * p.a + y * p.b + p.c

/-- getNormal, MLSPatch.hpp l.214-217 (its direction) -/
def Patch.normal (p : Patch) : P := ⟨-p.a, -p.b, 1⟩

/-- the settings of the visualization and of the grid -/
structure Setup where
  xs : ℚ
  ys : ℚ
  xo : ℚ
  yo : ℚ
  slope : Bool
  hasCellColor : Bool
  cycleHeightColor : Bool
  interval : ℚ
  horizontalColor : ℕ
  verticalColor : ℕ
  negativeColor : ℕ
  estimateNormals : Bool
  showNegative : Bool

/-- the colour for the next geometry, l.385-404 -/
def setup (s : Setup) (g : Geode) (p : Patch) : Geode :=
  if s.hasCellColor then ({ g with cycleColor := false }).setColor p.color
  else if s.cycleHeightColor then
    ({ g with cycleColor := true, interval := s.interval }).setColorHSVA
      (hue p.mean s.interval) 1 (6 / 10) (max 0 (1 - p.stdev))
  else g.setColor s.horizontalColor

/-- the geometry of a patch in the cell (x, y); `normal` is the result of estimateNormal, l.406-449 -/
def drawPatch (s : Setup) (normal : P) (x y : ℕ) (g0 : Geode) (p : Patch) : Geode :=
  let xp := (x + 1 / 2) * s.xs + s.xo
  let yp := (y + 1 / 2) * s.ys + s.yo
  let g := setup s g0 p
  if s.slope then
    if p.kind = .negative then g
    else g.addVertices ((drawPlane xp yp s.xs s.ys (p.at 0 0) (p.at s.xs 0) (p.at s.xs s.ys) (p.at 0 s.ys)
      p.lo p.hi).map fun v => (v, p.normal))
  else if p.kind = .horizontal then
    g.addVertices (boxVertices xp yp p.mean s.xs s.ys 0
      (if s.estimateNormals then normal else ⟨0, 0, 1⟩))
  else if p.kind = .vertical ∨ s.showNegative then
    (g.setColor (if p.kind = .vertical then s.verticalColor else s.negativeColor)).addVertices
      (boxVertices xp yp (p.mean - p.height * (1 / 2)) s.xs s.ys p.height ⟨0, 0, 1⟩)
  else g

/-- the ends of the line of the uncertainty, l.451-455 -/
def uncertainty (s : Setup) (x y : ℕ) (p : Patch) : List P :=
  let xp := (x + 1 / 2) * s.xs + s.xo
  let yp := (y + 1 / 2) * s.ys + s.yo
  [⟨xp, yp, p.mean - p.height * (1 / 2) + (p.height * (1 / 2) + p.stdev)⟩,
   ⟨xp, yp, p.mean - p.height * (1 / 2) - (p.height * (1 / 2) + p.stdev)⟩]

/-! ### normals -/

/-- an index of size_t: the conversion of an int wraps around -/
def wrap (i : ℤ) : ℕ := (i % (2 ^ 64 : ℤ)).toNat

/-- the grid seen by estimateNormal: its size, and for each cell the mean of the patch that `get`
finds near the given one -/
structure View where
  w : ℕ
  h : ℕ
  get : ℕ → ℕ → Option ℚ

/-- the summand of one neighbour, l.322-329 -/
def summand (s : Setup) (v : View) (x y : ℕ) (mean : ℚ) (n i : ℤ) : P :=
  let px := wrap (x + n * i)
  let py := wrap (y + (n - 1) * i)
  if px < v.w ∧ py < v.h then
    match v.get px py with
    | some m =>
      ⟨(((px : ℚ) + 1 / 2) * s.xs + s.xo - ((x + 1 / 2) * s.xs + s.xo)) * i,
       (((py : ℚ) + 1 / 2) * s.ys + s.yo - ((y + 1 / 2) * s.ys + s.yo)) * i,
       (m - mean) * i⟩
    | none => ⟨0, 0, 0⟩
  else ⟨0, 0, 0⟩

def addP (a b : P) : P := ⟨a.x + b.x, a.y + b.y, a.z + b.z⟩

def cross (a b : P) : P :=
  ⟨a.y * b.z - a.z * b.y, a.z * b.x - a.x * b.z, a.x * b.y - a.y * b.x⟩

/-- d[n], l.317-331 -/
def slopeOf (s : Setup) (v : View) (x y : ℕ) (mean : ℚ) (n : ℤ) : P :=
  addP (summand s v x y mean n (-1)) (summand s v x y mean n 1)

/-- estimateNormal, l.311-341 (its direction) -/
def estimateNormal (s : Setup) (v : View) (x y : ℕ) (mean : ℚ) : P :=
  let n := cross (slopeOf s v x y mean 0) (slopeOf s v x y mean 1)
  if n = ⟨0, 0, 0⟩ then ⟨0, 0, 1⟩ else n

/-- updateNode, l.375-458: the cells in the order of the loops, each with its patches and their
estimated normals -/
def drawCells (s : Setup) (g : Geode) (l : List (ℕ × ℕ × List (P × Patch))) : Geode :=
  l.foldl (fun g c => c.2.2.foldl (fun g p => drawPatch s p.1 c.1 c.2.1 g p.2) g) g

end Envire.PatchView
