import Mathlib.Analysis.Convex.Hull
import Mathlib.Data.Real.Sqrt
import Mathlib.Tactic.Linarith

/-!
Model of Polygon and PolygonSet, src/maps/PolygonMap.cpp and PolygonMap.hpp.

Simplifications: real numbers for `float` and `double`. Of Box2D: b2PolygonShape::Set (l.40) stands for the convex hull of the
points, which are three to eight (otherwise an assertion of Box2D fails); b2Distance is the distance of the hulls, less the
radii of both shapes, and at least zero; ComputeAABB bounds the placed vertices, extended by the radius; CreateProxy of the
broad phase stores the box, extended by a margin; Query calls back for all stored boxes that meet the given one, in any order,
until a callback returns false; TestPoint tests the hull. Polygons are numbers that stand for their addresses.
-/

namespace Envire.Polygon

abbrev P := ℝ × ℝ

noncomputable section

/-- the constants of Box2D: radius of polygons, margin of boxes, and 10 * b2_epsilon -/
structure Consts where
  radius : ℝ
  margin : ℝ
  eps : ℝ

/-- b2Transform: sine and cosine of the angle, and the position -/
structure Pose where
  c : ℝ
  s : ℝ
  p : P

/-- b2Mul of a transform and a point -/
def Pose.apply (t : Pose) (v : P) : P := (t.c * v.1 - t.s * v.2 + t.p.1, t.s * v.1 + t.c * v.2 + t.p.2)

/-- b2MulT of a transform and a point -/
def Pose.back (t : Pose) (v : P) : P := (t.c * (v.1 - t.p.1) + t.s * (v.2 - t.p.2), -t.s * (v.1 - t.p.1) + t.c * (v.2 - t.p.2))

/-- SetIdentity -/
def Pose.one : Pose := ⟨1, 0, 0⟩

/-- the points of a shape at a pose -/
def hull (shape : List P) (t : Pose) : Set P := convexHull ℝ {q | ∃ v ∈ shape, q = t.apply v}

/-- Euclidean distance -/
def dist (a b : P) : ℝ := √((a.1 - b.1) ^ 2 + (a.2 - b.2) ^ 2)

/-- b2Distance with useRadii, l.186-200 -/
def distance (k : Consts) (a b : Set P) : ℝ := max 0 (sInf {d | ∃ p ∈ a, ∃ q ∈ b, d = dist p q} - 2 * k.radius)

/-- b2AABB -/
structure Box where
  lo : P
  hi : P

def minL (f : P → ℝ) : List P → ℝ
  | [] => 0
  | [v] => f v
  | v :: w :: l => min (f v) (minL f (w :: l))

def maxL (f : P → ℝ) : List P → ℝ
  | [] => 0
  | [v] => f v
  | v :: w :: l => max (f v) (maxL f (w :: l))

/-- ComputeAABB -/
def aabb (k : Consts) (shape : List P) (t : Pose) : Box :=
  let l := shape.map t.apply
  ⟨(minL Prod.fst l - k.radius, minL Prod.snd l - k.radius), (maxL Prod.fst l + k.radius, maxL Prod.snd l + k.radius)⟩

/-- the box that CreateProxy stores -/
def Box.fat (k : Consts) (b : Box) : Box := ⟨(b.lo.1 - k.margin, b.lo.2 - k.margin), (b.hi.1 + k.margin, b.hi.2 + k.margin)⟩

/-- b2TestOverlap -/
def Box.meets (a b : Box) : Prop := a.lo.1 ≤ b.hi.1 ∧ b.lo.1 ≤ a.hi.1 ∧ a.lo.2 ≤ b.hi.2 ∧ b.lo.2 ≤ a.hi.2

/-- PolygonData, l.18-27, without the number of the proxy, which is not read -/
structure Poly where
  shape : List P
  area : List P
  pose : Pose
  box : Box
  moved : Bool

/-- Polygon::Polygon, l.44-50 -/
def Poly.create (k : Consts) (points : List P) : Poly := ⟨points, points, .one, aabb k points .one, true⟩

/-- setDistanceCalculationArea, l.52-56 -/
def Poly.setArea (k : Consts) (p : Poly) (points : List P) : Poly := { p with area := points, box := aabb k points p.pose }

/-- move, l.64-71 -/
def Poly.move (k : Consts) (p : Poly) (t : Pose) : Poly := { p with moved := true, pose := t, box := aabb k p.area t }

/-- PolygonSetData, l.76-92; `proxies` are the polygons with the boxes that the broad phase stores. A distance of `none` is the
largest `float` -/
structure PSet where
  proxies : List (Nat × Box)
  cur : Option Nat
  coll : Option Nat
  has : Bool
  minDist : Option ℝ

/-- l.79-82 -/
def PSet.new : PSet := ⟨[], none, none, false, none⟩

/-- all polygons -/
abbrev World := Nat → Poly

/-- add, l.109-118 -/
def PSet.add (k : Consts) (w : World) (s : PSet) (i : Nat) : PSet := { s with proxies := s.proxies ++ [(i, (w i).box.fat k)] }

/-- the hull of a polygon -/
def Poly.hull (p : Poly) : Set P := Polygon.hull p.shape p.pose

open Classical in
/-- QueryCallback, l.183-219, for polygon `j` -/
def PSet.callback (k : Consts) (w : World) (i : Nat) (s : PSet) (j : Nat) : PSet × Bool :=
  let d := distance k (w i).hull (w j).hull
  let collision := decide (d < k.eps)
  let s := if collision then { s with has := true, coll := some j } else s
  let s := match s.minDist with
    | none => { s with minDist := some d }
    | some m => if d < m then { s with minDist := some d } else s
  (s, !collision)

/-- the callbacks of a query until one returns false -/
def PSet.visit (k : Consts) (w : World) (i : Nat) : PSet → List Nat → PSet
  | s, [] => s
  | s, j :: l => match s.callback k w i j with
    | (s, true) => PSet.visit k w i s l
    | (s, false) => s

/-- the order of the callbacks of b2BroadPhase::Query: the polygons whose stored box meets the box, in some order -/
structure Broad where
  query : List (Nat × Box) → Box → List Nat
  mem : ∀ l b j, j ∈ query l b ↔ ∃ c, (j, c) ∈ l ∧ b.meets c

/-- doQuery, l.125-138 -/
def PSet.doQuery (k : Consts) (br : Broad) (w : World) (s : PSet) (i : Nat) : World × PSet :=
  if s.cur = some i ∧ (w i).moved = false then (w, s)
  else
    (Function.update w i { w i with moved := false },
      PSet.visit k w i { s with has := false, minDist := none, cur := some i } (br.query s.proxies (w i).box))

/-- getMinimalDistance, l.140-145 -/
def PSet.getMinimalDistance (k : Consts) (br : Broad) (w : World) (s : PSet) (i : Nat) : Option ℝ × World × PSet :=
  let r := s.doQuery k br w i
  (r.2.minDist, r)

/-- isIntersecting, l.170-175 -/
def PSet.isIntersecting (k : Consts) (br : Broad) (w : World) (s : PSet) (i : Nat) : Bool × World × PSet :=
  let r := s.doQuery k br w i
  (r.2.has, r)

open Classical in
/-- TestPoint of a shape, for a pose and a point -/
def testPoint (shape : List P) (t : Pose) (v : P) : Bool := decide (t.back v ∈ convexHull ℝ {q | q ∈ shape})

/-- isInside, l.147-168 -/
def PSet.isInside (k : Consts) (br : Broad) (w : World) (s : PSet) (i : Nat) : Bool × World × PSet :=
  let r := s.doQuery k br w i
  (r.2.has && match r.2.coll with
    | none => false
    | some j => (w i).shape.all fun v => testPoint (w j).shape (w i).pose v, r)

end

end Envire.Polygon
