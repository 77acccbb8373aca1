import Mathlib.Data.List.Basic
import Mathlib.Data.Int.Basic

/-!
Model of ScanMeshing::updateAll, src/operators/ScanMeshing.cpp l.110-320: how the readings of a laser scan become vertices and faces of a mesh. The positions of the vertices and the filters for the readings are in
Verif/Ops/ScanModel.

Simplifications: what depends on the scan only is given for each reading (`Item`): the vertex (position and variance, which are always added together) if the reading passes the filters, its colour if colours are used,
and whether the triangles are reversed. The markers l.203-227 are only printed and not modelled. Integers do not overflow. The normals are in Verif/Maps/NormalModel.
-/

namespace Envire.Mesh

inductive Res (A : Type) where
  | ok (a : A)
  /-- access outside of an array or use of an uninitialised value -/
  | undefined
  /-- failed assertion -/
  | aborts
deriving DecidableEq, Repr

/-- a reading of the scan: the vertex if it passes the filters (l.165), the colour that is added with it (l.193-201), whether triangles are reversed (l.282) -/
structure Item (P C : Type) where
  point : Option P
  colour : Option C
  flip : Bool

/-- the mesh and the two index lines l.140-141. An entry of an index line that is `none` is uninitialised. -/
structure St (P C : Type) where
  points : List P
  colors : List C
  attrs : List Nat
  faces : List (Int × Int × Int)
  idx : List (Option Int)
  prev : List (Option Int)

/-- the k-th entry of idx; l.262 -/
def corner (n k : Nat) : Nat := k + (if n ≤ k then 1 else 0)

/-- the body of the loop over n, l.262-295. The integer is first_poly. -/
def triangle {P C : Type} (near : P → P → Bool) (flip : Bool) (poly : Nat → Int) (n : Nat) (s : St P C) (first : Int) : Res (St P C × Int) :=
  let a := poly (corner n 0)
  let b := poly (corner n 1)
  let c := poly (corner n 2)
  if a > 0 ∧ b > 0 ∧ c > 0 ∧ (first = -1 ∨ (first + n) % 2 = 0) then
    match s.points[a.toNat]?, s.points[b.toNat]?, s.points[c.toNat]? with
    | some x, some y, some z =>
      if near x y && near x z && near y z then .ok ({ s with faces := s.faces ++ [if flip then (a, c, b) else (a, b, c)] }, n) else .ok (s, first)
    | _, _, _ => .undefined
  else .ok (s, first)

/-- the loop over n, l.261 -/
def triangles {P C : Type} (near : P → P → Bool) (flip : Bool) (poly : Nat → Int) : List Nat → St P C → Int → Res (St P C)
  | [], s, _ => .ok s
  | n :: l, s, first => match triangle near flip poly n s first with
    | .ok (s, first) => triangles near flip poly l s first
    | .undefined => .undefined
    | .aborts => .aborts

/-- l.251-298 -/
def quad {P C : Type} (near : P → P → Bool) (flip : Bool) (lineNum n : Nat) (s : St P C) : Res (St P C) :=
  if lineNum > 0 ∧ n > 0 then
    match s.prev[n - 1]?, s.prev[n]?, s.idx[n]?, s.idx[n - 1]? with
    | some (some a), some (some b), some (some c), some (some d) => triangles near flip (fun k => if k = 0 then a else if k = 1 then b else if k = 2 then c else d) [0, 1, 2, 3] s (-1)
    | _, _, _, _ => .undefined
  else .ok s

/-- l.165-249. `numLines` and `size` are the numbers of lines and of the ranges of the line. -/
def vertex {P C : Type} (numLines size lineNum n : Nat) (it : Item P C) (s : St P C) : Res (St P C) :=
  if n < s.idx.length then
    match it.point with
    | some x =>
      let edge := n = 0 ∨ n = size - 1 ∨ lineNum = 0 ∨ lineNum = numLines - 1
      .ok { s with points := s.points ++ [x], colors := s.colors ++ it.colour.toList, attrs := s.attrs ++ [if edge then 2 else 0], idx := s.idx.set n (some (s.points.length : Int)) }
    | none => .ok { s with idx := s.idx.set n (some (-1)) }
  else .undefined

/-- the loop over the readings from the reading n on, l.152-301 -/
def readings {P C : Type} (near : P → P → Bool) (numLines size lineNum : Nat) : Nat → List (Item P C) → St P C → Res (St P C)
  | _, [], s => .ok s
  | n, it :: l, s => match vertex numLines size lineNum n it s with
    | .undefined => .undefined
    | .aborts => .aborts
    | .ok s => match quad near it.flip lineNum n s with
      | .undefined => .undefined
      | .aborts => .aborts
      | .ok s => readings near numLines size lineNum (n + 1) l s

/-- the loop over the lines, l.143-307; the index lines are swapped after each line -/
def lines {P C : Type} (near : P → P → Bool) (numLines : Nat) : Nat → List (List (Item P C)) → St P C → Res (St P C)
  | _, [], s => .ok s
  | k, l :: ls, s => match readings near numLines l.length k 0 l s with
    | .ok s => lines near numLines (k + 1) ls { s with idx := s.prev, prev := s.idx }
    | .undefined => .undefined
    | .aborts => .aborts

/-- the mesh after the update. The colours are removed if there are none. -/
structure Mesh (P C : Type) where
  points : List P
  colors : Option (List C)
  attrs : List Nat
  faces : List (Int × Int × Int)
deriving DecidableEq, Repr

/-- updateAll, l.110-326 -/
def mesh {P C : Type} (near : P → P → Bool) (pointsPerLine : Nat) (scan : List (List (Item P C))) : Res (Mesh P C) :=
  match lines near scan.length 0 scan { points := [], colors := [], attrs := [], faces := [], idx := List.replicate pointsPerLine none, prev := List.replicate pointsPerLine none } with
  | .ok s => if s.colors.isEmpty || s.colors.length == s.points.length then .ok ⟨s.points, if s.colors.isEmpty then none else some s.colors, s.attrs, s.faces⟩ else .aborts
  | .undefined => .undefined
  | .aborts => .aborts

end Envire.Mesh
