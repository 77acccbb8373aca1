/-!
Model of the operators CutPointcloud (src/operators/CutPointcloud.cpp) and MergePointcloud (src/operators/MergePointcloud.cpp).

Simplifications: points and normals are elements of an arbitrary type V, colours of C, attributes of A, variances of S. The relative
transform and its rotation are functions on V (C09 is about the transform itself). Every metadata array has the type that its key stands for
(C59). The input clouds are not the output cloud (assertions l.78, l.67). Boxes are identified by a number (the pointer).
-/

namespace Envire.Cloud

variable {V C A S : Type}

/-- `Pointcloud`: the vertices and the arrays of metadata, `none` if there is no entry for the key; Pointcloud.hpp l.17-35 -/
structure Cloud (V C A S : Type) where
  vertices : List V := []
  color : Option (List C) := none
  normal : Option (List V) := none
  attributes : Option (List A) := none
  variance : Option (List S) := none

/-- `Pointcloud::clear`; Pointcloud.hpp l.55-62: the arrays stay, without elements -/
def Cloud.clear (c : Cloud V C A S) : Cloud V C A S :=
  { vertices := []
    color := c.color.map fun _ => []
    normal := c.normal.map fun _ => []
    attributes := c.attributes.map fun _ => []
    variance := c.variance.map fun _ => [] }

/-- outcome of an operator; `exception` with the output cloud as it was left -/
inductive Outcome (V C A S : Type) where
  | ok (c : Cloud V C A S)
  | exception (c : Cloud V C A S)
  | undefined

/-! ### CutPointcloud -/

/-- `ExclusionBox`; CutPointcloud.hpp l.10-17. `contains` is that of the `AlignedBox`. -/
structure Box (V : Type) where
  contains : V → Bool
  exclude : Bool

/-- `addBox`; CutPointcloud.cpp l.39-44 -/
def addBox (boxes : List Nat) (b : Nat) : List Nat := if b ∈ boxes then boxes else boxes ++ [b]

/-- `removeBox`; l.46-51 -/
def removeBox (boxes : List Nat) (b : Nat) : List Nat := boxes.erase b

/-- `isIncluded`; l.53-69 -/
def isIncluded (v : V) : List (Box V) → Bool
  | [] => true
  | b :: bs =>
    if b.contains v then (if b.exclude then false else isIncluded v bs)
    else (if !b.exclude then false else isIncluded v bs)

/-- the target array of metadata exists if the source has one; l.89-108 -/
def create {α : Type} (src tgt : Option (List α)) : Option (List α) :=
  match src with
  | none => tgt
  | some _ => some (tgt.getD [])

/-- copy of one element of metadata; l.121-124, l.127-128 -/
def pushAt {α : Type} (src tgt : Option (List α)) (f : α → α) (i : Nat) : Option (List α) :=
  match src with
  | none => tgt
  | some l =>
    match l[i]? with
    | none => tgt
    | some x => tgt.map fun t => t ++ [f x]

/-- the loop of `updateAll`; l.115-130. The attributes (l.125) depend on the array of the variances, which may not exist. -/
def cutLoop (incl : V → Bool) (trans rot : V → V) (src : Cloud V C A S) : List V → Nat → Cloud V C A S → Outcome V C A S
  | [], _, t => .ok t
  | v :: vs, i, t =>
    if incl v then
      let t1 := { t with
        vertices := t.vertices ++ [trans v]
        normal := pushAt src.normal t.normal rot i
        color := pushAt src.color t.color id i }
      let next (t : Cloud V C A S) := cutLoop incl trans rot src vs (i + 1) { t with variance := pushAt src.variance t.variance id i }
      match src.attributes with
      | none => next t1
      | some a =>
        match src.variance with
        | none => .undefined
        | some w =>
          if i < w.length then
            match a[i]? with
            | none => .exception t1
            | some x => next { t1 with attributes := t1.attributes.map fun l => l ++ [x] }
          else next t1
    else cutLoop incl trans rot src vs (i + 1) t

/-- `updateAll`; l.71-134 -/
def cut (boxes : List (Box V)) (trans rot : V → V) (src tgt : Cloud V C A S) : Outcome V C A S :=
  let t := tgt.clear
  cutLoop (fun v => isIncluded v boxes) trans rot src src.vertices 0
    { t with
      normal := create src.normal t.normal
      color := create src.color t.color
      attributes := create src.attributes t.attributes
      variance := create src.variance t.variance }

/-! ### MergePointcloud -/

/-- an input cloud with its transform to the frame of the output, and the rotation of this -/
structure Input (V C A S : Type) where
  cloud : Cloud V C A S
  trans : V → V
  rot : V → V

/-- the loop over the inputs; MergePointcloud.cpp l.71-114 -/
def mergeLoop (hasNormal hasColor : Bool) : List (Input V C A S) → Cloud V C A S → Outcome V C A S
  | [], t => .ok t
  | c :: cs, t =>
    let t1 := { t with vertices := t.vertices ++ c.cloud.vertices.map c.trans }
    let colors (t : Cloud V C A S) : Outcome V C A S :=
      if hasColor then
        match c.cloud.color with
        | none => .exception t
        | some l => mergeLoop hasNormal hasColor cs { t with color := some (t.color.getD [] ++ l) }
      else mergeLoop hasNormal hasColor cs t
    if hasNormal then
      match c.cloud.normal with
      | none => .exception t1
      | some l => colors { t1 with normal := some (t1.normal.getD [] ++ l.map c.rot) }
    else colors t1

/-- `updateAll`; l.51-118 -/
def merge (clear : Bool) (inputs : List (Input V C A S)) (tgt : Cloud V C A S) : Outcome V C A S :=
  mergeLoop (inputs.any fun c => c.cloud.normal.isSome) (inputs.any fun c => c.cloud.color.isSome) inputs
    (if clear then tgt.clear else tgt)

end Envire.Cloud
