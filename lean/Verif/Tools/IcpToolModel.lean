import Verif.Core.TransformModel
import Verif.Core.CloneModel

/-!
Model of the tool env_icp, tools/env_icp.cpp l.15-148.

The tool makes a tree of the meshes of an environment: the mesh with the highest sum of adjacencies becomes the root, and
then always the mesh with the highest adjacency to the meshes in the tree is linked below its neighbour.

Simplifications: exact transforms (elements of a group) without uncertainty; the matrix of the adjacencies is a parameter
`adj` of the model, the matrix the tool fills is `filled` (the code that counts the pairs is commented out, l.44-51, as is
the alignment l.127-144); the update of the meshes l.29-33 does not change frames and is left out. The handlers the events
go to are not modelled. maxCoeff takes the first row with the highest sum. `assert` is active.
-/

namespace Envire.IcpTool

open Envire Envire.Env

/-- l.27 and l.37-56: no entry is set; the sum with the transposed matrix is zero again -/
def filled (_ _ : Nat) : Int := 0

/-- the local struct `highest`, l.78-84 -/
structure Highest where
  /-- parent and child; none: both are -1 -/
  link : Option (Nat × Nat) := none
  adjacency : Int := -1

/-- l.95-100 -/
def consider (adj : Nat → Nat → Int) (taken : List Nat) (h : Highest) (i j : Nat) : Highest :=
  if j ∉ taken ∧ adj i j > h.adjacency then ⟨some (i, j), adj i j⟩ else h

/-- the loops l.90-102 -/
def highest (adj : Nat → Nat → Int) (n : Nat) (taken : List Nat) : Highest :=
  taken.foldl (fun h i => (List.range n).foldl (fun h j => consider adj taken h i j) h) {}

/-- adjMat.rowwise().sum() -/
def total (adj : Nat → Nat → Int) (n i : Nat) : Int := ((List.range n).map (adj i)).sum

/-- maxCoeff(&i, &j), l.65; none: the matrix is empty -/
def rootMesh (adj : Nat → Nat → Int) (n : Nat) : Option Nat :=
  (List.range n).foldl (fun b i => match b with
    | none => some i
    | some k => if total adj n i > total adj n k then some i else some k) none

/-- what a run ends with -/
inductive Out (G : Type) where
  /-- exit(0) without writing the environment, l.119 -/
  | exits
  /-- the environment is written, l.146-147 -/
  | saved (s : Env) (tf : Obj → G) (graph : List (Nat × Nat))
  | throws
  | faults
  /-- the loop of relativeTransform does not end -/
  | hangs

variable {G : Type} [Group G]

/-- the loop l.88-121; k: the meshes that are not in the tree. graph: pairs of child and parent -/
def joinAll (adj : Nat → Nat → Int) (meshes : List Obj) : Nat → Env → (Obj → G) → List Nat → List (Nat × Nat) → Out G
  | 0, s, tf, _, graph => .saved s tf graph
  | k + 1, s, tf, taken, graph =>
    match highest adj meshes.length taken with
    | ⟨some (p, c), a⟩ =>
      if a > 0 then
        match (meshes[c]?).bind s.getFrameNode, (meshes[p]?).bind s.getFrameNode with
        | some fc, some fp =>
          match s.relativeTransform (groupOps G) tf fc fp with
          | .throw => .throws
          | .diverge => .hangs
          | .ok t =>
            match s.addChildF fp fc with
            | .throw _ => .throws
            | .fault _ => .faults
            | .ok s => joinAll adj meshes k s (upd tf fc t) (taken ++ [c]) (graph ++ [(c, p)])
        | _, _ => .faults
      else .exits
    | ⟨none, _⟩ => .exits

/-- main l.27-148. fresh: the address of the frame made in l.70; its transform is the identity (FrameNode.cpp l.15-19) -/
def envIcp (adj : Nat → Nat → Int) (meshes : List Obj) (s : Env) (tf : Obj → G) (fresh : Obj) : Out G :=
  match rootMesh adj meshes.length with
  | none => .faults
  | some i =>
    match (Clone.alloc s fresh .frame).addChildF s.rootNode fresh with
    | .throw _ => .throws
    | .fault _ => .faults
    | .ok s =>
      match (meshes[i]?).bind s.getFrameNode with
      | none => .faults
      | some f =>
        match s.addChildF fresh f with
        | .throw _ => .throws
        | .fault _ => .faults
        | .ok s => joinAll adj meshes (meshes.length - 1) s (upd tf fresh 1) [i] []

end Envire.IcpTool
