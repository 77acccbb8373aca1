import Mathlib.Data.Rat.Floor

/-!
Model of the drawing of point clouds and meshes.

Source modelled: /repo/viz/PointcloudVisualization.cpp l.15-36, l.64-195 (without the circles of key points, l.152-192);
/repo/viz/TriMeshVisualization.cpp l.31-98; /repo/viz/MapSegmentVisualization.cpp l.35-66 (trajectories).

Simplifications: exact numbers for `float` and `double`; a geode is the list of its drawables, each with its vertices, its
colours and how the vertices are put together. Reading behind the end of an array is the outcome `none`.
-/
namespace Envire.CloudView

abbrev V3 := ℚ × ℚ × ℚ

/-- osg::Vec4 -/
structure Rgba where
  r : ℚ
  g : ℚ
  b : ℚ
  a : ℚ
deriving DecidableEq

/-- colour array with its binding -/
inductive Colours
  | overall (c : Rgba)
  | perVertex (l : List Rgba)
deriving DecidableEq

/-- osg::PrimitiveSet: the mode and the numbers of the vertices in order -/
inductive Prim
  | points (n : Nat)
  | lines (n : Nat)
  | lineStrip (n : Nat)
  | triangles (l : List Nat)
deriving DecidableEq

/-- osg::Geometry -/
structure Geometry where
  vertices : List V3
  colours : Colours
  normals : Option (List V3)
  prim : Prim
deriving DecidableEq

/-- Pointcloud and TriMesh: vertices, the data VERTEX_COLOR and VERTEX_NORMAL, faces -/
structure Cloud where
  vertices : List V3
  colours : Option (List V3)
  normals : Option (List V3)
  faces : List (Nat × Nat × Nat)

/-- the settings of PointcloudVisualization, l.15-22 -/
structure Settings where
  vertexColor : Rgba
  normalColor : Rgba
  normalScaling : ℚ
  showNormals : Bool
  colorCycling : Bool

/-- l.74-84; `address` is the pointer as a number of 64 bits -/
def pointColor (st : Settings) (address : Nat) : Rgba :=
  if st.colorCycling then
    let c (k : Nat) : ℚ := ((address * k % 2 ^ 64 % 256 : Nat) : ℚ) / 255
    ⟨c 88734, c 398482, c 36784787, 1⟩
  else st.vertexColor

/-- l.86-103 -/
def cloudColours (st : Settings) (address : Nat) (c : Cloud) : Colours :=
  match c.colours with
  | some l => .perVertex (l.map fun v => ⟨v.1, v.2.1, v.2.2, 1⟩)
  | none => .overall (pointColor st address)

/-- l.71-122 -/
def pointGeometry (st : Settings) (address : Nat) (c : Cloud) : Geometry :=
  { vertices := c.vertices, colours := cloudColours st address c, normals := none, prim := .points c.vertices.length }

/-- the loop l.136-141: `normals[n]` for each vertex -/
def normalLines (scaling : ℚ) : List V3 → List V3 → Option (List V3)
  | [], _ => some []
  | _ :: _, [] => none
  | p :: ps, n :: ns =>
    (normalLines scaling ps ns).map fun l => p :: (p.1 + n.1 * scaling, p.2.1 + n.2.1 * scaling, p.2.2 + n.2.2 * scaling) :: l

/-- l.124-150 -/
def normalGeometry (st : Settings) (c : Cloud) (ns : List V3) : Option Geometry :=
  (normalLines st.normalScaling c.vertices ns).map fun l =>
    { vertices := l, colours := .overall st.normalColor, normals := none, prim := .lines l.length }

/-- updateNode l.64-195 for a cloud without key points: the old drawables are removed, l.67-68 -/
def updateCloud (st : Settings) (address : Nat) (c : Cloud) (_old : List Geometry) : Option (List Geometry) :=
  match c.normals, st.showNormals with
  | some ns, true => (normalGeometry st c ns).map fun g => [g, pointGeometry st address c]
  | _, _ => some [pointGeometry st address c]

/-- TriMeshVisualization::updateNode l.49-98 -/
def updateMesh (c : Cloud) (_old : List Geometry) : List Geometry :=
  [{ vertices := c.vertices, colours := .overall ⟨1, 1, 1, 1⟩, normals := c.normals, prim := .triangles (c.faces.flatMap fun f => [f.1, f.2.1, f.2.2]) }]

/-- MapSegmentVisualization::updateNode l.47-66 -/
def updateSegment (trajectories : List (List V3)) : List Geometry :=
  trajectories.map fun t => { vertices := t, colours := .overall ⟨1, 1, 1, 1⟩, normals := none, prim := .lineStrip t.length }

/-- highlightNode, PointcloudVisualization.cpp l.46-53, TriMeshVisualization.cpp l.31-38: the first drawable; `none`: there is none -/
def paint (c : Rgba) : List Geometry → Option (List Geometry)
  | [] => none
  | g :: l => some ({ g with colours := .overall c } :: l)

def red : Rgba := ⟨1, 0, 0, 1⟩

def highlight (l : List Geometry) : Option (List Geometry) := paint red l

/-- unHighlightNode, PointcloudVisualization.cpp l.55-62 -/
def unhighlightCloud (st : Settings) (l : List Geometry) : Option (List Geometry) := paint st.vertexColor l

/-- unHighlightNode, TriMeshVisualization.cpp l.40-47 -/
def unhighlightMesh (l : List Geometry) : Option (List Geometry) := paint ⟨1, 1, 1, 1⟩ l

end Envire.CloudView
