/-!
Model of how the visualization chooses the visualizer of an item.

Source modelled: /repo/viz/EnvireVisualization.cpp l.35-54 (the registered visualizers and their order),
/repo/viz/EnvireEventListener.cpp l.161-164 (addVisualizer), l.226-235 (getVisualizerForItem), the functions handlesItem
of the visualizers (cited at `handled`) and the type tests at the start of updateNode (cited at `draws`).

Simplifications: the classes are those of /repo/src/core and /repo/src/maps that a user can attach, and any number of
classes that users derive from them. `dynamic_cast` succeeds for the class itself and all of its base classes (there is
no multiple inheritance here).
-/
namespace Envire.Dispatch

/-- the classes of items; `derived n c`: a class of a user with base class `c` -/
inductive Cls
  | item | layer | frameNode | operator
  | cartesianMap | gridBase | bandedGrid
  | gridFloat | gridDouble | gridByte | gridShort
  | elevationGrid | distanceGrid | confidenceGrid | occupancyGrid | imageRGB24 | traversabilityGrid
  | mlsGrid | mlsMap | mapSegment | pointcloud | featurecloud | triMesh | polygonMap | laserScan
  | derived (n : Nat) (c : Cls)
deriving DecidableEq

/-- the base class: ElevationGrid.hpp l.8, Featurecloud.hpp l.11, Grid.hpp l.44, l.74, GridBase.hpp l.22, Grids.hpp l.10-58,
LaserScan.hpp l.12, MLSGrid.hpp l.44, MLSMap.hpp l.10, MapSegment.hpp l.12, Pointcloud.hpp l.10, PolygonMap.hpp l.54,
TraversabilityGrid.hpp l.126, TriMesh.hpp l.17, FrameNode.hpp l.22, Layer.hpp l.13, Operator.hpp l.21 -/
def base : Cls → Option Cls
  | .item => none
  | .layer => some .item
  | .frameNode => some .item
  | .operator => some .item
  | .cartesianMap => some .layer
  | .gridBase => some .cartesianMap
  | .bandedGrid => some .gridBase
  | .gridFloat => some .bandedGrid
  | .gridDouble => some .bandedGrid
  | .gridByte => some .bandedGrid
  | .gridShort => some .bandedGrid
  | .elevationGrid => some .gridDouble
  | .distanceGrid => some .gridFloat
  | .confidenceGrid => some .gridByte
  | .occupancyGrid => some .gridByte
  | .imageRGB24 => some .gridByte
  | .traversabilityGrid => some .gridByte
  | .mlsGrid => some .gridBase
  | .mlsMap => some .cartesianMap
  | .mapSegment => some .cartesianMap
  | .pointcloud => some .cartesianMap
  | .featurecloud => some .pointcloud
  | .triMesh => some .pointcloud
  | .polygonMap => some .cartesianMap
  | .laserScan => some .cartesianMap
  | .derived _ c => some c

/-- the visualizers of EnvireVisualization.cpp l.37-46 -/
inductive Viz
  | grid | laserScan | frameNode | triMesh | pointcloud | elevationGrid | mls | imageRGB24 | traversabilityGrid | mapSegment
deriving DecidableEq

/-- whether `dynamic_cast<d *>(item)` succeeds for an item of the class, at most `n` steps up -/
def castN : Nat → Cls → Cls → Bool
  | 0, c, d => c == d
  | n + 1, c, d => c == d || match base c with
    | none => false
    | some b => castN n b d

/-- the number of steps to the root of the classes -/
def depth : Cls → Nat
  | .derived _ c => depth c + 1
  | _ => 8

/-- dynamic_cast -/
def cast (c d : Cls) : Bool := castN (depth c) c d

/-- the classes for which handlesItem tests: GridVisualization.cpp l.34-44, LaserScanVisualization.cpp l.11-17,
FrameNodeVisualization.cpp l.25-28, TriMeshVisualization.cpp l.26-29, PointcloudVisualization.cpp l.41-44,
ElevationGridVisualization.cpp l.26-31, MLSVisualization.cpp l.87-90, ImageRGB24Visualization.cpp l.17-23,
TraversabilityGridVisualization.cpp l.13-20, MapSegmentVisualization.cpp l.12-15 -/
def handled : Viz → List Cls
  | .grid => [.gridFloat, .gridDouble, .gridByte]
  | .laserScan => [.laserScan]
  | .frameNode => [.frameNode]
  | .triMesh => [.triMesh]
  | .pointcloud => [.pointcloud, .featurecloud]
  | .elevationGrid => [.elevationGrid]
  | .mls => [.mlsGrid]
  | .imageRGB24 => [.imageRGB24]
  | .traversabilityGrid => [.gridByte]
  | .mapSegment => [.mapSegment]

/-- handlesItem -/
def handles (z : Viz) (c : Cls) : Bool := (handled z).any (cast c)

/-- the classes that updateNode (getNodeForItem of the laser scans) casts to: GridVisualization.cpp l.63-104,
LaserScanVisualization.cpp l.22-23, FrameNodeVisualization.cpp l.41-44, TriMeshVisualization.cpp l.54-55,
PointcloudVisualization.cpp l.70-71, ElevationGridVisualization.cpp l.36, MLSVisualization.cpp, ImageRGB24Visualization.cpp l.30-32,
TraversabilityGridVisualization.cpp l.91-93, MapSegmentVisualization.cpp l.44-45 -/
def drawn : Viz → List Cls
  | .grid => [.gridFloat, .gridDouble, .gridByte]
  | .laserScan => [.laserScan]
  | .frameNode => [.frameNode]
  | .triMesh => [.triMesh]
  | .pointcloud => [.pointcloud]
  | .elevationGrid => [.elevationGrid]
  | .mls => [.mlsGrid]
  | .imageRGB24 => [.imageRGB24]
  | .traversabilityGrid => [.traversabilityGrid]
  | .mapSegment => [.mapSegment]

/-- whether the assertion of updateNode holds -/
def draws (z : Viz) (c : Cls) : Bool := (drawn z).any (cast c)

/-- the visualizers in the order of EnvireVisualization.cpp l.37-46 -/
def registered : List Viz :=
  [.grid, .laserScan, .frameNode, .triMesh, .pointcloud, .elevationGrid, .mls, .imageRGB24, .traversabilityGrid, .mapSegment]

/-- getVisualizerForItem, EnvireEventListener.cpp l.226-235 -/
def visualizerFor (c : Cls) : Option Viz := registered.reverse.find? (fun z => handles z c)

/-- what happens when an item is attached, EnvireEventListener.cpp l.238-252 -/
inductive Shown
  /-- the item is not handled, l.245-249 -/
  | ignored
  | by (z : Viz)
  /-- the assertion of updateNode fails (without assertions, a null pointer is used) -/
  | aborts
deriving DecidableEq

def attach (c : Cls) : Shown :=
  match visualizerFor c with
  | none => .ignored
  | some z => if draws z c then .by z else .aborts

end Envire.Dispatch
