import Verif.Serial.FileModel

/-!
Model of the classes of items and their names: /repo/src/core/SerializationFactory.cpp l.16-49, Serialization.hpp l.39-48 (SerializationPlugin), EnvironmentItem.hpp l.10-16 (ENVIRONMENT_ITEM_DEF,
ENVIRONMENT_ITEM), the uses of both in /repo/src, Grids.cpp l.19-25, MLSGrid.cpp l.8-12, SimpleTraversability.cpp l.8-12, Grid.hpp l.346.

Simplifications: a class is its name in C++; what its constructor makes is the matter of other models. `typeid(T).name()` is the name in the Itanium ABI (gcc). No class is registered with a null pointer. The
exception for an empty name (std::out_of_range of substr) is not told apart from the exception for unknown classes. All source files of the library are linked.
-/
namespace Envire.Class

open Envire (Cls unqualified)

/-- the map of the factory: name and class -/
abbrev Registry := List (Cls × String)

/-- addClass, SerializationFactory.cpp l.46-49: a name that exists is overwritten -/
def addClass (r : Registry) (p : Cls × String) : Registry := p :: r.filter fun q => q.1 ≠ p.1

/-- the plugins are made one after the other before main begins -/
def registerAll (plugins : List (Cls × String)) : Registry := plugins.foldl addClass []

/-- find in the map -/
def find (r : Registry) (c : Cls) : Option String := (r.find? fun q => q.1 = c).map (·.2)

/-- createObject, l.22-44; `none` is an exception -/
def createObject (r : Registry) (c : Cls) : Option String :=
  match find r c with
  | some k => some k
  | none =>
    match unqualified c with
    | none => none
    | some n => find r n

/-- the plugins of the library: ENVIRONMENT_ITEM_DEF and the explicit ones -/
def pluginNames : List (String × String) := [
  ("envire::GridFloatToMLS", "GridFloatToMLS"), ("envire::GridIllumination", "GridIllumination"), ("envire::Projection", "Projection"),
  ("envire::TraversabilityGrassfire", "TraversabilityGrassfire"), ("envire::MergeMLS", "MergeMLS"), ("envire::MLSSlope", "MLSSlope"), ("envire::MLSToGrid", "MLSToGrid"),
  ("envire::MLSProjection", "MLSProjection"), ("envire::ObjectGrowingUINT8", "ObjectGrowingUINT8"), ("envire::TraversabilityGrowClasses", "TraversabilityGrowClasses"),
  ("envire::SimpleTraversability", "SimpleTraversability"), ("envire::MergePointcloud", "MergePointcloud"), ("envire::DistanceGridToPointcloud", "DistanceGridToPointcloud"),
  ("envire::ScanMeshing", "ScanMeshing"), ("envire::SimplifyPointcloud", "SimplifyPointcloud"), ("envire::MLSToPointCloud", "MLSToPointCloud"),
  ("envire::DoubleFoldOperator", "DoubleFoldOperator"), ("envire::CutPointcloud", "CutPointcloud"), ("envire::MapSegment", "MapSegment"), ("envire::LaserScan", "LaserScan"),
  ("envire::TriMesh", "TriMesh"), ("envire::ConfidenceGrid", "ConfidenceGrid"), ("envire::DistanceGrid", "DistanceGrid"), ("envire::OccupancyGrid", "OccupancyGrid"),
  ("envire::ImageRGB24", "ImageRGB24"), ("envire::ElevationGrid", "ElevationGrid"), ("envire::Pointcloud", "Pointcloud"), ("envire::MLSGrid", "MLSGrid"),
  ("envire::TraversabilityGrid", "TraversabilityGrid"), ("envire::PolygonMap", "PolygonMap"), ("envire::Featurecloud", "Featurecloud"), ("envire::MLSMap", "MLSMap"),
  ("envire::FrameNode", "FrameNode"), ("Grid_d", "Grid<double>"), ("Grid_f", "Grid<float>"), ("Grid_h", "Grid<uint8_t>"), ("Grid_s", "Grid<int16_t>"), ("Grid_t", "Grid<uint16_t>"),
  ("Grid_i", "Grid<int32_t>"), ("Grid_j", "Grid<uint32_t>"), ("MultiLevelSurfaceGrid", "MLSGrid"), ("nav_graph_search::TraversabilityClassifier", "SimpleTraversability"),
  ("envire::MLSSimpleTraversability", "SimpleTraversability")]

def plugins : List (Cls × String) := pluginNames.map fun p => (p.1.toList, p.2)

/-- `getClassName` of the classes with ENVIRONMENT_ITEM and of grids: the name in saved scenes and in binary events (Serialization.cpp l.385, l.763) -/
def savedNames : List (String × String) := [
  ("GridFloatToMLS", "envire::GridFloatToMLS"), ("GridIllumination", "envire::GridIllumination"), ("Projection", "envire::Projection"),
  ("TraversabilityGrassfire", "envire::TraversabilityGrassfire"), ("MergeMLS", "envire::MergeMLS"), ("MLSSlope", "envire::MLSSlope"), ("MLSToGrid", "envire::MLSToGrid"),
  ("MLSProjection", "envire::MLSProjection"), ("ObjectGrowingUINT8", "envire::ObjectGrowingUINT8"), ("TraversabilityGrowClasses", "envire::TraversabilityGrowClasses"),
  ("SimpleTraversability", "envire::SimpleTraversability"), ("MergePointcloud", "envire::MergePointcloud"), ("DistanceGridToPointcloud", "envire::DistanceGridToPointcloud"),
  ("ScanMeshing", "envire::ScanMeshing"), ("SimplifyPointcloud", "envire::SimplifyPointcloud"), ("MLSToPointCloud", "envire::MLSToPointCloud"),
  ("DoubleFoldOperator", "envire::DoubleFoldOperator"), ("CutPointcloud", "envire::CutPointcloud"), ("MapSegment", "envire::MapSegment"), ("LaserScan", "envire::LaserScan"),
  ("TriMesh", "envire::TriMesh"), ("ConfidenceGrid", "envire::ConfidenceGrid"), ("DistanceGrid", "envire::DistanceGrid"), ("OccupancyGrid", "envire::OccupancyGrid"),
  ("ImageRGB24", "envire::ImageRGB24"), ("ElevationGrid", "envire::ElevationGrid"), ("Pointcloud", "envire::Pointcloud"), ("MLSGrid", "envire::MLSGrid"),
  ("TraversabilityGrid", "envire::TraversabilityGrid"), ("PolygonMap", "envire::PolygonMap"), ("Featurecloud", "envire::Featurecloud"), ("MLSMap", "envire::MLSMap"),
  ("FrameNode", "envire::FrameNode"), ("Grid<double>", "envire::Grid_d"), ("Grid<float>", "envire::Grid_f"), ("Grid<uint8_t>", "envire::Grid_h"), ("Grid<int16_t>", "envire::Grid_s"),
  ("Grid<uint16_t>", "envire::Grid_t"), ("Grid<int32_t>", "envire::Grid_i"), ("Grid<uint32_t>", "envire::Grid_j")]

/-- `getClassName` of the other classes that can be used: SurfaceReconstruction.cpp l.18; ClassGridProjection (ClassGridProjection.hpp l.26-60) has no name of its own and getClassName of Operator is that of EnvironmentItem (EnvironmentItem.hpp l.135) -/
def otherNames : List (String × String) := [("SurfaceReconstruction", "envire::SurfaceReconstruction"), ("ClassGridProjection", "envire::EnvironmentItem")]

end Envire.Class
