/-!
Model of how the settings of operators are saved with a scene and loaded again: `serialize` and
`unserialize` of the operators in src/operators, and the default constructors, since a loaded
operator is made by `new T()` (src/core/Serialization.hpp l.20-25).

An entry of the yaml map is a key and a value; if a key occurs twice the last one counts, and a
key that is missing leaves the variable as it is (src/core/Serialization.cpp l.119-142, l.225-237).

Simplifications: values are read as they were written (C29 treats numbers in a document); entries
of the base classes (id, label, inputs and outputs) are left out, they do not use these keys. The
settings of SimpleTraversability other than its inputs are treated in SimpleModel.lean (C71).
-/

namespace Envire.Settings

/-- a value of a setting; a flag is 0 or 1 -/
inductive Val where
  | num (q : Rat)
  | str (s : String)
  | vec (x y z : Rat)
  /-- the exclusion boxes of CutPointcloud -/
  | boxes (l : List Nat)
  deriving DecidableEq, Repr

/-- a kind of operator: its settings with their default values, the keys with the variables that
are written, and the keys with the variables that are read, in this order -/
structure Class where
  name : String
  defaults : List (String × Val)
  writes : List (String × String)
  reads : List (String × String)
  /-- there is an ENVIRONMENT_ITEM_DEF for the class -/
  registered : Bool := true

/-- the variables of an operator -/
abbrev Vars := String → Val

abbrev Doc := List (String × Val)

def Class.fresh (c : Class) : Vars := fun v => (c.defaults.lookup v).getD (.num 0)

/-- serialize -/
def Class.save (c : Class) (o : Vars) : Doc := c.writes.map fun p => (p.1, o p.2)

/-- findNodeInMap, Serialization.cpp l.119-142 -/
def find (key : String) : Doc → Option Val
  | [] => none
  | p :: d =>
    match find key d with
    | some v => some v
    | none => if p.1 = key then some p.2 else none

def assign (o : Vars) (v : String) (x : Val) : Vars := fun w => if w = v then x else o w

/-- read, Serialization.cpp l.225-237 and Serialization.hpp l.86 -/
def read (d : Doc) (o : Vars) (p : String × String) : Vars :=
  match find p.1 d with
  | some x => assign o p.2 x
  | none => o

/-- unserialize of a new operator -/
def Class.unserialize (c : Class) (d : Doc) : Vars := c.reads.foldl (read d) c.fresh

/-- createObject, SerializationFactory.cpp l.22-44; `none` is an exception -/
def Class.load (c : Class) (d : Doc) : Option Vars :=
  if c.registered then some (c.unserialize d) else none

/-! ### the operators -/

/-- ScanMeshing.cpp l.15-41; the default of maxEdgeAngle, 85 degrees in radians, is written as the
number of degrees -/
def scanMeshing : Class where
  name := "ScanMeshing"
  defaults := [("maxEdgeAngle", .num 85), ("maxEdgeLength", .num (1 / 2)),
    ("remissionScaleFactor", .num 10000), ("remissionMarkerThreshold", .num 16000),
    ("minRange", .num (1 / 10)), ("maxRange", .num 1000000000), ("extractMarkers", .num 0),
    ("useRemission", .num 0)]
  writes := [("maxEdgeLength", "maxEdgeLength"), ("remissionScaleFactor", "maxEdgeLength"),
    ("minRange", "minRange")]
  reads := [("maxEdgeLength", "maxEdgeLength"), ("remissionScaleFactor", "maxEdgeLength"),
    ("minRange", "minRange")]

/-- MLSToGrid.cpp l.10-26, ElevationGrid::ELEVATION -/
def mlsToGrid : Class where
  name := "MLSToGrid"
  defaults := [("outLayerName", .str "elevation_max")]
  writes := [("out_layer_name", "outLayerName")]
  reads := [("out_layer_name", "outLayerName")]

/-- GridFloatToMLS.cpp l.7-22 -/
def gridFloatToMLS : Class where
  name := "GridFloatToMLS"
  defaults := [("band", .str "")]
  writes := [("band_name", "band")]
  reads := [("band_name", "band")]

/-- SimplifyPointcloud.cpp l.23-44 -/
def simplifyPointcloud : Class where
  name := "SimplifyPointcloud"
  defaults := [("computeSpacing", .num 0), ("simplifyCellSize", .num (1 / 20)),
    ("outlierPercentage", .num 5), ("smoothNeighbours", .num 24)]
  writes := []
  reads := []

/-- MLSProjection.cpp l.11-24 -/
def mlsProjection : Class where
  name := "MLSProjection"
  defaults := [("withUncertainty", .num 1), ("negativeInformation", .num 0),
    ("defaultUncertainty", .num (1 / 100)), ("useBoundaryBox", .num 0)]
  writes := []
  reads := []

/-- DistanceGridToPointcloud.hpp l.13-15 -/
def distanceGridToPointcloud : Class where
  name := "DistanceGridToPointcloud"
  defaults := [("uncertaintyFactor", .num (1 / 10)), ("maxDistance", .num 10)]
  writes := []
  reads := []

/-- CutPointcloud.hpp l.28-43 -/
def cutPointcloud : Class where
  name := "CutPointcloud"
  defaults := [("exclusionBoxes", .boxes [])]
  writes := []
  reads := []

/-- MergePointcloud.cpp l.17-33 -/
def mergePointcloud : Class where
  name := "MergePointcloud"
  defaults := [("clearOutput", .num 1)]
  writes := []
  reads := []

/-- MLSSlope.hpp l.13-37 -/
def mlsSlope : Class where
  name := "MLSSlope"
  defaults := [("correctedStepThreshold", .num (1 / 4)), ("useStddev", .num 0),
    ("requiredMeasurementsPerPatch", .num 0), ("windowSize", .num 1)]
  writes := []
  reads := []

/-- MergeMLS.hpp: there is no serialize -/
def mergeMLS : Class where
  name := "MergeMLS"
  defaults := [("reverse", .num 0)]
  writes := []
  reads := []

/-- GridIllumination.cpp l.9-12: there is no serialize -/
def gridIllumination : Class where
  name := "GridIllumination"
  defaults := [("lightSource", .vec 0 0 0), ("lightDiameter", .num 0),
    ("band", .str "illumination")]
  writes := []
  reads := []

/-- TraversabilityGrowClasses.hpp: there is no constructor, so that `new T()` sets the radius to
zero, and no serialize -/
def traversabilityGrowClasses : Class where
  name := "TraversabilityGrowClasses"
  defaults := [("radius", .num 0)]
  writes := []
  reads := []

/-- TraversabilityGrassfire.hpp l.21-42 and the class Config: there is no serialize -/
def traversabilityGrassfire : Class where
  name := "TraversabilityGrassfire"
  defaults := [("maxStepHeight", .num 0), ("maxSlope", .num 0), ("robotHeight", .num 0),
    ("numTraversabilityClasses", .num 0), ("numNominalMeasurements", .num 1),
    ("outliertFilterMinMeasurements", .num 0), ("outliertFilterMaxStdDev", .num 0)]
  writes := []
  reads := []

/-- Fold.hpp l.17: there is no serialize -/
def doubleFoldOperator : Class where
  name := "DoubleFoldOperator"
  defaults := [("neighbourhood", .num 0)]
  writes := []
  reads := []

/-- SurfaceReconstruction.cpp l.18-32: it has no settings, and is not registered -/
def surfaceReconstruction : Class where
  name := "SurfaceReconstruction"
  defaults := []
  writes := []
  reads := []
  registered := false

/-- the operators with settings -/
def classes : List Class :=
  [scanMeshing, mlsToGrid, gridFloatToMLS, simplifyPointcloud, mlsProjection,
    distanceGridToPointcloud, cutPointcloud, mergePointcloud, mlsSlope, mergeMLS, gridIllumination,
    traversabilityGrowClasses, traversabilityGrassfire, doubleFoldOperator]

/-! ### the inputs of SimpleTraversability -/

/-- an input: the id of the map and its band -/
abbrev Input := String × String

/-- l.46 and l.64 -/
def inputKey (i : Nat) : String := "input" ++ toString i

/-- l.47 and l.68 -/
def bandKey (i : Nat) : String := "input" ++ toString i ++ "_band"

/-- serialize, SimpleTraversability.cpp l.42-49, for the two inputs -/
def saveInput (i : Nat) (x : Input) : Doc :=
  if x.1 ≠ "" ∧ x.2 ≠ "" then
    [(inputKey i, .str x.1), (bandKey i, .str x.2)]
  else []

def saveInputs (slope step : Input) : Doc := saveInput 0 slope ++ saveInput 1 step

/-- `so.read<std::string>(key)`, Serialization.hpp l.87-92 -/
def readString (key : String) (d : Doc) : String :=
  match find key d with
  | some (.str s) => s
  | _ => ""

/-- unserialize, SimpleTraversability.cpp l.62-70 -/
def loadInput (i : Nat) (d : Doc) : Input :=
  match find (inputKey i) d with
  | some _ => (readString (inputKey i) d, readString (bandKey i) d)
  | none => ("", "")

def loadInputs (d : Doc) : Input × Input := (loadInput 0 d, loadInput 1 d)

end Envire.Settings
