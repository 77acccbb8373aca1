/-!
Model of how the settings of new operators get their values: the constructors in /repo/src/operators — MLSSlope.hpp l.23-52, TraversabilityGrowClasses.hpp l.8-24 and .cpp l.7-15, l.17-22,
TraversabilityGrassfire.hpp l.15-42 and .cpp l.399-402, ScanMeshing.cpp l.9-25, l.62-95, SimplifyPointcloud.cpp l.23-34 and .hpp l.23-26, MLSProjection.cpp l.11-14 and .hpp l.26-28, GridIllumination.cpp
l.9-12, MergeMLS.hpp l.15-19, MergePointcloud.cpp l.17-20, DistanceGridToPointcloud.hpp l.13-20, SimpleTraversability.hpp l.39-44 and .cpp l.14-40, Fold.hpp l.17-22 — and the two ways in which
operators are made, `new T` in Environment::create, /repo/src/core/Environment.hpp l.322-328, and `new T()` when a scene is loaded, /repo/src/core/Serialization.hpp l.20-24.

Simplifications: a member has a value of a type `V`, `none` means that it was never written. Members with constructors of their own (strings, the structures with the configuration) are written by
them; Eigen vectors are not. A class without constructor has an implicit one; with `new T()` its members are zero first (C++11). Members that updateAll writes before it reads them are left out.
-/
namespace Envire.Init

variable {V : Type}

/-- the members an operator has and their values -/
abbrev Members (V : Type) := String → Option V

/-- the constructors of a class with their arguments: members that are written and their values -/
inductive Ctor (V : Type)
  /-- written by the programmer -/
  | user (writes : List (String × V))
  /-- implicit: members with constructors of their own -/
  | implicit (writes : List (String × V))

inductive Way
  /-- `new T` -/
  | plain
  /-- `new T()` -/
  | value
  deriving DecidableEq

def put (m : Members V) (e : String × V) : Members V := fun x => if x = e.1 then some e.2 else m x

/-- a new operator -/
def make (zero : V) (w : Way) : Ctor V → Members V
  | .user l => l.foldl put (fun _ => none)
  | .implicit l => l.foldl put (fun _ => if w = .value then some zero else none)

/-- the calls of setters after it -/
def run (m : Members V) (calls : List (String × V)) : Members V := calls.foldl put m

/-- MLSSlope(), MLSSlope( t, b ) and MLSSlope( t, b, r ) -/
def mlsSlope0 (quarter off zero one : V) : Ctor V := .user [("threshold", quarter), ("useStddev", off), ("required", zero), ("window", one)]
def mlsSlope2 (t b : V) : Ctor V := .user [("threshold", t), ("useStddev", b)]
def mlsSlope3 (t b r : V) : Ctor V := .user [("threshold", t), ("useStddev", b), ("required", r)]
def mlsSlopeReads : List String := ["threshold", "useStddev", "required", "window"]

def growClasses : Ctor V := .implicit []
def growClassesReads : List String := ["radius"]

/-- the configuration has a constructor -/
def grassfire (conf : V) : Ctor V := .implicit [("config", conf)]
def grassfireReads : List String := ["config", "startPos"]

/-- constructors that write every member that is read; `d` are the values -/
def others (d : String → V) : List (String × Ctor V × List String) :=
  let c := fun l : List String => (Ctor.user (l.map fun x => (x, d x)), l)
  [("ScanMeshing", c ["maxEdgeAngle", "maxEdgeLength", "remissionScaleFactor", "remissionMarkerThreshold", "minRange", "maxRange", "extractMarkers", "useRemission"]),
   ("SimplifyPointcloud", c ["computeSpacing", "simplifyCellSize", "outlierPercentage", "smoothNeighbours"]),
   ("MLSProjection", c ["withUncertainty", "negativeInformation", "defaultUncertainty", "useBoundaryBox", "boundaryBox"]),
   ("GridIllumination", c ["lightSource", "lightDiameter", "band"]),
   ("MergeMLS", c ["reverse"]),
   ("MergePointcloud", c ["clearOutput"]),
   ("DistanceGridToPointcloud", c ["uncertaintyFactor", "maxDistance"]),
   ("SimpleTraversability", c ["inputs", "bands", "outputBand", "maximumSlope", "classCount", "minWidth", "groundClearance", "obstacleClearance"]),
   ("FoldOperator", c ["neighbourhood"])]

end Envire.Init
