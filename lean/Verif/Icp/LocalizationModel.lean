import Verif.Icp.RansacModel
import Verif.Icp.AlignModel
import Mathlib.Analysis.SpecialFunctions.Trigonometric.Inverse

/-!
Model of ICPLocalization, icp/icpLocalization.cpp and icp/icpLocalization.hpp l.56-127: initializePointCloud, addLaserScan,
addScanLineToPointCloud, hasNewPointCloud, generatePointcloud, generatePointcloudSample, doScanMatch.

Simplifications: real numbers for `double`, integers without bounds for `int`. Transforms are rigid. A laser scan is the list
of the points of its valid readings, in the frame of the laser; convertScanToPointCloud transforms them. The times of the scans
are left out. normalize() of the zero vector is the zero vector. The files of the environment are not part of the model, nor
are the items that doScanMatch attaches and detaches.
-/

namespace Envire.Icp.Loc

open Envire.Icp Envire.Icp.Ransac

noncomputable section

/-- Eigen::Affine3d of a rigid transform -/
@[ext] structure Rigid where
  r : M3
  t : V3
  orth : r.transpose * r = 1

def Rigid.apply (a : Rigid) (v : V3) : V3 := a.r.mulVec v + a.t

/-- product -/
def Rigid.mul (a b : Rigid) : Rigid where
  r := a.r * b.r
  t := a.r.mulVec b.t + a.t
  orth := by
    rw [Matrix.transpose_mul, Matrix.mul_assoc, ← Matrix.mul_assoc a.r.transpose, a.orth, Matrix.one_mul, b.orth]

/-- inverse() -/
def Rigid.inv (a : Rigid) : Rigid where
  r := a.r.transpose
  t := -(a.r.transpose.mulVec a.t)
  orth := by rw [Matrix.transpose_transpose]; exact mul_eq_one_comm.1 a.orth

/-- angle of an AngleAxisd of a rotation, from 0 to pi -/
def angle (r : M3) : ℝ := Real.arccos ((tr r - 1) / 2)

def dot (a b : V3) : ℝ := a 0 * b 0 + a 1 * b 1 + a 2 * b 2

/-- Vector3d::UnitY() -/
def unitY : V3 := ![0, 1, 0]

/-- normalize() -/
def normalize (v : V3) : V3 := (norm3 v)⁻¹ • v

/-- ICPPointCloudConfiguration, icpConfigurationTypes.hpp l.35-46 -/
structure LineConf where
  lines : ℤ
  advance : ℤ
  distance : ℝ
  rotation : ℝ
  head : ℝ

/-- LaserAndTransform, icpLocalization.hpp l.56-63; `scan` are the points in the frame of the laser -/
structure Lat where
  odo : Rigid
  world : Rigid
  laser : Rigid
  scan : List V3

/-- the members for the point clouds, l.69 and l.86-92 -/
structure State where
  conf : LineConf
  lastIndex : ℤ
  count : ℤ
  scans : List Lat

/-- initializePointCloud, icpLocalization.cpp l.12-19 -/
def init (c : LineConf) : State := ⟨c, 0, 0, []⟩

/-- addLaserScan, l.33-46; a negative number of lines is a large unsigned number -/
def State.push (s : State) (x : Lat) : State :=
  { s with
    scans := if 0 ≤ s.conf.lines then (s.scans ++ [x]).drop (s.scans.length + 1 - s.conf.lines.toNat) else s.scans ++ [x]
    count := s.count + 1 }

/-- laserChange, l.67-72: `back` is the last scan that is stored, `y` the one at the current index -/
def laserChange (x back y : Lat) : ℝ :=
  Real.arccos (dot (normalize (x.laser.apply unitY - x.laser.t)) (normalize (back.laser.apply unitY - y.laser.t)))

/-- the condition of l.76 -/
def exceeds (c : LineConf) (x back y : Lat) : Prop :=
  c.rotation < |angle (x.odo.inv.mul y.odo).r| ∨ c.distance < norm3 (x.odo.inv.mul y.odo).t ∨ c.head < laserChange x back y

open Classical in
/-- the loop l.62-93 -/
def accepts (c : LineConf) (x back : Lat) : List Lat → Bool
  | [] => true
  | y :: l => if exceeds c x back y then accepts c x back l else false

/-- addScanLineToPointCloud, l.48-102 -/
def State.add (s : State) (x : Lat) : State :=
  match s.scans.getLast? with
  | none => s.push x
  | some back => if accepts s.conf x back s.scans then s.push x else s

/-- hasNewPointCloud, l.104-112 -/
def State.hasNew (s : State) : Bool := decide (s.conf.lines < s.count ∧ s.conf.advance < s.count - s.lastIndex)

/-- ICPInputData -/
structure Input where
  pc2World : Rigid
  vertices : List V3

/-- generatePointcloud, l.132-169; `none`: back() of an empty deque -/
def State.generate (s : State) : Option (Input × State) :=
  s.scans.getLast?.map fun last =>
    let odo2World := last.world.mul last.odo.inv
    (⟨last.world, s.scans.flatMap fun y => y.scan.map (last.world.inv.mul ((odo2World.mul y.odo).mul y.laser)).apply⟩,
      { s with lastIndex := s.count })

/-- generatePointcloudSample, l.171-181 -/
def sample (d : Input) (offset : Rigid) : Input :=
  ⟨{ (offset.mul d.pc2World) with t := offset.t + d.pc2World.t }, d.vertices⟩

/-! ### doScanMatch -/

/-- COV_MODE, icpConfigurationTypes.hpp l.12-16 -/
inductive CovMode | hard | mse | no
  deriving DecidableEq

/-- ICPConfiguration l.51-72 without the settings of the alignment -/
structure MatchConf where
  density : ℝ
  maxIter : Nat
  mode : CovMode
  covPosition : ℝ
  covOrientation : ℝ

/-- ICPResult, icpLocalization.hpp l.39-54, without the time. `some none` and `none` of the error and of the covariances are
infinite and not initialised. A covariance is the factor of the identity -/
structure MatchResult where
  points : Nat
  pairs : Nat
  start : Tf
  dest : Option Tf
  mse : Option (Option ℝ)
  distances : List ℝ
  covPosition : Option (Option ℝ)
  covOrientation : Option (Option ℝ)

/-- l.228-229, for an error that is finite and not zero -/
def mseFactor (density mse : ℝ) : ℝ := max 1 density / 4 / √mse

open Classical in
/-- a covariance c / pow( mseFactor / 2, 4 ), l.230-231; an infinite error gives a factor of 0, no error an infinite one -/
def covOf (c density : ℝ) (mse : Option ℝ) : Option ℝ :=
  mse.map fun m => if m = 0 then 0 else c / (mseFactor density m / 2) ^ 4

/-- doScanMatch, l.188-252, of a point cloud whose frame node is a child of the root node -/
def doScanMatch (u : Setup) (model : List V3) (c : MatchConf) (vertices : List V3) (pc2World : Tf) (mse : ℝ) : Res MatchResult :=
  match align u model (.mk' vertices c.density pc2World) c.maxIter mse with
  | .throws => .throws
  | .undefined => .undefined
  | .ok r =>
    let base : MatchResult := ⟨vertices.length, r.pairs, pc2World, none, none, [], none, none⟩
    .ok (if r.pairs = 0 then base
      else { base with
        dest := some (applyTransform pc2World pc2World r.c), mse := some r.mse, distances := r.distances
        covPosition := match c.mode with
          | .hard => some (some c.covPosition)
          | .mse => some (covOf (1e-3 * 2) c.density r.mse)
          | .no => some none
        covOrientation := match c.mode with
          | .hard => some (some c.covOrientation)
          | .mse => some (covOf (Real.pi / 180) c.density r.mse)
          | .no => some none })

end

end Envire.Icp.Loc
