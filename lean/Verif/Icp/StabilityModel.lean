import Verif.Icp.RansacModel

/-!
Model of the classes SigmaPoints, Clustering and Sampling of icp/stability.hpp l.28-168 and icp/stability.cpp l.16-268.

Simplifications: real numbers for `double`. A transform is its translation and the first Euler angle of its rotation, as this is
all that is used; `wrap a` is the Euler angle that Eigen returns for a rotation by `a` about the z axis. The Cholesky factor of a
matrix comes from `chol`, of which the theorems assume `IsChol`. Norms of matrices are needed of diagonal matrices and of the
limits only. A set of points is not empty where means are taken (otherwise NaN).
-/

namespace Envire.Icp.Stability

open Envire.Icp Envire.Icp.Ransac

noncomputable section

/-- SigmaPointConfiguration, icpConfigurationTypes.hpp -/
structure SigmaConf where
  min_norm : ℝ
  max_norm : ℝ
  n_sigma : ℤ

/-- a column of a matrix -/
def col (m : M3) (j : Fin 3) : V3 := fun i => m i j

/-- col( j ) of Identity * a -/
def axis (a : ℝ) (j : Fin 3) : V3 := fun i => if i = j then a else 0

open Classical in
/-- one column of the loop of calcSigmaPoints, stability.hpp l.44-50 -/
def clamp (c : SigmaConf) (j : Fin 3) (v : V3) : V3 :=
  let u := if norm3 v < c.min_norm then axis c.min_norm j else v
  if c.max_norm < norm3 u then axis c.max_norm j else u

/-- calcSigmaPoints, l.36-58; `l` is the Cholesky factor -/
def sigmaPoints (c : SigmaConf) (l : M3) : M3 := fun i j => clamp c j (fun k => (c.n_sigma : ℝ) * l k j) i

/-! ### Clustering -/

/-- a transform: translation and Euler angle -/
structure Pose where
  t : V3
  yaw : ℝ

/-- ClusteringConfiguration -/
structure Conf where
  min_number : Nat
  remove_outliers : Bool
  outliers_position : SigmaConf
  outliers_orientation : SigmaConf

/-- Clustering, stability.hpp l.86-93; the diagonals of the covariances -/
structure Clustering where
  conf : Conf
  points : List Pose
  mean : Pose
  covT : V3
  covYaw : ℝ
  limitPos : M3
  limitOri : M3

/-- calcMean, stability.cpp l.70-92 -/
def meanT (ps : List Pose) : V3 := fun i => (ps.map fun p => p.t i).sum / ps.length
def meanYaw (ps : List Pose) : ℝ := (ps.map Pose.yaw).sum / ps.length

/-- calcVariance, l.36-67; l.47 takes the rotation of points.at(0) -/
def varT (m : Pose) (ps : List Pose) : V3 := fun i => (ps.map fun p => (m.t i - p.t i) ^ 2).sum / ps.length
def varYaw (wrap : ℝ → ℝ) (m : Pose) (ps : List Pose) : ℝ :=
  (ps.map fun _ => (wrap m.yaw - (ps.head?.map Pose.yaw).getD 0) ^ 2).sum / ps.length

/-- calcMean and calcVariance -/
def Clustering.stats (wrap : ℝ → ℝ) (s : Clustering) : Clustering :=
  let m : Pose := ⟨meanT s.points, meanYaw s.points⟩
  { s with mean := m, covT := varT m s.points, covYaw := varYaw wrap m s.points }

/-- norm() of a matrix -/
def frob (m : M3) : ℝ := √(∑ i, ∑ j, m i j ^ 2)

/-- defOutlinerRegion, l.94-105 -/
def Clustering.defRegion (chol : M3 → M3) (s : Clustering) (covP covO : M3) : Clustering :=
  let _ := covO
  if s.conf.remove_outliers then
    let p := sigmaPoints s.conf.outliers_position (chol covP)
    let o := sigmaPoints s.conf.outliers_orientation (chol covP)
    { s with limitOri := o * o, limitPos := p * p }
  else s

open Classical in
/-- the loops l.126-134 and l.139-147: the first index with the greatest difference above `max`; `i` is the index of the head -/
def furthest (best : Option Nat) (max : ℝ) (i : Nat) : List ℝ → Option Nat
  | [] => best
  | d :: ds => if max < d then furthest (some i) d (i + 1) ds else furthest best max (i + 1) ds

open Classical in
/-- l.120-149: the point to remove, after stats -/
def Clustering.outlier (wrap : ℝ → ℝ) (s : Clustering) : Option Nat :=
  if frob s.limitPos < norm3 s.covT then furthest none 0 0 (s.points.map fun p => |norm3 s.mean.t - norm3 p.t|)
  else if s.limitOri 2 2 < s.covYaw then furthest none 0 0 (s.points.map fun p => |p.yaw - wrap s.mean.yaw|)
  else none

/-- removeOutliers, l.107-168; `fuel` bounds the number of rounds, the number of points is enough -/
def Clustering.removeOutliers (wrap : ℝ → ℝ) : Nat → Clustering → Bool × Clustering
  | 0, s => (false, s)
  | fuel + 1, s =>
    if s.points.length < s.conf.min_number then (false, s)
    else
      let s' := s.stats wrap
      match s'.outlier wrap with
      | none => (true, s')
      | some i => removeOutliers wrap fuel { s' with points := s'.points.eraseIdx i }

/-- cluster, l.16-35 -/
def Clustering.cluster (wrap : ℝ → ℝ) (s : Clustering) (ps : List Pose) : Bool × Clustering :=
  let s := { s with points := ps }
  if ps.length < s.conf.min_number then (false, s)
  else if s.conf.remove_outliers then s.removeOutliers wrap (ps.length + 1)
  else (true, s.stats wrap)

/-! ### Sampling -/

/-- Sampling, stability.hpp l.120-168; `last` is not initialised by the constructor (`none`) -/
structure Sampling where
  position : SigmaConf
  orientation : SigmaConf
  last : Option Nat
  samples : List Pose
  sigmaP : M3
  sigmaO : M3

/-- defSearchRegion, stability.cpp l.186-192 -/
def Sampling.defRegion (chol : M3 → M3) (s : Sampling) (covP covO : M3) : Sampling :=
  { s with last := some 0, sigmaP := sigmaPoints s.position (chol covP), sigmaO := sigmaPoints s.orientation (chol covO) }

/-- calcSigmaSamples, l.234-268; sign, then the columns 0 and 1, then the yaw -/
def Sampling.calc (s : Sampling) : List Pose :=
  ⟨0, 0⟩ :: ([1, -1] : List ℝ).flatMap fun sign =>
    ([0, 1] : List (Fin 3)).map (fun c => (⟨sign • col s.sigmaP c, 0⟩ : Pose)) ++ [⟨0, sign * norm3 (col s.sigmaO 2)⟩]

/-- getSigmaSample, l.217-231; `none` is undefined behaviour -/
def Sampling.next (s : Sampling) : Option (Pose × Sampling) :=
  match s.last with
  | none => none
  | some n =>
    let s := if n = 0 then { s with samples := s.calc } else s
    if n = s.samples.length then some (⟨0, 0⟩, s)
    else
      match s.samples[n]? with
      | some p => some (p, { s with last := some (n + 1) })
      | none => none

/-- getUniformSample, l.194-215, for the random values r0, r1, r2 and r3 of -1 to 1 -/
def Sampling.uniform (s : Sampling) (r : Fin 3 → ℝ) (r3 : ℝ) : Pose :=
  ⟨fun i => if i = 2 then 0 else ∑ c, r c * col s.sigmaP c i, r3 * norm3 (col s.sigmaO 2)⟩

end

end Envire.Icp.Stability
