import Mathlib.Data.Real.Basic
import Mathlib.Tactic.Linarith
import Mathlib.Tactic.NormNum

/-!
Model of the class Histogram of icp/stability.hpp l.171-216 and icp/stability.cpp l.277-403.

Simplifications: real numbers for `double`; the factors of calcSVMValue are arbitrary. The number of bins, a `double` in the
code, is a natural number: with another number the loop of l.361-386 does not find its last bin.
-/

namespace Envire.Icp.Hist

noncomputable section

/-- outcome of a call: `undefined` stands for undefined behaviour -/
inductive Res (α : Type) | ok (a : α) | throws | undefined

/-- HistogramConfiguration, icpConfigurationTypes.hpp -/
structure Conf where
  bins : Nat
  area : ℝ
  normalization : Bool
  mean : ℝ
  sigma : ℝ

/-- Histogram; `svm_value` is not initialised by the constructor -/
structure Histogram where
  conf : Conf
  histogram : List ℝ
  limits : List ℝ
  svm_value : ℝ

/-- l.324 -/
def binSize (c : Conf) : ℝ := c.area / c.bins

/-- bin_lower_limit, l.343-346 -/
def inner (c : Conf) (bin : Nat) : ℝ := (-(c.bins : ℝ) / 2 + bin) * binSize c

open Classical in
/-- histogram_limits, l.334-355: entry 0 is the lower limit of the first bin, entries 1 to bins + 1 are the inner limits, entry
bins + 2 is the upper limit of the last bin -/
def limit (c : Conf) (front back : ℝ) (k : Nat) : ℝ :=
  if k = 0 then (if front < inner c 0 then inner c 0 + front else inner c 0 - binSize c)
  else if k ≤ c.bins + 1 then inner c (k - 1)
  else if inner c c.bins < back then inner c c.bins + back else inner c c.bins + binSize c

/-- bin_area, l.372 -/
def width (lim : Nat → ℝ) (bin : Nat) : ℝ := |lim (bin - 1) - lim bin|

open Classical in
/-- the loop l.358-386 and what follows it, l.388-401: the entries that are pushed from `bin` on, with `count` points so far and
the points `rest` left; `n` is the number of all points -/
def fill (lim : Nat → ℝ) (c : Conf) (n : Nat) (bin count : Nat) : List ℝ → List ℝ
  | [] => count / (n * width lim bin) :: List.replicate (c.bins + 2 - bin) 0
  | d :: rest =>
    if d < lim bin then fill lim c n bin (count + 1) rest
    else
      count / (n * c.area) ::
        if c.bins + 2 ≤ bin + 1 then [((rest.length + 1 : Nat) : ℝ) / (n * width lim (bin + 1))]
        else fill lim c n (bin + 1) 0 (d :: rest)
termination_by rest => (c.bins + 2 - bin) + rest.length
decreasing_by
  all_goals simp only [List.length_cons]; omega

/-- calculateNormalizedHistogram, l.308-403; front() of an empty vector is undefined -/
def normalized (h : Histogram) (dists : List ℝ) : Res Histogram :=
  let xs := dists.map fun d => (d - h.conf.mean) / h.conf.sigma
  match xs.head?, xs.getLast? with
  | some front, some back =>
    let lim := limit h.conf front back
    .ok { h with histogram := fill lim h.conf xs.length 1 0 xs, limits := (List.range (h.conf.bins + 3)).map lim }
  | _, _ => .undefined

/-- calcSVMValue, l.277-294, with arbitrary factors for the entries 2 to 8; at() throws -/
def svm (factors : List ℝ) (rest : ℝ) (h : Histogram) : Res ℝ :=
  if 9 ≤ h.histogram.length then .ok (((List.range 7).map fun k => factors.getD k 0 * h.histogram.getD (k + 2) 0).sum + rest)
  else .throws

/-- calculateHistogram, l.296-306 -/
def calculate (factors : List ℝ) (rest : ℝ) (h : Histogram) (dists : List ℝ) : Res Histogram :=
  match if h.conf.normalization then normalized h dists else .ok h with
  | .ok h' =>
    match svm factors rest h' with
    | .ok v => .ok { h' with svm_value := v }
    | .throws => .throws
    | .undefined => .undefined
  | .throws => .throws
  | .undefined => .undefined

end

end Envire.Icp.Hist
