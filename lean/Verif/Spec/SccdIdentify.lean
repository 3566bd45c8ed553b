import Verif.Spec.SccdExact
import Verif.Model.SccdIdentify
/-!
# What `sccd_identify` looks at, in exact arithmetic (C87)
-/
namespace Pycold.SccdNum.Spec
open Pycold.ColdNum.Spec (storedCurve)
open Pycold.Sccd (Obs)

/-- The median of some values: in order, the middle one or the mean of the two in the middle. -/
def IsMedian (l : List ℝ) (v : ℝ) : Prop :=
  l ≠ [] ∧ ∃ s : List ℝ, s.Perm l ∧ s.Pairwise (· ≤ ·) ∧
    v = if l.length % 2 = 1 then s.getD (l.length / 2) 0
        else (s.getD (l.length / 2 - 1) 0 + s.getD (l.length / 2) 0) / 2

/-- A change to greener vegetation: the median deviations from the curve are less than `-t` in red and in SWIR1
and more than `t` in NIR. -/
def Greening (t : ℝ) (coefs : Fin 6 → List ℝ) (run : List Obs) : Prop :=
  ∃ red nir swir, IsMedian (run.map (resid (coefs 2) 2)) red ∧ IsMedian (run.map (resid (coefs 3) 3)) nir ∧
    IsMedian (run.map (resid (coefs 4) 4)) swir ∧ red < -t ∧ t < nir ∧ swir < -t

/-- How far an observation is from the curve, all five tested bands together, in units of `yard`. -/
noncomputable def strength (coefs : Fin 6 → List ℝ) (yard : Fin 6 → ℝ) (o : Obs) : ℝ :=
  ((scaled coefs yard o).map (· ^ 2)).sum

/-- `run` are the newest observations that are stronger than `gate` without a gap, at most six. -/
structure NewestRun (gate : ℝ) (coefs : Fin 6 → List ℝ) (yard : Fin 6 → ℝ) (X run : List Obs) : Prop where
  newest : run.length ≤ 6 ∧ ∃ before, X = before ++ run ∧
    (run.length < 6 → ∃ o ∈ before.getLast?, strength coefs yard o ≤ gate)
  strong : ∀ o ∈ run, gate < strength coefs yard o

/-- The smallest of some values, none of which counts more than 9999. -/
noncomputable def least (l : List ℝ) : ℝ := l.foldl min 9999

/-- A value as stored: a hundred times as large, at most 32767, without the fraction. -/
noncomputable def hundredfold (x : ℝ) : Int := ⌊min (x * 100) 32767⌋

end Pycold.SccdNum.Spec
