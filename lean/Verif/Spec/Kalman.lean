import Verif.Model.Kalman
import Mathlib.LinearAlgebra.Matrix.Notation
/-!
# What the filter of S-CCD stands for
-/
namespace Pycold.Kalman.Spec

open Matrix

/-- The harmonic curve with six coefficients (the slope is stored 10000-fold), on day `t`. -/
noncomputable def curve (cft : Vec) (t : ℝ) : ℝ :=
  let ω : ℝ := 2 * 3.1415926535897935 / 365.25
  cft 0 + cft 1 / 10000 * t + cft 2 * Real.cos (ω * t) + cft 3 * Real.sin (ω * t)
    + cft 4 * Real.cos (2 * ω * t) + cft 5 * Real.sin (2 * ω * t)

/-- A covariance matrix: symmetric, and no combination of the states has a negative variance. -/
def Covariance (P : Mat) : Prop := (∀ i j, P i j = P j i) ∧ ∀ x : Vec, 0 ≤ x ⬝ᵥ (P *ᵥ x)

/-- The variance of the predicted value: the prediction is the sum of the level and the two cycles. -/
noncomputable def predVar (P : Mat) : ℝ := ![1, 0, 1, 0, 1, 0] ⬝ᵥ (P *ᵥ ![1, 0, 1, 0, 1, 0])

/-- Strictly ascending dates. -/
def Ascending (l : List (Int × ℝ)) : Prop := l.Pairwise (fun a b => a.1 < b.1)

/-- One day in state space: the level gains the slope, both cycles turn by a day. -/
noncomputable def dayT : Mat :=
  let ω : ℝ := 2 * 3.1415926535897935 / 365.25
  !![1, 1, 0, 0, 0, 0;
     0, 1, 0, 0, 0, 0;
     0, 0, Real.cos ω, Real.sin ω, 0, 0;
     0, 0, -Real.sin ω, Real.cos ω, 0, 0;
     0, 0, 0, 0, Real.cos (2 * ω), Real.sin (2 * ω);
     0, 0, 0, 0, -Real.sin (2 * ω), Real.cos (2 * ω)]

/-- The noise added each day. -/
noncomputable def dayQ : Mat := Matrix.diagonal ![0.1, 0.1 / 1000000, 0.1, 0.1, 0.1, 0.1]

/-- The covariance one day later. -/
noncomputable def nextDay (P : Mat) : Mat := dayT * P * dayTᵀ + dayQ

/-- The covariance after an observation with error variance `r`, on the day of the observation. -/
noncomputable def absorb (r : ℝ) (P : Mat) : Mat :=
  P - (1 / (predVar P + r)) • vecMulVec (P *ᵥ ![1, 0, 1, 0, 1, 0]) (P *ᵥ ![1, 0, 1, 0, 1, 0])

/-- No new model is fitted. -/
def SameModel (es : List Event) : Prop := ∀ rmse win next cft, Event.fit rmse win next cft ∉ es

end Pycold.Kalman.Spec
