import Mathlib.Analysis.SpecialFunctions.Sqrt
import Mathlib.Algebra.BigOperators.Fin
import Verif.Spec.ColdExact
/-!
# The LASSO (C78)

Least squares with a penalty on the absolute coefficients, as in the literature (Tibshirani 1996; with the
standardisation of Friedman, Hastie and Tibshirani 2010).
-/
namespace Pycold.Glmnet.Spec

variable {n p : ℕ}

/-- The mean of `n` numbers. -/
noncomputable def mean (v : Fin n → ℝ) : ℝ := (∑ i, v i) / n

/-- Their standard deviation. -/
noncomputable def spread (v : Fin n → ℝ) : ℝ := Real.sqrt ((∑ i, (v i - mean v) ^ 2) / n)

/-- The value of a linear model, intercept first, for the observation `i`. -/
noncomputable def fit (x : Fin n → Fin p → ℝ) (c : List ℝ) (i : Fin n) : ℝ :=
  c.getD 0 0 + ∑ j : Fin p, c.getD (j + 1) 0 * x i j

/-- What the LASSO minimises: half the mean square error, plus `lam` times the absolute coefficients, each in units of
the standard deviation of its regressor. -/
noncomputable def cost (lam : ℝ) (x : Fin n → Fin p → ℝ) (y : Fin n → ℝ) (c : List ℝ) : ℝ :=
  (∑ i, (y i - fit x c i) ^ 2) / (2 * n) + lam * ∑ j : Fin p, spread (fun i => x i j) * |c.getD (j + 1) 0|

/-- Some regressor is not constant. -/
def Varies (x : Fin n → Fin p → ℝ) : Prop := ∃ j i k, x i j ≠ x k j

/-! ### The curves of a time series -/

open Pycold.ColdNum.Spec (regressors solverCurve)

/-- Standard deviation of a list of numbers. -/
noncomputable def spreadOf (l : List ℝ) : ℝ := spread (fun i : Fin l.length => l[i])

/-- Standard deviation, over the dates of some observations, of regressor `j` of the curves with `n`
coefficients. -/
noncomputable def regSpread (n : ℤ) (w : List (ℤ × ℝ)) (j : ℕ) : ℝ :=
  spreadOf (w.map fun o => (regressors n (o.1 : ℝ)).getD j 0)

/-- What a curve with `n` coefficients `c` costs for observations (date, value): half the mean square error, plus 20
times the absolute coefficients in units of the spread of their regressor. -/
noncomputable def curveCost (n : ℤ) (w : List (ℤ × ℝ)) (c : List ℝ) : ℝ :=
  (w.map fun o => (o.2 - solverCurve n c (o.1 : ℝ)) ^ 2).sum / (2 * w.length) +
    20 * ((List.range (n - 1).toNat).map fun j => regSpread n w j * |c.getD (j + 1) 0|).sum

/-- Distance of two curves, in the same units. -/
noncomputable def apart (n : ℤ) (w : List (ℤ × ℝ)) (c d : List ℝ) : ℝ :=
  ((List.range (n - 1).toNat).map fun j => regSpread n w j * |d.getD (j + 1) 0 - c.getD (j + 1) 0|).sum

end Pycold.Glmnet.Spec
