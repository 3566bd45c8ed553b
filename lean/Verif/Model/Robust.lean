import Mathlib.Analysis.SpecialFunctions.Sqrt
/-!
# The robust regression of the noise screening (`src/cxx/multirobust.c`, `auto_robust_fit` in `src/cxx/misc.c`)

Over the real numbers: rounding is not modelled.  The calls into the GSL library that solve a least-squares problem or
compute leverages are left open (`Gsl`); sorting, median, standard deviation and the bisquare weights of the library
are written out.  `cov`, `chisq` and the statistics of the workspace (366–401) are computed after the loop and are not
used by the callers; they are left out.
-/
namespace Pycold.Robust

/-- The functions of the GSL library called by `gsl_multifit_robust`.  A matrix is its list of rows. -/
structure Gsl where
  /-- `gsl_multifit_linear(X, y, c, …)`: the coefficients -/
  linear : List (List ℝ) → List ℝ → List ℝ
  /-- `gsl_multifit_wlinear(X, w, y, c, …)`: the coefficients -/
  wlinear : List (List ℝ) → List ℝ → List ℝ → List ℝ
  /-- `gsl_linalg_SV_leverage` of the decomposition of `X`: one number for each row -/
  leverage : List (List ℝ) → List ℝ

/-- A row of the matrix times the coefficients. -/
noncomputable def dot (row c : List ℝ) : ℝ := (List.zipWith (· * ·) row c).sum

/-- `gsl_multifit_linear_residuals`, called in multirobust.c 325 and 360. -/
noncomputable def residuals (X : List (List ℝ)) (y c : List ℝ) : List ℝ :=
  List.zipWith (fun row v => v - dot row c) X y

/-- `gsl_stats_sd`, called in multirobust.c 285. -/
noncomputable def sd (y : List ℝ) : ℝ :=
  Real.sqrt ((y.map fun v => (v - y.sum / y.length) ^ 2).sum / ((y.length : ℝ) - 1))

/-- `sig_lower`, multirobust.c 295–297. -/
noncomputable def sigLower (y : List ℝ) : ℝ :=
  if 1.0e-6 * sd y = 0 then 1 else 1.0e-6 * sd y

/-- The factor of a residual, multirobust.c 314–322. -/
noncomputable def resfac (h : ℝ) : ℝ := 1 / Real.sqrt (1 - (if h > 0.9999 then 0.9999 else h))

/-- `gsl_stats_median_from_sorted_data`, called in multirobust.c 507. -/
noncomputable def medianSorted (v : List ℝ) : ℝ :=
  if (v.length - 1) / 2 = v.length / 2 then v.getD ((v.length - 1) / 2) 0
  else (v.getD ((v.length - 1) / 2) 0 + v.getD (v.length / 2) 0) / 2

open Classical in
/-- `robust_madsigma`, multirobust.c 485–510; `gsl_sort_vector` is a sort. -/
noncomputable def madSigma (p : ℕ) (r : List ℝ) : ℝ :=
  medianSorted (((r.map fun v => |v|).mergeSort (fun a b => decide (a ≤ b))).drop (p - 1)) / 0.6745

/-- `wfun` of `gsl_multifit_robust_bisquare` (GSL `multifit/robust_wfun.c`). -/
noncomputable def bisquare (r : ℝ) : ℝ := if |r| < 1 then (1 - r * r) * (1 - r * r) else 0

/-- `tuning_default` of `gsl_multifit_robust_bisquare`. -/
noncomputable def tune : ℝ := 4.685

/-- The weights of a round, multirobust.c 336–350: `r` are the residuals of the last curve, `fac` the factors. -/
noncomputable def weights (p : ℕ) (lower : ℝ) (fac r : List ℝ) : List ℝ :=
  let a := List.zipWith (· * ·) r fac
  let s := 1 / (max (madSigma p a) lower * tune)
  a.map fun v => bisquare (v * s)

open Classical in
/-- `robust_test_convergence`, multirobust.c 453–471, with `tol` = `GSL_SQRT_DBL_EPSILON` (281). -/
noncomputable def converged (prev c : List ℝ) : Bool :=
  (List.zipWith (fun a b => decide (1.4901161193847656e-08 * max |a| |b| < |b - a|)) prev c).all (!·)

/-- One round, multirobust.c 334–362. -/
noncomputable def round (G : Gsl) (X : List (List ℝ)) (y : List ℝ) (p : ℕ) (lower : ℝ) (fac c : List ℝ) : List ℝ :=
  G.wlinear X (weights p lower fac (residuals X y c)) y

/-- The loop `while (!converged && ++numit <= w->maxiter)`, multirobust.c 332–365, with the number of rounds left. -/
noncomputable def rounds (G : Gsl) (X : List (List ℝ)) (y : List ℝ) (p : ℕ) (lower : ℝ) (fac : List ℝ) :
    ℕ → List ℝ → List ℝ
  | 0, c => c
  | k + 1, c =>
    let c' := round G X y p lower fac c
    if converged c c' then c' else rounds G X y p lower fac k c'

/-- `maxiter`, multirobust.c 88. -/
def maxiter : ℕ := 5

/-- `gsl_multifit_robust`, multirobust.c 242–420: the coefficients. -/
noncomputable def multifitRobust (G : Gsl) (X : List (List ℝ)) (y : List ℝ) (p : ℕ) : List ℝ :=
  rounds G X y p (sigLower y) ((G.leverage X).map resfac) maxiter (G.linear X y)

/-- `auto_robust_fit`, `src/cxx/misc.c` 1275–1348: `x` are the four regressors of each observation, `y` the values.
`none`: with fewer observations than coefficients `gsl_multifit_robust_alloc` (multirobust.c 71–74) calls the error
handler of GSL, which ends the process. -/
noncomputable def autoRobustFit (G : Gsl) (x : List (List ℝ)) (y : List ℝ) : Option (List ℝ) :=
  if y.length < 5 then none else some (multifitRobust G (x.map fun r => 1 :: r) y 5)

/-- The regression as `auto_mask` calls it (`src/cxx/misc.c` 1508, 1516). -/
noncomputable def screen (G : Gsl) (x : List (List ℝ)) (y : List ℝ) : List ℝ := (autoRobustFit G x y).getD []

end Pycold.Robust
