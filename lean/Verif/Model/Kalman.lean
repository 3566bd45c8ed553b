import Mathlib.Analysis.Complex.Trigonometric
import Mathlib.Data.Matrix.Mul
/-!
# The Kalman filter of S-CCD for one band (`src/cxx/KFAS.c`, `src/cxx/s_ccd.c` 349–507, 1475–1663)

Over the real numbers: rounding, and the conversion of the coefficients to `float`, are not modelled;
`cos` and `sin` are exact.  The number of states is `DEFAULT_N_STATE` = 6 and `structure` is 11, the only
values used (s_ccd.c 2704, 2823, 3263, 3302; KFAS.c 402).  GSL/BLAS routines with `CblasUpper` read or
write only the upper triangle of a symmetric matrix; this is transcribed (`symU`, `syr`).
-/
namespace Pycold.Kalman

open Matrix

abbrev Vec := Fin 6 → ℝ
abbrev Mat := Matrix (Fin 6) (Fin 6) ℝ

/-- `PI`, `src/cxx/const.h` 28: a literal close to, but not equal to, π. -/
noncomputable def PI : ℝ := 3.1415926535897935

/-- `TWO_PI / AVE_DAYS_IN_A_YEAR` (KFAS.c 294, 343), `TWO_PI / NUM_YEARS` (444–500). -/
noncomputable def w : ℝ := 2.0 * PI / 365.25

/-- `SLOPE_SCALE`, `src/cxx/defines.h` 131. -/
noncomputable def SLOPE_SCALE : ℝ := 10000

/-- `KFAS_TOL`, `src/cxx/defines.h` 146. -/
noncomputable def TOL : ℝ := 1E-14

/-- `ssmodel_constants`, `src/cxx/KFAS.h` 8–16. -/
structure Ssm where
  Z : Vec
  H : ℝ
  T : Mat
  Q : Mat

/-- The assignments to `T`, KFAS.c 420–517; the entries not assigned are 0 (`gsl_matrix_calloc`,
s_ccd.c 2638, 3160). -/
noncomputable def entryT (i j : Nat) : ℝ :=
  if i = 0 ∧ j = 0 then 1
  else if i = 0 ∧ j = 1 then 1
  else if i = 1 ∧ j = 1 then 1
  else if i = 2 ∧ j = 2 then Real.cos w
  else if i = 2 ∧ j = 3 then Real.sin w
  else if i = 3 ∧ j = 3 then Real.cos w
  else if i = 3 ∧ j = 2 then -Real.sin w
  else if i = 4 ∧ j = 4 then Real.cos (w * 2)
  else if i = 5 ∧ j = 5 then Real.cos (w * 2)
  else if i = 4 ∧ j = 5 then Real.sin (w * 2)
  else if i = 5 ∧ j = 4 then -Real.sin (w * 2)
  else 0

/-- `initialize_ssmconstants`, KFAS.c 391–578, for `m = 6`: `INI_Q00` is 0.1, `SLOPE_SS_SCALE` 1000000
(`src/cxx/defines.h` 108, 148). -/
noncomputable def ssm (rmse : ℝ) : Ssm :=
  { Z := ![1, 0, 1, 0, 1, 0]
    H := rmse
    T := Matrix.of fun i j => entryT i j
    Q := Matrix.of fun i j => if i = j then (if (i : Nat) = 1 then 0.1 / 1000000 else 0.1) else 0 }

/-- The symmetric matrix a `CblasUpper` routine sees. -/
def symU (A : Mat) : Mat := Matrix.of fun i j => if i ≤ j then A i j else A j i

/-- `gsl_blas_dsyr(CblasUpper, alpha, x, A)`. -/
noncomputable def syr (alpha : ℝ) (x : Vec) (A : Mat) : Mat :=
  Matrix.of fun i j => if i ≤ j then A i j + alpha * x i * x j else A i j

/-- `filter1step_missingobs`, KFAS.c 10–46 (and the same steps in 102–109 of `filter1step_validobs`). -/
noncomputable def missing (c : Ssm) (P : Mat) : Mat := c.T * symU P * c.Tᵀ + c.Q

/-- `filter1step_validobs`, KFAS.c 49–127: state, covariance and residual `vt`. -/
noncomputable def valid (c : Ssm) (y : ℝ) (a : Vec) (P : Mat) : Vec × Mat × ℝ :=
  let k := symU P *ᵥ c.Z
  let f := c.Z ⬝ᵥ k + c.H
  let v := y - c.Z ⬝ᵥ a
  if f > TOL then
    let finv := 1 / f
    (c.T *ᵥ (a + (v * finv) • k), missing c (syr (-finv) k P), v)
  else (c.T *ᵥ a, missing c P, v)

/-- `fit_cft2vec_a`, KFAS.c 285–328. -/
noncomputable def toState (cft : Vec) (t : Int) : Vec :=
  ![cft 0 + t * cft 1 / SLOPE_SCALE,
    cft 1 / SLOPE_SCALE,
    cft 2 * Real.cos (t * w) + cft 3 * Real.sin (t * w),
    -cft 2 * Real.sin (t * w) + cft 3 * Real.cos (t * w),
    cft 4 * Real.cos (t * 2 * w) + cft 5 * Real.sin (t * 2 * w),
    -cft 4 * Real.sin (t * 2 * w) + cft 5 * Real.cos (t * 2 * w)]

/-- `vec_a2fit_cft`, KFAS.c 334–384. -/
noncomputable def toCoef (a : Vec) (t : Int) : Vec :=
  ![a 0 - a 1 * t,
    a 1 * SLOPE_SCALE,
    Real.cos (t * w) * a 2 - Real.sin (t * w) * a 3,
    Real.cos (t * w) * a 3 + Real.sin (t * w) * a 2,
    Real.cos (t * 2 * w) * a 4 - Real.sin (t * 2 * w) * a 5,
    Real.cos (t * 2 * w) * a 5 + Real.sin (t * 2 * w) * a 4]

/-- `pred_y` of `KF_ts_predict_conse`, s_ccd.c 1501–1502, 1526; it is called with `b_foutput` FALSE
(1767, 2317), so nothing else happens. -/
noncomputable def predict (cft : Vec) (t : Int) : ℝ :=
  cft 0 + cft 1 * t / SLOPE_SCALE + cft 2 * Real.cos (t * w) + cft 3 * Real.sin (t * w)
    + cft 4 * Real.cos (t * (2 * w)) + cft 5 * Real.sin (t * (2 * w))

/-- The part of the filter that changes: `fit_cft[i_b]`, `cov_p[i_b]`, and `vt` (`none`: not assigned
yet). -/
structure St where
  cft : Vec
  P : Mat
  vt : Option ℝ

/-- `KF_ts_filter_regular`, s_ccd.c 1576–1636, for the observation `y` on day `t`, the next observation
being on day `next`; `steady` is always FALSE (1717). -/
noncomputable def regular (c : Ssm) (y : ℝ) (t next : Int) (s : St) : St :=
  match (next - t).toNat with
  | 0 => s
  | n + 1 =>
    let r := valid c y (toState s.cft t) s.P
    { cft := toCoef r.1 (t + 1), P := (missing c)^[n] r.2.1, vt := some r.2.2 }

/-- `KF_ts_filter_falsechange`, s_ccd.c 1638–1661. -/
noncomputable def falseChange (c : Ssm) (t next : Int) (s : St) : St :=
  { s with P := (missing c)^[(next - t).toNat] s.P }

/-- The initial covariance, s_ccd.c 455–466: only the diagonal is assigned (`INI_P` = 10000). -/
noncomputable def initP (P : Mat) : Mat :=
  Matrix.of fun i j => if i = j then (if (i : Nat) = 1 then 10000 / 1000000 else 10000) else P i j

/-- `num_year_range`, s_ccd.c 368: `ceil(days / 365.25)` in exact arithmetic. -/
def yearRange (days : Int) : Int := -((-(4 * days)) / 1461)

/-- `(int)(clrx - num_year_range * 365.25)`, s_ccd.c 404: conversion to `int` truncates. -/
def shift (k t : Int) : Int := Int.tdiv (4 * t - 1461 * k) 4

/-- `clrx_extend`, `clry_extend`, s_ccd.c 398–420: the window moved back by whole years, the window, and
the observation after it (the very last one again if there is none). -/
def extend (win : List (Int × ℝ)) (next : Option (Int × ℝ)) : List (Int × ℝ) :=
  match win.head?, win.getLast? with
  | some a, some b =>
    let k := yearRange (b.1 - a.1 + 1)
    win.map (fun p => (shift k p.1, p.2)) ++ win ++ [next.getD b]
  | _, _ => []

/-- Running the filter over a series; the last entry only supplies its date (s_ccd.c 479–484, 3309–3313). -/
noncomputable def filterAll (c : Ssm) : List (Int × ℝ) → St → St
  | a :: b :: rest, s => filterAll c (b :: rest) (regular c a.2 a.1 b.1 s)
  | _, s => s

/-- `vt` after each step of such a run, as used for `sum_square_vt` (s_ccd.c 482–483, 3312): a step that
does nothing leaves the previous value. -/
noncomputable def residuals (c : Ssm) : List (Int × ℝ) → St → List (Option ℝ)
  | a :: b :: rest, s =>
    let s' := regular c a.2 a.1 b.1 s
    s'.vt :: residuals c (b :: rest) s'
  | _, _ => []

/-- `step1_ssm_initialize`, s_ccd.c 349–507: `cft` is the fitted curve, `P` the
covariance matrix as it was left. -/
noncomputable def ssmInitialize (c : Ssm) (win : List (Int × ℝ)) (next : Option (Int × ℝ)) (cft : Vec) (P : Mat) : St :=
  filterAll c (extend win next) ⟨cft, initP P, none⟩

/-- The residuals `sum_square_vt` is made of: those of the second half, `i > stable_nobs - 1` (482–483). -/
noncomputable def initResiduals (c : Ssm) (win : List (Int × ℝ)) (next : Option (Int × ℝ)) (cft : Vec) (P : Mat) :
    List (Option ℝ) :=
  (residuals c (extend win next) ⟨cft, initP P, none⟩).drop win.length

/-- What happens to the filter of one band in the course of a call of `sccd_standard`. -/
inductive Event where
  /-- a model is fitted to a window, 2818–2831; `rmse` is its (squared) error -/
  | fit (rmse : ℝ) (win : List (Int × ℝ)) (next : Option (Int × ℝ)) (cft : Vec)
  /-- a regular observation, 2044–2056 -/
  | obs (y : ℝ) (t next : Int)
  /-- an observation removed as noise, 2014–2028 -/
  | noise (t next : Int)

/-- One event; `H` belongs to the current model. -/
noncomputable def event : Event → ℝ × St → ℝ × St
  | .fit rmse win next cft, (_, s) => (rmse, ssmInitialize (ssm rmse) win next cft s.P)
  | .obs y t next, (H, s) => (H, regular (ssm H) y t next s)
  | .noise t next, (H, s) => (H, falseChange (ssm H) t next s)

/-- The matrix at the beginning of a call: zero (2648), or the stored one in monitor mode (2680–2686). -/
noncomputable def run : List Event → ℝ × St → ℝ × St
  | [], s => s
  | e :: es, s => run es (event e s)

end Pycold.Kalman
