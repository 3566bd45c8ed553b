import Mathlib.Analysis.SpecialFunctions.Sqrt
import Mathlib.Algebra.BigOperators.Fin
import Verif.Model.Misc
/-!
# The LASSO solver (`src/cxx/GLMnet.f` 261–526, 731–746; `c_glmnet`, `src/cxx/misc.c` 2647–2741)

Over the real numbers: rounding is not modelled.  As called by `c_glmnet`: `ka` = 1 (the covariance updates
of `elnet1`), unit weights and unit penalty factors (2688–2698), `jd` = 0 (no variable excluded), `isd` = 1
(standardised), `flmin` = 1 (the given `ulam` is used), one lambda (`nlam` = 1, `misc.c` 1762, 2041).
`rsq`, `nlp` and `alm` are computed but not used; they are left out.

A series of equal values makes `ys` zero.  The program then divides 0 by 0: `g` is NaN, every comparison
with it is false, all coefficients stay 0.  With real numbers `g` is 0, with the same result.
-/
namespace Pycold.Glmnet

variable {n p : ℕ}

/-- `chkvars`, GLMnet.f 731–746: variable `j` is used if not all its values equal the first one. -/
def Used (x : Fin n → Fin p → ℝ) (j : Fin p) : Prop := ∃ i i0 : Fin n, i0.val = 0 ∧ x i j ≠ x i0 j

/-- `xm`, GLMnet.f 341 (`w` is 1/`no`, 337). -/
noncomputable def xm (x : Fin n → Fin p → ℝ) (j : Fin p) : ℝ := ∑ i, 1 / (n : ℝ) * x i j

/-- `x` after 342 (`v = sqrt(w)`, 338). -/
noncomputable def xc (x : Fin n → Fin p → ℝ) (i : Fin n) (j : Fin p) : ℝ :=
  Real.sqrt (1 / (n : ℝ)) * (x i j - xm x j)

/-- `xs`, 343 and 352. -/
noncomputable def xs (x : Fin n → Fin p → ℝ) (j : Fin p) : ℝ := Real.sqrt (∑ i, xc x i j * xc x i j)

/-- `x` after 353. -/
noncomputable def xt (x : Fin n → Fin p → ℝ) (i : Fin n) (j : Fin p) : ℝ := xc x i j / xs x j

/-- `ym`, 359. -/
noncomputable def ym (y : Fin n → ℝ) : ℝ := ∑ i, 1 / (n : ℝ) * y i

/-- `y` after 360. -/
noncomputable def yc (y : Fin n → ℝ) (i : Fin n) : ℝ := Real.sqrt (1 / (n : ℝ)) * (y i - ym y)

/-- `ys`, 361. -/
noncomputable def ys (y : Fin n → ℝ) : ℝ := Real.sqrt (∑ i, yc y i * yc y i)

/-- `y` after 362. -/
noncomputable def yt (y : Fin n → ℝ) (i : Fin n) : ℝ := yc y i / ys y

/-- The variables of `elnet1` that change: coefficients `a`, gradient `g`, the columns of `c` filled so far
(numbered from 1), `mm` (0: not yet active), and `ia(1:nin)`. -/
structure St (p : ℕ) where
  a : Fin p → ℝ
  g : Fin p → ℝ
  c : Fin p → ℕ → ℝ
  mm : Fin p → ℕ
  ia : List (Fin p)

/-- What `elnet1` is called with: `ju`, `nx`, `x` and `xv` (1 for standardised variables, 356), `ab` and `dem`
(423–424), `thr`. -/
structure Args (n p : ℕ) where
  ju : Fin p → Prop
  nx : ℕ
  x : Fin n → Fin p → ℝ
  xv : Fin p → ℝ
  ab : ℝ
  dem : ℝ
  thr : ℝ

/-- GLMnet.f 436–438 and 481–483: the new coefficient from `u`; Fortran's `sign(v,u)` is |v| with the sign
of `u`. -/
noncomputable def newCoef (A : Args n p) (k : Fin p) (u : ℝ) : ℝ :=
  let v := |u| - 1 * A.ab
  if v > 0 then (if 0 ≤ u then |v| else -|v|) / (A.xv k + 1 * A.dem) else 0

open Classical in
/-- GLMnet.f 441–457: variable `k` becomes active and gets a column of `c`; `none` if there is no room
(442). -/
noncomputable def enter (A : Args n p) (k : Fin p) (s : St p) : Option (St p) :=
  let nin := s.ia.length + 1
  if nin > A.nx then none
  else some
    { s with
      c := fun j m => if m = nin ∧ A.ju j then
          (if s.mm j ≠ 0 then s.c k (s.mm j) else if j = k then A.xv j else ∑ i, A.x i j * A.x i k)
        else s.c j m
      mm := Function.update s.mm k nin
      ia := s.ia ++ [k] }

open Classical in
/-- One turn of the loop 432–466 over all variables, with the largest step `dlx` so far. -/
noncomputable def fullStep (A : Args n p) (sd : St p × ℝ) (k : Fin p) : Option (St p × ℝ) :=
  let s := sd.1
  if ¬ A.ju k then some sd
  else
    let ak := s.a k
    let a' := newCoef A k (s.g k + ak * A.xv k)
    if a' = ak then some sd
    else
      (if s.mm k = 0 then enter A k s else some s).map fun s =>
        let del := a' - ak
        ({ s with a := Function.update s.a k a'
                  g := fun j => if A.ju j then s.g j - s.c j (s.mm k) * del else s.g j },
          max (|del| / Real.sqrt (A.xv k)) sd.2)

/-- The loop 431–467. -/
noncomputable def fullPass (A : Args n p) (s : St p) : Option (St p × ℝ) :=
  (List.finRange p).foldlM (fullStep A) (s, 0)

open Classical in
/-- One turn of the loop 477–492 over the active variables. -/
noncomputable def activeStep (A : Args n p) (sd : St p × ℝ) (k : Fin p) : St p × ℝ :=
  let s := sd.1
  let ak := s.a k
  let a' := newCoef A k (s.g k + ak * A.xv k)
  if a' = ak then sd
  else
    let del := a' - ak
    ({ s with a := Function.update s.a k a'
              g := s.ia.foldl (fun g j => Function.update g j (g j - s.c j (s.mm k) * del)) s.g },
      max (|del| / Real.sqrt (A.xv k)) sd.2)

/-- The loop 476–493. -/
noncomputable def activePass (A : Args n p) (s : St p) : St p × ℝ :=
  s.ia.foldl (activeStep A) (s, 0)

open Classical in
/-- GLMnet.f 497–502: the gradient of the variables that are not active, from the change of the coefficients
since `a0` (`da`). -/
noncomputable def fixup (A : Args n p) (a0 : Fin p → ℝ) (s : St p) : St p :=
  { s with
    g := fun j =>
      if s.mm j = 0 ∧ A.ju j then
        s.g j - ((List.range s.ia.length).map fun l =>
          (s.ia[l]?.elim 0 fun k => s.a k - a0 k) * s.c j (l + 1)).sum
      else s.g j }

open Classical in
/-- The loop 428–505 of one lambda, `fuel` bounding the number of passes: `none` if `fuel` is used up or there
is no room for an active variable (442, 469).  `some a0`: within the loop 474–496, entered with the
coefficients `a0`. -/
noncomputable def passes (A : Args n p) : ℕ → Option (Fin p → ℝ) → St p → Option (St p)
  | 0, _, _ => none
  | fuel + 1, none, s =>
    match fullPass A s with
    | none => none
    | some (s, dlx) => if dlx < A.thr then some s else passes A fuel (some s.a) s
  | fuel + 1, some a0, s =>
    let (s, dlx) := activePass A s
    if dlx < A.thr then passes A fuel none (fixup A a0 s) else passes A fuel (some a0) s

/-- The call of `elnet1` in `elnetu`, 314–316, with `bta` = max(`parm`, 0.001) (389) and `alm` =
`ulam`/`ys`. -/
noncomputable def args (parm ulam thr : ℝ) (nx : ℕ) (x : Fin n → Fin p → ℝ) (y : Fin n → ℝ) : Args n p :=
  { ju := Used x, nx := nx, x := xt x, xv := fun _ => 1, ab := ulam / ys y * max parm 0.001,
    dem := ulam / ys y * (1 - max parm 0.001), thr := thr }

open Classical in
/-- The start of `elnet1`, 395–400, with `g` from `standard` (363–367). -/
noncomputable def start (x : Fin n → Fin p → ℝ) (y : Fin n → ℝ) : St p :=
  { a := fun _ => 0, g := fun j => if Used x j then ∑ i, yt y i * xt x i j else 0, c := fun _ _ => 0,
    mm := fun _ => 0, ia := [] }

open Classical in
/-- `elnetu`, GLMnet.f 287–330: intercept, compressed coefficients, and their variables; `none` stands for
`jerr` ≠ 0 (309), or for a loop without end. -/
noncomputable def elnetu (parm ulam thr : ℝ) (nx fuel : ℕ) (x : Fin n → Fin p → ℝ) (y : Fin n → ℝ) :
    Option (ℝ × List (Fin p × ℝ)) :=
  if ∀ j, ¬ Used x j then none
  else
    (passes (args parm ulam thr nx x y) fuel none (start x y)).map fun s =>
      let ca := s.ia.map fun k => (k, ys y * s.a k / xs x k)
      (ym y - (ca.map fun q => q.2 * xm x q.1).sum, ca)

/-- `c_glmnet`, misc.c 2647–2741: `elnet` (GLMnet.f 261–286), with `parm` = 1 (misc.c 1765, 2044) and
`nx` = min(1.2 (`ni`+1), `ni`) = `ni`, then the coefficients in the order of the variables. -/
noncomputable def cGlmnet (ulam thr : ℝ) (fuel : ℕ) (x : Fin n → Fin p → ℝ) (y : Fin n → ℝ) :
    Option (List ℝ) :=
  match elnetu 1 ulam thr p fuel x y with
  | none => none
  | some (a0, ca) =>
    match Misc.glmExpand (0 : ℝ) p ca.length
        (fun k => ca[k.toNat]?.elim 0 fun q => (q.1.val : Int) + 1) a0
        (fun k => ca[k.toNat]?.elim 0 fun q => q.2) with
    | .error _ => none
    | .ok (cfs, _) => some ((List.range (p + 1)).map fun (j : ℕ) => cfs j)

/-- The solver as the fits call it (`auto_ts_fit`, misc.c 1740–1988; `auto_ts_fit_sccd`, 2017–2210): one row of
regressors per observation, lambda 20, `thr` = 0.0001 (misc.c 2673).  The empty list stands for an error. -/
noncomputable def lasso (fuel : ℕ) (rows : List (List ℝ)) (values : List ℝ) : List ℝ :=
  (cGlmnet (n := rows.length) (p := (rows.headD []).length) 20 0.0001 fuel
    (fun i j => (rows.getD i []).getD j 0) (fun i => values.getD i 0)).getD []

end Pycold.Glmnet
