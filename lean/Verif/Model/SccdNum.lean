import Mathlib.Logic.Function.Iterate
import Verif.Model.ColdNum
import Verif.Model.Sccd
/-!
# The numerical functions called by S-CCD

The environment `Num` of `Model/Sccd.lean` for the program, transcribed from `src/cxx/s_ccd.c`,
`src/cxx/KFAS.c` and `src/cxx/misc.c`.  Scores, angles, medians, the screening of noise and the fit are
those of `Model/ColdNum.lean`: `auto_ts_fit_sccd` (`src/cxx/misc.c` 2017–2212) is `auto_ts_fit_float` with six
slots for the coefficients, and `KF_ts_predict_conse` (`src/cxx/s_ccd.c` 1526) is the same expression as
`auto_ts_predict_float` with six coefficients.

Simplifications, besides those of `Model/ColdNum.lean`:
* The matrix routines of GSL are not part of the program: `valid` stands for `filter1step_validobs`
  (`src/cxx/KFAS.c` 49–127) as a function of error variance, observation, state and covariance, and `missing`
  for `filter1step_missingobs` (10–46); `Kalman.lean` has them over the real numbers.
* `sum_square_vt` is an integer without upper limit (`unsigned int` in the program).
* A variable that is read before it was assigned holds `junk`.
-/
namespace Pycold.SccdNum

open Pycold.ColdNum (Fl)
open Pycold.Sccd (Obs Num)

/-- The filter of one band: `fit_cft[b]`, `cov_p[b]`, `instance[b].H`, `sum_square_vt[b]`. -/
structure BandState (F P : Type) where
  cft : List F
  cov : P
  H : F
  ssv : Int
deriving DecidableEq

/-- What the program is given besides the observations. -/
structure Env (F P B : Type) where
  /-- arithmetic, solvers, the bands of the change test (`lasso_blist_sccd`, `src/cxx/s_ccd.c` 17) and of the
  screening (709–710), the threshold `tcg` -/
  base : ColdNum.Env F B
  /-- the place of a band among the six values of an observation -/
  idx : B → Nat
  valid : F → F → List F → P → List F × P × F
  missing : P → P
  /-- `gsl_matrix_calloc` (2648) -/
  zeroP : P
  /-- assignment of the diagonal (456–466) -/
  resetP : P → P
  /-- conversion of the covariance to `float` when it is stored (2234, 2886) -/
  narrowP : P → P
  junk : F
  /-- `gate_tcg`, `predictability_tcg` -/
  gate : F
  pred : F

variable {F P B : Type}

/-- `fit_cft2vec_a`, `src/cxx/KFAS.c` 285–328, for six states. -/
def toState (A : Fl F) (cft : List F) (t : Int) : List F :=
  let x := A.ofInt t
  let c := fun (k : Nat) => cft.getD k A.zero
  let x2 := A.mul (A.mul x (A.lit 2 1)) A.w
  [A.add (c 0) (A.div (A.mul x (c 1)) A.slopeScale),
   A.div (c 1) A.slopeScale,
   A.add (A.mul (c 2) (A.cos (A.mul x A.w))) (A.mul (c 3) (A.sin (A.mul x A.w))),
   A.add (A.mul (A.neg (c 2)) (A.sin (A.mul x A.w))) (A.mul (c 3) (A.cos (A.mul x A.w))),
   A.add (A.mul (c 4) (A.cos x2)) (A.mul (c 5) (A.sin x2)),
   A.add (A.mul (A.neg (c 4)) (A.sin x2)) (A.mul (c 5) (A.cos x2))]

/-- `vec_a2fit_cft`, `src/cxx/KFAS.c` 334–384, for six states. -/
def toCoef (A : Fl F) (a : List F) (t : Int) : List F :=
  let x := A.ofInt t
  let s := fun (k : Nat) => a.getD k A.zero
  let x2 := A.mul (A.mul x (A.lit 2 1)) A.w
  [A.sub (s 0) (A.mul (s 1) x),
   A.mul (s 1) A.slopeScale,
   A.sub (A.mul (A.cos (A.mul x A.w)) (s 2)) (A.mul (A.sin (A.mul x A.w)) (s 3)),
   A.add (A.mul (A.cos (A.mul x A.w)) (s 3)) (A.mul (A.sin (A.mul x A.w)) (s 2)),
   A.sub (A.mul (A.cos x2) (s 4)) (A.mul (A.sin x2) (s 5)),
   A.add (A.mul (A.cos x2) (s 5)) (A.mul (A.sin x2) (s 4))]

/-- Coefficients, covariance and `vt` (`none`: not assigned yet). -/
structure Run (F P : Type) where
  cft : List F
  cov : P
  vt : Option F

/-- `KF_ts_filter_regular`, `src/cxx/s_ccd.c` 1576–1636 (`steady` is FALSE). -/
def regular (E : Env F P B) (H y : F) (t next : Int) (r : Run F P) : Run F P :=
  match (next - t).toNat with
  | 0 => r
  | n + 1 =>
    let v := E.valid H y (toState E.base.A r.cft t) r.cov
    { cft := toCoef E.base.A v.1 (t + 1), cov := E.missing^[n] v.2.1, vt := some v.2.2 }

/-- `num_year_range`, `src/cxx/s_ccd.c` 368. -/
def yearRange (A : Fl F) (days : Int) : Int := A.ceil (A.div (A.ofInt days) (A.lit 36525 100))

/-- `(int)(clrx - num_year_range * 365.25)`, 404. -/
def shift (A : Fl F) (k t : Int) : Int :=
  A.trunc (A.sub (A.ofInt t) (A.mul (A.ofInt k) (A.lit 36525 100)))

/-- `clrx_extend`, `clry_extend`, 398–420. -/
def extend (A : Fl F) (win : List (Int × F)) (next : Int × F) : List (Int × F) :=
  match win.head?, win.getLast? with
  | some a, some b =>
    let k := yearRange A (b.1 - a.1 + 1)
    win.map (fun p => (shift A k p.1, p.2)) ++ win ++ [next]
  | _, _ => []

/-- The loop 479–485: the filter over the extended series, `sum_square_vt` from step `k` on. -/
def ssmRun (E : Env F P B) (H : F) : List (Int × F) → Nat → Run F P → Int → Run F P × Int
  | a :: b :: rest, k, r, s =>
    let r' := regular E H a.2 a.1 b.1 r
    let v := r'.vt.getD E.junk
    ssmRun E H (b :: rest) (k - 1) r' (if k = 0 then s + E.base.A.trunc (E.base.A.mul v v) else s)
  | _, _, r, s => (r, s)

/-- `step1_ssm_initialize`, 349–507. -/
def ssmInit (E : Env F P B) (H : F) (win : List (Int × F)) (next : Int × F) (cft : List F) (cov : P) :
    BandState F P :=
  let x := ssmRun E H (extend E.base.A win next) win.length ⟨cft, E.resetP cov, none⟩ 0
  { cft := x.1.cft, cov := x.1.cov, H := H, ssv := x.2 }

/-- The value of a band of an observation, as a `float`. -/
def value (E : Env F P B) (b : B) (o : Obs) : F := E.base.A.ofInt (o.vals.getD (E.idx b) 0)

/-- An observation as `clrx`, `clry` hold it. -/
def row (E : Env F P B) (o : Obs) : ColdV.Row (B → F) := ⟨o.date, fun b => value E b o⟩

/-- Dates and values of a band. -/
def series (E : Env F P B) (b : B) (w : List Obs) : List (Int × F) :=
  w.map (fun o => (o.date, value E b o))

/-- `auto_ts_fit_sccd`, all bands. -/
def fits (E : Env F P B) (df : Int) (w : List Obs) : B → ColdNum.Fit F :=
  ColdNum.fitAll E.base df (w.map (row E))

/-- The six coefficients of a fit. -/
def cftOf (m : ColdNum.Fit F) : List F := m.coefs.take 6

/-- `auto_ts_fit_sccd` with six coefficients and `step1_ssm_initialize`, 2797–2831: the error variance is the
square of the RMSE. -/
def fit (E : Env F P B) (prior : Option (B → BandState F P)) (w : List Obs) (nx : Obs) :
    B → BandState F P :=
  fun b =>
    let m := fits E 6 w b
    ssmInit E (E.base.A.mul m.rmse m.rmse) (series E b w) (nx.date, value E b nx) (cftOf m)
      (match prior with
       | none => E.zeroP
       | some f => (f b).cov)

/-- `KF_ts_filter_regular` and the sum of squares, 2051–2056 (`double` sum converted to `unsigned int`). -/
def filter (E : Env F P B) (f : B → BandState F P) (o : Obs) (next : Int) : B → BandState F P :=
  fun b =>
    let r := regular E (f b).H (value E b o) o.date next ⟨(f b).cft, (f b).cov, none⟩
    let v := r.vt.getD E.junk
    { cft := r.cft, cov := r.cov, H := (f b).H,
      ssv := E.base.A.trunc (E.base.A.add (E.base.A.ofInt (f b).ssv) (E.base.A.mul v v)) }

/-- `KF_ts_filter_falsechange`, 1638–1661, 2024–2028. -/
def skip (E : Env F P B) (f : B → BandState F P) (o : Obs) (next : Int) : B → BandState F P :=
  fun b => { f b with cov := E.missing^[(next - o.date).toNat] (f b).cov }

/-- `sqrtf(rmse_band[i_b])`, `rmse_band = sum_square_vt / (num_obs_processed - df)` (1757–1758, 1769;
2300–2301, 2320). -/
def noise (E : Env F P B) (f : B → BandState F P) (n df : Int) (b : B) : F :=
  E.base.A.sqrt (E.base.A.div (E.base.A.ofInt (f b).ssv) (E.base.A.ofInt (n - df)))

/-- `v_dif_mag`: observed minus predicted (1766–1774, 2317–2321). -/
def difs (E : Env F P B) (f : B → BandState F P) (o : Obs) (b : B) : F :=
  E.base.A.sub (value E b o) (ColdNum.predict E.base.A 6 (f b).cft o.date)

/-- Sum of squares, z-scores and differences of an observation (1762–1785, 2309–2331); `rmin` is `min_rmse`. -/
def score (E : Env F P B) (rmin : B → Int) (f : B → BandState F P) (n df : Int) (o : Obs) :
    F × List F × (B → F) :=
  ColdNum.zColumn E.base (fun b => E.base.A.ofInt (rmin b)) (noise E f n df) (difs E f o)

/-- The numerical body of a record: `coefs`, `rmse`, `magnitude`. -/
structure Body (F B : Type) where
  coefs : B → List F
  rmse : B → F
  magn : B → F

/-- `update_num_c` at the end of the series, 2298–2299. -/
def endOrder (n : Int) : Int := Cold.updateCft n 3 4 6 6 6

/-- `sccd_snow`, 3245–3271: four coefficients, and the RMSE itself as error variance. -/
def snowFit (E : Env F P B) (w : List Obs) : B → BandState F P :=
  fun b =>
    let m := fits E 4 w b
    ssmInit E m.rmse (series E b w)
      (match w.getLast? with
       | some o => (o.date, value E b o)
       | none => (0, E.base.A.zero)) (cftOf m) E.zeroP

/-- `sccd_snow`, 3307–3313. -/
def snowFilter (E : Env F P B) (f : B → BandState F P) (o : Obs) (next : Int) : B → BandState F P :=
  fun b =>
    let r := regular E (f b).H (value E b o) o.date next ⟨(f b).cft, (f b).cov, none⟩
    let v := r.vt.getD E.junk
    { cft := r.cft, cov := r.cov, H := (f b).H,
      ssv := (f b).ssv + E.base.A.trunc (E.base.A.mul v v) }

/-- `(short int) min(100 * x, MAX_SHORT)`, 1966–1973, 2416–2436, 2466–2475. -/
def scale (A : Fl F) (v : F) : Int :=
  let x := A.mul v (A.lit 100 1)
  A.trunc (if A.lt (A.lit 32767 1) x then A.lit 32767 1 else x)

/-- The numerical functions of S-CCD; `rmin` is `min_rmse`.  Thresholds: `T_MAX_CG_SCCD`, `T_MAX_CG`, `NSIGN`
(`src/cxx/defines.h` 25, 28, 34). -/
def num (E : Env F P B) (rmin : B → Int) : Num F (B → BandState F P) (Body F B) :=
  let A := E.base.A
  let rm : B → F := fun b => A.ofInt (rmin b)
  { lt := A.lt, le := A.le, big := A.lit 9999 1, tcg := E.base.tcg, tmax := A.lit 257448 10000,
    tmaxLb := A.lit 308562 10000, nsign := A.lit 45 1, gate := E.gate, pred := E.pred
    mask := fun w => ColdNum.mask E.base rm (w.map (row E))
    unstable := fun w => ColdNum.unstable E.base rm (fits E 4 w) (w.map (row E))
    lbMag := fun w o => (ColdNum.score E.base rm 4 (fits E 4 w) (row E o)).1
    lbAngle := fun w l => ColdNum.meanAngle A (l.map (fun o =>
      (ColdNum.score E.base rm 4 (fits E 4 w) (row E o)).2.1))
    firstRec := fun w before cur =>
      { coefs := fun b => cftOf (fits E 4 w b), rmse := fun b => (fits E 4 w b).rmse,
        magn := fun b => A.neg (ColdNum.median A (before.reverse.map (fun o =>
          ColdNum.difs E.base 4 (fits E 4 cur) (row E o) b))) }
    fit := fit E
    mag := fun f n o => (score E rmin f n 6 o).1
    angle := fun f n l => ColdNum.meanAngle A (l.map (fun o => (score E rmin f n 6 o).2.1))
    changeRec := fun f n l =>
      { coefs := fun b => (f b).cft, rmse := noise E f n 6,
        magn := fun b => ColdNum.median A (l.map (fun o => difs E f o b)) }
    filter := filter E
    skip := skip E
    endMag := fun f n o => (score E rmin f n (endOrder n) o).1
    endAngle := fun f n l => ColdNum.meanAngle A (l.map (fun o => (score E rmin f n (endOrder n) o).2.1))
    scale := scale A
    narrow := fun f b => { f b with cov := E.narrowP (f b).cov }
    snowFit := snowFit E
    snowFilter := snowFilter E }

/-- `adjust_median_variogram` and the cast, 230–239 (`src/cxx/misc.c` 106–174): with a single observation only
the first band is assigned (115–123). -/
def variogram (E : Env F P B) (junk : B → Int) (w : List Obs) : B → Int :=
  fun b =>
    if w.length = 1 then
      (if E.idx b = 0 then Sccd.toShort (E.base.A.trunc (value E b (w.headD ⟨0, []⟩))) else junk b)
    else Sccd.toShort (E.base.A.trunc (ColdNum.variogram E.base.A (w.map (value E b))))

/-- Everything a call of `sccd_detect` or `sccd_update` depends on besides the observations: `conse`, `b_c2`
and the test for persistent snow. -/
def env (E : Env F P B) (junk : B → Int) (conse : Nat) (bC2 : Bool) (snowPct : Nat → Nat → Bool) :
    Sccd.Env F (B → BandState F P) (Body F B) (B → Int) :=
  { conse := conse, bC2 := bC2, num := num E, variogram := variogram E junk, snowPct := snowPct }

/-- The six bands of the program: blue, green, red, NIR, SWIR1, SWIR2. -/
def program (A : Fl F) (lasso robust : List (List F) → List F → List F) (tcg gate pred junk : F)
    (valid : F → F → List F → P → List F × P × F) (missing resetP narrowP : P → P) (zeroP : P) :
    Env F P (Fin 6) :=
  { base := { A := A, lasso := lasso, robust := robust, blist := [1, 2, 3, 4, 5], green := 1, swir := 4,
              tcg := tcg }
    idx := fun b => b, valid := valid, missing := missing, zeroP := zeroP, resetP := resetP,
    narrowP := narrowP, junk := junk, gate := gate, pred := pred }

end Pycold.SccdNum
