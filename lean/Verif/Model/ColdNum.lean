import Verif.Model.ColdV
import Verif.Model.Sort
/-!
# The numerical functions called by the COLD loop

The kit of `Model/ColdV.lean` for the program: design matrices, predictions, residuals, RMSE, z-scores,
the RMSE of the residuals nearest in the year, mean angles, the decay of the change magnitude with the
angle, medians and the screening of noise, transcribed operation by operation from `src/cxx/misc.c`,
`src/cxx/utilities.c` and `src/cxx/cold.c`.

Simplifications:
* `float` and `double` are one type `F` with arbitrary operations (`Fl`); no law is assumed of them, so
  any rounding of each operation is an instance.  Conversions between the two are not represented.
* The LASSO solver (`c_glmnet`, Fortran) and the robust regression (`auto_robust_fit`, GSL) are
  parameters: functions of the design matrix and the values.
* The arrays of a band are reached through an arbitrary type `B` of bands; the program has
  `B = Fin 7` (`programBands`).
-/
namespace Pycold.ColdNum

open Pycold.ColdV (Row Kit)

/-- The operations on floating-point numbers. `lit n d` is the literal `n / d`. -/
structure Fl (F : Type) where
  add : F → F → F
  sub : F → F → F
  mul : F → F → F
  div : F → F → F
  neg : F → F
  abs : F → F
  sqrt : F → F
  acos : F → F
  cos : F → F
  sin : F → F
  lt : F → F → Bool
  le : F → F → Bool
  ofInt : Int → F
  lit : Int → Int → F
  pi : F
  /-- `round`, as a number -/
  round : F → F
  /-- `(int)(ceil(x))` -/
  ceil : F → Int
  /-- `(int)x` -/
  trunc : F → Int

variable {F B : Type}

/-- `max(a,b)`, `src/cxx/const.h` 17. -/
def Fl.max (A : Fl F) (a b : F) : F := if A.lt b a then a else b

/-- `0`. -/
def Fl.zero (A : Fl F) : F := A.lit 0 1

/-- `w = TWO_PI / 365.25` (`src/cxx/misc.c` 1491, 1657, 2274). -/
def Fl.w (A : Fl F) : F := A.div (A.mul (A.lit 2 1) A.pi) (A.lit 36525 100)

/-- The columns of the design matrix for a date: `x[0..df-2][i]`, `src/cxx/misc.c` 2341–2476 (numbers of
coefficients 4, 6 and 8). -/
def design (A : Fl F) (df : Int) (t : Int) : List F :=
  let x := A.ofInt t
  let w := A.w
  [x, A.cos (A.mul w x), A.sin (A.mul w x)] ++
    (if df ≥ 6 then [A.cos (A.mul (A.mul (A.lit 2 1) w) x), A.sin (A.mul (A.mul (A.lit 2 1) w) x)] else []) ++
    (if df ≥ 8 then [A.cos (A.mul (A.mul (A.lit 3 1) w) x), A.sin (A.mul (A.mul (A.lit 3 1) w) x)] else [])

/-- `SLOPE_SCALE`, `src/cxx/defines.h` 131. -/
def Fl.slopeScale (A : Fl F) : F := A.lit 10000 1

/-- Storing the solution in the eight slots of `coefs` (2356–2370, 2424–2438, 2462–2476): the slots are
set to zero, then the first `df` are written, the slope scaled. -/
def storeCoefs (A : Fl F) (df : Int) (cfs : List F) : List F :=
  (List.range 8).map fun (j : Nat) =>
    if (j : Int) < df then
      (if j = 1 then A.mul (cfs.getD j A.zero) A.slopeScale else cfs.getD j A.zero)
    else A.zero

/-- `auto_ts_predict_float`, `src/cxx/misc.c` 1642–1710, for one date (numbers of coefficients 4, 6
and 8). -/
def predict (A : Fl F) (df : Int) (cf : List F) (t : Int) : F :=
  let x := A.ofInt t
  let w := A.w
  let w2 := A.mul (A.lit 2 1) w
  let w3 := A.mul (A.lit 3 1) w
  let c := fun (k : Nat) => cf.getD k A.zero
  let y4 := A.add (A.add (A.add (c 0) (A.div (A.mul (c 1) x) A.slopeScale))
    (A.mul (c 2) (A.cos (A.mul x w)))) (A.mul (c 3) (A.sin (A.mul x w)))
  if df ≥ 6 then
    let y6 := A.add (A.add y4 (A.mul (c 4) (A.cos (A.mul x w2)))) (A.mul (c 5) (A.sin (A.mul x w2)))
    if df ≥ 8 then
      A.add (A.add y6 (A.mul (c 6) (A.cos (A.mul x w3)))) (A.mul (c 7) (A.sin (A.mul x w3)))
    else y6
  else y4

/-- `matlab_2d_array_norm_float`, `src/cxx/misc.c` 785–801. -/
def norm (A : Fl F) (l : List F) : F := A.sqrt (l.foldl (fun s x => A.add s (A.mul x x)) A.zero)

/-- The results of a fit of one band: `coefs`, `*rmse`, `v_dif`. -/
structure Fit (F : Type) where
  coefs : List F
  rmse : F
  dif : List F

/-- What the program is given besides the observations: arithmetic, the two external solvers, and the
bands that take part in the change test (`lasso_blist`, `src/cxx/cold.c` 24) and in the screening of
noise (`src/cxx/misc.c` 1508, 1516). -/
structure Env (F B : Type) where
  A : Fl F
  /-- `c_glmnet` with `lambda = 20`, `alpha = 1`: rows of the design matrix, values; the coefficients -/
  lasso : List (List F) → List F → List F
  /-- `auto_robust_fit`: rows of the matrix, values; five coefficients -/
  robust : List (List F) → List F → List F
  blist : List B
  green : B
  swir : B
  /-- `adj_TCG` -/
  tcg : F

/-- `auto_ts_fit_float`, `src/cxx/misc.c` 2241–2505, for one band. -/
def fitBand (E : Env F B) (df : Int) (dates : List Int) (ys : List F) : Fit F :=
  let cf := storeCoefs E.A df (E.lasso (dates.map (design E.A df)) ys)
  let dif := List.zipWith (fun y t => E.A.sub y (predict E.A df cf t)) ys dates
  { coefs := cf, dif := dif,
    rmse := E.A.div (norm E.A dif) (E.A.sqrt (E.A.ofInt ((dates.length : Int) - df))) }

/-- The values of a band. -/
def bandOf (b : B) (rows : List (Row (B → F))) : List F := rows.map (fun r => r.y b)

/-- The fits of all bands (`src/cxx/cold.c` 3263–3281 and the other loops over `TOTAL_IMAGE_BANDS`). -/
def fitAll (E : Env F B) (df : Int) (rows : List (Row (B → F))) : B → Fit F :=
  fun b => fitBand E df (rows.map (·.date)) (bandOf b rows)

/-- A row of the matrix of `auto_mask`, `src/cxx/misc.c` 1497–1503. -/
def maskRow (A : Fl F) (w2 : F) (t : Int) : List F :=
  let x := A.ofInt t
  [A.cos (A.mul A.w x), A.sin (A.mul A.w x), A.cos (A.mul w2 x), A.sin (A.mul w2 x)]

/-- `pred_b2` and `pred_b5`, `src/cxx/misc.c` 1527–1536. -/
def maskPred (A : Fl F) (w2 : F) (cf : List F) (t : Int) : F :=
  let x := A.ofInt t
  let c := fun (k : Nat) => cf.getD k A.zero
  A.add (A.add (A.add (A.add (c 0) (A.mul (c 1) (A.cos (A.mul x A.w)))) (A.mul (c 2) (A.sin (A.mul x A.w))))
    (A.mul (c 3) (A.cos (A.mul x w2)))) (A.mul (c 4) (A.sin (A.mul x w2)))

/-- `T_CONST`, `src/cxx/defines.h` 19. -/
def Fl.tConst (A : Fl F) : F := A.lit 442 100

/-- `auto_mask`, `src/cxx/misc.c` 1459–1556, called as in `src/cxx/cold.c` 3046–3048 and 4561–4563;
`rmin` is `min_rmse`. -/
def mask (E : Env F B) (rmin : B → F) (rows : List (Row (B → F))) (k : Nat) : Bool :=
  let A := E.A
  let dates := rows.map (·.date)
  let years := A.div (A.ofInt (dates.getLast?.getD 0 - dates.head?.getD 0)) (A.lit 36525 100)
  let w2 := A.div A.w (A.ofInt (A.ceil years))
  let x := dates.map (maskRow A w2)
  let noisy := fun (b : B) (t : Int) (y : F) =>
    A.lt (A.mul A.tConst (rmin b)) (A.abs (A.sub y (maskPred A w2 (E.robust x (bandOf b rows)) t)))
  match rows[k]? with
  | none => false
  | some r => noisy E.green r.date (r.y E.green) || noisy E.swir r.date (r.y E.swir)

/-- The stability test of the initialisation, `src/cxx/cold.c` 3283–3351. -/
def unstable (E : Env F B) (rmin : B → F) (m : B → Fit F) (rows : List (Row (B → F))) : Bool :=
  let A := E.A
  let dates := rows.map (·.date)
  let span := A.ofInt (dates.getLast?.getD 0 - dates.head?.getD 0)
  let vdif := fun (b : B) =>
    let mini := A.max (rmin b) (m b).rmse
    let vs := A.div ((m b).dif.headD A.zero) mini
    let ve := A.div ((m b).dif.getLastD A.zero) mini
    let sl := A.div (A.div (A.mul ((m b).coefs.getD 1 A.zero) span) mini) A.slopeScale
    A.add (A.abs sl) (A.max (A.abs vs) (A.abs ve))
  A.lt E.tcg (E.blist.foldl (fun s b => A.add s (A.mul (vdif b) (vdif b))) A.zero)

/-- The column for an observation, given the differences and the RMSE of each band: z-scores of the bands
of the change test and the sum of their squares (`src/cxx/cold.c` 3486–3536, 3946–3985, 4208–4244). -/
def zColumn (E : Env F B) (rmin : B → F) (rmse : B → F) (dif : B → F) : F × List F × (B → F) :=
  let z := fun (b : B) => E.A.div (dif b) (E.A.max (rmin b) (rmse b))
  (E.blist.foldl (fun s b => E.A.add s (E.A.mul (z b) (z b))) E.A.zero, E.blist.map z, dif)

/-- Differences from the prediction, all bands. -/
def difs (E : Env F B) (df : Int) (m : B → Fit F) (r : Row (B → F)) : B → F :=
  fun b => E.A.sub (r.y b) (predict E.A df (m b).coefs r.date)

/-- `src/cxx/cold.c` 3482–3545, 3946–3986. -/
def score (E : Env F B) (rmin : B → F) (df : Int) (m : B → Fit F) (r : Row (B → F)) :
    F × List F × (B → F) :=
  zColumn E rmin (fun b => (m b).rmse) (difs E df m r)

/-- `d_yr[m]`, `src/cxx/cold.c` 4140–4143. -/
def dYr (A : Fl F) (t u : Int) : F :=
  let d := A.ofInt (t - u)
  A.abs (A.sub (A.mul (A.round (A.div d (A.lit 36525 100))) (A.lit 36525 100)) d)

/-- The order in which `quick_sort_2d_float` (`src/cxx/misc.c` 645–657) leaves the columns for given
keys: the same sort on pairs of key and index, compared by the key (the columns move with the keys). -/
def sortOrder (A : Fl F) (keys : List F) : List Nat :=
  let a : Sort.Arr (F × Nat) Unit :=
    { n := keys.length, nb := 0, arr := fun k => (keys.getD k.toNat A.zero, k.toNat),
      brr := fun _ _ => () }
  match Sort.quickSort (fun x y => A.lt x.1 y.1) 0 (keys.length + 1) a 0 ((keys.length : Int) - 1) with
  | .ok s => (List.range keys.length).map (fun (k : Nat) => (s.arr (k : Int)).2)
  | .error _ => List.range keys.length

/-- `tmpcg_rmse[b]`, `src/cxx/cold.c` 4113–4172: the RMSE of the `3*category` residuals nearest in the
year to the observation `u`. -/
def nearRmse (A : Fl F) (category : Int) (dates : List Int) (u : Int) (dif : List F) : F :=
  let ord := sortOrder A (dates.map (fun t => dYr A t u))
  let sel := (ord.take (3 * category).toNat).map (fun k => dif.getD k A.zero)
  A.div (norm A sel) (A.sqrt (A.ofInt (3 * category - category)))

/-- `src/cxx/cold.c` 4113–4245. -/
def near (E : Env F B) (rmin : B → F) (df category : Int) (m m' : B → Fit F) (dates : List Int)
    (r : Row (B → F)) : F × List F × (B → F) :=
  zColumn E rmin (fun b => nearRmse E.A category dates r.date (m' b).dif) (difs E df m r)

/-- The angle in degrees between two columns, one step of `MeanAngl_float`, `src/cxx/misc.c` 3024–3034. -/
def angle2 (A : Fl F) (u v : List F) : F :=
  let dot := fun (a b : List F) =>
    (List.zip a b).foldl (fun s p => A.add s (A.mul p.1 p.2)) A.zero
  let tmp := A.acos (A.div (dot u v) (A.mul (A.sqrt (dot u u)) (A.sqrt (dot v v))))
  A.div (A.mul tmp (A.lit 180 1)) A.pi

/-- `MeanAngl_float`, `src/cxx/misc.c` 3006–3041. -/
def meanAngle (A : Fl F) (vs : List (List F)) : F :=
  if vs.length > 1 then
    A.div ((List.zip vs vs.tail).foldl (fun s p => A.add s (angle2 A p.1 p.2)) A.zero)
      (A.ofInt ((vs.length : Int) - 1))
  else A.zero

/-- `angle_decaying`, `src/cxx/utilities.c` 1240–1254. -/
def angleDecaying (A : Fl F) (x lo hi : F) : F :=
  if A.lt x lo then A.lit 1 1
  else if A.lt hi x then A.lit 0 1
  else
    let a := A.div (A.lit 1 1) (A.sub hi lo)
    A.sub (A.lit 1 1) (A.mul a (A.sub x lo))

/-- `round(prob_angle * mag * 100)`, `src/cxx/cold.c` 3567–3569, 4276–4279 (`NSIGN` is 45). -/
def cmVal (A : Fl F) (angle mag : F) : Int :=
  A.trunc (A.round (A.mul (A.mul (angleDecaying A angle (A.lit 45 1) (A.lit 90 1)) mag) (A.lit 100 1)))

/-- `quick_sort_float` and `matlab_2d_float_median` (`src/cxx/cold.c` 4343–4344; 3716–3717; with
`matlab_float_2d_partial_median` over the tail, 4510–4512). -/
def median (A : Fl F) (l : List F) : F :=
  let s := (sortOrder A l).map (fun k => l.getD k A.zero)
  let m := l.length / 2
  if l.length % 2 = 0 then A.div (A.add (s.getD (m - 1) A.zero) (s.getD m A.zero)) (A.lit 2 1)
  else s.getD m A.zero

/-- The kit of the program; `rmin` is `min_rmse`. -/
def kit (E : Env F B) (rmin : B → F) : Kit (B → F) (B → Fit F) F (List F) (B → F) (B → F) :=
  { N := { lt := E.A.lt, le := E.A.le, big := E.A.lit 9999 1, tcg := E.tcg, tmax := E.A.lit 308562 10000,
           nsign := E.A.lit 45 1, angle := meanAngle E.A }
    y0 := fun _ => E.A.zero
    fit := fitAll E
    mask := mask E rmin
    unstable := unstable E rmin
    score := score E rmin
    near := near E rmin
    skip := fun n => E.A.trunc (E.A.mul (E.A.ofInt n) (E.A.lit 3 100))
    cm := cmVal E.A
    magn := fun ds b => median E.A (ds.map (fun d => d b))
    magnNeg := fun ds b => E.A.neg (median E.A (ds.map (fun d => d b)))
    magn0 := fun _ => E.A.zero }

/-- `min_rmse`: the band part of `adjust_median_variogram`, option 1 (`src/cxx/misc.c` 148–174, called at
`src/cxx/cold.c` 2881), over all clear observations: the median of the absolute differences of successive
values (`abs` is the integer function). -/
def variogram (A : Fl F) (ys : List F) : F :=
  median A (List.zipWith (fun a b => A.ofInt ((A.trunc (A.sub b a)).natAbs : Nat)) ys ys.tail)

/-- A record of the program: `Output_t`. -/
abbrev Rec (F B : Type) := ColdV.Rec (B → F) (B → Fit F) F (List F) (B → F) (B → F)

/-- What a run returns. -/
abbrev Output (F B : Type) := ColdV.Output (B → F) (B → Fit F) F (List F) (B → F) (B → F)

/-- `stand_procedure` on the clear observations. -/
def run (P : Cold.Params) (E : Env F B) (rows : List (Row (B → F))) (nCm : Nat) :
    Except Cold.Err (Output F B) :=
  ColdV.standProcedure P (kit E (fun b => variogram E.A (bandOf b rows))) rows nCm

/-- The bands of the program are blue, green, red, NIR, SWIR1, SWIR2, thermal; `lasso_blist` is
`{1, 2, 3, 4, 5}` (`src/cxx/cold.c` 24) and `auto_mask` uses bands 1 and 4. -/
def program (A : Fl F) (lasso robust : List (List F) → List F → List F) (tcg : F) : Env F (Fin 7) :=
  { A := A, lasso := lasso, robust := robust, blist := [1, 2, 3, 4, 5], green := 1, swir := 4, tcg := tcg }

/-- `clrx`, `clry` as floating-point arrays. -/
def rowsOf (A : Fl F) (l : List ClrObs) : List (Row (Fin 7 → F)) :=
  l.map fun o => ⟨o.date, fun b => A.ofInt (o.bands.getD b 0)⟩

/-- What `cold` does with a pixel; see `Cold.Top`. -/
inductive Top (R : Type) where
  | rejected
  | empty
  | fallback
  | standard (r : R)

/-- `cold`, `src/cxx/cold.c` 84–226. -/
def cold (P : Cold.Params) (E : Env F (Fin 7)) (bC2 : Bool) (obs : List Scene) (nCm : Nat) :
    Top (Except Cold.Err (Output F (Fin 7))) :=
  if obs.isEmpty then .empty
  else if dateCheckFails obs then .rejected
  else
    let pre := preprocessing bC2 obs
    if pre.status ≠ .success then .rejected
    else if pre.sums.clear < 24 then .fallback
    else .standard (run P E (rowsOf E.A (clearObs bC2 obs)) nCm)

/-! ### Prediction in Python -/

/-- `coefficient_matrix`, `src/python/pycold/utils.py` 465–500. -/
def coefficientMatrix (A : Fl F) (t : F) (n : Nat) : List F :=
  let w23 := A.div (A.mul (A.lit 2 1) A.pi) (A.lit 36525 100)
  let row := [A.lit 1 1, A.div t (A.lit 10000 1), A.cos (A.mul w23 t), A.sin (A.mul w23 t)] ++
    (if n ≥ 6 then
      [A.cos (A.mul (A.mul (A.lit 2 1) w23) t), A.sin (A.mul (A.mul (A.lit 2 1) w23) t)] else []) ++
    (if n ≥ 8 then
      [A.cos (A.mul (A.mul (A.lit 3 1) w23) t), A.sin (A.mul (A.mul (A.lit 3 1) w23) t)] else [])
  (List.range n).map (fun k => row.getD k A.zero)

/-- `predict_ref`, `src/python/pycold/utils.py` 503–505, for one band: `numpy.dot` of two vectors, an error
(`none`) when their lengths differ. -/
def predictRef (A : Fl F) (model : List F) (t : F) (n : Nat) : Option F :=
  let row := coefficientMatrix A t n
  if row.length = model.length then
    some ((List.zip row model).foldl (fun s p => A.add s (A.mul p.1 p.2)) A.zero)
  else none

end Pycold.ColdNum
