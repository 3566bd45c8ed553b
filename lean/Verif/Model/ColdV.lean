import Verif.Model.Cold
/-!
# The COLD detection loop with its data (`stand_procedure`, `src/cxx/cold.c` 2604–4831)

`Model/Cold.lean` answers every numerical question by an arbitrary oracle.  Here the same program is
transcribed with its data: the band values `clry` travel with the dates `clrx` through every removal of
observations, fits are applied to the observations they are given, and records hold what the fits returned
(coefficients, RMSE) and the change magnitudes.

The numerical functions that are called are collected in a `Kit`.  `Model/ColdNum.lean` gives the kit
of the program (design matrices, predictions, z-scores, angles, medians); only the LASSO solver and the
robust regression remain parameters there.

Simplifications: as in `Model/Cold.lean`; in addition arrays that belong together (`clrx`, `clry`;
`vec_mag`, `v_diff`, `v_dif_mag`) are lists of rows where the C code moves every component in the same
loop, and `fit_cft`/`rmse` and `rec_v_dif` are represented by the result of the fit that wrote them.
-/
namespace Pycold.ColdV

open Pycold.Cold (Err Params Num Cm)

/-- One clear observation: an entry of `clrx` and the entries of the seven `clry`. -/
structure Row (Y : Type) where
  date : Int
  y : Y
deriving DecidableEq, Repr

/-- One column of `vec_mag`, `v_diff` and `v_dif_mag`; `row` (ghost) is the observation it belongs to. -/
structure Sc (Y V W D : Type) where
  row : Row Y
  mag : V
  vec : W
  dif : D
deriving DecidableEq, Repr

/-- `Output_t` (`src/cxx/output.h`): dates, counts and, in `model`, `coefs` and `rmse`; `magn` is
`magnitude`.  `fitted` and `window` are ghosts as in `Model/Cold.lean`. -/
structure Rec (Y M V W D G : Type) where
  tStart : Int := 0
  tEnd : Int := 0
  tBreak : Int := 0
  numObs : Int := 0
  category : Int := 0
  changeProb : Int := 0
  model : Option M := none
  magn : Option G := none
  fitted : List (Row Y) := []
  window : List (Sc Y V W D) := []
deriving DecidableEq, Repr

/-- The numerical functions called by `stand_procedure`.  `Y`: the values of the seven bands; `M`: the
results of one round of fits (`fit_cft`, `rmse`, residuals); `V`, `W`, `D`: entries of `vec_mag`,
columns of `v_diff` and of `v_dif_mag`; `G`: `magnitude`. -/
structure Kit (Y M V W D G : Type) where
  /-- thresholds, comparisons, `MeanAngl_float` -/
  N : Num V W
  /-- contents of an unwritten entry -/
  y0 : Y
  /-- `auto_ts_fit_float` for all bands, with the number of coefficients -/
  fit : Int → List (Row Y) → M
  /-- `bl_ids[k] == 1` after `auto_mask` over the given observations -/
  mask : List (Row Y) → Nat → Bool
  /-- `v_dif_norm > adj_TCG` of the initialisation test (3283–3351) for the fit of the given observations -/
  unstable : M → List (Row Y) → Bool
  /-- differences and z-scores with the RMSE of the fit (3482–3545, 3946–3986); first the number of
  coefficients of the prediction -/
  score : Int → M → Row Y → V × W × D
  /-- differences and z-scores with the RMSE of the residuals nearest in the year (4113–4245): number of
  coefficients of the prediction, category, the fit in `fit_cft`, the fit in `rec_v_dif`, the dates
  of the observations behind `rec_v_dif` -/
  near : Int → Int → M → M → List Int → Row Y → V × W × D
  /-- `(int)(i_span_skip * SKIP_PERCENTAGE)` -/
  skip : Int → Int
  /-- `round(prob_angle * min * 100)` (3567–3569, 4276–4279) -/
  cm : V → V → Int
  /-- medians of the columns of `v_dif_mag` (4341–4346, 4508–4513) and their negatives (3714–3720) -/
  magn : List D → G
  magnNeg : List D → G
  /-- `magnitude[i_b] = 0.0` (3912, 4701) -/
  magn0 : G

/-- The variables of `stand_procedure` that survive an iteration. -/
structure St (Y M V W D G : Type) where
  it : Nat
  rows : List (Row Y)
  end_ : Int
  i : Int
  iStart : Int
  iDense : Int
  train : Bool
  iCount : Option Int
  preEnd : Option Int
  idsOldLen : Option Int
  iSpanSkip : Int
  /-- `fit_cft`, `rmse` -/
  cft : Option M
  /-- `rec_v_dif` -/
  dif : Option M
  win : List (Sc Y V W D)
  recs : List (Rec Y M V W D G)
  cur : Rec Y M V W D G
  overflow : Bool
  cm : Cm

variable {Y M V W D G : Type}

/-- `clrx[k]`, `clry[.][k]`, with `k` checked against the live part. -/
def rd (rows : List (Row Y)) (end_ k : Int) : Except Err (Row Y) :=
  if 0 ≤ k ∧ k < end_ then
    match rows[k.toNat]? with
    | some v => .ok v
    | none => .error .oob
  else .error .oob

/-- The observations at positions `lo..hi`. -/
def slice (rows : List (Row Y)) (lo hi : Int) : List (Row Y) :=
  (rows.drop lo.toNat).take (hi - lo + 1).toNat

/-- The loop computing `max_date_diff`, 3029–3037. -/
def maxGap (rows : List (Row Y)) (end_ k stop m : Int) : Except Err Int :=
  if k < stop then do
    let b ← rd rows end_ (k + 1)
    let a ← rd rows end_ k
    maxGap rows end_ (k + 1) stop (if b.date - a.date > m then b.date - a.date else m)
  else .ok m
termination_by (stop - k).toNat

/-- The compaction loops 3144–3158 and 4610–4623, which move the date and the seven values of an
observation. -/
def compact : List (Row Y) → Int → List Int → List (Row Y)
  | [], _, _ => []
  | x :: xs, k, [] => x :: compact xs (k + 1) []
  | x :: xs, k, r :: rs => if k = r then compact xs (k + 1) rs else x :: compact xs (k + 1) (r :: rs)

/-- Overwriting the first `cp.length` entries (3231–3238). -/
def commit (rows cp : List (Row Y)) : List (Row Y) := cp ++ rows.drop cp.length

/-- Removal of one observation: `clrx[k] = clrx[k+1]` and `clry[b][k] = clry[b][k+1]` for all bands
(3616–3623, 4401–4406). -/
def shiftDown (d : Row Y) (a : List (Row Y)) (k stop : Nat) : List (Row Y) :=
  if k < stop then shiftDown d (a.set k (a.getD (k + 1) d)) (k + 1) stop else a
termination_by stop - k

/-- The search for the previous break, 3413–3420 / 4539–4546. -/
def findGe (rows : List (Row Y)) (t : Int) (stop : Nat) (k : Nat) : Option Nat :=
  if k < stop then
    match rows[k]? with
    | none => none
    | some v => if v.date ≥ t then some k else findGe rows t stop (k + 1)
  else none
termination_by stop - k

/-- Contents of an unwritten position. -/
def Kit.row0 (K : Kit Y M V W D G) : Row Y := ⟨0, K.y0⟩

/-- A column of the window for an observation. -/
def column (r : Row Y) (x : V × W × D) : Sc Y V W D := ⟨r, x.1, x.2.1, x.2.2⟩

/-- What the change test looks at: the columns of `vec_mag` and `v_diff`. -/
def Sc.core (c : Sc Y V W D) : Cold.Score V W := ⟨c.row.date, c.mag, c.vec⟩

/-- The change test on a window (3603, 4314). -/
def isBreak (K : Kit Y M V W D G) (w : List (Sc Y V W D)) : Bool := Cold.isBreak K.N (w.map Sc.core)

/-- `vec_mag[0] > T_MAX_CG` (3614, 4393). -/
def isOutlier (K : Kit Y M V W D G) (w : List (Sc Y V W D)) : Bool :=
  Cold.isOutlier K.N (w.map Sc.core)

/-- The change magnitude offered for output (3567–3569, 4276–4279): from the mean angle and the smallest
entry of `vec_mag`. -/
def cmRaw (K : Kit Y M V W D G) (w : List (Sc Y V W D)) : Int :=
  K.cm (K.N.angle (w.map (·.vec))) (Cold.minMag K.N (w.map (·.mag)))

/-- State of the look-back loop. -/
structure LB (Y V W D : Type) where
  rows : List (Row Y)
  end_ : Int
  i : Int
  iStart : Int
  iniConse : Option Int
  /-- the columns of `v_dif_mag` last written, and the scores with them -/
  tested : List (Sc Y V W D)
  cm : Cm

/-- The change magnitude of a look-back step, 3564–3601. -/
def lbCm (P : Params) (K : Kit Y M V W D G) (iIni iniConse : Int) (b : LB Y V W D)
    (sc : List (Sc Y V W D)) : Except Err Cm :=
  if iniConse ≥ P.conse then do
    let d ← rd b.rows b.end_ (iIni + 1)
    Cold.cmPut P b.cm d.date (cmRaw K sc)
  else .ok b.cm

/-- The columns computed in a look-back step: observation `k` positions before `i_ini` (3482–3545). -/
def lbWindow (K : Kit Y M V W D G) (m : M) (rows : List (Row Y)) (iIni iniConse : Int) :
    List (Sc Y V W D) :=
  (List.range iniConse.toNat).map fun (k : Nat) =>
    let r := rows.getD (iIni - (k : Int)).toNat K.row0
    column r (K.score 4 m r)

/-- The look-back loop, 3432–3652, with the model `m` of the initialisation (four coefficients). -/
def lookBack (P : Params) (K : Kit Y M V W D G) (m : M) (iBreak iIni : Int) (b : LB Y V W D) :
    Except Err (LB Y V W D) :=
  if iIni ≥ iBreak - 1 then
    let iniConse : Int :=
      if iIni - (iBreak - 1) + 1 < P.conse then iIni - (iBreak - 1) + 1 else P.conse
    if iniConse = 0 then .error .fail
    else do
      Cold.chk b.end_ (iIni - iniConse + 1) iIni
      let sc := lbWindow K m b.rows iIni iniConse
      let cm ← lbCm P K iIni iniConse b sc
      if isBreak K sc then
        .ok { b with iniConse := some iniConse, tested := sc, cm := cm }
      else if isOutlier K sc then
        lookBack P K m iBreak (iIni - 1)
          { rows := shiftDown K.row0 b.rows iIni.toNat (b.end_ - 1).toNat, end_ := b.end_ - 1,
            i := b.i - 1, iStart := iIni + 1, iniConse := some iniConse,
            tested := sc, cm := cm }
      else
        lookBack P K m iBreak (iIni - 1)
          { b with iStart := iIni + 1, iniConse := some iniConse, tested := sc, cm := cm }
  else .ok b
termination_by (iIni - (iBreak - 1) + 1).toNat

/-- 3396–3421: `i_break`. -/
def findBreak (s : St Y M V W D G) : Except Err Int :=
  match s.recs.getLast? with
  | none => .ok s.iDense
  | some r =>
    match findGe s.rows r.tBreak s.end_.toNat 0 with
    | some k => .ok (k + 1)
    | none => .error .uninit

/-- 3423–3654. -/
def doLookBack (P : Params) (K : Kit Y M V W D G) (m : M) (s : St Y M V W D G) (iBreak : Int) :
    Except Err (St Y M V W D G × Option Int × List (Sc Y V W D)) :=
  if s.iStart > iBreak then do
    let b ← lookBack P K m iBreak (s.iStart - 2) ⟨s.rows, s.end_, s.i, s.iStart, none, [], s.cm⟩
    .ok ({ s with rows := b.rows, end_ := b.end_, i := b.i, iStart := b.iStart,
                  cm := b.cm }, b.iniConse, b.tested)
  else .ok (s, none, [])

/-- The record of the start of the series, 3662–3772: `fit_cft` and `rmse` are overwritten, the
residuals go to `temp_v_dif`. -/
def firstCurve (P : Params) (K : Kit Y M V W D G) (s : St Y M V W D G) (iniConse : Option Int)
    (tested : List (Sc Y V W D)) : Except Err (St Y M V W D G) :=
  if s.recs.isEmpty && decide (s.iStart - s.iDense ≥ Cold.LASSO_MIN) then do
    Cold.chk s.end_ (s.iDense - 1) (s.iStart - 2)
    let tEnd ← rd s.rows s.end_ (s.iStart - 2)
    let tBreak ← rd s.rows s.end_ (s.iStart - 1)
    let tStart ← rd s.rows s.end_ (s.iDense - 1)
    match iniConse with
    | none => .error .uninit
    | some c =>
      if 1 ≤ c ∧ c ≤ P.conse then
        let obs := slice s.rows (s.iDense - 1) (s.iStart - 2)
        let m := K.fit 4 obs
        let r : Rec Y M V W D G :=
          { tStart := tStart.date, tEnd := tEnd.date, tBreak := tBreak.date,
            numObs := s.iStart - s.iDense + 1, category := 10 + 4, changeProb := 100,
            model := some m, magn := some (K.magnNeg (tested.map (·.dif))), fitted := obs,
            window := tested }
        .ok { s with cft := some m, recs := s.recs ++ [r],
                     overflow := s.overflow || decide ((s.recs ++ [r]).length ≥ Cold.NUM_FC) }
      else .error .oob
  else .ok s

/-- Model initialisation (`bl_train == 0`), 3015–3773. -/
def trainPhase (P : Params) (K : Kit Y M V W D G) (s : St Y M V W D G) :
    Except Err (Bool × St Y M V W D G) := do
  let g ← maxGap s.rows s.end_ (s.iStart - 1) (s.i - 1) 0
  if P.gapExceeds g then
    .ok (false, { s with i := s.i + 1, iStart := s.iStart + 1, iDense := s.iStart + 1 })
  else do
    Cold.chk s.end_ (s.iStart - 1) (s.i + P.conse - 1)
    let bl := K.mask (slice s.rows (s.iStart - 1) (s.i + P.conse - 1))
    let len := (s.i - s.iStart + 1).toNat
    let rm := Cold.rmIds bl (s.iStart - 1) len
    let iSpan : Int := Cold.keptCount bl len
    if iSpan < Cold.MIN_OBS then .ok (false, { s with i := s.i + 1 })
    else do
      let cp := compact (s.rows.take s.end_.toNat) 0 rm
      let i' := s.iStart + iSpan - 1
      let a ← rd cp cp.length (i' - 1)
      let b ← rd cp cp.length (s.iStart - 1)
      if !Cold.yearOrMore (a.date - b.date) then .ok (false, { s with i := s.i + 1 })
      else do
        let s := { s with rows := commit s.rows cp, end_ := cp.length, i := i' }
        Cold.chk s.end_ (s.iStart - 1) (s.i - 1)
        let obs := slice s.rows (s.iStart - 1) (s.i - 1)
        let m := K.fit 4 obs
        let s := { s with cft := some m, dif := some m }
        if K.unstable m obs then .ok (false, { s with iStart := s.iStart + 1, i := s.i + 1 })
        else do
          let s := { s with train := true, iCount := some 0 }
          let iBreak ← findBreak s
          let (s, iniConse, tested) ← doLookBack P K m s iBreak
          let s ← firstCurve P K s iniConse tested
          .ok (true, s)

/-- The observation `k` positions after `i` (3946–3986, 4203–4245). -/
def ahead (K : Kit Y M V W D G) (s : St Y M V W D G) (k : Nat) : Row Y :=
  s.rows.getD (s.i + (k : Int)).toNat K.row0

/-- The refit with the update of the record, 4012–4094. -/
def refit (K : Kit Y M V W D G) (s : St Y M V W D G) (iSpan updateC pe tEnd tStart : Int) :
    St Y M V W D G :=
  if s.i - pe ≥ 1 ∧ s.i - pe > K.skip s.iSpanSkip then
    let obs := slice s.rows (s.iStart - 1) (s.i - 1)
    let m := K.fit updateC obs
    { s with iCount := some (tEnd - tStart), preEnd := some s.i, iSpanSkip := iSpan,
             idsOldLen := some iSpan, cft := some m, dif := some m,
             cur := { s.cur with numObs := iSpan, category := updateC, model := some m,
                                 fitted := obs } }
  else s

/-- The model refresh of monitoring, 3819–4246. -/
def refresh (P : Params) (K : Kit Y M V W D G) (s : St Y M V W D G) : Except Err (St Y M V W D G) := do
  let iSpan := s.i - s.iStart + 1
  let s := { s with iSpanSkip := if s.iSpanSkip = 0 then iSpan else s.iSpanSkip }
  let updateC := Cold.updateCft iSpan 3 4 6 8 8
  match s.iCount with
  | none => .error .uninit
  | some ic =>
    if ic = 0 ∨ iSpan ≤ Cold.MAX_OBS then do
      -- 3839–4011
      let tEnd ← rd s.rows s.end_ (s.i - 1)
      let tStart ← rd s.rows s.end_ (s.iStart - 1)
      Cold.chk s.end_ (s.iStart - 1) (s.i - 1)
      Cold.chk s.end_ s.i (s.i + P.conse - 1)
      let obs := slice s.rows (s.iStart - 1) (s.i - 1)
      let m := K.fit updateC obs
      .ok { s with
        iCount := some (tEnd.date - tStart.date), preEnd := some s.i, idsOldLen := some iSpan,
        cft := some m, dif := some m,
        cur := { tStart := tStart.date, tEnd := tEnd.date, tBreak := 0, changeProb := 0,
                 numObs := iSpan, category := updateC, model := some m, magn := some K.magn0,
                 fitted := obs },
        win := (List.range P.conse).map (fun k => column (ahead K s k) (K.score updateC m (ahead K s k))) }
    else do
      -- 4012–4246
      match s.preEnd with
      | none => .error .uninit
      | some pe =>
        let tEnd ← rd s.rows s.end_ (s.i - 1)
        let tStart ← rd s.rows s.end_ (s.iStart - 1)
        Cold.chk s.end_ (s.iStart - 1) (s.i - 1)
        let s := refit K s iSpan updateC pe tEnd.date tStart.date
        let s := { s with cur := { s.cur with tEnd := tEnd.date } }
        let nRmse := 3 * s.cur.category
        match s.idsOldLen with
        | none => .error .uninit
        | some l =>
          if l = 0 then .error .fail
          else do
            Cold.chk s.end_ (s.iStart - 1) (s.iStart - 1 + l - 1)
            Cold.chk s.end_ s.i (s.i + P.conse - 1)
            if nRmse > l then .error .stale
            else
              match s.cft, s.dif with
              | some m, some m' =>
                let r := ahead K s (P.conse - 1)
                let near := K.near updateC s.cur.category m m'
                  ((slice s.rows (s.iStart - 1) (s.iStart - 1 + l - 1)).map (·.date)) r
                .ok { s with win := s.win.tail ++ [column r near] }
              | _, _ => .error .uninit

/-- Continuous monitoring (`bl_train == 1`), 3793–4412, before the final `i++`. -/
def monitorPhase (P : Params) (K : Kit Y M V W D G) (s : St Y M V W D G) :
    Except Err (St Y M V W D G) := do
  let s ← refresh P K s
  let d ← rd s.rows s.end_ s.i
  let cm ← Cold.cmPut P s.cm d.date (cmRaw K s.win)
  let s := { s with cm := cm }
  if isBreak K s.win then
    let r := { s.cur with tBreak := d.date, changeProb := 100,
                          magn := some (K.magn (s.win.map (·.dif))), window := s.win }
    .ok { s with cur := r, recs := s.recs ++ [r],
                 overflow := s.overflow || decide ((s.recs ++ [r]).length ≥ Cold.NUM_FC),
                 iStart := s.i + 1, train := false, iSpanSkip := 0 }
  else if isOutlier K s.win then
    .ok { s with rows := shiftDown K.row0 s.rows s.i.toNat (s.end_ - 1).toNat,
                 i := s.i - 1, end_ := s.end_ - 1 }
  else .ok s

/-- The body of `while (i <= end - adj_conse)`, 2979–4423. -/
def body (P : Params) (K : Kit Y M V W D G) (s : St Y M V W D G) : Except Err (St Y M V W D G) := do
  let s' ← (do
    let iSpan := s.i - s.iStart + 1
    let a ← rd s.rows s.end_ (s.i - 1)
    let b ← rd s.rows s.end_ (s.iStart - 1)
    if iSpan ≥ Cold.MIN_OBS ∧ Cold.yearOrMore (a.date - b.date) = true then
      let (go, s) ← (if s.train = false then trainPhase P K s else .ok (true, s))
      if go then do
        let s ← monitorPhase P K s
        .ok { s with i := s.i + 1 }
      else .ok s
    else .ok { s with i := s.i + 1 })
  .ok { s' with it := s.it + 1 }

/-- The `while` loop, with a bound on the number of iterations. -/
def loop (P : Params) (K : Kit Y M V W D G) : Nat → St Y M V W D G → Except Err (St Y M V W D G)
  | 0, s => if s.i ≤ s.end_ - P.conse then .error .fuel else .ok s
  | f + 1, s =>
    if s.i ≤ s.end_ - P.conse then do
      let s' ← body P K s
      loop P K f s'
    else .ok s

/-- End of the series with a trained model, 4431–4516. -/
def finishTrained (P : Params) (K : Kit Y M V W D G) (s : St Y M V W D G) :
    Except Err (St Y M V W D G) := do
  let idLast ← Cold.scanLast K.N (s.win.map Sc.core) P.conse P.conse
  let prob : Int := (((P.conse : Int) - idLast) * 100).tdiv P.conse
  let tEnd ← rd s.rows s.end_ (s.end_ - 1 - P.conse + idLast)
  if P.conse > idLast then do
    let tBreak ← rd s.rows s.end_ (s.end_ - P.conse + idLast)
    let r := { s.cur with changeProb := prob, tEnd := tEnd.date, tBreak := tBreak.date,
                          magn := some (K.magn ((s.win.drop idLast).map (·.dif))),
                          window := s.win.drop idLast }
    .ok { s with recs := s.recs ++ [r] }
  else
    let r := { s.cur with changeProb := prob, tEnd := tEnd.date, window := [] }
    .ok { s with recs := s.recs ++ [r] }

/-- 4527–4547: `i_start` for the end of the series. -/
def endStart (s : St Y M V W D G) : Int :=
  match s.recs.getLast? with
  | none => 1
  | some r =>
    match findGe s.rows r.tBreak s.rows.length 0 with
    | some k => k + 1
    | none => s.iStart

/-- End of the series without a trained model, 4517–4725. -/
def finishUntrained (K : Kit Y M V W D G) (s : St Y M V W D G) : Except Err (St Y M V W D G) := do
  let s := { s with iStart := endStart s }
  let s ←
    (if s.end_ - s.iStart + 1 ≥ Cold.LASSO_MIN then do
      Cold.chk s.end_ (s.iStart - 1) (s.end_ - 1)
      let bl := K.mask (slice s.rows (s.iStart - 1) (s.end_ - 1))
      let rm := Cold.rmIds bl (s.iStart - 1) (s.end_ - s.iStart + 1).toNat
      let cp := compact (s.rows.take s.end_.toNat) 0 rm
      .ok { s with rows := commit s.rows cp, end_ := cp.length }
    else .ok s)
  if s.end_ - s.iStart + 1 ≥ Cold.LASSO_MIN then do
    Cold.chk s.end_ (s.iStart - 1) (s.end_ - 1)
    let tStart ← (match s.recs.getLast? with
      | none => (rd s.rows s.end_ 0).map (·.date)
      | some r => .ok r.tBreak)
    let tEnd ← rd s.rows s.end_ (s.end_ - 1)
    let obs := slice s.rows (s.iStart - 1) (s.end_ - 1)
    let r : Rec Y M V W D G :=
      { tStart := tStart, tEnd := tEnd.date, tBreak := 0, changeProb := 0,
        numObs := s.end_ - s.iStart + 1, category := 20 + 4,
        model := some (K.fit 4 obs), magn := some K.magn0, fitted := obs }
    .ok { s with recs := s.recs ++ [r], overflow := s.overflow || decide (s.recs.length ≥ Cold.NUM_FC) }
  else .ok s

/-- Initial values, 2918–2960. -/
def init (rows : List (Row Y)) (nCm : Nat) : St Y M V W D G :=
  { it := 0, rows := rows, end_ := rows.length, i := 12, iStart := 1, iDense := 1, train := false,
    iCount := none, preEnd := none, idsOldLen := none, iSpanSkip := 0, cft := none, dif := none,
    win := [], recs := [], cur := {}, overflow := false,
    cm := ⟨List.replicate nCm (-9999), List.replicate nCm (-9999), []⟩ }

/-- What the caller sees. -/
structure Output (Y M V W D G : Type) where
  recs : List (Rec Y M V W D G)
  overflow : Bool
  iterations : Nat
  cm : Cm

/-- `stand_procedure` after extraction of the clear observations. -/
def standProcedure (P : Params) (K : Kit Y M V W D G) (rows : List (Row Y)) (nCm : Nat) :
    Except Err (Output Y M V W D G) := do
  let s ← loop P K rows.length (init rows nCm)
  let f ← if s.train then finishTrained P K s else finishUntrained K s
  .ok ⟨f.recs, f.overflow, s.it, f.cm⟩

end Pycold.ColdV
