import Verif.Model.Preprocess
/-!
# The COLD detection loop (`stand_procedure`, `src/cxx/cold.c` 2604–4831)

Transcription of the control flow, the index arithmetic, every read of the clear-date array `clrx`,
the in-place noise removal, the record bookkeeping and the change-magnitude slots.

What is abstracted, everywhere in this file:

* Floating-point data.  `V` is the type of magnitudes/angles, `W` the type of a per-observation
  5-band z-score vector (one column of `v_diff`).  Comparisons on `V` are arbitrary Boolean relations
  (so IEEE NaN is covered).  The values themselves, the Tmask flags `bl_ids`, the stability test
  `v_dif_norm > adj_TCG`, the refit gate `(int)(i_span_skip * SKIP_PERCENTAGE)` and the change
  magnitude to be stored are answers of an arbitrary `Oracle`, indexed by the loop iteration.  Since
  the theorems hold for every oracle they hold whatever the numerical code computes.
* `coefs`, `rmse`, `magnitude` of a record are not represented.  Instead the ghost field `fitted`
  remembers which dates were handed to `auto_ts_fit_float` for the coefficients of the record.
* The helpers `auto_mask`, `auto_ts_fit_float`, `malloc` are assumed to return success; if one fails
  `stand_procedure` returns FAILURE at once and no record reaches the caller.
* `*num_fc` is 0 on entry (`_cold_detect` passes 0), so `rec_fc = 0` and `*num_fc` is the number of
  closed records.

Undefined or meaningless behaviour is a distinct outcome (`Err`).
-/
namespace Pycold.Cold

/-- Ways in which the transcription can leave defined behaviour. -/
inductive Err where
  /-- read of `clrx`/`clry` outside `0 .. end-1`, or of a CM slot outside its array -/
  | oob
  /-- read of a C variable that was never assigned -/
  | uninit
  /-- use of residuals that the last fit did not produce -/
  | stale
  /-- explicit `RETURN_ERROR` -/
  | fail
  /-- the loop bound of the model was exhausted (non-termination) -/
  | fuel
deriving DecidableEq, Repr

/-- What the detection computes for one observation of a window: magnitude and z-score vector.  The
date of the observation it was computed from is a ghost field, not present in the C arrays
`vec_mag`/`v_diff`. -/
structure Score (V W : Type) where
  date : Int
  mag : V
  vec : W
deriving DecidableEq, Repr

/-- The parts of `Output_t` (`src/cxx/output.h`) that are modelled.  Ghost fields: `fitted`, the dates
given to the last fit of the record, and `window`, the scores on which a break was confirmed (for
the record at the end of the series: the scores behind its change probability). -/
structure Rec (V W : Type) where
  tStart : Int := 0
  tEnd : Int := 0
  tBreak : Int := 0
  numObs : Int := 0
  category : Int := 0
  changeProb : Int := 0
  fitted : List Int := []
  window : List (Score V W) := []
deriving DecidableEq, Repr

/-- Numerical environment: `adj_TCG`, `T_MAX_CG`, `NSIGN`, the start value 9999.0 of the running
minima, comparison of floats, and `MeanAngl_float` (`src/cxx/misc.c` 3003–3041). -/
structure Num (V W : Type) where
  lt : V → V → Bool
  le : V → V → Bool
  big : V
  tcg : V
  tmax : V
  nsign : V
  angle : List W → V

/-- Answers of the floating-point computations, by loop iteration. -/
structure Oracle (V W : Type) where
  /-- `bl_ids[k] == 1` after `auto_mask` (3047) -/
  mask : Nat → Nat → Bool
  /-- `v_dif_norm > adj_TCG` (3351) -/
  unstable : Nat → Bool
  /-- look-back: magnitude and z-score of the `k`-th observation before `i_ini` (3482–3545) -/
  lbScore : Nat → Int → Nat → V × W
  /-- monitoring: magnitude and z-score of the `k`-th observation of the window (3946–3986, 4203–4245) -/
  score : Nat → Nat → V × W
  /-- `(int)(i_span_skip * SKIP_PERCENTAGE)` (4014) -/
  skip : Int → Int
  /-- `round(prob_angle * magnitude * 100)` in look-back (3569) and in monitoring (4279) -/
  cmLb : Nat → Int → Int
  cmMon : Nat → Int
  /-- `bl_ids[k] == 1` after the final `auto_mask` (4562) -/
  endMask : Nat → Bool

/-- Parameters of `stand_procedure` (2604–2630); `gapExceeds d` is `d > gap_days`. -/
structure Params where
  conse : Nat
  gapExceeds : Int → Bool
  bOutputCM : Bool := false
  startingDate : Int := 0
  interval : Int := 60

/-- `CM_outputs`, `CM_outputs_date`, and (ghost) the list of all (date, value) pairs offered so far. -/
structure Cm where
  out : List Int
  date : List Int
  log : List (Int × Int)
deriving DecidableEq, Repr

/-- The variables of `stand_procedure` that survive an iteration.  `clrx` always has its allocated
length; `end_` is the number of live entries.  `it` counts executions of the loop body (ghost). -/
structure St (V W : Type) where
  it : Nat
  clrx : List Int
  end_ : Int
  i : Int
  iStart : Int
  iDense : Int
  train : Bool
  iCount : Option Int
  preEnd : Option Int
  idsOldLen : Option Int
  iSpanSkip : Int
  scores : List (Score V W)
  recs : List (Rec V W)
  cur : Rec V W
  /-- set when `realloc` is called on the caller's record buffer (3765, 4364, 4715) -/
  overflow : Bool
  cm : Cm

variable {V W : Type}

/-- `N_TIMES * MIN_NUM_C`, `N_TIMES * MAX_NUM_C`, `LASSO_MIN`, `NUM_FC` (`src/cxx/defines.h`). -/
def MIN_OBS : Int := 12
def MAX_OBS : Int := 24
def LASSO_MIN : Int := 6
def NUM_FC : Nat := 40

/-- `update_cft`, `src/cxx/misc.c` 42–69. -/
def updateCft (iSpan nTimes minC midC maxC numC : Int) : Int :=
  if iSpan < midC * nTimes then min minC numC
  else if iSpan < maxC * nTimes then min midC numC
  else min maxC numC

/-- `clrx[k]`, with `k` checked against the live part. -/
def rd (clrx : List Int) (end_ k : Int) : Except Err Int :=
  if 0 ≤ k ∧ k < end_ then
    match clrx[k.toNat]? with
    | some v => .ok v
    | none => .error .oob
  else .error .oob

/-- A helper reads `clrx[lo..hi]`, `clry[.][lo..hi]`. -/
def chk (end_ lo hi : Int) : Except Err Unit :=
  if 0 ≤ lo ∧ hi < end_ then .ok () else .error .oob

/-- The dates at positions `lo..hi` (ghost: what a fit was given). -/
def slice (clrx : List Int) (lo hi : Int) : List Int :=
  (clrx.drop lo.toNat).take (hi - lo + 1).toNat

/-- `time_span >= MIN_YEARS` (2994, 3007, 3188–3196): `days / 365.25 >= 1` in exact arithmetic. -/
def yearOrMore (days : Int) : Bool := decide (4 * days ≥ 1461)

/-- The loop computing `max_date_diff`, 3029–3037. -/
def maxGap (clrx : List Int) (end_ k stop m : Int) : Except Err Int :=
  if k < stop then do
    let b ← rd clrx end_ (k + 1)
    let a ← rd clrx end_ k
    maxGap clrx end_ (k + 1) stop (if b - a > m then b - a else m)
  else .ok m
termination_by (stop - k).toNat

/-- `rm_ids` (3072–3088, 4586–4601): positions `base + k`, `k < len`, flagged by the mask. -/
def rmIds (mask : Nat → Bool) (base : Int) (len : Nat) : List Int :=
  ((List.range len).filter mask).map (fun (k : Nat) => base + (k : Int))

/-- `i_span` after noise removal (3077–3087, 4591–4600). -/
def keptCount (mask : Nat → Bool) (len : Nat) : Nat :=
  ((List.range len).filter (fun k => !mask k)).length

/-- The compaction loop `for (k = 0, k_new = 0; k < end; k++)`, 3144–3158 (into `cpx`) and 4610–4623
(in place; writes go to `k_new <= k`, so no unread entry is overwritten).  The list is
`clrx[k .. end-1]`. -/
def compact : List Int → Int → List Int → List Int
  | [], _, _ => []
  | x :: xs, k, [] => x :: compact xs (k + 1) []
  | x :: xs, k, r :: rs => if k = r then compact xs (k + 1) rs else x :: compact xs (k + 1) (r :: rs)

/-- Overwriting the first `cp.length` entries of the array (3231–3238). -/
def commit (clrx cp : List Int) : List Int := cp ++ clrx.drop cp.length

/-- `for (k = from; k < end - 1; k++) clrx[k] = clrx[k+1]` (3616–3623, 4401–4406). -/
def shiftDown (a : List Int) (k stop : Nat) : List Int :=
  if k < stop then shiftDown (a.set k (a.getD (k + 1) 0)) (k + 1) stop else a
termination_by stop - k

/-- The running minimum `break_mag` / `vec_magg_min` (3481–3544, 4251–4258). -/
def minMag (N : Num V W) (mags : List V) : V :=
  mags.foldl (fun acc v => if N.lt v acc then v else acc) N.big

/-- `(break_mag > adj_TCG) && (mean_angle < NSIGN)` (3603, 4314). -/
def isBreak (N : Num V W) (sc : List (Score V W)) : Bool :=
  N.lt N.tcg (minMag N (sc.map (·.mag))) && N.lt (N.angle (sc.map (·.vec))) N.nsign

/-- `vec_mag[0] > T_MAX_CG` (3614, 4393). -/
def isOutlier (N : Num V W) (sc : List (Score V W)) : Bool :=
  match sc with
  | [] => false
  | s :: _ => N.lt N.tmax s.mag

/-- `(short int)` conversion (3597, 4307). -/
def toShort (x : Int) : Int := Int.bmod x 65536

/-- `ORDINAL_LANDSAT4_LAUNCH`, `src/cxx/defines.h`. -/
def LAUNCH : Int := 723742

/-- `MAX_SHORT`, `src/cxx/defines.h`. -/
def MAX_SHORT : Int := 32767

/-- Storing a change magnitude, 3564–3601 and 4274–4309; `raw` is `round(prob_angle*mag*100)`. -/
def cmPut (P : Params) (cm : Cm) (date raw : Int) : Except Err Cm :=
  if P.bOutputCM then
    let val := toShort (if raw > MAX_SHORT then MAX_SHORT else raw)
    let n := (date - P.startingDate).tdiv P.interval
    if 0 ≤ n ∧ n < cm.out.length then
      match cm.out[n.toNat]? with
      | none => .error .oob
      | some old =>
        if val > old then
          .ok { out := cm.out.set n.toNat val, date := cm.date.set n.toNat (toShort (date - LAUNCH)),
                log := cm.log ++ [(date, val)] }
        else .ok { cm with log := cm.log ++ [(date, val)] }
    else .error .oob
  else .ok cm

/-- The search for the previous break, 3413–3420 / 4539–4546: first `k < stop` with
`clrx[k] >= t_break`; the variable keeps its old value when there is none. -/
def findGe (clrx : List Int) (t : Int) (stop : Nat) (k : Nat) : Option Nat :=
  if k < stop then
    match clrx[k]? with
    | none => none
    | some v => if v ≥ t then some k else findGe clrx t stop (k + 1)
  else none
termination_by stop - k

/-- State of the look-back loop: the arrays and indices it changes, and `ini_conse`. -/
structure LB (V W : Type) where
  clrx : List Int
  end_ : Int
  i : Int
  iStart : Int
  iniConse : Option Int
  /-- ghost: the scores last tested -/
  tested : List (Score V W)
  cm : Cm

/-- The change magnitude of a look-back step, only when based on `conse` observations, 3564–3601. -/
def lbCm (P : Params) (ω : Oracle V W) (it : Nat) (iIni iniConse : Int) (b : LB V W) :
    Except Err Cm :=
  if iniConse ≥ P.conse then do
    let d ← rd b.clrx b.end_ (iIni + 1)
    cmPut P b.cm d (ω.cmLb it iIni)
  else .ok b.cm

/-- The look-back loop `for (i_ini = i_start - 2; i_ini >= i_break - 1; i_ini--)`, 3432–3652. -/
def lookBack (P : Params) (N : Num V W) (ω : Oracle V W) (it : Nat) (iBreak iIni : Int) (b : LB V W) :
    Except Err (LB V W) :=
  if iIni ≥ iBreak - 1 then
    let iniConse : Int :=
      if iIni - (iBreak - 1) + 1 < P.conse then iIni - (iBreak - 1) + 1 else P.conse
    if iniConse = 0 then .error .fail
    else do
      chk b.end_ (iIni - iniConse + 1) iIni
      let sc := (List.range iniConse.toNat).map (fun (k : Nat) =>
        Score.mk (b.clrx.getD (iIni - (k : Int)).toNat 0) (ω.lbScore it iIni k).1 (ω.lbScore it iIni k).2)
      let cm ← lbCm P ω it iIni iniConse b
      if isBreak N sc then
        .ok { b with iniConse := some iniConse, tested := sc, cm := cm }
      else if isOutlier N sc then
        lookBack P N ω it iBreak (iIni - 1)
          { clrx := shiftDown b.clrx iIni.toNat (b.end_ - 1).toNat, end_ := b.end_ - 1,
            i := b.i - 1, iStart := iIni + 1, iniConse := some iniConse,
            tested := sc, cm := cm }
      else
        lookBack P N ω it iBreak (iIni - 1)
          { b with iStart := iIni + 1, iniConse := some iniConse, tested := sc, cm := cm }
  else .ok b
termination_by (iIni - (iBreak - 1) + 1).toNat

/-- 3396–3421: `i_break`. -/
def findBreak (s : St V W) : Except Err Int :=
  match s.recs.getLast? with
  | none => .ok s.iDense
  | some r =>
    match findGe s.clrx r.tBreak s.end_.toNat 0 with
    | some k => .ok (k + 1)
    | none => .error .uninit

/-- 3423–3654. -/
def doLookBack (P : Params) (N : Num V W) (ω : Oracle V W) (s : St V W) (iBreak : Int) :
    Except Err (St V W × Option Int × List (Score V W)) :=
  if s.iStart > iBreak then do
    let b ← lookBack P N ω s.it iBreak (s.iStart - 2)
      ⟨s.clrx, s.end_, s.i, s.iStart, none, [], s.cm⟩
    .ok ({ s with clrx := b.clrx, end_ := b.end_, i := b.i, iStart := b.iStart,
                  cm := b.cm }, b.iniConse, b.tested)
  else .ok (s, none, [])

/-- The record of the start of the series, 3662–3772. -/
def firstCurve (P : Params) (s : St V W) (iniConse : Option Int)
    (tested : List (Score V W)) : Except Err (St V W) :=
  if s.recs.isEmpty && decide (s.iStart - s.iDense ≥ LASSO_MIN) then do
    chk s.end_ (s.iDense - 1) (s.iStart - 2)
    let tEnd ← rd s.clrx s.end_ (s.iStart - 2)
    let tBreak ← rd s.clrx s.end_ (s.iStart - 1)
    let tStart ← rd s.clrx s.end_ (s.iDense - 1)
    match iniConse with
    | none => .error .uninit
    | some c =>
      if 1 ≤ c ∧ c ≤ P.conse then
        let r : Rec V W :=
          { tStart := tStart, tEnd := tEnd, tBreak := tBreak, numObs := s.iStart - s.iDense + 1,
            category := 10 + 4, changeProb := 100,
            fitted := slice s.clrx (s.iDense - 1) (s.iStart - 2),
            window := tested }
        .ok { s with recs := s.recs ++ [r],
                     overflow := s.overflow || decide ((s.recs ++ [r]).length ≥ NUM_FC) }
      else .error .oob
  else .ok s

/-- Model initialisation (`bl_train == 0`), 3015–3773.  `(true, s)`: the model is ready and control
falls through to monitoring; `(false, s)`: a `continue` was executed (`i` already advanced). -/
def trainPhase (P : Params) (N : Num V W) (ω : Oracle V W) (s : St V W) :
    Except Err (Bool × St V W) := do
  let g ← maxGap s.clrx s.end_ (s.iStart - 1) (s.i - 1) 0
  if P.gapExceeds g then
    .ok (false, { s with i := s.i + 1, iStart := s.iStart + 1, iDense := s.iStart + 1 })
  else do
    -- auto_mask over i_start-1 .. i+conse-1 and the span argument clrx[i+conse-1]-clrx[i_start-1]
    chk s.end_ (s.iStart - 1) (s.i + P.conse - 1)
    let len := (s.i - s.iStart + 1).toNat
    let rm := rmIds (ω.mask s.it) (s.iStart - 1) len
    let iSpan : Int := keptCount (ω.mask s.it) len
    if iSpan < MIN_OBS then .ok (false, { s with i := s.i + 1 })
    else do
      let cpx := compact (s.clrx.take s.end_.toNat) 0 rm
      let i' := s.iStart + iSpan - 1
      let a ← rd cpx cpx.length (i' - 1)
      let b ← rd cpx cpx.length (s.iStart - 1)
      if !yearOrMore (a - b) then .ok (false, { s with i := s.i + 1 })
      else do
        let s := { s with clrx := commit s.clrx cpx, end_ := cpx.length, i := i' }
        chk s.end_ (s.iStart - 1) (s.i - 1)
        if ω.unstable s.it then .ok (false, { s with iStart := s.iStart + 1, i := s.i + 1 })
        else do
          let s := { s with train := true, iCount := some 0 }
          let iBreak ← findBreak s
          let (s, iniConse, tested) ← doLookBack P N ω s iBreak
          let s ← firstCurve P s iniConse tested
          .ok (true, s)

/-- The score of the `k`-th observation after position `i` (3946–3986, 4203–4245). -/
def scoreAt (ω : Oracle V W) (s : St V W) (k : Nat) : Score V W :=
  ⟨s.clrx.getD (s.i + (k : Int)).toNat 0, (ω.score s.it k).1, (ω.score s.it k).2⟩

/-- The model refresh of monitoring, 3819–4246: sets the current record and the window scores. -/
def refresh (P : Params) (ω : Oracle V W) (s : St V W) : Except Err (St V W) := do
  let iSpan := s.i - s.iStart + 1
  let s := { s with iSpanSkip := if s.iSpanSkip = 0 then iSpan else s.iSpanSkip }
  let updateC := updateCft iSpan 3 4 6 8 8
  match s.iCount with
  | none => .error .uninit
  | some ic =>
    if ic = 0 ∨ iSpan ≤ MAX_OBS then do
      -- 3839–4011
      let tEnd ← rd s.clrx s.end_ (s.i - 1)
      let tStart ← rd s.clrx s.end_ (s.iStart - 1)
      chk s.end_ (s.iStart - 1) (s.i - 1)
      chk s.end_ s.i (s.i + P.conse - 1)
      .ok { s with
        iCount := some (tEnd - tStart), preEnd := some s.i, idsOldLen := some iSpan,
        cur := { tStart := tStart, tEnd := tEnd, tBreak := 0, changeProb := 0, numObs := iSpan,
                 category := updateC, fitted := slice s.clrx (s.iStart - 1) (s.i - 1) },
        scores := (List.range P.conse).map (scoreAt ω s) }
    else do
      -- 4012–4246
      match s.preEnd with
      | none => .error .uninit
      | some pe =>
        let tEnd ← rd s.clrx s.end_ (s.i - 1)
        let tStart ← rd s.clrx s.end_ (s.iStart - 1)
        chk s.end_ (s.iStart - 1) (s.i - 1)
        let s :=
          if s.i - pe ≥ 1 ∧ s.i - pe > ω.skip s.iSpanSkip then
            { s with iCount := some (tEnd - tStart), preEnd := some s.i, iSpanSkip := iSpan,
                     idsOldLen := some iSpan,
                     cur := { s.cur with numObs := iSpan, category := updateC,
                                         fitted := slice s.clrx (s.iStart - 1) (s.i - 1) } }
          else s
        let s := { s with cur := { s.cur with tEnd := tEnd } }
        let nRmse := 3 * s.cur.category
        match s.idsOldLen with
        | none => .error .uninit
        | some l =>
          if l = 0 then .error .fail
          else do
            chk s.end_ (s.iStart - 1) (s.iStart - 1 + l - 1)
            chk s.end_ s.i (s.i + P.conse - 1)
            if nRmse > l then .error .stale
            else
              .ok { s with scores := s.scores.tail ++ [scoreAt ω s (P.conse - 1)] }

/-- Continuous monitoring (`bl_train == 1`), 3793–4412, before the final `i++`. -/
def monitorPhase (P : Params) (N : Num V W) (ω : Oracle V W) (s : St V W) :
    Except Err (St V W) := do
  let s ← refresh P ω s
  let d ← rd s.clrx s.end_ s.i
  let cm ← cmPut P s.cm d (ω.cmMon s.it)
  let s := { s with cm := cm }
  if isBreak N s.scores then
    let r := { s.cur with tBreak := d, changeProb := 100, window := s.scores }
    .ok { s with cur := r, recs := s.recs ++ [r],
                 overflow := s.overflow || decide ((s.recs ++ [r]).length ≥ NUM_FC),
                 iStart := s.i + 1, train := false, iSpanSkip := 0 }
  else if isOutlier N s.scores then
    .ok { s with clrx := shiftDown s.clrx s.i.toNat (s.end_ - 1).toNat,
                 i := s.i - 1, end_ := s.end_ - 1 }
  else .ok s

/-- The body of `while (i <= end - adj_conse)`, 2979–4423. -/
def body (P : Params) (N : Num V W) (ω : Oracle V W) (s : St V W) : Except Err (St V W) := do
  let s' ← (do
    let iSpan := s.i - s.iStart + 1
    let a ← rd s.clrx s.end_ (s.i - 1)
    let b ← rd s.clrx s.end_ (s.iStart - 1)
    if iSpan ≥ MIN_OBS ∧ yearOrMore (a - b) = true then
      let (go, s) ← (if s.train = false then trainPhase P N ω s else .ok (true, s))
      if go then do
        let s ← monitorPhase P N ω s
        .ok { s with i := s.i + 1 }
      else .ok s
    else .ok { s with i := s.i + 1 })
  .ok { s' with it := s.it + 1 }

/-- The `while` loop, with a bound on the number of iterations; running out of it is `Err.fuel`. -/
def loop (P : Params) (N : Num V W) (ω : Oracle V W) : Nat → St V W → Except Err (St V W)
  | 0, s => if s.i ≤ s.end_ - P.conse then .error .fuel else .ok s
  | f + 1, s =>
    if s.i ≤ s.end_ - P.conse then do
      let s' ← body P N ω s
      loop P N ω f s'
    else .ok s

/-- The scan for `id_last`, 4441–4474; `n` is `i_conse + 1`. -/
def scanLast (N : Num V W) (scores : List (Score V W)) (conse : Nat) : Nat → Except Err Nat
  | 0 => .ok conse
  | n + 1 =>
    match scores[n]? with
    | none => .error .oob
    | some sc =>
      if N.le sc.mag N.tcg || N.le N.nsign (N.angle ((scores.drop n).map (·.vec))) then .ok (n + 1)
      else scanLast N scores conse n

/-- End of the series with a trained model, 4431–4516. -/
def finishTrained (P : Params) (N : Num V W) (s : St V W) : Except Err (St V W) := do
  let idLast ← scanLast N s.scores P.conse P.conse
  let prob : Int := (((P.conse : Int) - idLast) * 100).tdiv P.conse
  let tEnd ← rd s.clrx s.end_ (s.end_ - 1 - P.conse + idLast)
  if P.conse > idLast then do
    let tBreak ← rd s.clrx s.end_ (s.end_ - P.conse + idLast)
    let r := { s.cur with changeProb := prob, tEnd := tEnd, tBreak := tBreak,
                          window := s.scores.drop idLast }
    .ok { s with recs := s.recs ++ [r] }
  else
    let r := { s.cur with changeProb := prob, tEnd := tEnd, window := [] }
    .ok { s with recs := s.recs ++ [r] }

/-- 4527–4547: `i_start` for the end of the series (the search runs to `n_clr`, beyond `end`). -/
def endStart (s : St V W) : Int :=
  match s.recs.getLast? with
  | none => 1
  | some r =>
    match findGe s.clrx r.tBreak s.clrx.length 0 with
    | some k => k + 1
    | none => s.iStart

/-- End of the series without a trained model, 4517–4725. -/
def finishUntrained (ω : Oracle V W) (s : St V W) : Except Err (St V W) := do
  let s := { s with iStart := endStart s }
  let s ←
    (if s.end_ - s.iStart + 1 ≥ LASSO_MIN then do
      chk s.end_ (s.iStart - 1) (s.end_ - 1)
      let rm := rmIds ω.endMask (s.iStart - 1) (s.end_ - s.iStart + 1).toNat
      let cp := compact (s.clrx.take s.end_.toNat) 0 rm
      .ok { s with clrx := commit s.clrx cp, end_ := cp.length }
    else .ok s)
  if s.end_ - s.iStart + 1 ≥ LASSO_MIN then do
    chk s.end_ (s.iStart - 1) (s.end_ - 1)
    let tStart ← (match s.recs.getLast? with
      | none => rd s.clrx s.end_ 0
      | some r => .ok r.tBreak)
    let tEnd ← rd s.clrx s.end_ (s.end_ - 1)
    let r : Rec V W :=
      { tStart := tStart, tEnd := tEnd, tBreak := 0, changeProb := 0,
        numObs := s.end_ - s.iStart + 1, category := 20 + 4,
        fitted := slice s.clrx (s.iStart - 1) (s.end_ - 1) }
    .ok { s with recs := s.recs ++ [r], overflow := s.overflow || decide (s.recs.length ≥ NUM_FC) }
  else .ok s

/-- Initial values, 2918–2960. -/
def init (dates : List Int) (nCm : Nat) : St V W :=
  { it := 0, clrx := dates, end_ := dates.length, i := 12, iStart := 1, iDense := 1, train := false,
    iCount := none, preEnd := none, idsOldLen := none, iSpanSkip := 0, scores := [], recs := [],
    cur := {}, overflow := false, 
    cm := ⟨List.replicate nCm (-9999), List.replicate nCm (-9999), []⟩ }

/-- What the caller sees. -/
structure Output (V W : Type) where
  recs : List (Rec V W)
  overflow : Bool
  iterations : Nat
  cm : Cm

/-- `stand_procedure` after extraction of the clear observations (`dates` = `clrx`). -/
def standProcedure (P : Params) (N : Num V W) (ω : Oracle V W) (dates : List Int) (nCm : Nat) :
    Except Err (Output V W) := do
  let s ← loop P N ω dates.length (init dates nCm)
  let f ← if s.train then finishTrained P N s else finishUntrained ω s
  .ok ⟨f.recs, f.overflow, s.it, f.cm⟩

/-- How `cold` (`src/cxx/cold.c` 84–226) ends. -/
inductive Top (V W : Type) where
  /-- `RETURN_ERROR` for an unsorted series (130–133) or a failed screening (140–143) -/
  | rejected
  /-- no scene at all (123–125): success, no record -/
  | empty
  /-- fewer than 24 clear scenes (175–178): `inefficientobs_procedure` -/
  | fallback
  /-- `stand_procedure` (187–189) -/
  | standard (r : Except Err (Output V W))

/-- `cold`, `src/cxx/cold.c` 84–226. -/
def cold (P : Params) (N : Num V W) (ω : Oracle V W) (bC2 : Bool) (obs : List Scene) (nCm : Nat) :
    Top V W :=
  if obs.isEmpty then .empty
  else if dateCheckFails obs then .rejected
  else
    let pre := preprocessing bC2 obs
    if pre.status ≠ .success then .rejected
    else if pre.sums.clear < 24 then .fallback
    else .standard (standProcedure P N ω ((clearObs bC2 obs).map (·.date)) nCm)

/-- `n_cm` as `_cold_detect` sizes the CM arrays, `src/python/pycold/_colds_cython.pyx` 194–195:
`math.ceil((dates[-1] - starting_date + 1) / cm_output_interval) + 1`. -/
def pyNCm (lastDate startingDate interval : Int) : Nat :=
  (-((-(lastDate - startingDate + 1)) / interval) + 1).toNat

end Pycold.Cold
