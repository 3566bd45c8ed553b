import Verif.Model.Preprocess
/-!
# S-CCD (`src/cxx/s_ccd.c`): the detection loop, the near-real-time modes, storing and reloading

Transcription of `sccd` (33–299), `step1_cold_initialize` (509–1473), the decision logic of
`step2_KF_ChangeDetection` (1672–2087), `step3_processing_end` (2100–2551), `sccd_standard`
(2552–3093), `sccd_snow` (3095–3394) and of the wrappers `_sccd_detect`, `_sccd_update`
(`src/python/pycold/_colds_cython.pyx`) and `sccd_identify` (`src/python/pycold/colds.py` 474–541).

What is abstracted, everywhere in this file:

* Floating-point results.  `V` is the type of magnitudes and angles, `F` the type of the whole filter
  state (`fit_cft`, `cov_p`, `instance[..].H`, `sum_square_vt`), `R` the numerical body of a record
  (`coefs`, `rmse`, `magnitude`), `M` the type of `min_rmse`.  They are computed by arbitrary functions
  `Num` of exactly the data the C code reads.  Comparisons are arbitrary Boolean relations (IEEE NaN
  is covered).
* `clrx[0..n_clr-1]`, `clry[..][0..n_clr-1]` are one list of observations; `n_clr` is its length.
* Array indices are natural numbers: where the C code would form a negative index the model
  reports `Err.oob`.
* `b_pinpoint` is false (`_sccd_update` always passes `False`).  Allocation, `auto_mask` and the fits
  are assumed to return SUCCESS; otherwise the call fails and no result reaches the caller.

Ghost data (not in the C code, never read by a decision): `lead`, `span`, `seg`, `pre`, `removed`
remember which observations went where.
-/
namespace Pycold.Sccd

/-- Ways in which the transcription can leave defined behaviour. -/
inductive Err where
  /-- an index outside the live part of an array -/
  | oob
  /-- an explicit error return -/
  | fail
  /-- the loop bound of the model was exhausted (non-termination) -/
  | fuel
deriving DecidableEq, Repr

/-- `clrx[k]`, `clry[0..5][k]`. -/
structure Obs where
  date : Int
  vals : List Int
deriving DecidableEq, Repr

/-- `Output_sccd` (`src/cxx/output.h` 52–68).  Ghost: `lead`, the observations between the previous
segment and this one that no model used; `span`, the observations the model of this record was fitted
to or filtered with. -/
structure Rec (R : Type) where
  tStart : Int
  tBreak : Int
  numObs : Int
  body : R
  lead : List Obs
  span : List Obs
deriving DecidableEq, Repr

/-- The numerical environment.  Thresholds: `big` 9999.0, `tcg`, `tmax` `T_MAX_CG_SCCD`, `tmaxLb`
`T_MAX_CG`, `nsign` `NSIGN`, `gate` `gate_tcg`, `pred` `predictability_tcg`. -/
structure Num (V F R : Type) where
  lt : V → V → Bool
  le : V → V → Bool
  big : V
  tcg : V
  tmax : V
  tmaxLb : V
  nsign : V
  gate : V
  pred : V
  /-- `bl_ids[k] == 1` after `auto_mask` over the given window (709) -/
  mask : List Obs → Nat → Bool
  /-- `v_dif_norm > tcg` for the given window (985–1060) -/
  unstable : List Obs → Bool
  /-- look-back (1195–1261): magnitude of an observation and mean angle of several, for the model
  fitted to the given window -/
  lbMag : List Obs → Obs → V
  lbAngle : List Obs → List Obs → V
  /-- body of the record of the start of the series (1332–1412): observations fitted, observations
  just before the break, window of the current model -/
  firstRec : List Obs → List Obs → List Obs → R
  /-- the filter after `auto_ts_fit_sccd` and `step1_ssm_initialize` (2800–2830) on the given window;
  the first argument is the filter that was in use before, if any: only the diagonal of its covariance
  is overwritten (456–466); the last one is the following observation (read at 402–411) -/
  fit : Option F → List Obs → Obs → F
  /-- `v_dif_mag_norm` of an observation (1757–1785) for a filter and `num_obs_processed` -/
  mag : F → Int → Obs → V
  /-- `MeanAngl_float` of a window (1948) -/
  angle : F → Int → List Obs → V
  /-- body of the record of a detected change (1975–1999) -/
  changeRec : F → Int → List Obs → R
  /-- `KF_ts_filter_regular` on the observation, up to the date of the next one (2051–2056) -/
  filter : F → Obs → Int → F
  /-- `KF_ts_filter_falsechange` (2024–2028) -/
  skip : F → Obs → Int → F
  /-- `v_dif_mag_norm` and mean angle as computed at the end (2302–2330, 2431, 2471) -/
  endMag : F → Int → Obs → V
  endAngle : F → Int → List Obs → V
  /-- `(short int) min(100 * x, MAX_SHORT)` (1966–1973, 2428–2444, 2469–2476) -/
  scale : V → Int
  /-- conversion of the filter state to the `float` fields of `output_nrtmodel` (2234, 2287, 2886) -/
  narrow : F → F
  /-- `sccd_snow`: initial filter (3245–3271) and one filter step (3311) -/
  snowFit : List Obs → F
  snowFilter : F → Obs → Int → F

/-- `output_nrtmodel` (`src/cxx/output.h` 78–93): `covariance`, `nrt_coefs`, `H`, `rmse_sum` are
`filt`; `obs` holds `obs_date_since1982[k]`, `obs[..][k]` for the eight `k`.  Ghost: `pre`, `seg`. -/
structure Model (F : Type) where
  filt : F
  tStart : Int
  numObs : Int
  obs : List Obs
  normCm : Int
  cmAngle : Int
  conseLast : Int
  pre : List Obs
  seg : List Obs
deriving DecidableEq, Repr

/-- The variables of `sccd_standard` that survive an iteration (2571–2604).  `train` is
`bl_train == 1`.  Ghost: `pre`, `seg` (the observations skipped before, and used by, the current
model), `removed` (noise). -/
structure St (F R : Type) where
  obs : List Obs
  i : Nat
  iStart : Nat
  iDense : Nat
  prevBreak : Nat
  train : Bool
  filt : Option F
  tStart : Int
  numObs : Int
  recs : List (Rec R)
  model : Option (Model F)
  changed : Bool
  pre : List Obs
  seg : List Obs
  removed : List Obs

variable {V F R M : Type}

/-- `src/cxx/defines.h` 12–21, 98, 129, 140, 152: `N_TIMES * MID_NUM_C` (= `N_TIMES * SCCD_NUM_C`),
`LASSO_MIN`, `DEFAULT_CONSE_SCCD`, `MAX_OBS_QUEUE`, `STATUS_DELEY_DAYS`, `NA_VALUE`,
`ORDINAL_LANDSAT4_LAUNCH`. -/
def MIN_OBS : Nat := 18
def LASSO_MIN : Nat := 6
def NCONSE : Nat := 8
def MAX_QUEUE : Nat := 240
def DELAY_DAYS : Int := 15
def NA_VALUE : Int := -9999
def LAUNCH : Int := 723742

/-- `clrx[k]`, `clry[..][k]`. -/
def rd (obs : List Obs) (k : Nat) : Except Err Obs :=
  match obs[k]? with
  | some o => .ok o
  | none => .error .oob

/-- A helper reads up to index `hi`. -/
def chk (obs : List Obs) (hi : Nat) : Except Err Unit :=
  if hi < obs.length then .ok () else .error .oob

/-- The observations `lo..hi`. -/
def slice (obs : List Obs) (lo hi : Nat) : List Obs := (obs.drop lo).take (hi + 1 - lo)

/-- `time_span >= MIN_YEARS`, `days / 365.25 >= 1` in exact arithmetic (882–890, 2768–2776). -/
def yearOrMore (days : Int) : Bool := decide (4 * days ≥ 1461)

/-- `max_date_diff` (652–658). -/
def maxGap : List Obs → Int → Int
  | a :: b :: rest, m => maxGap (b :: rest) (if b.date - a.date > m then b.date - a.date else m)
  | _, m => m

/-- The entries of a window that `auto_mask` did not flag (739–749, 839–853). -/
def keep (flag : Nat → Bool) : Nat → List Obs → List Obs
  | _, [] => []
  | k, o :: os => if flag k then keep flag (k + 1) os else o :: keep flag (k + 1) os

/-- The flagged entries (743–746). -/
def flagged (flag : Nat → Bool) : Nat → List Obs → List Obs
  | _, [] => []
  | k, o :: os => if flag k then o :: flagged flag (k + 1) os else flagged flag (k + 1) os

/-- The running minimum `vec_magg_min` / `break_mag` (1249–1252, 1786–1789). -/
def minMag (N : Num V F R) (mags : List V) : V :=
  mags.foldl (fun acc v => if N.lt v acc then v else acc) N.big

/-- State of the look-back loop. -/
structure LB where
  obs : List Obs
  i : Nat
  iStart : Nat
  removed : List Obs

/-- The look-back loop `for (i_ini = *i_start - 1; i_ini >= *prev_i_break; i_ini--)`, 1144–1311;
the first argument is `i_ini - prev_i_break + 1`, `w` the window the current model was fitted to.
`(vec_magg_min > tcg) && (mean_angle < NSIGN)` at 1263, `vec_magg[0] > T_MAX_CG` at 1274. -/
def lookBack (N : Num V F R) (conse : Nat) (w : List Obs) (prev : Nat) : Nat → LB → Except Err LB
  | 0, b => .ok b
  | m + 1, b =>
    let iIni := prev + m
    let c := if m + 1 < conse then m + 1 else conse
    if c = 0 then .error .fail
    else do
      chk b.obs iIni
      let sc := (slice b.obs (iIni + 1 - c) iIni).reverse
      let o ← rd b.obs iIni
      if N.lt N.tcg (minMag N (sc.map (N.lbMag w))) && N.lt (N.lbAngle w sc) N.nsign then .ok b
      else if N.lt N.tmaxLb (N.lbMag w o) then
        if b.i = 0 then .error .oob
        else
          lookBack N conse w prev m
            { obs := b.obs.eraseIdx iIni, i := b.i - 1, iStart := iIni, removed := b.removed ++ [o] }
      else lookBack N conse w prev m { b with iStart := iIni }

/-- The record of the start of the series, 1319–1434.  `prev` is `*prev_i_break` (equal to
`*i_dense` here), `w` the window of the current model.  The loop 1357–1366 reads
`clry[..][*i_start - i_conse]` for `i_conse = 1 .. conse`. -/
def firstCurve (N : Num V F R) (conse : Nat) (w : List Obs) (prev oldPrev : Nat) (s : St F R) :
    Except Err (St F R) :=
  if s.recs.isEmpty && decide (s.iDense + LASSO_MIN ≤ s.iStart) then do
    let o ← rd s.obs s.iStart
    let o0 ← rd s.obs 0
    if s.iStart < conse then .error .oob
    else
      let r : Rec R :=
        { tStart := o0.date, tBreak := o.date, numObs := (s.iStart : Int) - prev,
          body := N.firstRec (slice s.obs s.iDense s.iStart)
            ((s.obs.drop (s.iStart - conse)).take conse) w,
          lead := (s.obs.drop oldPrev).take (s.iDense - oldPrev),
          span := (s.obs.drop s.iDense).take (s.iStart - s.iDense) }
      .ok { s with recs := s.recs ++ [r], prevBreak := s.iStart, pre := [] }
  else
    .ok { s with prevBreak := prev, pre := (s.obs.drop oldPrev).take (s.iStart - oldPrev) }

/-- `step1_cold_initialize`, 509–1473.  `(true, s)` is SUCCESS, `(false, s)` is INCOMPLETE. -/
def step1 (N : Num V F R) (conse : Nat) (s : St F R) : Except Err (Bool × St F R) :=
  if s.i < MIN_OBS - 1 then .ok (false, s)
  else do
    chk s.obs s.i
    if 4 * maxGap (slice s.obs s.iStart s.i) 0 > 1461 then
      .ok (false, { s with iStart := s.iStart + 1, iDense := s.iDense + 1 })
    else do
      let tmpEnd := min (s.i + conse - 1) (s.obs.length - 1)
      chk s.obs tmpEnd
      let flag := N.mask (slice s.obs s.iStart tmpEnd)
      let win := slice s.obs s.iStart s.i
      let kept := keep flag 0 win
      if kept.length < MIN_OBS then .ok (false, s)
      else do
        let cp := s.obs.take s.iStart ++ kept ++ s.obs.drop (s.i + 1)
        let i' := s.iStart + kept.length - 1
        let a ← rd cp s.iStart
        let b ← rd cp i'
        if !yearOrMore (b.date - a.date) then .ok (false, s)
        else
          let w := slice cp s.iStart i'
          let s' := { s with obs := cp, i := i', removed := s.removed ++ flagged flag 0 win }
          if N.unstable w then .ok (false, { s' with iStart := s'.iStart + 1 })
          else do
            let prev := if s.recs.isEmpty then s.iDense else s.prevBreak
            let b ← lookBack N conse w prev (s.iStart - prev) ⟨cp, i', s.iStart, s'.removed⟩
            let s'' ← firstCurve N conse w prev s.prevBreak
              { s' with obs := b.obs, i := b.i, iStart := b.iStart, removed := b.removed }
            .ok (true, s'')

/-- `(short int)` conversion. -/
def toShort (x : Int) : Int := Int.bmod x 65536

/-- Storing an observation as 16-bit day offset and 16-bit values (2259–2261, 2518–2520, 2907–2909,
3189–3191, 3321–3323). -/
def encode (o : Obs) : Obs := ⟨toShort (o.date - LAUNCH), o.vals.map toShort⟩

/-- Reloading it (159–161, 172–174). -/
def decode (o : Obs) : Obs := ⟨o.date + LAUNCH, o.vals⟩

/-- The zeros written when there are fewer than eight observations to store (2265–2269, 2913–2917). -/
def padObs : Obs := ⟨0, [0, 0, 0, 0, 0, 0]⟩

/-- `nrt_model->obs`, `nrt_model->obs_date_since1982` (2251–2271, 2901–2919): `conse` observations
from index `i` on, then zeros, eight in all. -/
def tail8 (conse : Nat) (obs : List Obs) (i : Nat) : List Obs :=
  (((obs.drop i).take conse).map encode ++ List.replicate (NCONSE - conse) padObs).take NCONSE

/-- The model stored when a change is detected (2878–2932). -/
def snapshot (N : Num V F R) (conse : Nat) (s : St F R) (f : F) (win : List Obs) : Model F :=
  { filt := N.narrow f, tStart := toShort (s.tStart - LAUNCH), numObs := toShort s.numObs,
    obs := tail8 conse s.obs s.i,
    normCm := N.scale (minMag N (win.map (N.mag f s.numObs))),
    cmAngle := N.scale (N.angle f s.numObs win), conseLast := conse,
    pre := s.pre, seg := s.seg }

/-- The scores looked at by the loop 1762–1806 without pinpoint: it stops once the running minimum
is below the threshold. `true` iff it was never below. -/
def allAbove (N : Num V F R) (f : F) (n : Int) : V → List Obs → Bool
  | _, [] => true
  | m, o :: os =>
    let v := N.mag f n o
    let m' := if N.lt v m then v else m
    if N.lt m' N.tcg then false else allAbove N f n m' os

/-- `change_flag == TRUE` at 1964: no early exit, `break_mag >= tcg` (1941) and not
`mean_angle > NSIGN` (1956). -/
def isChange (N : Num V F R) (f : F) (n : Int) (win : List Obs) : Bool :=
  allAbove N f n N.big win && !(N.lt N.nsign (N.angle f n win))

/-- One monitoring iteration: `step2_KF_ChangeDetection` and 2851–2943.  `mode0` is `*nrt_mode`. -/
def step2 (N : Num V F R) (conse : Nat) (mode0 : Nat) (s : St F R) : Except Err (St F R) :=
  match s.filt with
  | none => .error .fail
  | some f => do
    chk s.obs (s.i + conse - 1)
    let o ← rd s.obs s.i
    let win := (s.obs.drop s.i).take conse
    if isChange N f s.numObs win then
      let r : Rec R :=
        { tStart := s.tStart, tBreak := o.date, numObs := s.numObs,
          body := N.changeRec f s.numObs win, lead := s.pre, span := s.seg }
      .ok { s with recs := s.recs ++ [r], iStart := s.i, prevBreak := s.i, train := false,
                   model := some (snapshot N conse s f win),
                   changed := s.changed || decide (mode0 ≠ 0),
                   pre := [], seg := [], i := s.i + 1 }
    else do
      let nx ← rd s.obs (s.i + 1)
      if N.lt N.tmax (N.mag f s.numObs o) then
        .ok { s with filt := some (N.skip f o nx.date), obs := s.obs.eraseIdx s.i,
                     removed := s.removed ++ [o] }
      else
        .ok { s with filt := some (N.filter f o nx.date), numObs := s.numObs + 1, i := s.i + 1,
                     seg := s.seg ++ [o] }

/-- One training iteration, 2753–2850. -/
def trainStep (N : Num V F R) (conse : Nat) (s : St F R) : Except Err (St F R) := do
  let a ← rd s.obs s.iStart
  let b ← rd s.obs s.i
  let (done, s1) ← (if decide (s.iStart + MIN_OBS ≤ s.i + 1) && yearOrMore (b.date - a.date)
    then step1 N conse s else .ok (false, s))
  if !done then .ok { s1 with i := s1.i + 1 }
  else do
    let nx ← rd s1.obs (s1.i + 1)
    let a ← rd s1.obs s1.iStart
    let w := slice s1.obs s1.iStart s1.i
    .ok { s1 with filt := some (N.fit s1.filt w nx), numObs := (s1.i : Int) - s1.iStart + 1,
                  tStart := a.date, i := s1.i + 1, train := true, seg := w }

/-- One iteration of the main loop, 2750–2950. -/
def step (N : Num V F R) (conse mode0 : Nat) (s : St F R) : Except Err (St F R) :=
  if s.train then step2 N conse mode0 s else trainStep N conse s

/-- `while (i + conse <= n_clr - 1)`, 2750. -/
def loop (N : Num V F R) (conse mode0 : Nat) : Nat → St F R → Except Err (St F R)
  | 0, s => if s.i + conse + 1 ≤ s.obs.length then .error .fuel else .ok s
  | k + 1, s =>
    if s.i + conse + 1 ≤ s.obs.length then do
      let s' ← step N conse mode0 s
      loop N conse mode0 k s'
    else .ok s

/-- Result of `sccd_standard` / `sccd_snow` through their output parameters; `removed` is ghost. -/
structure Out (F R : Type) where
  mode : Nat
  recs : List (Rec R)
  model : Option (Model F)
  queue : List Obs
  removed : List Obs

/-- The new mode and the possibly reset `prev_i_break`, 3000–3039. -/
def newMode (conse mode0 : Nat) (s : St F R) : Except Err (Nat × Nat) :=
  if mode0 = 0 then
    if s.train then .ok (1, s.prevBreak) else .ok (12, s.prevBreak)
  else if s.changed then
    if mode0 / 10 = 1 then .ok (12, s.prevBreak) else .ok (5, s.prevBreak)
  else if mode0 % 10 = 2 then
    if s.train then .ok (1, s.prevBreak) else .ok (mode0, s.prevBreak)
  else if mode0 % 10 = 5 then
    match s.model with
    | none => .error .fail
    | some m =>
      match m.obs with
      | [] => .error .oob
      | d :: _ =>
        if s.obs.length < conse then .error .oob
        else do
          let o ← rd s.obs (s.obs.length - conse)
          if o.date - d.date - LAUNCH < DELAY_DAYS then .ok (5, 0) else .ok (12, s.prevBreak)
  else .ok (mode0, s.prevBreak)

/-- Number of newest observations that are anomalous (2392–2490): the loop stops at the first
magnitude `<= gate_tcg`. -/
def leadCount (N : Num V F R) : List V → Nat
  | [] => 0
  | v :: vs => if N.le v N.gate then 0 else leadCount N vs + 1

/-- The monitor part of `step3_processing_end`, 2219–2502. -/
def storeModel (N : Num V F R) (conse mode : Nat) (s : St F R) (f : F) :
    Except Err (Nat × Model F) := do
  if s.obs.length < conse then .error .oob
  else do
    chk s.obs (s.i + (min conse NCONSE) - 1)
    let obs8 := if s.numObs > 0 then tail8 conse s.obs s.i else List.replicate NCONSE padObs
    let newest := (s.obs.drop (s.obs.length - conse)).reverse
    let norms := newest.map (N.endMag f s.numObs)
    let nAn := leadCount N norms
    let m : Model F :=
      { filt := N.narrow f, tStart := toShort (s.tStart - LAUNCH), numObs := toShort s.numObs,
        obs := obs8,
        normCm := if s.numObs > 0 ∧ nAn > 0 then N.scale (minMag N (norms.take nAn)) else NA_VALUE,
        cmAngle := if s.numObs > 0 ∧ nAn > 0 then N.scale (N.endAngle f s.numObs (newest.take nAn))
          else NA_VALUE,
        conseLast := if s.numObs > 0 then (nAn : Int) else 0,
        pre := s.pre, seg := s.seg }
    let stable := (norms.filter (fun v => N.lt v N.pred)).length
    let mode' := if s.numObs > 0 ∧ mode / 10 = 1 ∧ conse > 1 ∧ 2 * stable > conse then mode - 10
      else mode
    .ok (mode', m)

/-- The queue part of `step3_processing_end`, 2504–2522. -/
def storeQueue (obs : List Obs) (prevBreak : Nat) : Except Err (List Obs) :=
  let num := obs.length - prevBreak
  if num > MAX_QUEUE then .ok (((obs.drop (obs.length - 1 - MAX_QUEUE)).take MAX_QUEUE).map encode)
  else .ok ((obs.drop prevBreak).map encode)

/-- `step3_processing_end`, 2100–2551. -/
def step3 (N : Num V F R) (conse mode prevBreak : Nat) (queue0 : List Obs) (s : St F R) :
    Except Err (Out F R) := do
  let (mode', model) ← (if mode % 10 = 1 then
      match s.filt with
      | none => .error .fail
      | some f => do
        let (m', x) ← storeModel N conse mode s f
        .ok (m', some x)
    else .ok (mode, s.model))
  let queue ← (if mode' % 10 = 2 ∨ mode' % 10 = 5 then storeQueue s.obs prevBreak else .ok queue0)
  .ok { mode := mode', recs := s.recs, model := model, queue := queue, removed := s.removed }

/-- The state at the start of the loop, 2589–2604 and 2675–2743. -/
def initSt (mode0 : Nat) (model : Option (Model F)) (recs : List (Rec R))
    (obs : List Obs) : Except Err (St F R) :=
  if mode0 % 10 = 1 then
    match model with
    | none => .error .fail
    | some m =>
      .ok { obs := obs, i := 0, iStart := 0, iDense := 0, prevBreak := 0, train := true,
            filt := some m.filt, tStart := LAUNCH + m.tStart, numObs := m.numObs,
            recs := recs, model := model, changed := false, pre := m.pre, seg := m.seg, removed := [] }
  else
    .ok { obs := obs, i := 0, iStart := 0, iDense := 0, prevBreak := 0, train := false,
          filt := none, tStart := 0, numObs := 0,
          recs := recs, model := model, changed := false, pre := [], seg := [], removed := [] }

/-- `sccd_standard`, 2552–3093. -/
def standard (N : Num V F R) (conse mode0 : Nat) (model : Option (Model F)) (recs : List (Rec R))
    (queue0 obs : List Obs) : Except Err (Out F R) := do
  let s0 ← initSt mode0 model recs obs
  let s ← loop N conse mode0 (obs.length + 1) s0
  let (mode, pb) ← newMode conse mode0 s
  step3 N conse mode pb queue0 s

/-- The filter steps of `sccd_snow` over `i < n_clr - 8` (3307–3313). -/
def snowFilters (N : Num V F R) (f : F) : List Obs → List Obs → F
  | o :: os, nx :: rest => snowFilters N (N.snowFilter f o nx.date) os rest
  | _, _ => f

/-- `sccd_snow`, 3095–3394. -/
def snow (N : Num V F R) (mode0 : Nat) (model : Option (Model F)) (recs : List (Rec R))
    (queue0 obs : List Obs) : Except Err (Out F R) :=
  if mode0 = 4 ∨ mode0 = 0 then
    if obs.length < MIN_OBS then
      .ok { mode := 4, recs := recs, model := model, queue := obs.map encode, removed := [] }
    else
      match obs with
      | [] => .error .oob
      | o0 :: _ =>
        .ok { mode := 3, recs := recs, queue := queue0, removed := [],
              model := some { filt := N.narrow (N.snowFit obs), tStart := toShort (o0.date - LAUNCH),
                              numObs := toShort obs.length,
                              obs := (obs.drop (obs.length - NCONSE)).map encode,
                              normCm := NA_VALUE, cmAngle := NA_VALUE, conseLast := 0,
                              pre := [], seg := obs.take (obs.length - NCONSE) } }
  else
    match model with
    | none => .error .fail
    | some m =>
      if obs.length < NCONSE then .error .oob
      else
        .ok { mode := 3, recs := recs, queue := queue0, removed := [],
              model := some { m with
                filt := N.narrow (snowFilters N m.filt (obs.take (obs.length - NCONSE)) obs.tail),
                numObs := toShort (m.numObs + obs.length - NCONSE),
                obs := (obs.drop (obs.length - NCONSE)).map encode,
                normCm := NA_VALUE, cmAngle := NA_VALUE, conseLast := 0,
                seg := m.seg ++ obs.take (obs.length - NCONSE) } }

/-- The six values copied at 204–220 and 264–280 (`k` runs to `TOTAL_IMAGE_BANDS_SCCD` = 6, so the
thermal branch is never taken). -/
def toObs (o : Scene) : Obs := ⟨o.date, [o.b, o.g, o.r, o.n, o.s1, o.s2]⟩

/-- The loops 194–224 and 254–284: an accepted acquisition is skipped when it has the date of the
last stored observation. -/
def append : List Obs → List Obs → List Obs
  | acc, [] => acc
  | acc, o :: os =>
    if decide (acc.length > 0) && decide (some o.date = acc.getLast?.map (·.date)) then append acc os
    else append (acc ++ [o]) os

/-- The acquisitions accepted by the loop 194–224 (`fmask < 2`, in range) or, in snow mode, by the
loop 254–284 (`fmask` snow or `< 2`, no range test). -/
def accepted (bSnow : Bool) : List Scene → List Bool → List Obs
  | o :: os, v :: vs =>
    if (if bSnow then decide (o.qa = CFMASK_SNOW) || decide (o.qa < 2) else decide (o.qa < 2) && v)
    then toObs o :: accepted bSnow os vs else accepted bSnow os vs
  | _, _ => []

/-- The parts of the `SccdOutput` tuple (`src/python/pycold/common.py`): `rec_cg`, `min_rmse`,
`nrt_mode`, `nrt_model` (`none`: empty array), `nrt_queue`.  Ghost: `removed`. -/
structure Pack (F R M : Type) where
  mode : Nat
  recs : List (Rec R)
  minRmse : M
  model : Option (Model F)
  queue : List Obs
  removed : List Obs

/-- Parameters and environment of a call: the numerical functions depend on `min_rmse`; `variogram`
is `adjust_median_variogram` with the cast of 237; `snowPct sn clr` is `!(sn_pct < T_SN)` (135–139). -/
structure Env (V F R M : Type) where
  conse : Nat
  bC2 : Bool
  num : M → Num V F R
  variogram : List Obs → M
  snowPct : Nat → Nat → Bool

/-- `valid_nrt_mode`, 80. -/
def validModes : List Nat := [0, 1, 2, 3, 4, 5, 11, 12]

/-- Modes whose queue is loaded (102, 154) and whose model tail is loaded (104, 165). -/
def isQueueMode (m : Nat) : Bool := m = 4 || m % 10 = 2 || m % 10 = 5
def isMonitorMode (m : Nat) : Bool := m = 3 || m % 10 = 1

/-- `clrx`, `clry` before the new observations (154–177). -/
def stored (mode : Nat) (model : Option (Model F)) (queue : List Obs) : Except Err (List Obs) :=
  if isQueueMode mode then .ok (queue.map decode)
  else if isMonitorMode mode then
    match model with
    | none => .error .fail
    | some m => .ok (m.obs.map decode)
  else .ok []

/-- `sccd`, 33–299, on the data of a pack. -/
def sccd (E : Env V F R M) (p : Pack F R M) (scenes : List Scene) : Except Err (Pack F R M) :=
  if !(validModes.contains p.mode) then .error .fail
  else
    let pr := preprocessing E.bC2 scenes
    if pr.status ≠ .success then .error .fail
    else do
      let bSnow := if p.mode = 0 then E.snowPct pr.sums.snow pr.sums.clear
        else p.mode = 4 || p.mode = 3
      let old ← stored p.mode p.model p.queue
      let obs := append old (accepted bSnow scenes pr.idr)
      if bSnow then do
        let r ← snow (E.num p.minRmse) p.mode p.model p.recs p.queue obs
        .ok ⟨r.mode, r.recs, p.minRmse, r.model, r.queue, p.removed ++ r.removed⟩
      else if obs.length > old.length then do
        let rm := if p.recs.isEmpty && p.mode = 0 then E.variogram obs else p.minRmse
        let r ← standard (E.num rm) E.conse p.mode p.model p.recs p.queue obs
        .ok ⟨r.mode, r.recs, rm, r.model, r.queue, p.removed ++ r.removed⟩
      else .ok p

/-- What `_sccd_detect` and `_sccd_update` put in the returned tuple
(`_colds_cython.pyx` 371–404, 508–523). -/
def packOut (p : Pack F R M) : Except Err (Pack F R M) :=
  if p.mode % 10 = 1 ∨ p.mode = 3 then .ok { p with queue := [] }
  else if p.mode % 10 = 2 ∨ p.mode = 4 then .ok { p with model := none }
  else if p.mode % 10 = 5 then .ok p
  else if p.mode = 0 then .ok { p with recs := [], model := none, queue := [] }
  else .error .fail

/-- `_sccd_detect` (`_colds_cython.pyx` 287–404): `conse > 8` and series shorter than a year are
refused; `m0` is the zero `min_rmse` of 344, `z` the zeroed `nrt_model` of 335.  An empty series
raises at `dates[-1]`. -/
def detect (E : Env V F R M) (m0 : M) (z : Model F) (scenes : List Scene) :
    Except Err (Pack F R M) :=
  if E.conse > NCONSE then .error .fail
  else
    match scenes.head?, scenes.getLast? with
    | some a, some b =>
      if 4 * (b.date - a.date) < 1461 then .error .fail
      else do
        let r ← sccd E ⟨0, [], m0, some z, [], []⟩ scenes
        packOut r
    | _, _ => .error .fail

/-- `_sccd_update` (`_colds_cython.pyx` 407–525).  For modes without a model the buffer
`nrt_model_new` is uninitialised: `none`. -/
def update (E : Env V F R M) (p : Pack F R M) (scenes : List Scene) : Except Err (Pack F R M) :=
  if p.mode ≠ 0 ∧ p.mode % 10 ≠ 1 ∧ p.mode % 10 ≠ 2 ∧ p.mode ≠ 3 ∧ p.mode ≠ 4 ∧ p.mode ≠ 5 then
    .error .fail
  else if scenes = [] then .error .fail
  else do
    let r ← sccd E { p with model := if p.mode % 10 = 1 ∨ p.mode = 3 ∨ p.mode % 10 = 5 then p.model
      else none } scenes
    packOut r

/-- Parameters of `sccd_identify` (`src/python/pycold/colds.py` 474–481): the threshold tests on
`norm_cm` and `cm_angle` (516–517) and the test for greening on the median change magnitudes
(`calculate_sccd_cm`, 520–524) are arbitrary Boolean functions. -/
structure Ask (F : Type) where
  distConse : Nat
  strong : Int → Bool
  aligned : Int → Bool
  greening : Model F → Bool
  transform : Bool

/-- `sccd_identify`, 507–541.  `defaults["SCCD"]["DEFAULT_CONSE"]` and `["NRT_BAND"]` are both 6
(`src/python/pycold/constants.yaml`).  `nrt_model[0]` raises `IndexError` when the pack has no model.
For `conse_last > 6`, `calculate_sccd_cm` (`src/python/pycold/utils.py` 546–563) raises: `start_index`
is negative, the slice `obs[:, start_index:6]` is empty and cannot be subtracted from.  The index at
535–537 is in range of the 8 stored dates otherwise. -/
def identify (a : Ask F) (p : Pack F R M) : Except Err (Pack F R M × Int) :=
  if p.mode = 3 ∨ p.mode = 4 ∨ p.mode / 10 = 1 then .ok (p, 0)
  else
    match p.model with
    | none => .error .fail
    | some m =>
      if decide (m.conseLast ≥ a.distConse) && a.strong m.normCm && a.aligned m.cmAngle then
        if m.conseLast > 6 then .error .fail
        else if a.greening m then .ok (p, 0)
        else
          match m.obs[(6 - m.conseLast).toNat]? with
          | none => .error .oob
          | some o => .ok ({ p with mode := if a.transform && p.mode = 1 then p.mode + 10 else p.mode },
              o.date + LAUNCH)
      else .ok (p, 0)

end Pycold.Sccd
