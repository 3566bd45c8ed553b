import Verif.Model.Sccd
/-!
# S-CCD with `b_pinpoint=True`

The part of `step2_KF_ChangeDetection` (`src/cxx/s_ccd.c` 1672–2098) that `Model/Sccd.lean` leaves out:
the other exit of the window loop (1791–1798) and the pinpoint records (1827–1937), with the array
`CM_outputs` of `sccd_standard` (2601–2628, 2853–2856) and the second value returned by `_sccd_detect`
(`src/python/pycold/_colds_cython.pyx` 338–412).  The rest of a monitoring iteration, training, and the
end of the run are those of `Model/Sccd.lean`.

Simplifications: as in `Model/Sccd.lean`; the quotient of days and 365.25 is exact (a double quotient of
two such numbers is rounded across an integer only if it is one).

Ghost data: `Pin.mag` (the unscaled strength), `Round` and the log of rounds.
-/
namespace Pycold.Sccd
variable {V F R M : Type}

/-- `src/cxx/defines.h` 56, 149; `NUM_FC_SCCD` (`_colds_cython.pyx`, length of `rec_cg_pinpoint`). -/
def ORDINAL_1982 : Int := 723546
def PINPOINT_CONSE : Nat := 3
def NUM_PINPOINT : Nat := 40

/-- One call of `step2_KF_ChangeDetection`: the filter and `num_obs_processed` it is called with, and
the observations from `cur_i` on. -/
structure Round (F : Type) where
  filt : F
  numObs : Int
  rest : List Obs

/-- `Output_sccd_pinpoint` (`src/cxx/output.h` 69–77): `coefs` are those of the filter `filt`.
`obs[k]` is `none` where the C code reads beyond the last clear observation. -/
structure Pin (V F : Type) where
  tBreak : Int
  filt : F
  obs : List (Option Obs)
  normCm : List Int
  cmAngle : List Int
  mag : V

/-- `CM_outputs` and the records `rec_cg_pinpoint[0..num_fc_pinpoint-1]`. -/
structure PinSt (V F : Type) where
  cm : List V
  pins : List (Pin V F)

/-- The `float` zero that `CM_outputs` is filled with and compared to (1832, 1932, 2625–2628). -/
structure ZeroV (V : Type) where
  zero : V
  isZero : V → Bool

/-- The window loop 1762–1825 with `b_pinpoint`: `true` iff it was not left early; `k` is `i_conse`,
`m` the running minimum `break_mag`. -/
def pinLoop (N : Num V F R) (f : F) (n : Int) : Nat → V → List Obs → Bool
  | _, _, [] => true
  | k, m, o :: os =>
    let v := N.mag f n o
    let m' := if N.lt v m then v else m
    if N.lt m' N.gate && decide (k < PINPOINT_CONSE) then false else pinLoop N f n (k + 1) m' os

/-- The window of a round. -/
def Round.win (conse : Nat) (r : Round F) : List Obs := r.rest.take conse

/-- `break_mag` after the window loop was run to its end (1754, 1786–1789). -/
def Round.mag (N : Num V F R) (conse : Nat) (r : Round F) : V :=
  minMag N ((r.win conse).map (N.mag r.filt r.numObs))

/-- `change_flag == TRUE` at 1964 with `b_pinpoint`: no early exit, `break_mag >= tcg` (1941) and not
`mean_angle > NSIGN` (1956). -/
def isChangeP (N : Num V F R) (conse : Nat) (r : Round F) : Bool :=
  pinLoop N r.filt r.numObs 0 N.big (r.win conse) && !(N.lt (r.mag N conse) N.tcg) &&
    !(N.lt N.nsign (N.angle r.filt r.numObs (r.win conse)))

/-- `i_conse >= PINPOINT_CONSE` after the loop (1829): an early exit leaves `i_conse < 3`. -/
def isPin (N : Num V F R) (conse : Nat) (r : Round F) : Bool :=
  pinLoop N r.filt r.numObs 0 N.big (r.win conse) && decide (PINPOINT_CONSE ≤ conse)

/-- The record written at 1844–1929.  `norm_cm[k]` is the scaled minimum of the first `k + 1`
magnitudes, `cm_angle[k]` the scaled mean angle of the first `k + 1` differences, for `k < conse`; the
remaining entries keep the zeros of the array.  Eight observations are copied whatever `conse` is. -/
def pinOf (N : Num V F R) (conse : Nat) (r : Round F) (date : Int) : Pin V F :=
  { tBreak := date, filt := r.filt
    obs := (List.range NCONSE).map (fun k => (r.rest[k]?).map encode)
    normCm := (List.range conse).map (fun k =>
        N.scale (minMag N ((r.rest.take (k + 1)).map (N.mag r.filt r.numObs)))) ++
      List.replicate (NCONSE - conse) 0
    cmAngle := (List.range conse).map (fun k =>
        N.scale (N.angle r.filt r.numObs (r.rest.take (k + 1)))) ++ List.replicate (NCONSE - conse) 0
    mag := r.mag N conse }

/-- `current_CM_n` (1831): the quotient is truncated towards zero. -/
def cmIndex (d : Int) : Int := (4 * (d - ORDINAL_1982)).tdiv 1461

/-- `n_cm` (2601): one is added before the truncation. -/
def cmCount (d : Int) : Int := (4 * (d - ORDINAL_1982) + 1461).tdiv 1461

/-- The pinpoint block 1831–1936 for a record `p` of strength `p.mag`. -/
def record (N : Num V F R) (Z : ZeroV V) (t : PinSt V F) (p : Pin V F) : Except Err (PinSt V F) :=
  if cmIndex p.tBreak < 0 then .error .oob
  else
    match t.cm[(cmIndex p.tBreak).toNat]? with
    | none => .error .oob
    | some old =>
      if N.lt old p.mag then
        if Z.isZero old then
          if t.pins.length < NUM_PINPOINT then
            .ok ⟨t.cm.set (cmIndex p.tBreak).toNat p.mag, t.pins ++ [p]⟩
          else .error .oob
        else if t.pins.length = 0 then .error .oob
        else .ok ⟨t.cm.set (cmIndex p.tBreak).toNat p.mag, t.pins.set (t.pins.length - 1) p⟩
      else .ok t

/-- State of the loop with pinpoint records and the log of monitoring rounds. -/
structure StP (V F R : Type) where
  core : St F R
  pin : PinSt V F
  log : List (Round F)

/-- One monitoring iteration with `b_pinpoint`: the pinpoint block, then 1938–2098 and 2857–2943 as in
`step2`, with the decision `isChangeP`. -/
def step2P (N : Num V F R) (Z : ZeroV V) (conse mode0 : Nat) (t : StP V F R) : Except Err (StP V F R) :=
  let s := t.core
  match s.filt with
  | none => .error .fail
  | some f => do
    chk s.obs (s.i + conse - 1)
    let o ← rd s.obs s.i
    let win := (s.obs.drop s.i).take conse
    let r : Round F := ⟨f, s.numObs, s.obs.drop s.i⟩
    let pin ← (if isPin N conse r then record N Z t.pin (pinOf N conse r o.date) else .ok t.pin)
    if isChangeP N conse r then
      let rec' : Rec R :=
        { tStart := s.tStart, tBreak := o.date, numObs := s.numObs,
          body := N.changeRec f s.numObs win, lead := s.pre, span := s.seg }
      .ok ⟨{ s with recs := s.recs ++ [rec'], iStart := s.i, prevBreak := s.i, train := false,
                    model := some (snapshot N conse s f win),
                    changed := s.changed || decide (mode0 ≠ 0),
                    pre := [], seg := [], i := s.i + 1 }, pin, t.log ++ [r]⟩
    else do
      let nx ← rd s.obs (s.i + 1)
      if N.lt N.tmax (N.mag f s.numObs o) then
        .ok ⟨{ s with filt := some (N.skip f o nx.date), obs := s.obs.eraseIdx s.i,
                      removed := s.removed ++ [o] }, pin, t.log ++ [r]⟩
      else
        .ok ⟨{ s with filt := some (N.filter f o nx.date), numObs := s.numObs + 1, i := s.i + 1,
                      seg := s.seg ++ [o] }, pin, t.log ++ [r]⟩

/-- One iteration of the main loop, 2750–2950. -/
def stepP (N : Num V F R) (Z : ZeroV V) (conse mode0 : Nat) (t : StP V F R) : Except Err (StP V F R) :=
  if t.core.train then step2P N Z conse mode0 t
  else do
    let s ← trainStep N conse t.core
    .ok { t with core := s }

/-- `while (i + conse <= n_clr - 1)`, 2750. -/
def loopP (N : Num V F R) (Z : ZeroV V) (conse mode0 : Nat) : Nat → StP V F R → Except Err (StP V F R)
  | 0, t => if t.core.i + conse + 1 ≤ t.core.obs.length then .error .fuel else .ok t
  | k + 1, t =>
    if t.core.i + conse + 1 ≤ t.core.obs.length then do
      let t' ← stepP N Z conse mode0 t
      loopP N Z conse mode0 k t'
    else .ok t

/-- `sccd_standard` with `b_pinpoint` for `*nrt_mode == 0`, 2552–3093.  A negative `n_cm` makes the
allocation 2619 fail; the array is zeroed (2625–2628). -/
def standardP (N : Num V F R) (Z : ZeroV V) (conse : Nat) (model : Option (Model F))
    (obs : List Obs) : Except Err (Out F R × List (Pin V F) × List (Round F)) :=
  match obs.getLast? with
  | none => .error .oob
  | some last =>
    if cmCount last.date < 0 then .error .fail
    else do
      let s0 ← initSt 0 model [] obs
      let t ← loopP N Z conse 0 (obs.length + 1)
        ⟨s0, ⟨List.replicate (cmCount last.date).toNat Z.zero, []⟩, []⟩
      let (mode, pb) ← newMode conse 0 t.core
      let out ← step3 N conse mode pb [] t.core
      .ok (out, t.pin.pins, t.log)

/-- `sccd`, 33–299, as called by `_sccd_detect` (`*nrt_mode == 0`, no records, an empty queue).
`sccd_snow` writes no pinpoint records. -/
def sccdP (E : Env V F R M) (Z : ZeroV V) (m0 : M) (model : Option (Model F)) (scenes : List Scene) :
    Except Err (Pack F R M × List (Pin V F) × List (Round F)) :=
  let pr := preprocessing E.bC2 scenes
  if pr.status ≠ .success then .error .fail
  else
    let bSnow := E.snowPct pr.sums.snow pr.sums.clear
    let obs := append [] (accepted bSnow scenes pr.idr)
    if bSnow then do
      let r ← snow (E.num m0) 0 model [] [] obs
      .ok (⟨r.mode, r.recs, m0, r.model, r.queue, r.removed⟩, [], [])
    else if obs.length > 0 then do
      let rm := E.variogram obs
      let (r, pins, log) ← standardP (E.num rm) Z E.conse model obs
      .ok (⟨r.mode, r.recs, rm, r.model, r.queue, r.removed⟩, pins, log)
    else .ok (⟨0, [], m0, model, [], []⟩, [], [])

/-- `_sccd_detect` with `b_pinpoint=True` (`_colds_cython.pyx` 287–412): the first component is the
`SccdOutput`, the second the pinpoint records, the third the ghost log. -/
def detectP (E : Env V F R M) (Z : ZeroV V) (m0 : M) (z : Model F) (scenes : List Scene) :
    Except Err (Pack F R M × List (Pin V F) × List (Round F)) :=
  if E.conse > NCONSE then .error .fail
  else
    match scenes.head?, scenes.getLast? with
    | some a, some b =>
      if 4 * (b.date - a.date) < 1461 then .error .fail
      else do
        let (r, pins, log) ← sccdP E Z m0 (some z) scenes
        let q ← packOut r
        .ok (q, pins, log)
    | _, _ => .error .fail

end Pycold.Sccd
