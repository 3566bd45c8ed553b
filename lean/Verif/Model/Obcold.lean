import Verif.Model.Cold
import Verif.Model.Fallback
/-!
# Object-based reconstruction (`obcold_reconstruction_procedure`, `src/cxx/cold.c` 5366–5957) and its
Python wrapper (`_obcold_reconstruct`, `src/python/pycold/_colds_cython.pyx` 222–285)

Control flow, index arithmetic and record bookkeeping are transcribed.  Floating-point results (`auto_mask`
flags, the residual test, fitted coefficients, magnitudes) are arbitrary functions of the observations they
are computed from (`Env`).  `malloc` and the numerical helpers are assumed to succeed.  The live part
`clrx[0..end-1]`, `clry[..][0..end-1]` is a list of clear observations; entries beyond `end` are never
read by this function.
-/
namespace Pycold.Obcold

open Pycold.Sort (Arr)

inductive Err where
  /-- a read outside the live part of the arrays -/
  | oob
  /-- a variable that was never assigned is used -/
  | uninit
  /-- a record is written beyond the `NUM_FC` entries of the buffer -/
  | overrun
  /-- an exception, or a return code other than SUCCESS -/
  | fail
deriving DecidableEq, Repr

/-- `Output_t` as far as modelled; `body` are `coefs` and `rmse`, `mag` is `magnitude` (`none`: zeros).
Ghost: `fitted`, the observations of the final fit (5762–5768), and `after`, those the magnitude is
computed from. -/
structure Rec (R M : Type) where
  tStart : Int
  tEnd : Int
  tBreak : Int
  numObs : Int
  category : Int
  changeProb : Int
  body : R
  mag : Option M
  fitted : List ClrObs
  after : List ClrObs
deriving DecidableEq, Repr

/-- The numerical part. -/
structure Env (R M : Type) where
  /-- `bl_ids[k] == 1` after `auto_mask` on a window (5617–5619) -/
  mask : List ClrObs → Nat → Bool
  /-- `v_dif_norm > T_MAX_CG_reconstruct` for an observation, with the model fitted to a window
  (5672–5721) -/
  outlier : List ClrObs → ClrObs → Bool
  /-- final fit with a number of coefficients (5760–5772) -/
  fit : List ClrObs → Int → R
  /-- medians of the residuals of the observations after the break (5818–5829) -/
  magnitude : R → List ClrObs → M

variable {R M : Type}

/-- `quick_sort_long(break_dates, 0, break_date_len-1)`, 5581. -/
def sortDates (l : List Int) : Except Err (List Int) :=
  match Sort.quickSort Misc.ltZ 0 l.length
      { n := l.length, nb := 0, arr := fun k => l.getD k.toNat 0, brr := fun _ _ => () } 0
      ((l.length : Int) - 1) with
  | .ok (t : Arr Int Unit) => .ok (Sort.Spec.window t.arr 0 l.length)
  | .error _ => .error .oob

/-- The filter 5584–5590; `last` is `last_break_record`.
`break_dates[i] - last_break_record >= 365.25` in exact arithmetic. -/
def acceptBreaks : Int → List Int → List Int
  | _, [] => []
  | last, d :: ds =>
    if d > 0 ∧ 4 * (d - last) ≥ 1461 then d :: acceptBreaks d ds else acceptBreaks last ds

/-- The variables that survive an iteration of the loop 5593–5878. -/
structure St (R M : Type) where
  obs : List ClrObs
  iLast : Nat
  recs : List (Rec R M)

/-- `i_break_tmp`, `i_break` (5595–5598, 5749–5752); `none` is the last segment. -/
def findBreak (obs : List ClrObs) : Option Int → Except Err Nat
  | none => .ok obs.length
  | some b =>
    match Misc.findIndexClrx (obs.map (·.date)) b with
    | some k => .ok k
    | none => .error .uninit

/-- The observations of a window without the flagged ones (5631–5641, 5651–5664). -/
def unmasked (mask : List ClrObs → Nat → Bool) (win : List ClrObs) : List ClrObs :=
  (win.zipIdx.filter (fun p => !mask win p.2)).map (·.1)

/-- Outlier removal 5606–5745, for a window of at least 12 observations before a break; `none`: fewer
than 6 would be left (5643–5647, 5724–5728).  `LASSO_MIN` is 6, `MIN_NUM_C * N_TIMES` is 12. -/
def screen (E : Env R M) (s : St R M) (tmp : Nat) (brk : Option Int) : Option (List ClrObs) :=
  if tmp - s.iLast ≥ 12 ∧ brk.isSome then
    let kept := unmasked E.mask ((s.obs.drop s.iLast).take (tmp - s.iLast))
    if kept.length < 6 then none
    else
      let good := kept.filter (fun o => !E.outlier kept o)
      if good.length < 6 then none else some (s.obs.take s.iLast ++ good ++ s.obs.drop tmp)
  else some s.obs

/-- One iteration of the loop over the segments, 5593–5878. `conse` bounds the observations used for the
magnitude (5807–5811).  The record is written at 5774–5866. -/
def segment (E : Env R M) (conse : Nat) (brk : Option Int) (s : St R M) : Except Err (St R M) := do
  let tmp ← findBreak s.obs brk
  if tmp < s.iLast + 6 then .ok s
  else
    match screen E s tmp brk with
    | none => .ok s
    | some obs => do
      let ib ← findBreak obs brk
      let win := (obs.drop s.iLast).take (ib - s.iLast)
      let numC := Cold.updateCft ((ib : Int) - s.iLast) 3 4 6 8 8
      let body := E.fit win numC
      if s.recs.length ≥ Cold.NUM_FC then .error .overrun
      else
        match obs[s.iLast]?, (if ib = 0 then none else obs[ib - 1]?) with
        | some a, some b =>
          let r : Rec R M :=
            { tStart := a.date, tEnd := b.date, tBreak := 0, numObs := (ib : Int) - s.iLast + 1,
              category := numC, changeProb := 0, body := body, mag := none, fitted := win, after := [] }
          match brk with
          | none => .ok { s with obs := obs, recs := s.recs ++ [r] }
          | some _ =>
            match obs[ib]? with
            | none => .error .oob
            | some c =>
              let after := (obs.drop ib).take conse
              .ok { obs := obs, iLast := ib,
                    recs := s.recs ++ [{ r with tBreak := c.date, changeProb := 100, after := after,
                                                mag := some (E.magnitude body after) }] }
        | _, _ => .error .oob

/-- The loop `for (j = 0; j < break_num + 1; j++)`, 5593–5878. -/
def segments (E : Env R M) (conse : Nat) : List Int → St R M → Except Err (St R M)
  | [], s => segment E conse none s
  | b :: bs, s => do
    let s' ← segment E conse (some b) s
    segments E conse bs s'

/-- "force to update the last segment", 5886–5894. -/
def closeLast : List (Rec R M) → List (Rec R M)
  | [] => []
  | [r] => [{ r with tBreak := 0, changeProb := 0, mag := none }]
  | r :: rs => r :: closeLast rs

/-- What `_obcold_reconstruct` returns. -/
inductive Out (R M : Type) where
  | segments (recs : List (Rec R M))
  | fallback (r : Fallback.Rec)
deriving Repr

/-- The result of the fallback: without a record the wrapper raises (280–281). -/
def viaFallback (garbage bC2 : Bool) (scenes : List Scene) (idr : List Bool) : Except Err (Out R M) :=
  match Fallback.inefficientobs garbage bC2 scenes idr with
  | .ok (some r) => .ok (.fallback r)
  | .ok none => .error .fail
  | .error _ => .error .oob

/-- `_obcold_reconstruct`: an empty series or an empty `break_dates` raises when the address of entry 0
is taken (275–276); out-of-order dates (5479–5482) and a failed screening (5495–5500) raise at 277–278.
`sn_pct` (5426) is never assigned but decides which branch of the fallback runs: `garbage` stands for
the outcome of `sn_pct > T_SN` on that indeterminate value.  The clear observations are extracted at
5502–5536 (thermal value as without `b_c2`, screening with `b_c2`). -/
def reconstruct (E : List ClrObs → Env R M) (garbage : Bool) (conse : Nat) (bC2 : Bool)
    (scenes : List Scene) (breakDates : List Int) : Except Err (Out R M) :=
  if scenes = [] ∨ breakDates = [] then .error .fail
  else if dateCheckFails scenes then .error .fail
  else
    let pre := preprocessing bC2 scenes
    if pre.status ≠ .success then .error .fail
    else
      let obs := clrLoop false scenes pre.idr []
      if pre.sums.clear < 24 then viaFallback garbage bC2 scenes pre.idr
      else do
        let ds ← sortDates breakDates
        let s ← segments (E obs) conse (acceptBreaks 0 ds) ⟨obs, 0, []⟩
        if s.recs = [] then viaFallback garbage bC2 scenes pre.idr
        else .ok (.segments (closeLast s.recs))

end Pycold.Obcold
