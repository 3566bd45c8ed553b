import Verif.Model.Preprocess
import Verif.Model.Misc
import Verif.Spec.Sort
/-!
# The fallback for too few clear observations (`inefficientobs_procedure`, `src/cxx/cold.c` 4846–5352)

Called by `cold` (175–178) and by `obcold_reconstruction_procedure` (5559–5562, 5880–5883).  What is
modelled: which (date, value) pairs each band's fit is given, and the record written.  The fit itself
(`auto_ts_fit_float`, assumed to succeed) is not.  Values are exact integers (the C code converts them
to `float`); `malloc` is assumed to succeed.

An array entry that was never written is `none`.
-/
namespace Pycold.Fallback

open Pycold.Sort

/-- What is stored for one band: the constant curve 10000 for a saturated band (5027–5031), or a fit of
the given pairs. -/
inductive Band where
  | saturated
  | fit (pairs : List (Int × Option Int))
deriving DecidableEq, Repr

/-- The parts of `Output_t` written at 5065–5127 and 5263–5318 that are modelled. -/
structure Rec where
  tStart : Int
  tEnd : Int
  tBreak : Int
  changeProb : Int
  numObs : Int
  category : Int
  bands : List Band
deriving DecidableEq, Repr

/-- `N_TIMES * MIN_NUM_C`. -/
def MIN_OBS : Nat := 12

/-- `(fmask_buf[i] == CFMASK_SNOW) || (fmask_buf[i] < 2)`, 4923–4925: no range test, and dates may
repeat. -/
def snowSel (obs : List Scene) : List Scene :=
  obs.filter (fun o => decide (o.qa = CFMASK_SNOW) || decide (o.qa < 2))

/-- The thermal value, 4941–4948 and 5184–5191. -/
def thermal (bC2 : Bool) (o : Scene) : Int := if bC2 then 0 else o.t * 10 - 27320

/-- The columns `clry[0..6]`, 4928–4949. -/
def columns (bC2 : Bool) (sel : List Scene) : List (List Int) :=
  [sel.map (·.b), sel.map (·.g), sel.map (·.r), sel.map (·.n), sel.map (·.s1), sel.map (·.s2),
   sel.map (thermal bC2)]

/-- The loops 5017–5025 and 5044–5054, in place: `clrx[i_span] = clrx[i]; clry[k][i_span] = clry[k][i];
i_span++` for the entries in range.  The first argument is the number of entries still to be visited. -/
def squeeze (ok : Int → Bool) : Nat → Nat → Nat → List Int → List Int → List Int × List Int × Nat
  | 0, _, span, xs, ys => (xs, ys, span)
  | m + 1, i, span, xs, ys =>
    if ok (ys.getD i 0) then
      squeeze ok m (i + 1) (span + 1) (xs.set span (xs.getD i 0)) (ys.set span (ys.getD i 0))
    else squeeze ok m (i + 1) span xs ys

/-- `clry[k][i] > 0.0 && clry[k][i] < 10000.0` (5019); `> -9320 && < 7070` for the last band (5048). -/
def inRange (isThermal : Bool) (v : Int) : Bool :=
  if isThermal then decide (v > -9320) && decide (v < 7070) else decide (v > 0) && decide (v < 10000)

/-- The loop over the bands, 5012–5064; `xs` is `clrx` as the previous band left it.  The thermal band
has no minimum number of observations. -/
def snowBands (n : Nat) : List Int → List (Bool × List Int) → List Int × List Band
  | xs, [] => (xs, [])
  | xs, (isThermal, ys) :: rest =>
    let (xs', ys', span) := squeeze (inRange isThermal) n 0 0 xs ys
    let band :=
      if !isThermal && decide (span < MIN_OBS) then .saturated
      else .fit ((xs'.take span).zip ((ys'.take span).map some))
    let (xs'', more) := snowBands n xs' rest
    (xs'', band :: more)

/-- The columns with the mark of the last one. -/
def marked (cols : List (List Int)) : List (Bool × List Int) :=
  cols.zipIdx.map (fun p => (decide (p.2 = 6), p.1))

/-- The branch for persistent snow, 4910–5144; `none`: fewer than 12 observations (4968–4990). -/
def snowBranch (bC2 : Bool) (obs : List Scene) : Option Rec :=
  let sel := snowSel obs
  let n := sel.length
  if n < MIN_OBS then none
  else
    let (xs, bands) := snowBands n (sel.map (·.date)) (marked (columns bC2 sel))
    some { tStart := xs.getD 0 0, tEnd := xs.getD (n - 1) 0, tBreak := 0, changeProb := 0,
           numObs := n, category := 54, bands := bands }

/-- The scenes with `id_range[i] == 1`, 5166–5168, whatever their QA code. -/
def clearSel : List Scene → List Bool → List Scene
  | o :: os, v :: vs => if v then o :: clearSel os vs else clearSel os vs
  | _, _ => []

/-- `matlab_unique`, `src/cxx/misc.c` 1183–1206, on rows: an entry with the date of its predecessor is
dropped.  The C loop works in place; it writes at `k_new <= k`, and once an entry has been dropped at
`k_new < k`, so `clrx[k-1]` is still the original when it is compared. -/
def unique {A : Type} (date : A → Int) : List A → List A
  | a :: b :: rest =>
    if date b = date a then
      match unique date (b :: rest) with
      | _ :: us => a :: us
      | [] => [a]
    else a :: unique date (b :: rest)
  | l => l

/-- One row of `clrx`, `clry` in the clear branch.  The thermal value is written to
`clry[6][n_sn]`, and `n_sn` is 0 throughout (5186, 5189): entry 0 ends up with the value of the last
selected scene, every other entry is never written. -/
structure Row where
  date : Int
  b : Int
  g : Int
  r : Int
  n : Int
  s1 : Int
  s2 : Int
  t : Option Int
deriving DecidableEq, Repr

/-- 5166–5197. -/
def rows (bC2 : Bool) (sel : List Scene) : List Row :=
  sel.zipIdx.map (fun p =>
    { date := p.1.date, b := p.1.b, g := p.1.g, r := p.1.r, n := p.1.n, s1 := p.1.s1, s2 := p.1.s2,
      t := if p.2 = 0 then sel.getLast?.map (thermal bC2) else none })

/-- The green column as an array of floats. -/
def greens (l : List Row) : Arr ℚ Unit := Misc.ofList (l.map (fun r => (r.g : ℚ)))

/-- `quick_sort_float(clry[1], 0, end-1)` and `matlab_2d_float_median` (5209–5210): the sorted column
and its median. -/
def sortGreens (l : List Row) : Except Err (List ℚ × ℚ) := do
  let s ← quickSort Misc.ltQ 0 (l.length + 1) (greens l) 0 ((l.length : Int) - 1)
  let m ← Misc.median s l.length
  .ok (Spec.window s.arr 0 l.length, m)

/-- The compaction 5213–5224: rows, now carrying the sorted green column, whose green is below the
median plus 400. -/
def darkRows (l : List Row) (gs : List ℚ) (med : ℚ) : List (Row × ℚ) :=
  (l.zip gs).filter (fun p => decide (p.2 < med + 400))

/-- The branch for few clear observations, 5147–5322; `none`: fewer than 12 observations remain
(5236–5241).  Without any selected scene `matlab_unique` reports one row, which was never written;
whatever it holds, fewer than 12 rows remain.  Sorted green values are numerators of rationals with
denominator 1. -/
def clearBranch (bC2 : Bool) (obs : List Scene) (idr : List Bool) : Except Err (Option Rec) :=
  let sel := clearSel obs idr
  if sel = [] then .ok none
  else do
    let l := unique Row.date (rows bC2 sel)
    let (gs, med) ← sortGreens l
    let d := darkRows l gs med
    if d.length < MIN_OBS then .ok none
    else
      let xs := d.map (fun p => p.1.date)
      let col (f : Row × ℚ → Option Int) : Band := .fit (d.map (fun p => (p.1.date, f p)))
      .ok (some
        { tStart := xs.getD 0 0, tEnd := xs.getD (xs.length - 1) 0, tBreak := 0, changeProb := 0,
          numObs := d.length, category := 44,
          bands := [col (fun p => some p.1.b), col (fun p => some p.2.num), col (fun p => some p.1.r),
                    col (fun p => some p.1.n), col (fun p => some p.1.s1), col (fun p => some p.1.s2),
                    col (fun p => p.1.t)] })

/-- `inefficientobs_procedure`; `snowy` is `sn_pct > T_SN` (4913). -/
def inefficientobs (snowy bC2 : Bool) (obs : List Scene) (idr : List Bool) :
    Except Err (Option Rec) :=
  if snowy then .ok (snowBranch bC2 obs) else clearBranch bC2 obs idr

/-- `sn_pct > T_SN` in `cold` (148, `src/cxx/defines.h` 22), `sn / (sn + clear + 0.01) > 0.75` in exact
arithmetic. -/
def snowy (s : Sums) : Bool := decide (100 * s.snow > 300 * s.clear + 3)

/-- The fallback as `cold` calls it (149, 175–178). -/
def ofCold (bC2 : Bool) (obs : List Scene) : Except Err (Option Rec) :=
  let pre := preprocessing bC2 obs
  inefficientobs (snowy pre.sums) bC2 obs pre.idr

end Pycold.Fallback
