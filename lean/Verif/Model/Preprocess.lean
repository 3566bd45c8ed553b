/-!
# Observation screening (`preprocessing`) and clear-observation extraction

Models `src/cxx/utilities.c` (`preprocessing`) and the observation-selection loops of
`src/cxx/cold.c` and `src/cxx/misc.c` (`matlab_unique`).

Simplification used throughout: C `long`/`int` values are unbounded `Int`s, so overflow of
`buf_t * 10 - 27320` is not modelled.  The parallel buffers `buf_b … buf_t, fmask_buf,
valid_date_array` are one list of `Scene`s (the Python layer checks that they have equal lengths).
-/
namespace Pycold

/-- Return codes, `src/cxx/defines.h` (SUCCESS 0, ERROR -1, FAILURE 1). -/
inductive Status where
  | success
  | error
  | failure
deriving DecidableEq, Repr

/-- One acquisition: `valid_date_array[i]`, `buf_b[i]` … `buf_t[i]`, `fmask_buf[i]`
(parameters of `cold`, `src/cxx/cold.c` 84–110). -/
structure Scene where
  date : Int
  b : Int
  g : Int
  r : Int
  n : Int
  s1 : Int
  s2 : Int
  t : Int
  qa : Int
deriving DecidableEq, Repr

/-- `CFMASK_CLEAR … FILL_VALUE`, `src/cxx/defines.h`. -/
def CFMASK_CLEAR : Int := 0
def CFMASK_WATER : Int := 1
def CFMASK_SHADOW : Int := 2
def CFMASK_SNOW : Int := 3
def CFMASK_CLOUD : Int := 4
def FILL_VALUE : Int := 255

/-- `buf_t_tmp`, `src/cxx/utilities.c` 1183–1191. -/
def thermalTmp (bC2 : Bool) (t : Int) : Int :=
  if t ≠ 0 then
    if bC2 then 0 else t * 10 - 27320
  else 0

/-- The range test that sets `id_range[i]`, `src/cxx/utilities.c` 1194–1208. -/
def idRange (bC2 : Bool) (o : Scene) : Bool :=
  decide (o.b > -200) && decide (o.b < 10000) &&
  decide (o.g > 0) && decide (o.g < 10000) &&
  decide (o.r > 0) && decide (o.r < 10000) &&
  decide (o.n > 0) && decide (o.n < 10000) &&
  decide (o.s1 > 0) && decide (o.s1 < 10000) &&
  decide (o.s2 > 0) && decide (o.s2 < 10000) &&
  decide (thermalTmp bC2 o.t > -9320) && decide (thermalTmp bC2 o.t < 7070) &&
  decide (o.qa < FILL_VALUE)

/-- The five counters, `src/cxx/utilities.c` 1170–1174. -/
structure Sums where
  clear : Nat := 0
  water : Nat := 0
  shadow : Nat := 0
  snow : Nat := 0
  cloud : Nat := 0
deriving DecidableEq, Repr

/-- The `switch (fmask_buf[i])`, `src/cxx/utilities.c` 1211–1235; `none` is the `default:` label. -/
def countQa (s : Sums) (qa : Int) : Option Sums :=
  if qa = CFMASK_CLEAR then some { s with clear := s.clear + 1 }
  else if qa = CFMASK_WATER then some { s with water := s.water + 1, clear := s.clear + 1 }
  else if qa = CFMASK_SHADOW then some { s with shadow := s.shadow + 1 }
  else if qa = CFMASK_SNOW then some { s with snow := s.snow + 1 }
  else if qa = CFMASK_CLOUD then some { s with cloud := s.cloud + 1 }
  else if qa = FILL_VALUE then some s
  else none

/-- Result of `preprocessing`: return code, the `id_range` array written, the counters. -/
structure PreResult where
  status : Status
  idr : List Bool
  sums : Sums
deriving DecidableEq, Repr

/-- `preprocessing`, `src/cxx/utilities.c` 1157–1238: the `for` loop with its early `return FAILURE`.
After an early return the entries of `id_range` not yet visited keep the zero that the caller's
`calloc` gave them (`src/cxx/cold.c` 127).  `s` holds the counters accumulated so far. -/
def preLoop (bC2 : Bool) : List Scene → Sums → PreResult
  | [], s => ⟨.success, [], s⟩
  | o :: os, s =>
    match countQa s o.qa with
    | none => ⟨.failure, idRange bC2 o :: os.map (fun _ => false), s⟩
    | some s' =>
      let r := preLoop bC2 os s'
      ⟨r.status, idRange bC2 o :: r.idr, r.sums⟩

/-- `preprocessing` called with zeroed counters (`src/cxx/cold.c` 112–116, 136). -/
def preprocessing (bC2 : Bool) (obs : List Scene) : PreResult := preLoop bC2 obs {}

/-- The adjacent-pair date check, `src/cxx/cold.c` 130–133 (`true` = the error is raised).
The same loop opens `obcold_reconstruction_procedure` (`src/cxx/cold.c` 5479–5482). -/
def dateCheckFails : List Scene → Bool
  | [] => false
  | [_] => false
  | x :: y :: rest => decide (x.date > y.date) || dateCheckFails (y :: rest)

/-- A clear observation as stored in `clrx[k]`, `clry[0..6][k]`. -/
structure ClrObs where
  date : Int
  bands : List Int
deriving DecidableEq, Repr

/-- Band values copied into `clry[0..6][n_clr]`, `src/cxx/cold.c` 2754–2776
(values are exact here; the C code converts them to `float`).  `obcold_reconstruction_procedure`
(`src/cxx/cold.c` 5515–5532) ignores `b_c2` here, i.e. uses `clrBands false`. -/
def clrBands (bC2 : Bool) (o : Scene) : List Int :=
  [o.b, o.g, o.r, o.n, o.s1, o.s2,
    if bC2 && decide (o.t = 0) then 0 else o.t * 10 - 27320]

/-- Loop body of the clear-observation extraction, `src/cxx/cold.c` 2745–2779. `acc` is
`clrx/clry[0..n_clr-1]` in order. -/
def clrStep (bC2 : Bool) (acc : List ClrObs) (o : Scene) (idr : Bool) : List ClrObs :=
  if decide (o.qa < 2) && idr then
    if decide (acc.length > 0) && decide (some o.date = acc.getLast?.map (·.date)) then acc
    else acc ++ [⟨o.date, clrBands bC2 o⟩]
  else acc

/-- The extraction loop, `src/cxx/cold.c` 2743–2780. -/
def clrLoop (bC2 : Bool) : List Scene → List Bool → List ClrObs → List ClrObs
  | o :: os, v :: vs, acc => clrLoop bC2 os vs (clrStep bC2 acc o v)
  | _, _, acc => acc

/-- `clrx`, `clry` as built at the start of `stand_procedure` (`src/cxx/cold.c` 2713–2780). -/
def clearObs (bC2 : Bool) (obs : List Scene) : List ClrObs :=
  clrLoop bC2 obs (preprocessing bC2 obs).idr []

end Pycold
