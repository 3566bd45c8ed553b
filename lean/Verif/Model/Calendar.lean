import Verif.Model.Preprocess
/-!
# Calendar arithmetic

Models `src/cxx/input.c` (`is_leap_year`, `convert_year_doy_to_ordinal`), `src/cxx/output.c`
(`convert_jday_to_year_doy_from_0001`) and `src/cxx/misc.c` (`yearmonth2doy`).
C `int`s are unbounded `Int`s; `x % k` is only ever tested against zero, for which C's truncated and
Lean's Euclidean remainder agree.
-/
namespace Pycold

/-- `LANDSAT_START_YEAR`, `ORDINAL_DATE_LAST_DAY_1972`, `src/cxx/defines.h`. -/
def LANDSAT_START_YEAR : Int := 1973
def ORDINAL_DATE_LAST_DAY_1972 : Int := 720258

/-- `is_leap_year`, `src/cxx/input.c` 61–74. -/
def isLeapYear (year : Int) : Bool :=
  if decide (year % 4 ≠ 0) || (decide (year % 100 = 0) && decide (year % 400 ≠ 0)) then false else true

/-- `LEAP_YEAR_DAYS` / `NON_LEAP_YEAR_DAYS` chosen by `is_leap_year`
(`src/cxx/input.c` 121–129, `src/cxx/output.c` 27–35, 39–46). -/
def yearDays (year : Int) : Int := if isLeapYear year then 366 else 365

/-- The loop `for (i = LANDSAT_START_YEAR; i < year; i++)`, `src/cxx/input.c` 119–130. -/
def addYears (i year jday : Int) : Int :=
  if i < year then addYears (i + 1) year (jday + yearDays i) else jday
termination_by (year - i).toNat

/-- `convert_year_doy_to_ordinal`, `src/cxx/input.c` 99–135.  `jdayIn` is whatever `*jday` contained
before the call: for `year == 1973` the C code never assigns it and only executes `*jday += doy`. -/
def convertYearDoy (year doy jdayIn : Int) : Status × Int :=
  if year < 1973 then (.error, jdayIn)
  else
    let j := if year ≠ LANDSAT_START_YEAR then
        addYears LANDSAT_START_YEAR year ORDINAL_DATE_LAST_DAY_1972
      else jdayIn
    (.success, j + doy)

/-- The loop `while (day_count < jday)`, `src/cxx/output.c` 24–37. -/
def countYears (jday dayCount yearCount : Int) : Int × Int :=
  if dayCount < jday then countYears jday (dayCount + yearDays (yearCount + 1)) (yearCount + 1)
  else (dayCount, yearCount)
termination_by (jday - dayCount).toNat
decreasing_by
  have : yearDays (yearCount + 1) ≥ 365 := by unfold yearDays; split <;> omega
  omega

/-- `convert_jday_to_year_doy_from_0001`, `src/cxx/output.c` 7–52: `some (year, doy)` on SUCCESS,
`none` on ERROR. -/
def convertJday (jday : Int) : Option (Int × Int) :=
  if jday < ORDINAL_DATE_LAST_DAY_1972 then none
  else
    let r := countYears jday ORDINAL_DATE_LAST_DAY_1972 (LANDSAT_START_YEAR - 1)
    some (r.2, jday - (r.1 - yearDays r.2))

/-- `yearmonth2doy`, `src/cxx/misc.c` 3293–3357 (months outside 1..12 fall through to
`return SUCCESS`, i.e. 0). -/
def yearMonth2Doy (year month day : Int) : Int :=
  if isLeapYear year then
    if month = 1 then day else if month = 2 then 31 + day else if month = 3 then 60 + day
    else if month = 4 then 91 + day else if month = 5 then 121 + day
    else if month = 6 then 152 + day else if month = 7 then 182 + day
    else if month = 8 then 213 + day else if month = 9 then 244 + day
    else if month = 10 then 274 + day else if month = 11 then 305 + day
    else if month = 12 then 335 + day else 0
  else
    if month = 1 then day else if month = 2 then 31 + day else if month = 3 then 59 + day
    else if month = 4 then 90 + day else if month = 5 then 120 + day
    else if month = 6 then 151 + day else if month = 7 then 181 + day
    else if month = 8 then 212 + day else if month = 9 then 243 + day
    else if month = 10 then 273 + day else if month = 11 then 304 + day
    else if month = 12 then 334 + day else 0

/-- The fields of `Output_t` that `firstDegradationYear` looks at (`src/cxx/output.h`):
`t_break` and the sign of `magnitude[n_lassoband]` (`up`: `> 0`, `down`: `< 0`; both false for 0/NaN). -/
structure DegRec where
  tBreak : Int
  up : Bool
  down : Bool
deriving DecidableEq, Repr

/-- The `for` loop of `firstDegradationYear`, `src/cxx/output.c` 61–94. -/
def firstDegLoop (updirection : Bool) : List DegRec → Status × Int
  | [] => (.success, 0)
  | t :: ts =>
    if (if updirection then t.up else t.down) then
      match convertJday t.tBreak with
      | some (y, _) => (.success, y)
      | none => (.failure, 0)
    else firstDegLoop updirection ts

/-- `firstDegradationYear`, `src/cxx/output.c` 54–101 (status, `*dyear`; on FAILURE the C code leaves
`*dyear` unwritten, shown as 0 here). -/
def firstDegradationYear (recs : List DegRec) (updirection : Bool) : Status × Int :=
  if recs.length > 1 then firstDegLoop updirection recs else (.success, 0)

end Pycold
