import Verif.Model.Sort
import Mathlib.Algebra.Order.Field.Rat
/-!
# Small numerical helpers

`matlab_2d_float_median`, `matlab_float_2d_partial_median`, `adjust_median_variogram`, `max_array_int`
(`src/cxx/misc.c`), `find_index_clrx` (`src/cxx/utilities.c`) and the expansion of the LASSO solution in
`c_glmnet` (`src/cxx/misc.c`).

Floating-point values whose arithmetic matters (means of two numbers, differences) are rationals:
rounding is not modelled.
-/
namespace Pycold.Misc

open Pycold.Sort

/-- `x < y` on rationals and on integers as a Boolean. -/
def ltQ (a b : ℚ) : Bool := decide (a < b)
def ltZ (a b : Int) : Bool := decide (a < b)

/-- `matlab_2d_float_median` (839–859) and `matlab_2d_double_median` (878–898): the entry/entries in
the middle of `a[0 .. n-1]`. -/
def median (s : Arr ℚ Unit) (n : Int) : Except Err ℚ :=
  let m := n.tdiv 2
  if n.tmod 2 = 0 then do
    let x ← rd s (m - 1)
    let y ← rd s m
    .ok ((x + y) / 2)
  else rd s m

/-- `matlab_float_2d_partial_median` (992–1013), `matlab_double_2d_partial_median` (1034–1055). -/
def partialMedian (s : Arr ℚ Unit) (start stop : Int) : Except Err ℚ :=
  let m := (stop + start + 1).tdiv 2
  if (stop - start + 1).tmod 2 = 0 then do
    let x ← rd s (m - 1)
    let y ← rd s m
    .ok ((x + y) / 2)
  else rd s m

/-- The call pattern of every use: `quick_sort_float(a, 0, n-1)` followed by the median (e.g.
`src/cxx/cold.c` 3716–3717, 4343–4344, 5209–5210). -/
def sortedMedian (s : Arr ℚ Unit) (n : Int) : Except Err ℚ := do
  let s ← quickSort ltQ 0 (n.toNat + 1) s 0 (n - 1)
  median s n

/-- `quick_sort_float(a, id_last, conse-1)` followed by the partial median (`src/cxx/cold.c`
4510–4512). -/
def sortedPartialMedian (s : Arr ℚ Unit) (start stop : Int) : Except Err ℚ := do
  let s ← quickSort ltQ 0 ((stop - start).toNat + 2) s start stop
  partialMedian s start stop

/-- An array holding a list. -/
def ofList (l : List ℚ) : Arr ℚ Unit :=
  { n := l.length, nb := 0, arr := fun k => if 0 ≤ k then l.getD k.toNat 0 else 0, brr := fun _ _ => () }

/-- `find_index_clrx`, `src/cxx/utilities.c` 1108–1136; `best` is `(min_abs_diff, record)` and the result
`none` means that the uninitialised `minabsdiff_i_record` is returned. -/
def findIndexLoop (date : Int) : List Int → Nat → Int → Option Nat → Option Nat
  | [], _, _, rec => rec
  | x :: xs, i, m, rec =>
    if x = date then some i
    else if (x - date).natAbs < m then findIndexLoop date xs (i + 1) (x - date).natAbs (some i)
    else findIndexLoop date xs (i + 1) m rec

def findIndexClrx (clrx : List Int) (date : Int) : Option Nat :=
  findIndexLoop date clrx 0 9999999 none

/-- The gaps `abs(clrx[j+1] - clrx[j])` (131–138). -/
def gaps : List Int → List ℚ
  | x :: y :: rest => (((y - x).natAbs : Int) : ℚ) :: gaps (y :: rest)
  | _ => []

/-- What `adjust_median_variogram` (72–340) computes from the dates: `*date_vario` and
`*max_neighdate_diff`.  `none` for the latter: it is not written (fewer than two observations, 103–122;
`*date_vario` is 0 resp. the single date). -/
def dateVariogram (dates : List Int) : Except Err (ℚ × Option ℚ) :=
  match dates with
  | [] => .ok (0, none)
  | [d] => .ok (d, none)
  | d1 :: d2 :: rest => do
    let var := ofList (gaps (d1 :: d2 :: rest))
    let len := (d1 :: d2 :: rest).length
    -- quick_sort_float(var, 0, dim2_len - 2), 139
    let var ← quickSort ltQ 0 len var 0 ((len : Int) - 2)
    -- 140–146
    let v ← median var ((len : Int) - 1)
    let mx ← rd var ((len : Int) - 2)
    .ok (v, some mx)

/-- The band part, option 1 (148–174), for one band of at least two observations: the median of
`abs(y[j+1] - y[j])`.  The C code calls the integer `abs`, which drops the fractional part of the
difference of two floats; surface reflectances are integers, for which this is exact. -/
def bandVariogram (ys : List Int) : Except Err ℚ := do
  let var ← quickSort ltQ 0 ys.length (ofList (gaps ys)) 0 ((ys.length : Int) - 2)
  median var ((ys.length : Int) - 1)

/-- The differences at a lag, 192–194 (option 2). -/
def lagDiffs (dates : List Int) (step : Nat) : List Int :=
  (List.range (dates.length - step)).map (fun (j : Nat) =>
    (((dates.getD (j + step) 0) - (dates.getD j 0)).natAbs : Int))

/-- Counting into `unique_diff` / `unique_diff_freq` (195–218). -/
def addDiff (d : Int) : List (Int × Nat) → List (Int × Nat)
  | [] => [(d, 1)]
  | (x, c) :: rest => if d = x then (x, c + 1) :: rest else (x, c) :: addDiff d rest

def histogram (ds : List Int) : List (Int × Nat) := ds.foldl (fun h d => addDiff d h) []

/-- `max_array_int` (2758–2771) over the frequencies, then `unique_diff[max_loc]` (227–229).  With no
difference at all `max_loc` keeps its value from an earlier lag and the entry read is 0 (187–190). -/
def majorityLoop : List (Int × Nat) → Int → Int → Int
  | [], _, best => best
  | (x, c) :: rest, mx, best => if (c : Int) > mx then majorityLoop rest c x else majorityLoop rest mx best

def majority (dates : List Int) (step : Nat) : Int :=
  majorityLoop (histogram (lagDiffs dates step)) (-999999) 0

/-- The search for the lag, `while (majority_date_diff < 31)` (183–230, option 2), bounded; the result
is the lag used, i.e. `step - 1` after the loop. -/
def lagSearch (dates : List Int) : Nat → Nat → Except Err Nat
  | 0, _ => .error .fuel
  | f + 1, step => if majority dates step < 31 then lagSearch dates f (step + 1) else .ok step

/-- The number `s` of pairs used for a lag (243–250); the median then reads `var[s/2]` and, for even
`s`, `var[s/2 - 1]` (255–261). -/
def lagPairs (dates : List Int) (step : Nat) : Nat :=
  ((List.range (dates.length - step)).filter (fun (j : Nat) =>
    decide (dates.getD (j + step) 0 - dates.getD j 0 > 30))).length

/-- The expansion of the compressed solution for one lambda, `c_glmnet` 2699–2737: `ia` are the
1-based positions (sorted in place), `ca` the compressed coefficients, `nin` their number, `ni` the
number of predictors; the result is `cfs[i][0 .. ni]` and the new contents of `ia`. -/
def glmExpand {V : Type} (zero : V) (ni nin : Nat) (ia : Int → Int) (a0 : V) (ca : Int → V) :
    Except Err ((Int → V) × (Int → Int)) :=
  let cfs0 : Int → V := fun k => if k = 0 then a0 else zero
  if nin = 0 then .ok (cfs0, ia)
  else do
    -- oja[k] = k (2713–2714), quick_sort_index (2716)
    let s ← quickSort ltZ 1 (2 * nin + 2) { n := nin, nb := 1, arr := ia, brr := fun _ k => k } 0
      ((nin : Int) - 1)
    -- 2724–2727
    let cfs ← (List.range nin).foldlM (fun (cfs : Int → V) (j : Nat) =>
      let p := s.arr (j : Int)
      let q := s.brr 0 (j : Int)
      if (0 ≤ p ∧ p ≤ ni) ∧ (0 ≤ q ∧ q < nin) then .ok (upd cfs p (ca q)) else .error .oob) cfs0
    .ok (cfs, s.arr)

/-- The loop over the solutions (2699–2731): `ia` is left sorted for the next one. -/
def glmLoop {V : Type} (zero : V) (ni nin : Nat) : (Int → Int) → List (V × (Int → V)) →
    Except Err (List (Int → V))
  | _, [] => .ok []
  | ia, (a0, ca) :: rest => do
    let (cfs, ia') ← glmExpand zero ni nin ia a0 ca
    let more ← glmLoop zero ni nin ia' rest
    .ok (cfs :: more)

end Pycold.Misc
