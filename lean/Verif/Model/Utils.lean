import Verif.Model.Stack
/-!
# Helpers of `src/python/pycold/utils.py` and `common.py`

Model of `date2matordinal`, `matordinal2date`, `get_anchor_days`, `generate_rowcolimage`, `class_from_dict`
(`src/python/pycold/utils.py`) and of `DatasetInfo` (`src/python/pycold/common.py`).

Dates are those of CPython's `datetime` (years 1 to 9999); `pd.Timestamp` with nanoseconds refuses years before 1677 and after
2262, not modelled.  Not modelled: georeferencing.  The float division in `int(n_cols / n_block_x)` is exact enough (C103).
-/
namespace Pycold.Utils

/-! ## Dates -/

/-- `date2matordinal`, `utils.py` 352–353: `dt.date(year, month, day).toordinal()`; `none`: no such date, raises. -/
def date2matordinal (year month day : Nat) : Option Nat :=
  (Stack.dayOfYear year month day).map fun n => (year - 1) * 365 + (year - 1) / 4 - (year - 1) / 100 + (year - 1) / 400 + n

/-- `_DAYS_BEFORE_MONTH[month] + (month > 2 and leapyear)` -/
def preceding (leap : Bool) (month : Nat) : Nat :=
  [0, 0, 31, 59, 90, 120, 151, 181, 212, 243, 273, 304, 334].getD month 0 + (if 2 < month ∧ leap then 1 else 0)

/-- `_DAYS_IN_MONTH[month] + (month == 2 and leapyear)` -/
def inMonth (leap : Bool) (month : Nat) : Nat :=
  [0, 31, 28, 31, 30, 31, 30, 31, 31, 30, 31, 30, 31].getD month 0 + (if month = 2 ∧ leap then 1 else 0)

/-- The last part of CPython's `_ord2ymd`: month and day of day number `n` (from 0) of a year. -/
def monthDay (leap : Bool) (n : Nat) : Nat × Nat :=
  let month := (n + 50) / 32
  let pre := preceding leap month
  if pre > n then (month - 1, n - (pre - inMonth leap (month - 1)) + 1) else (month, n - pre + 1)

/-- `matordinal2date`, `utils.py` 356–357: `date.fromordinal` (`_ord2ymd` in CPython's `datetime.py`); `none` raises. -/
def matordinal2date (ordinal : Nat) : Option (Nat × Nat × Nat) :=
  if 1 ≤ ordinal ∧ ordinal ≤ 3652059 then
    let n := ordinal - 1
    let n400 := n / 146097
    let n := n % 146097
    let n100 := n / 36524
    let n := n % 36524
    let n4 := n / 1461
    let n := n % 1461
    let n1 := n / 365
    let n := n % 365
    let year := n400 * 400 + 1 + (n100 * 100 + n4 * 4 + n1)
    if n1 = 4 ∨ n100 = 4 then some (year - 1, 12, 31)
    else
      let leap := decide (n1 = 3 ∧ (n4 ≠ 24 ∨ n100 = 3))
      some (year, monthDay leap n)
  else none

/-- `np.arange(start, stop, step)` for integers: `ceil((stop - start) / step)` values; a step of 0 raises. -/
def arange (start stop step : Int) : Option (List Int) :=
  if step = 0 then none
  else some ((List.range (-((start - stop) / step) : Int).toNat).map fun k : Nat => start + k * step)

/-- `get_anchor_days`, `utils.py` 285–298. -/
def anchorDays (start nMaps interval : Int) : Option (List Int) := arange start (start + nMaps * interval) interval

/-! ## The index image -/

/-- A raster of `ysize` lines of `xsize` pixels. -/
structure Raster where
  ysize : Nat
  xsize : Nat
  pixel : Nat → Nat → Int

/-- `GDT_Int32`: values are clamped. -/
def int32 (v : Int) : Int := max (-2147483648) (min v 2147483647)

/-- `GetRasterBand(1).WriteArray(array)` of an array with `h` rows and `w` columns: raises if the array is larger than the
file; a new file is filled with 0. -/
def writeArray (f : Raster) (h w : Nat) (a : Nat → Nat → Int) : Option Raster :=
  if w ≤ f.xsize ∧ h ≤ f.ysize then
    some { f with pixel := fun i j => if i < h ∧ j < w then int32 (a i j) else f.pixel i j }
  else none

/-- The first two numbers of the shape of `ReadAsArray()`: rows and columns for one band, else bands and rows. -/
def shape2 (bands rows cols : Nat) : Nat × Nat := if bands = 1 then (rows, cols) else (bands, rows)

/-- `generate_rowcolimage`, `utils.py` 508–534, for a reference image with these numbers of bands, rows (`RasterYSize`) and
columns (`RasterXSize`).  `Create` takes the width first (526: `rows`, then `cols`). -/
def rowcolImage (bands rows cols : Nat) : Option Raster :=
  let s := shape2 bands rows cols
  writeArray ⟨cols, rows, fun _ _ => 0⟩ s.1 s.2 fun i j => ((i : Int) + 1) * 10000 + j + 1

/-! ## The dataset -/

/-- `DatasetInfo`, `common.py` 76–91. -/
structure DatasetInfo where
  nRows : Nat
  nCols : Nat
  nBlockX : Nat
  nBlockY : Nat
  nblocks : Nat
  blockWidth : Nat
  blockHeight : Nat
deriving DecidableEq

/-- `DatasetInfo(n_rows, n_cols, n_block_x, n_block_y)` with `__post_init__`, `common.py` 88–91; a division by 0 raises. -/
def makeInfo (nRows nCols nbx nby : Nat) : Option DatasetInfo :=
  if nbx = 0 ∨ nby = 0 then none else some ⟨nRows, nCols, nbx, nby, nbx * nby, nCols / nbx, nRows / nby⟩

/-- A dictionary: keys and values in the order of insertion; keys are different. -/
abbrev Dict := List (String × Nat)

/-- `fields(data_class) if f.init`: the names of the fields that are arguments. -/
def initFields : List String := ["n_rows", "n_cols", "n_block_x", "n_block_y"]

/-- `class_from_dict(DatasetInfo, dict_var)`, `utils.py` 570–582: other keys are left out; a missing argument raises. -/
def classFromDict (d : Dict) : Option DatasetInfo :=
  let args := d.filter fun kv => kv.1 ∈ initFields
  (args.lookup "n_rows").bind fun r => (args.lookup "n_cols").bind fun c => (args.lookup "n_block_x").bind fun x =>
    (args.lookup "n_block_y").bind fun y => makeInfo r c x y

end Pycold.Utils
