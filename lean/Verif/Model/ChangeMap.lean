import Mathlib.Algebra.Order.Ring.Rat
import Mathlib.Algebra.Order.Group.Abs
import Mathlib.Data.List.Sort
/-!
# Features and change maps from change records

Model of `extract_features` in `src/python/pycold/pyclassifier.py` (19–102) and, slightly different, in
`src/python/pycold/imagetool/export_change_map.py` (54–160); of the break, recent-disturbance and
first-disturbance maps of the latter (193–246, 404–563, 626–662).

Float values are rationals or NaN (`none`); infinities and rounding are not modelled.
-/
namespace Pycold.ChangeMap

/-- A float value. -/
abbrev Q := Option ℚ

/-- A comparison is false if a side is NaN. -/
def lt (a b : Q) : Bool :=
  match a, b with
  | some x, some y => decide (x < y)
  | _, _ => false

def add (a b : Q) : Q := a.bind fun x => b.map fun y => x + y
def mul (a b : Q) : Q := a.bind fun x => b.map fun y => x * y
def neg (a : Q) : Q := a.map fun x => -x
def abs (a : Q) : Q := a.map fun x => |x|

/-- A change record (`rec_cg`). -/
structure Rec where
  tStart : Int
  tEnd : Int
  tBreak : Int
  pos : Int
  prob : Int
  coefs : Nat → Nat → Q
  rmse : Nat → Q
  magnitude : Nat → Q

/-! ## The calendar of Python's `datetime` -/

/-- The year of an ordinal (`date.fromordinal(d).year`; `_ord2ymd` in CPython's `datetime.py`); `pd.Timestamp`
additionally refuses years before 1677 and after 2262, not modelled. -/
def yearOf (d : Int) : Int :=
  let n := d - 1
  let n400 := n / 146097
  let n := n % 146097
  let n100 := n / 36524
  let n := n % 36524
  let n4 := n / 1461
  let n := n % 1461
  let n1 := n / 365
  let year := n400 * 400 + 1 + (n100 * 100 + n4 * 4 + n1)
  if n1 = 4 ∨ n100 = 4 then year - 1 else year

/-- `date(y, 1, 1).toordinal()` (`_ymd2ord`, `_days_before_year`). -/
def jan1 (y : Int) : Int := (y - 1) * 365 + (y - 1) / 4 - (y - 1) / 100 + (y - 1) / 400 + 1

/-- `date(y, 12, 31).toordinal()`: 364 or 365 days later. -/
def dec31 (y : Int) : Int :=
  jan1 y + (if y % 4 = 0 ∧ (y % 100 ≠ 0 ∨ y % 400 = 0) then 365 else 364)

/-! ## Features -/

inductive Feature where
  | a0 | c1 | a1 | b1 | a2 | b2 | a3 | b3 | rmse | cv
  /-- any other string -/
  | other
deriving DecidableEq

/-- `SLOPE_SCALE`. -/
def slopeScale : ℚ := 10000

/-- The value of a feature, before NaN is replaced; `none` if the name is none of the branches
(`pyclassifier.py` 54–97, `export_change_map.py` 97–141). -/
def rawFeature (c : Rec) (band : Nat) (day : Int) : Feature → Option Q
  | .a0 => some (add (c.coefs band 0) (mul (mul (c.coefs band 1) (some day)) (some (1 / slopeScale))))
  | .c1 => some (mul (c.coefs band 1) (some (1 / slopeScale)))
  | .a1 => some (c.coefs band 2)
  | .b1 => some (c.coefs band 3)
  | .a2 => some (c.coefs band 4)
  | .b2 => some (c.coefs band 5)
  | .a3 => some (c.coefs band 6)
  | .b3 => some (c.coefs band 7)
  | .rmse => some (c.rmse band)
  | .cv => none
  | .other => none

/-- `if np.isnan(v): v = 0` -/
def nanToZero (v : Q) : Q := some (v.getD 0)

/-- The two versions of the function. -/
inductive Version where
  | classifier
  | export_
deriving DecidableEq

/-- The last day (exclusive) of the last curve: `t_end` (`pyclassifier.py` 48), or 31 December of the year of
`t_end` (`export_change_map.py` 83–84). -/
def lastDays : Version → Rec → Int
  | .classifier, c => c.tEnd
  | .export_, c => dec31 (yearOf c.tEnd)

/-- The loop over the curves up to the `break`: the curve whose branch is taken. -/
def pick (ver : Version) (day : Int) : List Rec → Option Rec
  | [] => none
  | [c] => if c.tStart ≤ day ∧ day < lastDays ver c then some c else none
  | c :: c' :: cs => if c.tStart ≤ day ∧ day < c'.tStart then some c else pick ver day (c' :: cs)

/-- The `cv` pass for one day (`export_change_map.py` 147–157): the first confirmed break in the year of the
day; `none` leaves the entry as it is. -/
def cvOf (band : Nat) (day : Int) : List Rec → Option Q
  | [] => none
  | c :: cs =>
    if c.tBreak = 0 ∨ c.prob ≠ 100 then cvOf band day cs
    else if yearOf c.tBreak = yearOf day then some (c.magnitude band)
    else cvOf band day cs

/-- One entry of the result; `none` is an exception.  In `pyclassifier.py` an unknown name raises as soon as
a curve is found; in `export_change_map.py` it never does (the test 100 is always false). -/
def entry (ver : Version) (plot : List Rec) (band : Nat) (nanVal : Q) (day : Int) (f : Feature) : Option Q :=
  match ver with
  | .classifier =>
    match pick ver day plot with
    | none => some nanVal
    | some c => (rawFeature c band day f).map nanToZero
  | .export_ =>
    if f = .cv then some ((cvOf band day plot).getD nanVal)
    else match pick ver day plot with
      | none => some nanVal
      | some c => some (((rawFeature c band day f).map nanToZero).getD nanVal)

/-- `extract_features`: for every feature the values for every day; `none` is an exception.  Simplified: if
the same name is given twice, `cv` is filled in at its first occurrence only in the program
(`feature_outputs.index`), here at both. -/
def extractFeatures (ver : Version) (plot : List Rec) (band : Nat) (days : List Int) (nanVal : Q) (fs : List Feature) :
    Option (List (List Q)) :=
  fs.mapM fun f => days.mapM fun day => entry ver plot band nanVal day f

/-! ## Categories of change -/

/-- The magnitude test shared by the three functions (195–199, 214–218, 252–256): bands 3 up, 2 and 4 down. -/
def greening (tc : ℚ) (r : Rec) : Bool :=
  lt (some tc) (r.magnitude 3) && lt (r.magnitude 2) (some (-tc)) && lt (r.magnitude 4) (some (-tc))

/-- The comparison of slopes with the next record (200–204, 219–223). -/
def steeper (r next : Rec) : Bool :=
  lt (abs (r.coefs 3 1)) (next.coefs 3 1) && lt (next.coefs 2 1) (neg (abs (r.coefs 2 1))) &&
    lt (next.coefs 4 1) (neg (abs (r.coefs 4 1)))

/-- `getcategory_cold`, 193–209; `none` is an `IndexError`. -/
def categoryCold (l : List Rec) (i : Nat) : Option Int :=
  match l[i]? with
  | none => none
  | some r =>
    if greening (-200) r then
      match l[i + 1]? with
      | none => none
      | some next => some (if steeper r next then 3 else 2)
    else some 1

/-- The number of the bands 1–5 in which the magnitudes have opposite signs (229–236). -/
def flips (r prev : Rec) : Nat :=
  ((List.range 5).filter fun b => lt (mul (r.magnitude (b + 1)) (prev.magnitude (b + 1))) (some 0)).length

/-- `getcategory_obcold`, 212–246.  The dates differ by more than `365.25 * 5` days iff by at least 1827. -/
def categoryObcold (l : List Rec) (i : Nat) (lastType : Int) : Option Int :=
  match l[i]? with
  | none => none
  | some r =>
    if greening (-250) r then
      match l[i + 1]? with
      | none => none
      | some next => some (if steeper r next then 3 else 2)
    else if 0 < i then
      match l[i - 1]? with
      | none => none
      | some prev =>
        if 1827 ≤ r.tBreak - prev.tBreak ∨ lastType ≠ 1 then some 1
        else if 4 ≤ flips r prev then some 4 else some 1
    else some 1

/-! ## Break maps -/

inductive Method where
  | cold
  | obcold
deriving DecidableEq

/-- The tile and the block: `n_cols`, block size, block number from 1, range of years. -/
structure Block where
  nCols : Nat
  width : Nat
  height : Nat
  x : Nat
  y : Nat
  low : Int
  upp : Int

/-- A Python index into an axis of length `n`: negative counts from the end; `none` is an `IndexError`. -/
def pyIndex (n : Nat) (i : Int) : Option Nat :=
  if 0 ≤ i ∧ i < n then some i.toNat else if -n ≤ i ∧ i < 0 then some (i + n).toNat else none

/-- The running values of the loop 490–532; `map year row col`. -/
structure St where
  pos : Int
  dist : Int
  map : Int → Nat → Nat → Int

/-- How the loop ends for a block: early `return` when `i_col < 0` (511–518), or an exception. -/
inductive Res (α : Type) where
  | ok (a : α)
  | returned
  | raised

def Res.bind {α β} : Res α → (α → Res β) → Res β
  | .ok a, f => f a
  | .returned, _ => .returned
  | .raised, _ => .raised

def ofOption {α} : Option α → Res α
  | some a => .ok a
  | none => .raised

/-- The choice of the function, 520–523. -/
def category (m : Method) (l : List Rec) (count : Nat) (last : Int) : Option Int :=
  match m with
  | .obcold => categoryObcold l count last
  | .cold => categoryCold l count

/-- One record, 490–532; `l` is the sorted block, `count` the number of the record.  `(pos - 1) / n_cols` is a
float division, truncated; exact for positions below 2^31. -/
def stepRec (m : Method) (B : Block) (l : List Rec) (count : Nat) (curve : Rec) (st : St) : Res St :=
  let st := if curve.pos ≠ st.pos then { st with pos := curve.pos, dist := 0 } else st
  if curve.prob < 100 ∨ curve.tBreak = 0 ∨ count = l.length - 1 then .ok st
  else
    let iCol := (curve.pos - 1) % B.nCols - ((B.x : Int) - 1) * B.width
    let iRow := (curve.pos - 1).tdiv B.nCols - ((B.y : Int) - 1) * B.height
    if iCol < 0 then .returned
    else
      (ofOption (category m l count st.dist)).bind fun dist =>
      let st := { st with dist := dist }
      let breakYear := yearOf curve.tBreak
      if breakYear < B.low ∨ B.upp < breakYear then .ok st
      else
        (ofOption (pyIndex B.height iRow)).bind fun r =>
        (ofOption (pyIndex B.width iCol)).bind fun c =>
        .ok { st with map := fun y i j =>
          if y = breakYear ∧ i = r ∧ j = c then dist * 1000 + curve.tBreak - jan1 breakYear + 1 else st.map y i j }

def loop (m : Method) (B : Block) (l : List Rec) : (count : Nat) → List Rec → St → Res St
  | _, [], st => .ok st
  | count, curve :: rest, st => (stepRec m B l count curve st).bind (loop m B l (count + 1) rest)

/-- The order of two records: by position, then by start. -/
def Before (a b : Rec) : Prop := a.pos < b.pos ∨ (a.pos = b.pos ∧ a.tStart ≤ b.tStart)

instance : DecidableRel Before := fun a b => inferInstanceAs (Decidable (_ ∨ _))

/-- `cold_block.sort(order="pos")`, 484: by position; numpy breaks ties by the other fields in their order,
the first of which is `t_start` (further ties, which records of one pixel do not have, are not modelled). -/
def sortBlock (l : List Rec) : List Rec := l.insertionSort Before

/-- The break maps of a block, 484–532, before they are saved.  An empty block raises (485). -/
def breakMaps (m : Method) (B : Block) (block : List Rec) : Res (Int → Nat → Nat → Int) :=
  let l := sortBlock block
  match l with
  | [] => .raised
  | first :: _ => (loop m B l 0 l ⟨first.pos, 0, fun _ _ _ => -9999⟩).bind fun st => .ok st.map

/-! ## Break maps of S-CCD -/

/-- What the export reads of a pack of S-CCD: `position` and `rec_cg` (`index_sccdpack`, `utils.py` 403–418). -/
structure Plot where
  position : Int
  recs : List Rec

/-- `getcategory_sccd`, 249–259. -/
def categorySccd (r : Rec) : Int := if greening (-200) r then 2 else 1

/-- One record of a pack, 447–480; `last`: the pack is the last one of the block.  A negative `i_col` is only
reported (459–465), and is then a Python index. -/
def stepSccd (B : Block) (last : Bool) (position : Int) (curve : Rec) (map : Int → Nat → Nat → Int) :
    Res (Int → Nat → Nat → Int) :=
  if curve.tBreak = 0 ∨ last then .ok map
  else
    let iCol := (position - 1) % B.nCols - ((B.x : Int) - 1) * B.width
    let iRow := (position - 1).tdiv B.nCols - ((B.y : Int) - 1) * B.height
    let breakYear := yearOf curve.tBreak
    if breakYear < B.low ∨ B.upp < breakYear then .ok map
    else
      (ofOption (pyIndex B.height iRow)).bind fun r =>
      (ofOption (pyIndex B.width iCol)).bind fun c =>
      .ok fun y i j =>
        if y = breakYear ∧ i = r ∧ j = c then categorySccd curve * 1000 + curve.tBreak - jan1 breakYear + 1 else map y i j

/-- The inner loop 446–480. -/
def recsSccd (B : Block) (last : Bool) (position : Int) : List Rec → (Int → Nat → Nat → Int) → Res (Int → Nat → Nat → Int)
  | [], map => .ok map
  | curve :: rest, map => (stepSccd B last position curve map).bind (recsSccd B last position rest)

/-- The outer loop 445; `n` is the number of packs of the block, `count` the number of the pack. -/
def plotsSccd (B : Block) (n : Nat) : (count : Nat) → List Plot → (Int → Nat → Nat → Int) → Res (Int → Nat → Nat → Int)
  | _, [], map => .ok map
  | count, plot :: rest, map =>
    (recsSccd B (decide (count = n - 1)) plot.position plot.recs map).bind (plotsSccd B n (count + 1) rest)

/-- The break maps of a block of S-CCD, 444–480, before they are saved.  (An empty block gives empty maps.) -/
def sccdMaps (B : Block) (plots : List Plot) : Res (Int → Nat → Nat → Int) :=
  plotsSccd B plots.length 0 plots fun _ _ _ => -9999

/-! ## Recent and first disturbance -/

/-- `(breakmap / 1000).astype(np.byte) == 1`, 635 and 653: truncation towards zero (the values are between
-9999 and 4366). -/
def isDisturbance (v : Int) : Bool := decide (v.tdiv 1000 = 1)

/-- A loop over years that overwrites: 631–635 in ascending order, 649–653 in descending order. -/
def overwrite (map : Int → Nat → Nat → Int) (r c : Nat) : List Int → Int → Int
  | [], acc => acc
  | y :: ys, acc => overwrite map r c ys (if isDisturbance (map y r c) then y else acc)

/-- `range(low, upp + 1)` -/
def years (low upp : Int) : List Int := (List.range (upp + 1 - low).toNat).map fun k : Nat => low + (k : Int)

def recentDist (low upp : Int) (map : Int → Nat → Nat → Int) (r c : Nat) : Int := overwrite map r c (years low upp) 0

def firstDist (low upp : Int) (map : Int → Nat → Nat → Int) (r c : Nat) : Int :=
  overwrite map r c (years low upp).reverse 0

end Pycold.ChangeMap
