import Mathlib.Algebra.Order.Ring.Rat
import Mathlib.Data.List.Sort
import Mathlib.Data.List.Lex
import Verif.Model.ChangeMap
import Verif.Model.Tile
/-!
# From scenes to the time series of a pixel

Model of `src/python/pycold/imagetool/prepare_ard.py` (decoding of the quality band, scaling, naming, splitting into
blocks; the partitioned mode), of `get_stack_date` in `imagetool/tile_processing.py`, and of the arguments that
its `main` passes to the detecting functions.

File names are lists of characters.  Images are flat lists in row-major order.  Outcomes: `raised` is an exception that
is not caught (it ends the process), `ub` a read outside an array (`as_strided` does no checks).

Not modelled: gdal and tar (a band is readable or not), float rounding in the scaling (exact arithmetic), bounds
with a time of day, years after 9999.
-/
namespace Pycold.Stack

/-- How a call ends. -/
inductive Res (α : Type) where
  | ok (a : α)
  | raised
  | ub
deriving DecidableEq

def Res.bind {α β} : Res α → (α → Res β) → Res β
  | .ok a, f => f a
  | .raised, _ => .raised
  | .ub, _ => .ub

instance : Monad Res where
  pure := .ok
  bind := Res.bind

/-- A value, or an exception. -/
def orRaise {α} : Option α → Res α
  | some a => .ok a
  | none => .raised

/-- A value, or a read outside an array. -/
def orUb {α} : Option α → Res α
  | some a => .ok a
  | none => .ub

/-! ## The quality band -/

/-- `bitwise_and(packed, 1 << k) > 0` -/
def bit (p k : Nat) : Bool := decide (0 < p &&& (1 <<< k))

/-- `qabitval_array_HLS`, 79–105. -/
def qaHls (p : Nat) : Nat :=
  let u := 0
  let u := if bit p 5 then 1 else u
  let u := if bit p 4 then 3 else u
  let u := if bit p 3 then 2 else u
  let u := if bit p 2 then 4 else u
  let u := if bit p 1 then 4 else u
  if p = 255 then 255 else u

/-- `qabitval_array`, 108–130: the bits are `QA_… + 1`. -/
def qaC1 (p : Nat) : Nat :=
  let u := 255
  let u := if bit p (0 + 1) then 0 else u
  let u := if bit p (1 + 1) then 1 else u
  let u := if bit p (3 + 1) then 3 else u
  let u := if bit p (2 + 1) then 2 else u
  if bit p (4 + 1) then 4 else u

/-- `qabitval_array_c2`, 133–162. -/
def qaC2 (p : Nat) : Nat :=
  let u := 255
  let u := if bit p 6 then 0 else u
  let u := if bit p 7 then 1 else u
  let u := if bit p 5 then 3 else u
  let u := if bit p 4 then 2 else u
  let u := if bit p 3 then 4 else u
  if bit p 1 then 4 else u

/-- The sources: `--collection`. -/
inductive Kind where
  | ard
  | ardC2
  | c2
  | hls
  | hls14
deriving DecidableEq

/-- The decoding used (829–832, 1282, 230, 516). -/
def decodeQa : Kind → Nat → Nat
  | .ard => qaC1
  | .ardC2 => qaC2
  | .c2 => qaC2
  | .hls => qaHls
  | .hls14 => qaHls

/-! ## Scaling -/

/-- `astype(np.int16)` of an integer. -/
def wrap16 (v : Int) : Int := v.bmod 65536

/-- `10000 * (B * 2.75e-05 - 0.2)`, truncated. -/
def reflectance (dn : Int) : Int := (275 * dn - 2000000).tdiv 1000

/-- `10 * (B * 0.00341802 + 149)`, truncated. -/
def thermal (dn : Int) : Int := (341802 * dn + 14900000000).tdiv 10000000

/-- The value saved for `B1` to `B7` (numbers 0 to 6): 1007–1014 and 1489–1495 (Collection 2: `B7` is scaled as a
reflectance and `B6` as a temperature); the Collection 1 values as they are; for HLS `B7` is 0 (270, 298). -/
def stored : Kind → Nat → Int → Int
  | .ard, _, dn => wrap16 dn
  | .ardC2, b, dn => wrap16 (if b = 5 then thermal dn else reflectance dn)
  | .c2, b, dn => wrap16 (if b = 5 then thermal dn else reflectance dn)
  | .hls, b, dn => if b = 6 then 0 else wrap16 dn
  | .hls14, b, dn => if b = 6 then 0 else wrap16 dn

/-! ## Names -/

abbrev Name := List Char

/-- `s[a:b]` -/
def slice (s : Name) (a b : Nat) : Name := (s.take b).drop a

def digitVal (c : Char) : Option Nat := if '0' ≤ c ∧ c ≤ '9' then some (c.toNat - 48) else none

/-- `int(s)` for digits; anything else raises (Python also accepts signs, spaces and underscores). -/
def parseDigits : Nat → Name → Option Nat
  | acc, [] => some acc
  | acc, c :: cs => (digitVal c).bind fun d => parseDigits (acc * 10 + d) cs

def parseNat (s : Name) : Option Nat := if s = [] then none else parseDigits 0 s

def digit (n : Nat) : Char := Char.ofNat (48 + n % 10)

/-- `%j`: three digits. -/
def pad3 (n : Nat) : Name := [digit (n / 100), digit (n / 10), digit n]

def leap (y : Nat) : Bool := decide (y % 4 = 0 ∧ (y % 100 ≠ 0 ∨ y % 400 = 0))

/-- Lengths of the months (CPython `_days_in_month`). -/
def monthDays (y m : Nat) : Nat :=
  if m = 2 then (if leap y then 29 else 28) else if m = 4 ∨ m = 6 ∨ m = 9 ∨ m = 11 then 30 else 31

/-- `_DAYS_BEFORE_MONTH` and the leap day (CPython `_days_before_month`). -/
def beforeMonth (y m : Nat) : Nat :=
  [0, 31, 59, 90, 120, 151, 181, 212, 243, 273, 304, 334].getD (m - 1) 0 + (if 2 < m ∧ leap y then 1 else 0)

/-- `datetime(y, m, d)`: its day of the year; `none` if there is no such date. -/
def dayOfYear (y m d : Nat) : Option Nat :=
  if 1 ≤ y ∧ y ≤ 9999 ∧ 1 ≤ m ∧ m ≤ 12 ∧ 1 ≤ d ∧ d ≤ monthDays y m then some (beforeMonth y m + d) else none

/-- `dt.datetime(year, 1, 1) + dt.timedelta(doy - 1)` as an ordinal. -/
def dateOf (year doy : Name) : Option Int := do
  let y ← parseNat year
  let d ← parseNat doy
  if 1 ≤ y ∧ y ≤ 9999 then some (ChangeMap.jan1 y + (d - 1)) else none

/-- `str.split(sep)` -/
def split (sep : Char) : Name → List Name
  | [] => [[]]
  | c :: cs =>
    if c = sep then [] :: split sep cs
    else match split sep cs with
      | [] => [[c]]
      | w :: ws => (c :: w) :: ws

/-- The sensors, 841–852 and 1291–1302; for any other character `sensor` stays unbound. -/
def sensorOf (c : Char) : Option Name :=
  if c = '5' then some ['L', 'T', '5'] else if c = '7' then some ['L', 'E', '7'] else if c = '8' then some ['L', 'C', '8']
  else if c = '4' then some ['L', 'T', '4'] else if c = '9' then some ['L', 'C', '9'] else none

/-- File name, year and day of the year. -/
structure Parsed where
  sensor : Name
  name : Name
  year : Name
  doy : Name
deriving DecidableEq

/-- `datetime(int(year), int(month), int(day)).strftime("%j")` -/
def doyOf (year month day : Name) : Option Name := do
  let y ← parseNat year
  let m ← parseNat month
  let d ← parseNat day
  let n ← dayOfYear y m d
  some (pad3 n)

/-- The six parts of the name of an HLS scene, 239–242 and 525–530. -/
def parseHls : List Name → Option Parsed
  | [collection, sensor, tile, time, version1, _] =>
    some ⟨sensor, sensor ++ tile ++ slice time 0 4 ++ slice time 4 7 ++ collection ++ version1, slice time 0 4, slice time 4 7⟩
  | _ => none

/-- The name of the file (854–863, 1304–1310, 239–242, 525–530); `none` raises. -/
def parse : Kind → Name → Option Parsed
  | .ard, f => do
    let sensor ← f[3]?.bind sensorOf
    let year := slice f 15 19
    let doy ← doyOf year (slice f 19 21) (slice f 21 23)
    some ⟨sensor, sensor ++ slice f 8 11 ++ slice f 11 14 ++ year ++ doy ++ 'C' :: slice f 35 36 ++ slice f 37 40, year, doy⟩
  | .ardC2, f => do
    let sensor ← f[3]?.bind sensorOf
    let year := slice f 15 19
    let doy ← doyOf year (slice f 19 21) (slice f 21 23)
    some ⟨sensor, sensor ++ slice f 8 11 ++ slice f 11 14 ++ year ++ doy ++ 'C' :: slice f 35 36 ++ slice f 34 35, year, doy⟩
  | .c2, f => do
    let sensor ← f[3]?.bind sensorOf
    let year := slice f 17 21
    let doy ← doyOf year (slice f 21 23) (slice f 23 25)
    some ⟨sensor, sensor ++ slice f 10 13 ++ slice f 13 16 ++ year ++ doy ++ ['C', '2'] ++ f.drop (f.length - 2), year, doy⟩
  | .hls, f => parseHls (split '.' f)
  | .hls14, f => parseHls ((split '.' ((split '/' f).getLastD [])).dropLast)

/-! ## One scene -/

/-- A scene: its folder, the packed quality band, the bands (`none`: cannot be read), the path in its metadata. -/
structure Scene where
  folder : Name
  qa : Option (List Nat)
  bands : Option (Nat → List Int)
  path : Option Int

/-- The configuration; `pathMap` is given for single-path processing. -/
structure Config where
  kind : Kind
  nRows : Nat
  nCols : Nat
  nbx : Nat
  nby : Nat
  threshold : ℚ
  low : Option Int
  upp : Option Int
  pathMap : Option (List Int)

/-- `int(n_cols / n_block_x)`, `common.py` 90. -/
def Config.bw (c : Config) : Nat := c.nCols / c.nbx
/-- `common.py` 91. -/
def Config.bh (c : Config) : Nat := c.nRows / c.nby

/-- A saved block: for every pixel its eight values. -/
abbrev Block := List (List Int)

/-- A file: the numbers of the block's folder, the name, the contents. -/
structure File where
  bx : Nat
  by_ : Nat
  name : Name
  data : Block

/-- The share of clear and water pixels is above the threshold (833–840, 231–238); 0/0 is NaN. -/
def enoughClear (threshold : ℚ) (qa : List Nat) : Bool :=
  if 0 < threshold then
    let valid := (qa.filter fun q => q ≠ 255).length
    if valid = 0 then false
    else decide (threshold < ((qa.filter fun q => q = 0 ∨ q = 1).length : ℚ) / (valid : ℚ))
  else decide (threshold < 1)

/-- The single-path mask, 1016–1047; `none` raises (shapes differ). -/
def maskPath (pathMap : Option (List Int)) (path : Int) (qa : List Nat) : Option (List Nat) :=
  match pathMap with
  | none => some qa
  | some m => if m.length = qa.length then some (List.zipWith (fun q v => if v ≠ path then 255 else q) qa m) else none

/-- `as_strided`: the block of an image, in row-major order. -/
def blockOf {α : Type} (c : Config) (i j : Nat) (img : List α) : Option (List α) :=
  (List.range (c.bh * c.bw)).mapM fun pos => img[Tile.strideOffset c.nCols c.bh c.bw i j (pos / c.bw) (pos % c.bw)]?

/-- The block of a saved file: seven bands and the mask (`np.dstack`). -/
def stackBlock (c : Config) (i j : Nat) (bands : Nat → List Int) (qa : List Nat) : Option Block := do
  let b0 ← blockOf c i j (bands 0)
  let b1 ← blockOf c i j (bands 1)
  let b2 ← blockOf c i j (bands 2)
  let b3 ← blockOf c i j (bands 3)
  let b4 ← blockOf c i j (bands 4)
  let b5 ← blockOf c i j (bands 5)
  let b6 ← blockOf c i j (bands 6)
  let q ← blockOf c i j qa
  some ((List.range (c.bh * c.bw)).map fun p =>
    [stored c.kind 0 (b0.getD p 0), stored c.kind 1 (b1.getD p 0), stored c.kind 2 (b2.getD p 0), stored c.kind 3 (b3.getD p 0),
     stored c.kind 4 (b4.getD p 0), stored c.kind 5 (b5.getD p 0), stored c.kind 6 (b6.getD p 0), wrap16 (q.getD p 0)])

/-- The blocks of an image in the order of the loops 1174–1175. -/
def blockIds (c : Config) : List (Nat × Nat) := (List.range c.nby).product (List.range c.nbx)

/-- The loop over the blocks, 1174–1207 (438–467, 703–732, 1622–1655): blocks without a clear, water or snow pixel are left out. -/
def saveBlocks (c : Config) (name : Name) (bands : Nat → List Int) (qa : List Nat) : List (Nat × Nat) → Res (List File)
  | [] => .ok []
  | (i, j) :: rest => do
    let q ← orUb (blockOf c i j qa)
    if 0 ∈ q ∨ 1 ∈ q ∨ 3 ∈ q then do
      let d ← orUb (stackBlock c i j bands qa)
      let fs ← saveBlocks c name bands qa rest
      .ok (⟨j + 1, i + 1, name, d⟩ :: fs)
    else saveBlocks c name bands qa rest

/-- Outside the range of dates (864–869). -/
def outside (c : Config) (d : Int) : Bool :=
  (match c.low with | none => false | some l => decide (d < l)) || (match c.upp with | none => false | some u => decide (u < d))

/-- The date is computed only if there is a bound. -/
def dateOutside (c : Config) (p : Parsed) : Res Bool :=
  if c.low.isSome ∨ c.upp.isSome then (orRaise (dateOf p.year p.doy)).bind fun d => .ok (outside c d) else .ok false

/-- The kinds with a single-path mask. -/
def Kind.usesPath : Kind → Bool
  | .ard => true
  | .ardC2 => true
  | _ => false

/-- The sensors for which bands are read; for an unknown HLS sensor the bands stay unbound (251–302). -/
def bandsKnown (k : Kind) (p : Parsed) : Bool :=
  match k with
  | .hls | .hls14 => p.sensor = ['L', '3', '0'] || p.sensor = ['S', '3', '0']
  | _ => true

/-- `single_image_stacking…`: the files it saves. -/
def stackScene (c : Config) (s : Scene) : Res (List File) :=
  match s.qa with
  | none => .ok []
  | some packed =>
    let qa := packed.map (decodeQa c.kind)
    if enoughClear c.threshold qa then do
      let p ← orRaise (parse c.kind s.folder)
      let out ← dateOutside c p
      if out then .ok []
      else if bandsKnown c.kind p then
        match s.bands with
        | none => .ok []
        | some bands =>
          if c.kind.usesPath ∧ c.pathMap.isSome then
            match s.path with
            | none => .ok []
            | some id => do
              let qa ← orRaise (maskPath c.pathMap id qa)
              saveBlocks c p.name bands qa (blockIds c)
          else saveBlocks c p.name bands qa (blockIds c)
      else .raised
    else .ok []

/-- Writing a file replaces one of the same name in the same folder. -/
def write (fs : List File) (f : File) : List File :=
  f :: fs.filter fun g => ¬ (g.bx = f.bx ∧ g.by_ = f.by_ ∧ g.name = f.name)

/-- Scenes processed one after the other, in any order (the scenes of all ranks interleaved). -/
def runScenes (c : Config) : List Scene → List File → Res (List File)
  | [], fs => .ok fs
  | s :: ss, fs => do
    let new ← stackScene c s
    runScenes c ss (new.foldl write fs)

/-! ## Reading the stack of a block -/

/-- The date in a file name, `tile_processing.py` 236–241. -/
def dateOfFile (name : Name) : Option Int := dateOf (slice name 9 13) (slice name 13 16)

/-- `sorted(zip(dates, files))`: by date, then by name. -/
def Le (a b : Int × Name × Block) : Prop := a.1 < b.1 ∨ (a.1 = b.1 ∧ a.2.1 ≤ b.2.1)

instance : DecidableRel Le := fun a b => inferInstanceAs (Decidable (_ ∨ _))

/-- The date bounds, 242–249: 0 means none; a range without files raises. -/
def bound (b : Int) (keep : Int → Bool) (l : List (Int × Name × Block)) : Res (List (Int × Name × Block)) :=
  if 0 < b then
    let l := l.filter fun x => keep x.1
    if l = [] then .raised else .ok l
  else .ok l

/-- `get_stack_date`, 206–260, on the files found in the block's folder, in the order of `listdir` (`np.save` has
appended `.npy` to the names, which no step looks at); `none`: no files. -/
def getStackDate (npix : Nat) (files : List (Name × Block)) (low high : Int) : Res (Option (List (Int × Block))) :=
  let files := files.filter fun f => f.1.head? = some 'L' || f.1.head? = some 'S'
  if files = [] then .ok none
  else do
    let l ← orRaise (files.mapM fun f => (dateOfFile f.1).map fun d => (d, f))
    let l ← bound low (fun d => decide (low ≤ d)) l
    let l ← bound high (fun d => decide (d ≤ high)) l
    let l := l.insertionSort Le
    if l.all fun x => decide (x.2.2.length = npix) then .ok (some (l.map fun x => (x.1, x.2.2))) else .raised

/-- What `main` passes to `cold_detect` for pixel `pos` of a block (448–530): the dates, and the series of band
`b` (0 to 6; 7 is the mask). -/
def argDates (stack : List (Int × Block)) : List Int := stack.map (·.1)
def argBand (stack : List (Int × Block)) (pos b : Nat) : List Int := stack.map fun x => (x.2.getD pos []).getD b 0

/-- The test of the configuration, 352–361. -/
def acceptsConfig (c : Config) : Bool := decide (c.nCols % c.bw = 0 ∧ c.nRows % c.bh = 0)

/-- The scenes of one rank (2012–2016 and the like): number `rank - 1 + i * n_cores`, up to the last; the loop is the one of
`export_change_map.py`. -/
def scenesOf (n cores rank : Nat) : List Nat := Tile.share0 n cores (rank - 1)

/-! ## First and last date -/

/-- The date in the name of a folder, 1924–1951. -/
def folderDate : Kind → Name → Option Int
  | .ard, f => ofDate (slice f 15 19) (slice f 19 21) (slice f 21 23)
  | .ardC2, f => ofDate (slice f 15 19) (slice f 19 21) (slice f 21 23)
  | .c2, f => ofDate (slice f 17 21) (slice f 21 23) (slice f 23 25)
  | .hls, f => dateOf (slice f 15 19) (slice f 19 22)
  | .hls14, f => let g := (split '/' f).getLastD []; dateOf (slice g 15 19) (slice g 19 22)
where
  /-- `dt.datetime(y, m, d).toordinal()` -/
  ofDate (y m d : Name) : Option Int := do
    let y ← parseNat y
    let m ← parseNat m
    let d ← parseNat d
    let n ← dayOfYear y m d
    some (ChangeMap.jan1 y + (n - 1))

/-- `starting_last_dates.txt`, 1952–1965: from the first and the last date, and the bounds. -/
def startLast (c : Config) (folders : List Name) : Option (Int × Int) := do
  let ds ← folders.mapM (folderDate c.kind)
  match ds.insertionSort (· ≤ ·) with
  | [] => none
  | d :: rest => some (max d (c.low.getD 0), min ((d :: rest).getLastD 0) (c.upp.getD 999999))

end Pycold.Stack
