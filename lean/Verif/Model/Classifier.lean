import Verif.Model.ChangeMap
import Verif.Model.Tile
/-!
# From change records to yearly cover maps

Model of `src/python/pycold/pyclassifier.py`: `generate_sample_num` (105–135), `predict_features` (184–251),
`train_rfmodel` (253–282), `classification_block` (284–302), the files of `PyClassifierHPC` (414–518) and its steps
1–4 (539–654).  `extract_features` (19–102) is `ChangeMap.extractFeatures .classifier`.

Floats are rationals (`ChangeMap.Q`): the rounding to float32 when features are stored is not modelled.  The random
forest is a function from the row of features of a pixel to a class; fitting is a function of the training rows.  The
waiting for flag files between the steps is in `Model/Hpc.lean`.
-/
namespace Pycold.Classifier

open Pycold.ChangeMap (Rec Feature Q extractFeatures pyIndex jan1)
open Pycold.Tile (Grid assembleArray blockX blockY colIndex rowIndex)

/-- The tile: numbers of blocks and size of a block (`DatasetInfo`, `app.py` and the YAML files);
`n_cols = n_block_x * block_width`. -/
structure Info where
  nbx : Nat
  nby : Nat
  bw : Nat
  bh : Nat

def Info.nCols (T : Info) : Nat := T.nbx * T.bw

/-- `defaults["COMMON"]["NAN_VAL"]` -/
def nanVal : Q := some (-9999)

/-! ## Step 1: features -/

/-- `np.split(cold_block, np.argwhere(np.diff(cold_block["pos"]) != 0)[:, 0] + 1)`, 218–220: cut where the position
changes. -/
def runs : List Rec → List (List Rec)
  | [] => []
  | r :: rest =>
    match runs rest with
    | (s :: run) :: more => if r.pos = s.pos then (r :: s :: run) :: more else [r] :: (s :: run) :: more
    | other => [r] :: other

/-- `dt.date(year, 7, 1).toordinal()`, 213. -/
def july1 (y : Int) : Int := jan1 y + (if y % 4 = 0 ∧ (y % 100 ≠ 0 ∨ y % 400 = 0) then 182 else 181)

/-- The array `block_features`: number of the year, pixel, number of the feature. -/
abbrev Arr := Nat → Nat → Nat → Q

/-- `block_features[:, p, col] = row` -/
def write (p col : Nat) (row : List Q) (A : Arr) : Arr := fun y q f =>
  if q = p ∧ f = col then (row[y]?).getD (A y q f) else A y q f

/-- The loop over `index`, 244–249; `start` is `int(band * n_features / band_num)`. -/
def writeIndex (p start : Nat) (rows : List (List Q)) : List Nat → Arr → Option Arr
  | [], A => some A
  | i :: is, A => (rows[i]?).bind fun row => writeIndex p start rows is (write p (start + i) row A)

/-- The loop over the bands, 236–249; `n_features = band_num * len(feature_outputs)` (171).  Simplified: a band
beyond the seven of a record raises in the program as soon as a curve is found. -/
def writeBands (bands : Nat) (fs : List Feature) (days : List Int) (run : List Rec) (p : Nat) : List Nat → Arr → Option Arr
  | [], A => some A
  | b :: bs, A =>
    (extractFeatures .classifier run b days nanVal fs).bind fun rows =>
    (writeIndex p (b * (bands * fs.length) / bands) rows (List.range (bands * fs.length / bands)) A).bind
      (writeBands bands fs days run p bs)

/-- The pixel of a run, 223–234 and 247: a Python index into the axis of the pixels. -/
def pixelOf (T : Info) (id : Nat) (first : Rec) : Option Nat :=
  let iCol := colIndex first.pos T.nCols (blockX id T.nbx) T.bw
  let iRow := rowIndex first.pos T.nCols (blockY id T.nbx) T.bh
  pyIndex (T.bw * T.bh) (iRow * T.bw + iCol)

/-- The loop over the runs, 221–249. -/
def writeRuns (T : Info) (id bands : Nat) (fs : List Feature) (days : List Int) : List (List Rec) → Arr → Option Arr
  | [], A => some A
  | [] :: _, _ => none
  | (first :: more) :: rest, A =>
    (pixelOf T id first).bind fun p =>
    (writeBands bands fs days (first :: more) p (List.range bands) A).bind (writeRuns T id bands fs days rest)

/-- `predict_features`, 184–251; `none` is an exception. -/
def predictFeatures (T : Info) (id bands : Nat) (fs : List Feature) (cold : List Rec) (years : List Int) : Option Arr :=
  writeRuns T id bands fs (years.map july1) (runs cold) fun _ _ _ => nanVal

/-- Files named by year and block, in the order in which they were saved. -/
abbrev Dir (V : Type) := List ((Int × Nat) × V)

/-- `np.save`: replaces the file, or adds one. -/
def save {V : Type} (d : Dir V) (year : Int) (id : Nat) (v : V) : Dir V := d.filter (fun e => e.1 ≠ (year, id)) ++ [((year, id), v)]

/-- `np.load`; `none` raises. -/
def load {V : Type} (d : Dir V) (year : Int) (id : Nat) : Option V := (d.find? fun e => e.1 = (year, id)).map (·.2)

/-- The features of a block in a year: pixel, number of the feature. -/
abbrev Feat := Nat → Nat → Q

/-- `_save_features`, 414–429: `block_features[id, :, :]` for every year. -/
def saveFeatures (id : Nat) (A : Arr) : (n : Nat) → List Int → Dir Feat → Dir Feat
  | _, [], d => d
  | n, year :: rest, d => saveFeatures id A (n + 1) rest (save d year id (A n))

/-- `step1_feature_generation`, 539–565; `records x y` is the contents of the record file of a block, `none` if there
is none. -/
def step1 (T : Info) (bands : Nat) (fs : List Feature) (years : List Int) (records : Int → Int → Option (List Rec))
    (d : Dir Feat) (id : Nat) : Option (Dir Feat) :=
  match records (blockX id T.nbx) (blockY id T.nbx) with
  | some cold => (predictFeatures T id bands fs cold years).map fun A => saveFeatures id A 0 years d
  | none => some (saveFeatures id (fun _ _ _ => nanVal) 0 years d)

/-! ## Step 3: classes -/

/-- The features of one pixel. -/
def rowOf (nF : Nat) (f : Feat) (p : Nat) : List Q := (List.range nF).map (f p)

/-- `classification_block`, 284–302. -/
def classBlock (T : Info) (nF : Nat) (predict : List Q → Nat) (f : Feat) : Grid Nat :=
  { rows := T.bh, cols := T.bw,
    at_ := fun r c =>
      let row := rowOf nF f (r * T.bw + c)
      if row.all (fun v => decide (v = nanVal)) then 255 else predict row }

/-- The loop over the years of `step3_classification`, 605–610. -/
def step3 (T : Info) (nF : Nat) (predict : List Q → Nat) (feat : Dir Feat) (id : Nat) : List Int → Dir (Grid Nat) → Option (Dir (Grid Nat))
  | [], d => some d
  | year :: rest, d =>
    (load feat year id).bind fun f => step3 T nF predict feat id rest (save d year id (classBlock T nF predict f))

/-! ## Step 4: maps -/

/-- The files of a year, sorted by the number of the block (`_get_fullclassification_forcertainyear`, 480–494;
`get_fullfeature_forcertainyear`, 496–518).  `order` is the order in which `os.listdir` returns them.  Simplified: the
files are selected by the prefix `tmp_…{year}`, which for years of four digits is the year itself. -/
def ofYear {V : Type} (order : Dir V → Dir V) (d : Dir V) (year : Int) : Dir V :=
  ((order d).filter fun e => decide (e.1.1 = year)).insertionSort fun a b => a.1.2 ≤ b.1.2

/-- `step4_assemble`, 648–652: the cover map of a year. -/
def coverMap (T : Info) (order : Dir (Grid Nat) → Dir (Grid Nat)) (d : Dir (Grid Nat)) (year : Int) : Option (Grid Nat) :=
  assembleArray ((ofYear order d year).map (·.2)) T.nbx

/-- Steps 1, 3 and 4 for a tile: the ranks take the blocks in the orders `ids1` and `ids3`; `d1` and `d3` are the
files left in the directory by earlier runs. -/
def coverMaps (T : Info) (bands : Nat) (fs : List Feature) (years : List Int) (records : Int → Int → Option (List Rec))
    (predict : List Q → Nat) (order : Dir (Grid Nat) → Dir (Grid Nat)) (ids1 ids3 : List Nat) (d1 : Dir Feat)
    (d3 : Dir (Grid Nat)) : Option (List (Grid Nat)) :=
  (ids1.foldlM (step1 T bands fs years records) d1).bind fun feat =>
  (ids3.foldlM (fun d id => step3 T (bands * fs.length) predict feat id years d) d3).bind fun cls =>
  years.mapM (coverMap T order cls)

/-! ## Step 2: training -/

/-- A label of every pixel of the tile. -/
abbrev Labels := Grid Int

/-- The pixels in the order of `np.argwhere`: row by row. -/
def pixels (rows cols : Nat) : List (Nat × Nat) := (List.range rows).flatMap fun r => (List.range cols).map fun c => (r, c)

/-- `np.unique(…)`, 115–117: the labels up to `k`, in ascending order, each once. -/
def unique (k : Int) (labels : List Int) : List Int :=
  ((labels.filter fun v => decide (v ≤ k)).dedup).insertionSort (· ≤ ·)

/-- The loop 119–120: `counts_category[int(unique_category[x] - 1)] = unique_counts_category[x]`, a Python index (for
label 0 it is the last entry; with unsigned labels NumPy 2 raises instead). -/
def fillCounts (labels : List Int) : List Int → List Nat → Option (List Nat)
  | [], counts => some counts
  | u :: us, counts =>
    (pyIndex counts.length (u - 1)).bind fun i => fillCounts labels us (counts.set i (labels.count u))

/-- `round(x * total / sum)`: to the nearest integer, halves to even (the quotient is a float in the program). -/
def roundDiv (a b : Nat) : Nat :=
  if 2 * (a % b) < b then a / b
  else if b < 2 * (a % b) then a / b + 1
  else if a / b % 2 = 0 then a / b else a / b + 1

/-- The entries `CLASSIFIER` of `constants.yaml` (30–36). -/
structure Params where
  minSamples : Nat := 600
  maxSamples : Nat := 8000
  total : Nat := 20000
  categories : Nat := 8

/-- One entry of `percate_samples`, 121–134. -/
def quota (P : Params) (sum x : Nat) : Nat :=
  let n := roundDiv (x * P.total) sum
  let n := if n > P.maxSamples then P.maxSamples else n
  let n := if n < P.minSamples then P.minSamples else n
  min n x

/-- `generate_sample_num`, 105–135; `none` is an exception (without any label the quotient is not a number, and
`round` raises). -/
def sampleNum (P : Params) (labels : List Int) : Option (List Nat) :=
  (fillCounts labels (unique P.categories labels) (List.replicate P.categories 0)).bind fun counts =>
  if counts.sum = 0 ∧ counts ≠ [] then none else some (counts.map (quota P counts.sum))

/-- The labels row by row. -/
def flat (L : Labels) : List Int := (pixels L.rows L.cols).map fun p => L.at_ p.1 p.2

/-- The loop 269–274 for the categories from `i + 1`: `np.random.choice(n, k, replace=False)` raises if `k > n`, and
is `choose n k` otherwise (the seed is set before every call). -/
def sampleLoop (choose : Nat → Nat → List Nat) (L : Labels) : (i : Nat) → List Nat → Option (List ((Nat × Nat) × Nat))
  | _, [] => some []
  | i, k :: ks =>
    let index := (pixels L.rows L.cols).filter fun p => decide (L.at_ p.1 p.2 = i + 1)
    if index.length < k then none
    else (sampleLoop choose L (i + 1) ks).map fun rest =>
      ((choose index.length k).filterMap fun n => (index[n]?).map fun p => (p, i + 1)) ++ rest

/-- The training rows of `train_rfmodel`, 265–282: the features of the sampled pixels with their labels.  The model
is `fit` of these (not modelled further); `rows`, `cols` are the size of the tile. -/
def trainingSet (P : Params) (choose : Nat → Nat → List Nat) (nF rows cols : Nat) (full : Grid (Nat → Q)) (L : Labels) :
    Option (List (List Q × Nat)) :=
  if L.rows = rows ∧ L.cols = cols then
    (sampleNum P (flat L)).bind fun ks =>
    (sampleLoop choose L 0 ks).map fun s => s.map fun e => ((List.range nF).map (full.at_ e.1.1 e.1.2), e.2)
  else none

/-- The features of the whole tile in a year, 579–581 and 496–518. -/
def fullFeatures (T : Info) (order : Dir Feat → Dir Feat) (d : Dir Feat) (year : Int) : Option (Grid (Nat → Q)) :=
  assembleArray ((ofYear order d year).map fun e => { rows := T.bh, cols := T.bw, at_ := fun r c => e.2 (r * T.bw + c) }) T.nbx

/-- Steps 1 and 2 (567–590): the training rows for the year of the reference map. -/
def training (P : Params) (choose : Nat → Nat → List Nat) (T : Info) (bands : Nat) (fs : List Feature) (years : List Int)
    (records : Int → Int → Option (List Rec)) (order : Dir Feat → Dir Feat) (ids1 : List Nat) (d1 : Dir Feat)
    (refYear : Int) (L : Labels) : Option (List (List Q × Nat)) :=
  (ids1.foldlM (step1 T bands fs years records) d1).bind fun feat =>
  (fullFeatures T order feat refYear).bind fun full =>
  trainingSet P choose (bands * fs.length) (T.nby * T.bh) (T.nbx * T.bw) full L

end Pycold.Classifier
