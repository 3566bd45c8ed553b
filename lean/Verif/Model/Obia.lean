import Mathlib.Algebra.Order.Ring.Rat
import Mathlib.Algebra.Order.Group.Abs
import Mathlib.Algebra.BigOperators.Group.List.Basic
import Mathlib.Data.List.Sort
import Mathlib.Data.List.ProdSigma
/-!
# Object-based analysis of change magnitudes

Model of `segmentation_floodfill`, `modeby`, `is_change_object`, `object_analysis`, `obia_execute` and
`save_obiaresult` in `src/python/pycold/ob_analyst.py`.

Magnitudes are rationals (float rounding, also the conversion to `float32` before flooding, is not modelled).
External functions: the Gaussian smoothing (`astropy`) is an arbitrary function; `cv2.floodFill` is modelled by
what its documentation says; `skimage.measure.label` is a parameter with the documented contract, see
`Spec.Labels`; `np.log10` is an arbitrary function.  Not modelled: the SLIC and watershed segmentations,
probability maps (`b_dist_prob_map`).
-/
namespace Pycold.Obia

/-- Row and column, from 0. -/
abbrev Pixel := Nat × Nat

/-- The pixels of an image in the order of numpy's `where`. -/
def pixels (rows cols : Nat) : List Pixel := (List.range rows).product (List.range cols)

/-- `NAN_VAL`, 25. -/
def NAN : Int := -9999

/-! ## Preparation -/

/-- 338–339: magnitudes of the previous snapshot that are below the limit are dropped, the others fill the
gaps of the current one; `limit` is `chi2.ppf(0.90, 5) * cm_scale`. -/
def mergeCm (limit : ℚ) (cm prev : Int) : Int :=
  let prev := if (prev : ℚ) < limit then NAN else prev
  if cm = NAN then prev else cm

/-- 908–916 and 342: dates are stored relative to the launch of Landsat 4; gaps are filled from the previous
snapshot. -/
def mergeDate (launch : Int) (d prev : Int) : Int :=
  let d := if d = NAN then NAN else d + launch
  let prev := if prev = NAN then NAN else prev + launch
  if d = NAN then prev else d

/-- 340 and 351: scaled magnitude, NaN (`none`) below `peak_threshold * (1 - floodfill_ratio)`. -/
def scaled (cmScale peak ratio : ℚ) (cm : Int) : Option ℚ :=
  let v := (cm : ℚ) / cmScale
  if v < peak * (1 - ratio) then none else some v

/-- 357–361: smoothed; −9999 where there is no value. -/
def smoothed (smooth : (Pixel → Option ℚ) → Pixel → ℚ) (v : Pixel → Option ℚ) (p : Pixel) : ℚ :=
  match v p with
  | none => -9999
  | some _ => smooth v p

/-- 367–370: the pixels above the threshold, by descending magnitude (`sorted` is stable). -/
def seeds (rows cols : Nat) (g : Pixel → ℚ) (peak : ℚ) : List Pixel :=
  ((pixels rows cols).filter fun p => decide (peak < g p)).insertionSort fun a b => g b ≤ g a

/-! ## Flooding -/

/-- The 8 neighbours (and the pixel itself). -/
def near (p q : Pixel) : Bool :=
  decide (p.1 ≤ q.1 + 1 ∧ q.1 ≤ p.1 + 1 ∧ p.2 ≤ q.2 + 1 ∧ q.2 ≤ p.2 + 1)

/-- The fixed range of the fill: the first two channels are the magnitude, the third the date, 378–396. -/
def inRange (g : Pixel → ℚ) (date : Pixel → Int) (ratio : ℚ) (interval : Int) (seed p : Pixel) : Bool :=
  decide (|g p - g seed| ≤ g seed * ratio ∧ |date p - date seed| ≤ interval)

/-- One round of growing. -/
def grow (all : List Pixel) (allowed : Pixel → Bool) (s : List Pixel) : List Pixel :=
  s ++ all.filter fun p => !s.contains p && (allowed p && s.any fun q => near q p)

/-- `n` rounds. -/
def rounds (all : List Pixel) (allowed : Pixel → Bool) : Nat → List Pixel → List Pixel
  | 0, s => s
  | n + 1, s => rounds all allowed n (grow all allowed s)

/-- `cv2.floodFill` with a mask, `FLOODFILL_MASK_ONLY`, `FLOODFILL_FIXED_RANGE` and connectivity 8: nothing
happens if the seed is masked; else the seed and all pixels connected with it by unmasked pixels in range get
the value `v` in the mask.  (The frame of the mask, which the fill sets to 1, is cut off in 413 and is not
modelled.) -/
def floodFill (all : List Pixel) (ok : Pixel → Bool) (seed : Pixel) (v : Nat) (mask : Pixel → Nat) : Pixel → Nat :=
  if mask seed ≠ 0 then mask
  else
    let s := rounds all (fun p => decide (mask p = 0) && ok p) all.length [seed]
    fun p => if p ∈ s then v else mask p

/-- 398–402 and 406–411: pixels that are masked and not yet labelled get the mask value plus `no * 255`. -/
def transfer (no : Nat) (mask lab : Pixel → Nat) (p : Pixel) : Nat :=
  if lab p = 0 ∧ 0 < mask p then mask p + no * 255 else lab p

/-- The loop over the seeds, 381–402, from seed number `i`; the value in the mask is `i % 255 + 1`. -/
def flood (all : List Pixel) (ok : Pixel → Pixel → Bool) : Nat → List Pixel → (Pixel → Nat) × (Pixel → Nat) →
    (Pixel → Nat) × (Pixel → Nat)
  | _, [], st => st
  | i, s :: rest, (mask, lab) =>
    let mask := floodFill all (ok s) s (i % 255 + 1) mask
    let lab := if i % 255 = 254 then transfer (i / 255) mask lab else lab
    flood all ok (i + 1) rest (mask, lab)

/-- The object map of the first scale, 373–413. -/
def objectMap (rows cols : Nat) (g : Pixel → ℚ) (date : Pixel → Int) (peak ratio : ℚ) (interval : Int) : Pixel → Nat :=
  let sd := seeds rows cols g peak
  let st := flood (pixels rows cols) (inRange g date ratio interval) 0 sd (fun _ => 0, fun _ => 0)
  if 0 < sd.length then transfer ((sd.length - 1) / 255) st.1 st.2 else st.2

/-! ## Statistics of the objects -/

/-- `np.unique`: the values in ascending order. -/
def unique (l : List Nat) : List Nat := l.dedup.insertionSort (· ≤ ·)

/-- Splitting at the places where the key changes (`cut_idx`, `split` in `modeby`, 241–244). -/
def runs {α : Type} : List (Nat × α) → List (List α)
  | [] => []
  | (k, a) :: rest =>
    match rest with
    | [] => [[a]]
    | (k', _) :: _ =>
      if k = k' then
        match runs rest with
        | [] => [[a]]
        | r :: rs => (a :: r) :: rs
      else [a] :: runs rest

/-- `stats.mode`: the most frequent value, the smallest of them. -/
def mode (l : List Nat) : Option Nat :=
  (unique l).find? fun v => (unique l).all fun w => decide (l.count w ≤ l.count v)

/-- `modeby`, 222–246: values grouped by key (stable sort by key), the mode of every group. -/
def modeby (vals keys : List Nat) : List (Option Nat) :=
  (runs ((keys.zip vals).insertionSort fun a b => a.1 ≤ b.1)).map mode

/-- The mean of the magnitude over an object, `bincount(weights) / counts`, 428–435; −9999 for label 0. -/
def mean (all : List Pixel) (lab : Pixel → Nat) (g : Pixel → ℚ) (k : Nat) : ℚ :=
  if k = 0 then -9999
  else ((all.filter fun p => decide (lab p = k)).map g).sum / ((all.filter fun p => decide (lab p = k)).length : ℚ)

/-- The threshold and the slope of a land-cover class. -/
structure Class where
  threshold : ℚ
  slope : ℚ

/-- `parameters`: the default, and the classes 1 to 8. -/
structure Parameters where
  default : Class
  cls : Nat → Class

/-- `constants.yaml` 7–28. -/
def shipped : Parameters :=
  ⟨⟨1107/100, 0⟩, fun k => if k = 1 ∨ k = 4 ∨ k = 6 then ⟨1107/100, 1/10⟩ else ⟨15086/1000, 5/100⟩⟩

/-- `log10(size) * slope + 0.95`, at most 2 (for example 107–113). -/
def scale (lg : Nat → ℚ) (slope : ℚ) (size : Nat) : ℚ :=
  if lg size * slope + 95/100 < 2 then lg size * slope + 95/100 else 2

def exceeds (lg : Nat → ℚ) (c : Class) (size : Nat) (magnitude : ℚ) : Bool :=
  decide (c.threshold < magnitude * scale lg c.slope size)

/-- `is_change_object`, 74–219; `none` is Python's `None` (a class that has no branch). -/
def isChange (lg : Nat → ℚ) (par : Parameters) (withMap : Bool) (uniform : Option ℚ × Option ℚ) (mode size : Nat)
    (magnitude : ℚ) : Option Bool :=
  if !withMap then some (exceeds lg par.default size magnitude)
  else match uniform with
    | (some t, some s) => some (exceeds lg ⟨t, s⟩ size magnitude)
    | _ =>
      if mode = 255 then some (exceeds lg par.default size magnitude)
      else if 1 ≤ mode ∧ mode ≤ 8 then some (exceeds lg (par.cls mode) size magnitude)
      else none

/-- The column of classes of the data frame, 724–730: the mode by object, 255 without a map. -/
def classesOf (all : List Pixel) (lab : Pixel → Nat) : Option (Pixel → Nat) → List (Option Nat)
  | none => (unique (all.map lab)).map fun _ => some 255
  | some c => modeby (all.map c) (all.map lab)

/-- `object_analysis`, 687–765; `patch` is the object map of the second scale, `classification` the optional
map.  `none` is an exception (the lists of the data frame have different lengths). -/
def objectAnalysis (lg : Nat → ℚ) (par : Parameters) (uniform : Option ℚ × Option ℚ) (all : List Pixel)
    (lab patch : Pixel → Nat) (g : Pixel → ℚ) (classification : Option (Pixel → Nat)) : Option (Pixel → Nat) :=
  let sizeOf := fun p => (all.filter fun q => decide (patch q = patch p)).length
  let labels := unique (all.map lab)
  let classes := classesOf all lab classification
  let sizes := modeby (all.map sizeOf) (all.map lab)
  if labels.length ≠ classes.length ∨ labels.length ≠ sizes.length then none
  else
    let group := ((labels.zip (classes.zip sizes)).filter fun r =>
      match r.2.1, r.2.2 with
      | some m, some s => isChange lg par classification.isSome uniform m s (mean all lab g r.1) == some true
      | _, _ => false).map (·.1)
    some fun p => if lab p ∈ group then 1 else 0

/-- `save_obiaresult`, 998–1003: the change map times the date, negative dates as 0. -/
def saved (change : Nat) (date : Int) : Int := (change : Int) * (if date < 0 then 0 else date)

end Pycold.Obia
