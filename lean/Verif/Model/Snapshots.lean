import Verif.Model.ChangeMap
import Verif.Model.Obia
import Verif.Model.Tile
/-!
# Snapshots: the maps between detection and object analysis

Model of the part of OBCOLD between detection and object analysis: the schedule of the snapshots
(`reading_start_dates_nmaps`, `tile_processing` in `src/python/pycold/imagetool/tile_processing.py`), the names under
which `assemble_cmmaps` (`utils.py`) saves the maps, under which `is_finished_assemble_cmmaps` waits for them and under
which `obia_execute` (`ob_analyst.py`) loads them, the year of the cover map, and `obia_execute` as a whole with the
flood-fill segmentation (`Model/Obia.lean`).

Not modelled: `pd.Timestamp` refuses years before 1677 and after 2262; the SLIC and watershed segmentations.
-/
namespace Pycold.Snapshots

open Pycold.ChangeMap (yearOf jan1)
open Pycold.Obia (Pixel pixels NAN mergeCm mergeDate scaled smoothed objectMap objectAnalysis saved Parameters)
open Pycold.Tile (Grid assembleCm)

/-! ## The schedule -/

/-- `starting_date`, `cm_output_interval` and `n_cm_maps`. -/
structure Plan where
  start : Int
  interval : Int
  n : Nat

/-- `reading_start_dates_nmaps`, `tile_processing.py` 141–143: first and last date of the dataset.  The float division is
exact enough for day counts: it is modelled by the truncated quotient. -/
def plan (start last interval : Int) : Plan :=
  { start := start, interval := interval, n := ((last - start + 1).tdiv interval + 1).toNat }

/-- `starting_date + count * cm_output_interval` (`utils.py` 158, `tile_processing.py` 180 and 706). -/
def Plan.date (P : Plan) (k : Nat) : Int := P.start + (k : Int) * P.interval

/-! ## Names of files -/

/-- `str.zfill`. -/
def zfill (w : Nat) (s : String) : String := String.ofList (List.replicate (w - s.length) '0') ++ s

/-- `timetuple().tm_yday`. -/
def yday (d : Int) : Int := d - jan1 (yearOf d) + 1

/-- `get_doy`, `utils.py` 271–282. -/
def getDoy (d : Int) : String := zfill 3 (toString (yday d))

/-- The name that `assemble_cmmaps` gives to a map, `utils.py` 157–168. -/
def savedName (pre : String) (d : Int) : String :=
  pre ++ "_maps_" ++ toString d ++ "_" ++ toString (yearOf d) ++ getDoy d ++ ".npy"

/-- The names that `is_finished_assemble_cmmaps` looks for, `tile_processing.py` 181–204. -/
def awaitedCm (d : Int) : String := "CM_maps_" ++ toString d ++ "_" ++ toString (yearOf d) ++ getDoy d ++ ".npy"

def awaitedDate (d : Int) : String := "CM_date_maps_" ++ toString d ++ "_" ++ toString (yearOf d) ++ getDoy d ++ ".npy"

/-- `cmname_fromdate(date) + ".npy"`, `ob_analyst.py` 29–41. -/
def cmName (d : Int) : String :=
  "CM_maps_" ++ toString d ++ "_" ++ toString (yearOf d) ++ zfill 3 (toString (yday d)) ++ ".npy"

/-- `cmdatename_fromdate(date) + ".npy"`, `ob_analyst.py` 44–56. -/
def cmDateName (d : Int) : String :=
  "CM_date_maps_" ++ toString d ++ "_" ++ toString (yearOf d) ++ zfill 3 (toString (yday d)) ++ ".npy"

/-- `"yearlyclassification_{}.npy"` as saved, `pyclassifier.py` 467–471, and as loaded, `ob_analyst.py` 867–870. -/
def coverName (y : Int) : String := "yearlyclassification_" ++ toString y ++ ".npy"

/-! ## Directories -/

/-- A directory: what is stored under a name. -/
abbrev Dir (V : Type) := String → Option V

/-- `np.save`: replaces the file. -/
def save {V : Type} (d : Dir V) (w : String × V) : Dir V := fun name => if name = w.1 then some w.2 else d name

/-- The files that `assemble_cmmaps` writes with the prefix `pre`, in its order, `utils.py` 117–169 (`clean=False`, as
`tile_processing` calls it).  `files x y` is the per-block file; `none` is an exception. -/
def assemble (pre : String) (nbx nby bw bh : Nat) (P : Plan) (files : Nat → Nat → Option (Nat → Int)) :
    Option (List (String × Grid Int)) :=
  (List.range P.n).mapM fun count =>
    (assembleCm NAN nbx nby bw bh P.n count files).map fun g => (savedName pre (P.date count), g)

/-- `is_finished_assemble_cmmaps`, `tile_processing.py` 166–206. -/
def assembled {V : Type} (P : Plan) (d : Dir V) : Bool :=
  (List.range P.n).all fun k => (d (awaitedCm (P.date k))).isSome && (d (awaitedDate (P.date k))).isSome

/-! ## Cover maps -/

/-- `list(range(year_lowbound, year_uppbound))` with the years of the first and the last snapshot,
`tile_processing.py` 365–368 and 603: the years for which cover maps are predicted. -/
def predicted (P : Plan) : List Int :=
  let low := yearOf P.start
  let upp := yearOf (P.start + ((P.n : Int) - 1) * P.interval)
  (List.range (upp - low).toNat).map fun i : Nat => low + (i : Int)

/-- `get_lastyear_cmap_fromdate`, `ob_analyst.py` 860–866; `year_lowbound` is the year of `starting_date` (808). -/
def coverYear (start date : Int) : Int :=
  if yearOf date - 1 < yearOf start then yearOf start else yearOf date - 1

/-! ## The analysis of a snapshot -/

/-- The size of the tile, the constants and the external functions of the analysis. -/
structure Env where
  rows : Nat
  cols : Nat
  /-- `chi2.ppf(0.90, 5) * cm_scale` -/
  limit : ℚ
  cmScale : ℚ
  /-- `chi2.ppf(0.90, 5)` -/
  peak : ℚ
  ratio : ℚ
  /-- `date_interval`, the default 60 of `segmentation_floodfill` whatever `cm_output_interval` is -/
  within : Int
  /-- `JULIAN_LANDSAT4_LAUNCH` -/
  launch : Int
  smooth : (Pixel → Option ℚ) → Pixel → ℚ
  /-- `skimage.measure.label` -/
  patch : (Pixel → Nat) → Pixel → Nat
  lg : Nat → ℚ
  par : Parameters
  uniform : Option ℚ × Option ℚ

/-- An array of the tile as a function on pixels, −9999 outside. -/
def view (g : Grid Int) (p : Pixel) : Int := if p.1 < g.rows ∧ p.2 < g.cols then g.at_ p.1 p.2 else NAN

/-- Segmentation, decision and the values to be saved, `ob_analyst.py` 907–1003, from the four maps and the optional
cover map.  `none` is an exception. -/
def analyse (E : Env) (cm prev date datePrev : Pixel → Int) (cover : Option (Pixel → Nat)) : Option (Pixel → Int) :=
  let dates := fun p => mergeDate E.launch (date p) (datePrev p)
  let g := smoothed E.smooth fun p => scaled E.cmScale E.peak E.ratio (mergeCm E.limit (cm p) (prev p))
  let lab := objectMap E.rows E.cols g dates E.peak E.ratio E.within
  (objectAnalysis E.lg E.par E.uniform (pixels E.rows E.cols) lab (E.patch lab) g cover).map fun ch p =>
    saved (ch p) (dates p)

/-- `obia_execute(date, cm_output_interval=…)` up to the values that `save_obiaresult` writes, `ob_analyst.py` 875–1003.
`start` is `self.starting_date`, `cms` the directory `cm_maps`, `covers` the directory of `thematic_path`, if given.
`none` is an exception, for instance a file that does not exist. -/
def obiaExecute (E : Env) (start interval : Int) (cms : Dir (Grid Int)) (covers : Option (Dir (Pixel → Nat))) (date : Int) :
    Option (Pixel → Int) :=
  if date - interval < start then some fun _ => saved 0 0
  else
    (cms (cmDateName date)).bind fun dt =>
    (cms (cmDateName (date - interval))).bind fun dtPrev =>
    (cms (cmName date)).bind fun cm =>
    (cms (cmName (date - interval))).bind fun cmPrev =>
    match covers with
    | none => analyse E (view cm) (view cmPrev) (view dt) (view dtPrev) none
    | some dir =>
      (dir (coverName (coverYear start date))).bind fun c =>
        analyse E (view cm) (view cmPrev) (view dt) (view dtPrev) (some c)

end Pycold.Snapshots
