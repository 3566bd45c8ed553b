/-!
# Reading stacked scenes

Model of `read_bip` (`src/cxx/input.c` 760–873) and `read_bip_lines` (1060–1153), which read one pixel of
one scene, or one line of all scenes, from files in which the eight 16-bit values of a pixel (seven bands
and the mask) follow each other, pixel after pixel, line after line.  `fseek`/`fread` are modelled on files
that are lists of 16-bit values; a file that cannot be opened is `none`.
-/
namespace Pycold.Bip

/-- `TOTAL_BANDS`, `defines.h` 10. -/
def totalBands : Nat := 8
/-- `TOTAL_IMAGE_BANDS`, `defines.h` 7. -/
def imageBands : Nat := 7
/-- `CFMASK_FILL`, `defines.h` 73. -/
def fill : Int := 255

/-- A scene: the third character of its name, its date, its file. -/
structure Scene where
  platform : Char
  date : Int
  file : Option (List Int)

/-- How a call ends: `failure` is a return through `RETURN_ERROR`, `ub` undefined behaviour. -/
inductive Res (α : Type) where
  | ok (a : α)
  | failure
  | ub
deriving DecidableEq

def Res.bind {α β} : Res α → (α → Res β) → Res β
  | .ok a, f => f a
  | .failure, _ => .failure
  | .ub, _ => .ub

instance : Monad Res where
  pure := .ok
  bind := Res.bind

/-- `read_raw_binary`, 517–543, of `n` 16-bit values at byte `off`: `none` if the file ends before. -/
def readShorts (f : List Int) (off n : Nat) : Option (List Int) :=
  if off % 2 = 0 ∧ off / 2 + n ≤ f.length then some ((f.drop (off / 2)).take n) else none

/-- The constants for the sensors, `defines.h` 142–144, by the third character of the name (831–836,
1103–1108); `none`: no branch is taken. -/
def sensorOf (c : Char) : Option Int :=
  if c = '4' ∨ c = '5' then some 4 else if c = '7' then some 5 else if c = '8' then some 8 else none

/-- The buffers of one pixel that `read_bip` fills. -/
structure Pixel where
  image : Nat → Nat → Int
  fmask : Nat → Int
  /-- `none`: never assigned -/
  sensor : Nat → Option Int
  sdate : Nat → Int
  count : Nat

def set {α} (f : Nat → α) (i : Nat) (v : α) : Nat → α := fun j => if j = i then v else f j

/-- The loop 840–866 from band `k` on, reading at byte `off`. -/
def readBands (f : List Int) (qa : Int) : (fuel k off : Nat) → Pixel → Res Pixel
  | 0, _, _, b => .ok b
  | fuel + 1, k, off, b =>
    if k < totalBands - 1 then
      match readShorts f off 1 with
      | none => .failure
      | some v => readBands f qa fuel (k + 1) (off + 2) { b with image := set b.image k (set (b.image k) b.count (v.headD 0)) }
    else readBands f qa fuel (k + 1) off { b with fmask := set b.fmask b.count qa }

/-- The assignment of the sensor, 831–836. -/
def withSensor (s : Scene) (b : Pixel) : Pixel :=
  match sensorOf s.platform with
  | some x => { b with sensor := set b.sensor b.count (some x) }
  | none => b

/-- `read_bip` for one scene; `row` and `col` count from 1.  The offsets are computed in `int` up to the
factor `sizeof`.  The result of reading the mask is ignored (824–825): if it fails, the value tested is
indeterminate. -/
def readBip (s : Scene) (row col numSamples : Nat) (b : Pixel) : Res Pixel :=
  match s.file with
  | none => .failure
  | some f =>
    let pixel := (row - 1) * numSamples + col - 1
    if 2 ^ 31 ≤ pixel * totalBands + totalBands - 1 then .ub
    else match readShorts f ((pixel * totalBands + totalBands - 1) * 2) 1 with
    | none => .ub
    | some v =>
      let qa := v.headD 0
      if qa < fill then do
        let b ← readBands f qa totalBands 0 (pixel * totalBands * 2) (withSensor s b)
        Res.ok { b with sdate := set b.sdate b.count s.date, count := b.count + 1 }
      else .ok b

/-- All scenes of a pixel, as the callers loop over `read_bip`. -/
def readPixel (row col numSamples : Nat) : List Scene → Pixel → Res Pixel
  | [], b => .ok b
  | s :: ss, b => do
    let b ← readBip s row col numSamples b
    readPixel row col numSamples ss b

/-- The buffers of a line: `image_buf[band][k * num_scenes + i]`, `fmask_buf[k][i]`, `sensor_buf[i]` (one for
all pixels), `updated_sdate_array[k][i]`, `valid_scene_count[k]`. -/
structure Line where
  image : Nat → Nat → Int
  fmask : Nat → Nat → Int
  sensor : Nat → Option Int
  sdate : Nat → Nat → Int
  count : Nat → Nat

/-- The assignments for a valid pixel, 1132–1142. -/
def put (numScenes k : Nat) (tmp : List Int) (date : Int) (sensor : Option Int) (b : Line) : Line :=
  { image := fun j => if j < imageBands then set (b.image j) (k * numScenes + b.count k) (tmp.getD j 0) else b.image j
    fmask := set b.fmask k (set (b.fmask k) (b.count k) (tmp.getD (totalBands - 1) 0))
    sdate := set b.sdate k (set (b.sdate k) (b.count k) date)
    sensor := set b.sensor (b.count k) sensor
    count := set b.count k (b.count k + 1) }

/-- The loop 1123–1144 over the pixels of a line from pixel `k` on. -/
def readLine (f : List Int) (numScenes : Nat) (date : Int) (sensor : Option Int) : (fuel k off : Nat) → Line → Res Line
  | 0, _, _, b => .ok b
  | fuel + 1, k, off, b =>
    match readShorts f off totalBands with
    | none => .failure
    | some tmp =>
      readLine f numScenes date sensor fuel (k + 1) (off + 2 * totalBands)
        (if tmp.getD (totalBands - 1) 0 < fill then put numScenes k tmp date sensor b else b)

/-- The loop 1099–1146 over the scenes; `tmp` is the variable `tmp_sensor`, unassigned at first and kept
from the previous scene if no branch is taken. -/
def readScenes (row numSamples numScenes : Nat) : List Scene → (tmp : Option Int) → Line → Res Line
  | [], _, b => .ok b
  | s :: ss, tmp, b =>
    let tmp := (sensorOf s.platform).or tmp
    match s.file with
    | none => .failure
    | some f =>
      if 2 ^ 31 ≤ (row - 1) * numSamples * totalBands then .ub
      else do
        let b ← readLine f numScenes s.date tmp numSamples 0 ((row - 1) * numSamples * totalBands * 2) b
        readScenes row numSamples numScenes ss tmp b

/-- `read_bip_lines`, called with all counts 0 (`cold_norecoverybreak.c` 4404–4407). -/
def readBipLines (row numSamples : Nat) (scenes : List Scene) (b : Line) : Res Line :=
  readScenes row numSamples scenes.length scenes none { b with count := fun _ => 0 }

end Pycold.Bip
