import Verif.Model.Stack
import Verif.Spec.Calendar
/-!
# What the preparation of scenes should do

The vocabulary of C63–C67.
-/
namespace Pycold.Stack.Spec

/-! ## Classes of the quality band -/

inductive Class where
  | clear
  | water
  | shadow
  | snow
  | cloud
  | fill
deriving DecidableEq

/-- The numbers that stand for the classes in the stacks. -/
def Class.code : Class → Nat
  | .clear => 0
  | .water => 1
  | .shadow => 2
  | .snow => 3
  | .cloud => 4
  | .fill => 255

/-- Which of two classes wins: fill > cloud > shadow > snow > water > clear. -/
def Class.rank : Class → Nat
  | .clear => 0
  | .water => 1
  | .snow => 2
  | .shadow => 3
  | .cloud => 4
  | .fill => 5

/-- The flags of the products: Landsat Collection 1 ARD (`PIXELQA`), Collection 2 (`QA_PIXEL`), HLS (`Fmask`). -/
def flagged : Kind → Nat → Class → Prop
  | .ard, p, .fill => p.testBit 0
  | .ard, p, .clear => p.testBit 1
  | .ard, p, .water => p.testBit 2
  | .ard, p, .shadow => p.testBit 3
  | .ard, p, .snow => p.testBit 4
  | .ard, p, .cloud => p.testBit 5
  | .ardC2, p, .fill => p.testBit 0
  | .ardC2, p, .cloud => p.testBit 1 ∨ p.testBit 3
  | .ardC2, p, .shadow => p.testBit 4
  | .ardC2, p, .snow => p.testBit 5
  | .ardC2, p, .clear => p.testBit 6
  | .ardC2, p, .water => p.testBit 7
  | .c2, p, .fill => p.testBit 0
  | .c2, p, .cloud => p.testBit 1 ∨ p.testBit 3
  | .c2, p, .shadow => p.testBit 4
  | .c2, p, .snow => p.testBit 5
  | .c2, p, .clear => p.testBit 6
  | .c2, p, .water => p.testBit 7
  | .hls, p, .fill => p = 255
  | .hls, p, .cloud => p.testBit 1 ∨ p.testBit 2
  | .hls, p, .shadow => p.testBit 3
  | .hls, p, .snow => p.testBit 4
  | .hls, p, .water => p.testBit 5
  | .hls, _, .clear => True
  | .hls14, p, .fill => p = 255
  | .hls14, p, .cloud => p.testBit 1 ∨ p.testBit 2
  | .hls14, p, .shadow => p.testBit 3
  | .hls14, p, .snow => p.testBit 4
  | .hls14, p, .water => p.testBit 5
  | .hls14, _, .clear => True

/-- HLS, whose fill is a value and not a flag. -/
def Hls : Kind → Prop
  | .hls => True
  | .hls14 => True
  | _ => False

/-- `c` is the class of the highest rank among those of `S` that are flagged. -/
def Highest (k : Kind) (p : Nat) (S : Class → Prop) (c : Class) : Prop :=
  S c ∧ flagged k p c ∧ ∀ d, S d → flagged k p d → d.rank ≤ c.rank

/-! ## Scaling -/

/-- Surface reflectance from the numbers of Collection 2. -/
def reflectanceOf (dn : Int) : ℚ := dn * (275 / 10000000) - 2 / 10

/-- Surface temperature in kelvin from the numbers of Collection 2. -/
def kelvinOf (dn : Int) : ℚ := dn * (341802 / 100000000) + 149

/-! ## Names -/

/-- A number with `w` decimal digits. -/
def dec : Nat → Nat → Name
  | 0, _ => []
  | w + 1, n => dec w (n / 10) ++ [Char.ofNat (48 + n % 10)]

/-- `y`-`m`-`d` is a date and has that ordinal. -/
def IsDate (y m d : Nat) (o : Int) : Prop :=
  1 ≤ y ∧ y ≤ 9999 ∧ 1 ≤ m ∧ m ≤ 12 ∧ 1 ≤ d ∧ (d : Int) ≤ Pycold.Spec.monthLength y m ∧
    o = Pycold.Spec.ordinal y (Pycold.Spec.daysBeforeMonth y m + d)

/-- The name of a Landsat folder: a known satellite in the fourth place, and a date from place `at_` on. -/
def Landsat (at_ : Nat) (f : Name) (o : Int) : Prop :=
  (∃ c ∈ ['4', '5', '7', '8', '9'], f[3]? = some c) ∧
  ∃ pre post : Name, ∃ y m d : Nat, f = pre ++ dec 4 y ++ dec 2 m ++ dec 2 d ++ post ∧ pre.length = at_ ∧ IsDate y m d o

/-- The parts of the name of an HLS scene: product, sensor, tile, time of acquisition, version. -/
def HlsParts (product sensor tile time v1 v2 : Name) (o : Int) : Prop :=
  (∀ w ∈ [product, sensor, tile, time, v1, v2], '.' ∉ w ∧ '/' ∉ w) ∧ product.length = 3 ∧
  (sensor = ['L', '3', '0'] ∨ sensor = ['S', '3', '0']) ∧ tile.length = 6 ∧
  ∃ (y doy : Nat) (rest : Name), time = dec 4 y ++ dec 3 doy ++ rest ∧ 1 ≤ y ∧ y ≤ 9999 ∧ Pycold.Spec.ValidDoy y doy ∧
    o = Pycold.Spec.ordinal y doy

def dots (ws : List Name) : Name := ['.'].intercalate ws

/-- The folder name is regular, and `o` is its date of acquisition. -/
def Acquired : Kind → Name → Int → Prop
  | .ard, f, o => Landsat 15 f o
  | .ardC2, f, o => Landsat 15 f o
  | .c2, f, o => Landsat 17 f o
  | .hls, f, o => ∃ product sensor tile time v1 v2, f = dots [product, sensor, tile, time, v1, v2] ∧
      HlsParts product sensor tile time v1 v2 o
  | .hls14, f, o => ∃ dir product sensor tile time v1 v2 ext,
      f = dir ++ '/' :: dots [product, sensor, tile, time, v1, v2, ext] ∧ '.' ∉ ext ∧ '/' ∉ ext ∧
      HlsParts product sensor tile time v1 v2 o

/-! ## Stacks -/

/-- The images of a scene have the size of the tile. -/
def Sized (c : Config) (s : Scene) : Prop :=
  (∀ packed, s.qa = some packed → packed.length = c.nRows * c.nCols) ∧
  (∀ bands, s.bands = some bands → ∀ b, b < 7 → (bands b).length = c.nRows * c.nCols) ∧
  (∀ m, c.pathMap = some m → m.length = c.nRows * c.nCols)

/-- The blocks fill the tile. -/
def Tiled (c : Config) : Prop :=
  0 < c.bw ∧ 0 < c.bh ∧ c.nCols = c.nbx * c.bw ∧ c.nRows = c.nby * c.bh

/-- Pixels are masked by path. -/
def SinglePath (c : Config) : Prop := (c.kind = .ard ∨ c.kind = .ardC2) ∧ c.pathMap.isSome

/-- Pixel `k` belongs to another path. -/
def OffPath (c : Config) (s : Scene) (k : Nat) : Prop :=
  SinglePath c ∧ ∃ m id, c.pathMap = some m ∧ s.path = some id ∧ m[k]? ≠ some id

open Classical in
/-- The class of pixel `k` in the stack. -/
noncomputable def classAt (c : Config) (s : Scene) (packed : List Nat) (k : Nat) : Nat :=
  if OffPath c s k then 255 else decodeQa c.kind (packed.getD k 0)

/-- The share of clear and water among the pixels that are not fill is above the threshold; a threshold up to zero
asks for nothing. -/
def ClearEnough (threshold : ℚ) (classes : List Nat) : Prop :=
  0 < threshold →
    0 < classes.countP (· ≠ 255) ∧
    threshold * (classes.countP (· ≠ 255) : ℚ) < (classes.countP fun q => q = 0 ∨ q = 1 : ℚ)

/-- The scene is not turned away as a whole. -/
def Admitted (c : Config) (s : Scene) (date : Int) (packed : List Nat) (bands : Nat → List Int) : Prop :=
  s.qa = some packed ∧ s.bands = some bands ∧ ClearEnough c.threshold (packed.map (decodeQa c.kind)) ∧
  (∀ l, c.low = some l → l ≤ date) ∧ (∀ u, c.upp = some u → date ≤ u) ∧ (SinglePath c → s.path.isSome)

/-- The pixel at row `r` and column `col` of the tile, as a place in the images. -/
def place (c : Config) (r col : Nat) : Nat := r * c.nCols + col

/-- Pixel `pos` of block (`i`, `j`). -/
def pixel (c : Config) (i j pos : Nat) : Nat := place c (i * c.bh + pos / c.bw) (j * c.bw + pos % c.bw)

/-- Clear, water or snow. -/
def Seen (q : Nat) : Prop := q = 0 ∨ q = 1 ∨ q = 3

/-- The scene is used for block (`i`, `j`): it is admitted and shows the ground somewhere in the block. -/
def Used (c : Config) (date : Scene → Int) (i j : Nat) (s : Scene) : Prop :=
  ∃ packed bands, Admitted c s (date s) packed bands ∧
    ∃ pos, pos < c.bh * c.bw ∧ Seen (classAt c s packed (pixel c i j pos))

/-- The value of band `b` at place `k` (`b` = 7: the class). -/
noncomputable def valueAt (c : Config) (s : Scene) (k b : Nat) : Int :=
  if b = 7 then classAt c s (s.qa.getD []) k
  else stored c.kind b (((s.bands.getD fun _ => []) b).getD k 0)

/-- The files in the folder of block (`i`, `j`). -/
def folder (fs : List File) (i j : Nat) : List (Name × Block) :=
  (fs.filter fun f => f.bx = j + 1 ∧ f.by_ = i + 1).map fun f => (f.name, f.data)

/-- The date is in the range asked for when reading (0: no bound). -/
def InRange (low high d : Int) : Prop := (0 < low → low ≤ d) ∧ (0 < high → d ≤ high)

end Pycold.Stack.Spec
