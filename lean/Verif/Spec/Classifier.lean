import Verif.Model.Classifier
import Verif.Spec.ChangeMap
/-!
# What cover maps and training samples should contain

Rows and columns of the tile are counted from 0; the position stored with a record is `row * n_cols + col + 1`.
-/
namespace Pycold.Classifier.Spec

open Pycold.ChangeMap (Rec Feature Q)
open Pycold.ChangeMap.Spec (Covers featureValue)

/-- The record file of the block in block row `i`, block column `j` (from 0; the files are numbered from 1). -/
abbrev Files := Int → Int → Option (List Rec)

def file (records : Files) (i j : Nat) : List Rec := (records (j + 1) (i + 1)).getD []

/-- The position of a pixel of the tile. -/
def posAt (T : Info) (r c : Nat) : Int := (r * (T.nbx * T.bw) + c + 1 : Nat)

/-- The records of a pixel: those with its position in the file of its block. -/
def recsAt (T : Info) (records : Files) (r c : Nat) : List Rec :=
  (file records (r / T.bh) (c / T.bw)).filter fun a => decide (a.pos = posAt T r c)

/-- The records of a pixel follow one another in the file. -/
def Together (l : List Rec) : Prop :=
  ∀ (i j k : Nat) (a b c : Rec), i < j → j < k → l[i]? = some a → l[j]? = some b → l[k]? = some c → a.pos = c.pos → b.pos = a.pos

/-- Every file holds records of pixels of its own block, those of a pixel together. -/
def Stored (T : Info) (records : Files) : Prop :=
  ∀ i j, i < T.nby → j < T.nbx → Together (file records i j) ∧
    ∀ a ∈ file records i j, ∃ r c, r < T.bh ∧ c < T.bw ∧ a.pos = posAt T (i * T.bh + r) (j * T.bw + c)

/-- 1 July. -/
def july1 (y : Int) : Int := Pycold.Spec.ordinal y (Pycold.Spec.daysBeforeMonth y 7 + 1)

/-- The value of a feature for a day: that of a segment that covers the day, or -9999 if there is none. -/
def Value (recs : List Rec) (band : Nat) (f : Feature) (day : Int) (v : Q) : Prop :=
  (∃ i seg, recs[i]? = some seg ∧ Covers (fun c => c.tEnd) recs day i ∧ v = some (featureValue seg band day f)) ∨
  ((∀ i, ¬ Covers (fun c => c.tEnd) recs day i) ∧ v = some (-9999))

/-- The row of features of a pixel in a year: band after band, in each the features in the given order. -/
def Row (bands : Nat) (fs : List Feature) (recs : List Rec) (year : Int) (row : List Q) : Prop :=
  row.length = bands * fs.length ∧
  ∀ (b k : Nat) (f : Feature), b < bands → fs[k]? = some f →
    ∃ v, row[b * fs.length + k]? = some v ∧ Value recs b f (july1 year) v

/-- `n` is the nearest integer to `a / b`, the even one if there are two. -/
def Nearest (n a b : Nat) : Prop :=
  2 * (n * b) ≤ 2 * a + b ∧ 2 * a ≤ 2 * (n * b) + b ∧ (2 * (n * b) = 2 * a + b ∨ 2 * a = 2 * (n * b) + b → n % 2 = 0)

/-- The number of pixels with a label. -/
def counted (L : Labels) (v : Int) : Nat := ((flat L).filter fun x => decide (x = v)).length

/-- The number of pixels with one of the labels `1 … k`. -/
def countedUpTo (L : Labels) (k : Nat) : Nat := ((flat L).filter fun x => decide (1 ≤ x ∧ x ≤ (k : Int))).length

/-- The number of samples of a category with `x` of `sum` pixels: its share of the total, raised or lowered into the
limits, and no more than there are. -/
def Quota (P : Params) (x sum s : Nat) : Prop :=
  ∃ n, Nearest n (x * P.total) sum ∧ s = min x (max P.minSamples (min P.maxSamples n))

/-- What `np.random.choice(n, k, replace=False)` returns: `k` different numbers below `n`. -/
def Chooses (choose : Nat → Nat → List Nat) : Prop :=
  ∀ n k, k ≤ n → (choose n k).length = k ∧ (choose n k).Nodup ∧ ∀ i ∈ choose n k, i < n

end Pycold.Classifier.Spec
