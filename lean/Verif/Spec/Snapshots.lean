import Verif.Model.Snapshots
import Verif.Spec.ChangeMap
import Verif.Spec.Obia
/-!
# What the object analysis should find
-/
namespace Pycold.Snapshots.Spec

open Pycold.Obia (Pixel)
open Pycold.ChangeMap.Spec (InYear)

/-- Value number `k` that detection stored for the pixel in row `p.1` and column `p.2` of the tile (from 0): the pixel
lies in block column `p.2 / bw` and block row `p.1 / bh`; the file of the block holds, pixel after pixel, row by row, `n`
values per pixel.  −9999 outside the tile. -/
def stored (nb bw bh n : Nat) (file : Nat → Nat → Nat → Int) (k : Nat) (p : Pixel) : Int :=
  if p.1 < nb * bh ∧ p.2 < nb * bw then file (p.2 / bw + 1) (p.1 / bh + 1) ((p.1 % bh * bw + p.2 % bw) * n + k) else -9999

/-- The year of the cover map for a date: the year before; in the first year of the dataset, that year. -/
def YearBefore (start date y : Int) : Prop :=
  (InYear date y ∧ InYear start y) ∨ (InYear date (y + 1) ∧ ¬ InYear start (y + 1))

/-- The date belongs to snapshot number `k`: the last snapshot that is not after it. -/
def InSnapshot (start interval : Int) (d : Int) (k : Nat) : Prop :=
  start + k * interval ≤ d ∧ d < start + (k + 1) * interval

end Pycold.Snapshots.Spec
