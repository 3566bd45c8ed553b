import Verif.Model.Tile
/-!
# What it means for a tile to be assembled correctly

Blocks are numbered row by row: block `k` (from 0) sits in block row `k / nbx` and block column `k % nbx`.
-/
namespace Pycold.Tile.Spec

variable {V : Type}

/-- The tile `g` has the right size and cell (r, c) of block `k` is at its place in the tile. -/
def Placed (nbx nby bw bh : Nat) (block : Nat → Nat → Nat → V) (g : Grid V) : Prop :=
  g.rows = nby * bh ∧ g.cols = nbx * bw ∧
  ∀ k r c, k < nbx * nby → r < bh → c < bw → g.at_ (k / nbx * bh + r) (k % nbx * bw + c) = block k r c

/-- `k` items are shared out among the workers: everything handed out is in range, nobody gets an item
twice, and every item goes to exactly one worker. -/
def SharedOut {A : Type} (items : A → Prop) (worker : Nat → Prop) (of : Nat → List A) : Prop :=
  (∀ w, worker w → (of w).Nodup ∧ ∀ x ∈ of w, items x) ∧
  ∀ x, items x → ∃ w, worker w ∧ x ∈ of w ∧ ∀ w', worker w' → x ∈ of w' → w' = w

end Pycold.Tile.Spec
