import Mathlib.Algebra.Order.Field.Rat
/-! Vocabulary for the numerical helpers: medians of lists and the nearest entry of a list. -/
namespace Pycold.Misc.Spec

/-- `v` is the median of `l`: the middle of the sorted data, or the mean of the two middle entries. -/
def MedianOf (l : List ℚ) (v : ℚ) : Prop :=
  ∃ t : List ℚ, t.Perm l ∧ t.Pairwise (· ≤ ·) ∧
    ((l.length % 2 = 1 ∧ t[l.length / 2]? = some v) ∨
     (l.length % 2 = 0 ∧ ∃ x y, t[l.length / 2 - 1]? = some x ∧ t[l.length / 2]? = some y ∧
        v = (x + y) / 2))

/-- `i` is the position of an entry of `l` nearest to `d`. -/
def Nearest (l : List Int) (d : Int) (i : Nat) : Prop :=
  ∃ x, l[i]? = some x ∧ ∀ y ∈ l, (x - d).natAbs ≤ (y - d).natAbs

end Pycold.Misc.Spec
