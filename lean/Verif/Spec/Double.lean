import Mathlib.Data.Real.Basic
/-!
# Double precision
-/
namespace Pycold.Double.Spec

/-- A number with at most 53 significant bits: a `float` of Python (limits of the exponent left out). -/
def IsDouble (r : ℝ) : Prop := ∃ m e : ℤ, |m| ≤ 2 ^ 53 ∧ r = (m : ℝ) * (2 : ℝ) ^ e

/-- `r` is `x` rounded to the nearest such number, in whatever way ties are resolved. -/
def IsRounded (x r : ℝ) : Prop := IsDouble r ∧ ∀ s, IsDouble s → |x - r| ≤ |x - s|

end Pycold.Double.Spec
