import Mathlib.Data.Real.Basic
/-!
# Directions
-/
namespace Pycold.Turn.Spec

/-- `v` points the same way as `u`: it is a positive multiple of it. -/
def SameWay (u v : List ℝ) : Prop := ∃ c : ℝ, 0 < c ∧ v = u.map (c * ·)

/-- `v` points the opposite way. -/
def Opposite (u v : List ℝ) : Prop := ∃ c : ℝ, c < 0 ∧ v = u.map (c * ·)

/-- Not the zero vector. -/
def NonZero (u : List ℝ) : Prop := ∃ x ∈ u, x ≠ 0

end Pycold.Turn.Spec
