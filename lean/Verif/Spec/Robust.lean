import Verif.Model.Robust
import Verif.Spec.Offset
/-!
# Least squares with weights (C80)

Only the interface to the library (`Gsl`) is used from the model.
-/
namespace Pycold.Robust.Spec

/-- The value at one row of the matrix of the linear combination with coefficients `c`. -/
noncomputable def value (row c : List ℝ) : ℝ := (List.zipWith (· * ·) row c).sum

/-- The sum of the squared errors of `c`, with weights. -/
noncomputable def loss (X : List (List ℝ)) (w y c : List ℝ) : ℝ :=
  (List.zipWith (fun q e => q * e ^ 2) w (List.zipWith (fun row v => v - value row c) X y)).sum

/-- A least-squares problem: `n` > 0 rows of `p` numbers, `n` values. -/
structure Table (X : List (List ℝ)) (y : List ℝ) (p : ℕ) : Prop where
  pos : X ≠ []
  rows : X.length = y.length
  cols : ∀ r ∈ X, r.length = p

/-- What the functions of the library are documented to do: they return coefficients with the least weighted sum of
squares (one of them, if there are several), and as many leverages as rows. -/
structure LeastSquares (G : Gsl) : Prop where
  linear_length : ∀ X y p, Table X y p → (G.linear X y).length = p
  linear : ∀ X y p c, Table X y p → c.length = p →
    loss X (List.replicate y.length 1) y (G.linear X y) ≤ loss X (List.replicate y.length 1) y c
  wlinear_length : ∀ X w y p, Table X y p → (G.wlinear X w y).length = p
  wlinear : ∀ X w y p c, Table X y p → w.length = y.length → (∀ q ∈ w, 0 ≤ q) → c.length = p →
    loss X w y (G.wlinear X w y) ≤ loss X w y c
  leverage_length : ∀ X, (G.leverage X).length = X.length

/-- The functions of the library answer multiplied values with multiplied coefficients. -/
structure Homogeneous (G : Gsl) : Prop where
  linear : ∀ X y (a : ℝ), G.linear X (y.map (a * ·)) = (G.linear X y).map (a * ·)
  wlinear : ∀ X w y (a : ℝ), G.wlinear X w (y.map (a * ·)) = (G.wlinear X w y).map (a * ·)

end Pycold.Robust.Spec
