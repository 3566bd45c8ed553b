import Verif.Spec.Kalman
import Verif.Spec.SccdExact
/-!
# The curve of an S-CCD segment as the result of a Kalman filter (C77)
-/
namespace Pycold.SccdNum.Spec

open Matrix
open Pycold.Kalman (Vec Mat)
open Pycold.Kalman.Spec (curve Covariance predVar absorb nextDay dayT)
open Pycold.Sccd (Obs)

/-- The six coefficients. -/
def vec (l : List ℝ) : Vec := fun i => l.getD i 0

/-- The covariance of the value of a day with the value `n` days later. -/
noncomputable def coVar (n : ℕ) (P : Mat) : ℝ := ![1, 0, 1, 0, 1, 0] ⬝ᵥ ((dayT ^ n * P) *ᵥ ![1, 0, 1, 0, 1, 0])

/-- The textbook Kalman filter with error variance `H`, from one curve and covariance to another over a list of
dated values, up to the date `last`.  Each value moves the curve: on its own day, and on each later one, by the
distance of the value from the curve times the covariance with that day over the variance of the value.  The
covariance absorbs the value and is carried on to the next date day by day.  (A value whose variance is not
above 1e-14 is passed over.) -/
def Led (H : ℝ) (last : Int) : Vec × Mat → List (Int × ℝ) → Vec × Mat → Prop
  | s, [], e => e = s
  | (c, P), (t, y) :: rest, e =>
    Covariance P ∧ ∃ c' : Vec,
      (1E-14 < predVar P + H → ∀ n : ℕ,
        curve c' ((t : ℝ) + n) = curve c ((t : ℝ) + n) + (y - curve c t) / (predVar P + H) * coVar n P) ∧
      (¬ 1E-14 < predVar P + H → c' = c) ∧
      Led H last
        (c', nextDay^[((rest.map Prod.fst).headD last - t).toNat]
          (open Classical in if 1E-14 < predVar P + H then absorb H P else P)) rest e

/-- What a filter knows at the start: standard deviations of 100 for level and cycles, a tenth for the slope,
nothing correlated. -/
noncomputable def startP : Mat := Matrix.diagonal ![10000, 0.01, 10000, 10000, 10000, 10000]

/-- Dates and values of a band. -/
def dated (b : Fin 6) (l : List Obs) : List (Int × ℝ) := l.map (fun o => (o.date, ((o.vals.getD b 0 : Int) : ℝ)))

/-- Moved back by `years` years of 365.25 days, to whole days. -/
noncomputable def movedBack (years : ℕ) (l : List (Int × ℝ)) : List (Int × ℝ) :=
  l.map (fun p => (⌊(p.1 : ℝ) - years * 365.25⌋, p.2))

/-- The least number of years that cover the dates of `l`. -/
def Covers (years : ℕ) (l : List Obs) : Prop :=
  ∀ a ∈ l.head?, ∀ z ∈ l.getLast?, (z.date : ℝ) - a.date + 1 ≤ years * 365.25 ∧
    years * 365.25 < (z.date : ℝ) - a.date + 1 + 365.25

/-- Curve and covariance of a band after a segment `seg`, on the day of `nx`: the solver's curve for the first
`k` observations, led over these, moved back by as many years as they cover, and then over the whole segment, with the mean
square error of the solver's fit as error variance. -/
def ByKalman (lasso : List (List ℝ) → List ℝ → List ℝ) (b : Fin 6) (seg : List Obs) (nx : Obs) (coefs : List ℝ)
    (P : Mat) : Prop :=
  ∃ (k years : ℕ) (c0 : Vec), 18 ≤ k ∧ k ≤ seg.length ∧ Covers years (seg.take k) ∧
    (∀ t : ℝ, curve c0 t = fitted lasso 6 b (seg.take k) t) ∧
    Led (squares lasso 6 b (seg.take k) / (k - 6)) nx.date (c0, startP)
      (movedBack years (dated b (seg.take k)) ++ dated b seg) (vec coefs, P)

end Pycold.SccdNum.Spec
