import Verif.Spec.ColdExact
import Verif.Spec.SccdTrack
import Verif.Model.SccdNum
/-!
# What the numbers of an S-CCD record mean in exact arithmetic (C76)
-/
namespace Pycold.SccdNum.Spec

open Pycold.ColdNum.Spec (PI storedCurve regressors solverCurve Middle)
open Pycold.Sccd (Obs Rec follow)

/-- Observed value of a band less the value of a curve on that day. -/
noncomputable def resid (c : List ℝ) (b : Fin 6) (o : Obs) : ℝ :=
  (o.vals.getD b 0 : ℝ) - storedCurve c (o.date : ℝ)

/-- Green, red, NIR, SWIR1, SWIR2. -/
def tested : List (Fin 6) := [1, 2, 3, 4, 5]

/-- The deviations of an observation in the five tested bands, in units of `yard`. -/
noncomputable def scaled (coefs : Fin 6 → List ℝ) (yard : Fin 6 → ℝ) (o : Obs) : List ℝ :=
  tested.map fun b => resid (coefs b) b o / yard b

/-- Inner product. -/
noncomputable def dot (u v : List ℝ) : ℝ := (List.zipWith (· * ·) u v).sum

/-- Angle between two vectors, in degrees (with the program's literal for π). -/
noncomputable def degrees (u v : List ℝ) : ℝ :=
  Real.arccos (dot u v / (Real.sqrt (dot u u) * Real.sqrt (dot v v))) * 180 / PI

/-- Mean of the angles between successive vectors. -/
noncomputable def meanTurn (vs : List (List ℝ)) : ℝ :=
  (List.zipWith degrees vs vs.tail).sum / ((vs.length : ℝ) - 1)

/-- The errors of predicting the observations of a band one by one, each from the filter before it. -/
noncomputable def errors {V R P : Type} (N : Sccd.Num V (Fin 6 → BandState ℝ P) R) (b : Fin 6) :
    (Fin 6 → BandState ℝ P) → List Obs → Obs → List ℝ
  | _, [], _ => []
  | f, o :: os, nx => resid (f b).cft b o :: errors N b (N.filter f o (os.headD nx).date) os nx

/-- The curve with `n` coefficients that the solver finds for a band of some observations. -/
noncomputable def fitted (lasso : List (List ℝ) → List ℝ → List ℝ) (n : Int) (b : Fin 6) (w : List Obs) (t : ℝ) :
    ℝ :=
  solverCurve n (lasso (w.map fun o => regressors n (o.date : ℝ)) (w.map fun o => (o.vals.getD b 0 : ℝ))) t

/-- Sum of squared distances of the observations from that curve. -/
noncomputable def squares (lasso : List (List ℝ) → List ℝ → List ℝ) (n : Int) (b : Fin 6) (w : List Obs) : ℝ :=
  (w.map fun o => ((o.vals.getD b 0 : ℝ) - fitted lasso n b w (o.date : ℝ)) ^ 2).sum

/-- What the numbers of a record closed by a change mean.  `win` are the `conse` observations that made the
change, the first of them at the break. -/
structure ClosedExact {P : Type} (N : Sccd.Num ℝ (Fin 6 → BandState ℝ P) (Body ℝ (Fin 6)))
    (lasso : List (List ℝ) → List ℝ → List ℝ) (tcg : ℝ) (rmin : Fin 6 → Int) (r : Rec (Body ℝ (Fin 6)))
    (nx : Obs) (win : List Obs) : Prop where
  /-- the magnitude is the median deviation of `win` from the curve of the record -/
  magnitude : ∀ b, Middle (win.map (resid (r.body.coefs b) b)) (r.body.magn b)
  /-- each of `win` deviates by the threshold, in units of the larger of the record's RMSE and the noise
  floor of the series -/
  strength : ∀ o ∈ win,
    tcg ≤ ((scaled r.body.coefs (fun b => max (rmin b : ℝ) (r.body.rmse b)) o).map (· ^ 2)).sum
  /-- their directions are alike -/
  direction : 1 < win.length →
    meanTurn (win.map (scaled r.body.coefs (fun b => max (rmin b : ℝ) (r.body.rmse b)))) ≤ 45
  /-- the curve is that of a filter led over all observations of the record; its error variance is the mean
  square error of the solver's fit to the first ones; the RMSE is that of the filter's predictions of the
  observations, each square rounded down -/
  curve : ∃ k f0, 18 ≤ k ∧ k ≤ r.span.length ∧ ∀ b, (f0 b).ssv = 0 ∧
    (f0 b).H = squares lasso 6 b (r.span.take k) / (k - 6) ∧
    r.body.coefs b = (follow N f0 r.span nx b).cft ∧
    r.body.rmse b =
      Real.sqrt ((((errors N b f0 r.span nx).map fun v => ⌊v ^ 2⌋).sum : ℤ) / ((r.span.length : ℝ) - 6))

/-- What the numbers of the record of the start of the series mean: curve and RMSE of a fit with four
coefficients to its observations and the one at the break, `nx`; the magnitude is the median, over `before`,
of the deviation of the curve fitted to later observations `w` from the observation. -/
structure OpenedExact (lasso : List (List ℝ) → List ℝ → List ℝ) (r : Rec (Body ℝ (Fin 6)))
    (nx : Obs) (before w : List Obs) : Prop where
  curve : ∀ b t, storedCurve (r.body.coefs b) t = fitted lasso 4 b (r.span ++ [nx]) t
  rmse : ∀ b, r.body.rmse b =
    Real.sqrt (squares lasso 4 b (r.span ++ [nx])) / Real.sqrt ((r.span.length : ℝ) - 3)
  magnitude : ∀ b, Middle (before.map fun o => fitted lasso 4 b w (o.date : ℝ) - (o.vals.getD b 0 : ℝ))
    (r.body.magn b)

end Pycold.SccdNum.Spec
