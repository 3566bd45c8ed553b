import Verif.Spec.Offset
import Mathlib.Analysis.SpecialFunctions.Trigonometric.Basic
/-!
# A series moved in time (C83)

The yearly cycle of the fits is 365.25 days long, so four cycles are 1461 days.
-/
namespace Pycold.ColdNum.Spec

/-- Exact arithmetic with the true value of π in place of the literal of `const.h` 28 (which is off by 3e-16). -/
noncomputable def ideal : Fl ℝ := { exact with pi := Real.pi }

/-- The same scene `δ` days later. -/
def later (δ : Int) (o : Scene) : Scene := { o with date := o.date + δ }

/-- The same clear observation `δ` days later. -/
def laterObs (δ : Int) (o : ClrObs) : ClrObs := ⟨o.date + δ, o.bands⟩

/-- The parameters of the moved run: the change-magnitude output starts `δ` days later. -/
def laterParams (δ : Int) (P : Cold.Params) : Cold.Params := { P with startingDate := P.startingDate + δ }

/-- A date of a record, moved; 0 stands for no date. -/
def laterDate (δ t : Int) : Int := if t = 0 then 0 else t + δ

/-- The curve of the noise screening: a constant, the yearly cycle and the cycle of the whole window, `years` years
long, with five coefficients. -/
noncomputable def cycleCurve (years : ℝ) (c : List ℝ) (t : ℝ) : ℝ :=
  c.getD 0 0 + c.getD 1 0 * Real.cos (2 * Real.pi / 365.25 * t) + c.getD 2 0 * Real.sin (2 * Real.pi / 365.25 * t) +
    c.getD 3 0 * Real.cos (2 * Real.pi / 365.25 / years * t) + c.getD 4 0 * Real.sin (2 * Real.pi / 365.25 / years * t)

/-- The regressors of the noise screening, without the constant. -/
noncomputable def cycleRow (years : ℝ) (t : ℝ) : List ℝ :=
  [Real.cos (2 * Real.pi / 365.25 * t), Real.sin (2 * Real.pi / 365.25 * t),
    Real.cos (2 * Real.pi / 365.25 / years * t), Real.sin (2 * Real.pi / 365.25 / years * t)]

/-- The noise screening flags observation `k` of the window `w`: in green or SWIR1 it is more than 4.42 times the noise
floor away from the curve found by the robust regression. -/
def Outlying (robust : List (List ℝ) → List ℝ → List ℝ) (floor : Fin 7 → ℝ) (w : List ClrObs) (k : ℕ) : Prop :=
  ∃ b ∈ ([1, 4] : List (Fin 7)), ∃ o, w[k]? = some o ∧
    4.42 * floor b < |((o.bands.getD b 0 : ℤ) : ℝ) - cycleCurve (yearsOf w)
      (robust (w.map fun o => cycleRow (yearsOf w) (o.date : ℝ)) (valuesOf w b)) (o.date : ℝ)|

/-- The noise screening flags the same observations before and after the move, in every window of at least six clear
observations of the series. -/
def SameOutlying (robust : List (List ℝ) → List ℝ → List ℝ) (floor : Fin 7 → ℝ) (δ : Int) (series : List ClrObs) : Prop :=
  ∀ w, w.Sublist series → 6 ≤ w.length → ∀ k, Outlying robust floor (w.map (laterObs δ)) k ↔ Outlying robust floor w k

/-- The curve found by the robust regression does not depend on the day from which time is counted: for six or more
days `ts` and a window of `years` years, the curve of the moved days is the moved curve, on these days. -/
def OriginFree (robust : List (List ℝ) → List ℝ → List ℝ) : Prop :=
  ∀ (years : ℝ) (ts y : List ℝ) (s : ℝ), 6 ≤ ts.length → ts.length = y.length → ∀ t ∈ ts,
    cycleCurve years (robust (ts.map fun t => cycleRow years (t + s)) y) (t + s) =
      cycleCurve years (robust (ts.map fun t => cycleRow years t) y) t

/-- The curve of a record: intercept, slope per 10000 days, and three harmonics of the year, from the eight stored
coefficients. -/
noncomputable def recordCurve (c : List ℝ) (t : ℝ) : ℝ :=
  c.getD 0 0 + c.getD 1 0 * t / 10000 +
    (c.getD 2 0 * Real.cos (2 * Real.pi / 365.25 * t) + c.getD 3 0 * Real.sin (2 * Real.pi / 365.25 * t)) +
    (c.getD 4 0 * Real.cos (2 * (2 * Real.pi / 365.25) * t) + c.getD 5 0 * Real.sin (2 * (2 * Real.pi / 365.25) * t)) +
    (c.getD 6 0 * Real.cos (3 * (2 * Real.pi / 365.25) * t) + c.getD 7 0 * Real.sin (3 * (2 * Real.pi / 365.25) * t))

/-- The record `r'` is the record `r`, `δ` days later: dates moved, the same counts, probability, RMSE, magnitudes, slopes
and harmonics; the intercepts make up for the slopes. -/
structure Later (δ : Int) (r r' : Rec ℝ (Fin 7)) : Prop where
  tStart : r'.tStart = laterDate δ r.tStart
  tEnd : r'.tEnd = laterDate δ r.tEnd
  tBreak : r'.tBreak = laterDate δ r.tBreak
  numObs : r'.numObs = r.numObs
  category : r'.category = r.category
  changeProb : r'.changeProb = r.changeProb
  magnitude : r'.magn = r.magn
  noModel : r.model = none → r'.model = none
  model : ∀ m, r.model = some m → ∃ m', r'.model = some m' ∧ ∀ b,
    (m' b).rmse = (m b).rmse ∧
    (m' b).coefs.getD 0 0 = (m b).coefs.getD 0 0 - (m b).coefs.getD 1 0 * (δ : ℝ) / 10000 ∧
    (m' b).coefs.tail = (m b).coefs.tail

/-- The change-magnitude output, `δ` days later: the same magnitudes, and the dates of the slots that were written
(not -9999) moved.  They are stored as days since the launch of Landsat 4 in 16 bits, with wrap-around. -/
structure LaterCm (δ : Int) (c c' : Cold.Cm) : Prop where
  out : c'.out = c.out
  date : ∀ (k : ℕ) (v d : Int), c.out[k]? = some v → v ≠ -9999 → c.date[k]? = some d →
    c'.date[k]? = some (Int.bmod (d + δ) 65536)

end Pycold.ColdNum.Spec
