import Verif.Spec.Quiet
import Verif.Spec.Preprocess
/-!
# A constant added to each band (C81)
-/
namespace Pycold.ColdNum.Spec

/-- The scene `o'` is the scene `o` with the constant `d k` added to its reflective band `k` (0 blue, 1 green, 2 red,
3 near infrared, 4 and 5 short-wave infrared); the thermal value is the same.  Nothing is said about the values of
scenes that are not clear or not usable, except that a clear scene stays usable or unusable. -/
structure Raised (bC2 : Bool) (d : Fin 7 → Int) (o o' : Scene) : Prop where
  date : o'.date = o.date
  qa : o'.qa = o.qa
  usable : o.qa < 2 → (Pycold.Spec.Usable bC2 o ↔ Pycold.Spec.Usable bC2 o')
  values : Pycold.Spec.ClearUsable bC2 o → o'.b = o.b + d 0 ∧ o'.g = o.g + d 1 ∧ o'.r = o.r + d 2 ∧ o'.n = o.n + d 3 ∧
    o'.s1 = o.s1 + d 4 ∧ o'.s2 = o.s2 + d 5 ∧ o'.t = o.t

/-- The same for a clear observation. -/
def raise (d : Fin 7 → Int) (o : ClrObs) : ClrObs :=
  ⟨o.date, (List.finRange 7).map fun b : Fin 7 => o.bands.getD b 0 + d b⟩

/-- The noise screening flags observation `k` of the window `w`: in green or SWIR1 it is more than 4.42 times the noise
floor away from the curve found by the robust regression. -/
def Flagged (robust : List (List ℝ) → List ℝ → List ℝ) (floor : Fin 7 → ℝ) (w : List ClrObs) (k : ℕ) : Prop :=
  ∃ b ∈ ([1, 4] : List (Fin 7)), ∃ o, w[k]? = some o ∧
    4.42 * floor b < |((o.bands.getD b 0 : ℤ) : ℝ) - screenCurve (yearsOf w)
      (robust (w.map fun o => screenRow (yearsOf w) (o.date : ℝ)) (valuesOf w b)) (o.date : ℝ)|

/-- The noise screening flags the same observations before and after the constants are added, in every window of at
least six clear observations of the series. -/
def SameFlags (robust : List (List ℝ) → List ℝ → List ℝ) (floor : Fin 7 → ℝ) (d : Fin 7 → Int) (series : List ClrObs) :
    Prop :=
  ∀ w, w.Sublist series → 6 ≤ w.length → ∀ k, Flagged robust floor (w.map (raise d)) k ↔ Flagged robust floor w k

/-- The robust regression of values to which a constant was added is the regression of the values, with the constant
added to the intercept. -/
def Equivariant (robust : List (List ℝ) → List ℝ → List ℝ) : Prop :=
  ∀ (X : List (List ℝ)) (y : List ℝ) (c : ℝ), 6 ≤ y.length →
    (robust X (y.map (· + c))).getD 0 0 = (robust X y).getD 0 0 + c ∧
    ∀ j : ℕ, (robust X (y.map (· + c))).getD (j + 1) 0 = (robust X y).getD (j + 1) 0

/-- Two records that differ in the intercepts only: the intercept of band `b` is larger by `d b`. -/
structure SameBut (d : Fin 7 → Int) (r r' : Rec ℝ (Fin 7)) : Prop where
  tStart : r'.tStart = r.tStart
  tEnd : r'.tEnd = r.tEnd
  tBreak : r'.tBreak = r.tBreak
  numObs : r'.numObs = r.numObs
  category : r'.category = r.category
  changeProb : r'.changeProb = r.changeProb
  magnitude : r'.magn = r.magn
  noModel : r.model = none → r'.model = none
  model : ∀ m, r.model = some m → ∃ m', r'.model = some m' ∧ ∀ b,
    (m' b).rmse = (m b).rmse ∧ (m' b).coefs.getD 0 0 = (m b).coefs.getD 0 0 + (d b : ℝ) ∧
    (m' b).coefs.tail = (m b).coefs.tail

end Pycold.ColdNum.Spec
