import Verif.Model.ColdNum
/-!
# Vocabulary for C69–C73

Only the scenes, the records and the arithmetic are used, none of the functions of the detection loop.
-/
namespace Pycold.ColdNum.Spec

open Pycold.ColdNum

variable {F : Type}

/-- The thermal value is accepted: always for Collection 2, otherwise when missing (0) or between
-93.2 and 70.7 degrees Celsius (hundredths of a degree, from tenths of a kelvin). -/
def ThermalOk (bC2 : Bool) (t : Int) : Prop :=
  bC2 = true ∨ t = 0 ∨ (-9320 < t * 10 - 27320 ∧ t * 10 - 27320 < 7070)

/-- The blue value is accepted. -/
def BlueOk (b : Int) : Prop := -200 < b ∧ b < 10000

/-- Two scenes that differ at most in the blue and thermal bands, and these are both accepted or both
not accepted. -/
structure AgreeBut (bC2 : Bool) (o o' : Scene) : Prop where
  date : o.date = o'.date
  qa : o.qa = o'.qa
  g : o.g = o'.g
  r : o.r = o'.r
  n : o.n = o'.n
  s1 : o.s1 = o'.s1
  s2 : o.s2 = o'.s2
  b : BlueOk o.b ↔ BlueOk o'.b
  t : ThermalOk bC2 o.t ↔ ThermalOk bC2 o'.t

/-- The part of a record that is not about the blue and thermal bands: dates, counts, probability, and for
green, red, NIR, SWIR1, SWIR2 the coefficients, the RMSE and the change magnitude. -/
structure View (F : Type) where
  tStart : Int
  tEnd : Int
  tBreak : Int
  numObs : Int
  category : Int
  changeProb : Int
  coefs : List (Option (List F))
  rmse : List (Option F)
  magnitude : List (Option F)
deriving DecidableEq

/-- Green, red, NIR, SWIR1, SWIR2. -/
def reflective : List (Fin 7) := [1, 2, 3, 4, 5]

/-- See `View`. -/
def view (r : Rec F (Fin 7)) : View F :=
  { tStart := r.tStart, tEnd := r.tEnd, tBreak := r.tBreak, numObs := r.numObs, category := r.category,
    changeProb := r.changeProb,
    coefs := reflective.map fun b => r.model.map fun m => (m b).coefs
    rmse := reflective.map fun b => r.model.map fun m => (m b).rmse
    magnitude := reflective.map fun b => r.magn.map fun g => g b }

end Pycold.ColdNum.Spec
