import Verif.Model.SccdNum
import Verif.Spec.ColdNum
import Verif.Spec.Sccd
/-!
# Vocabulary for C74

Only scenes and returned packs are used, none of the functions of the detection loop.
-/
namespace Pycold.SccdNum.Spec

open Pycold.SccdNum
open Pycold.Sccd (Pack Obs)

variable {V F R M P : Type}

/-- `sccd_detect` on the first scenes, then one `sccd_update` per batch, each with the pack returned before. -/
def session (E : Sccd.Env V F R M) (m0 : M) (z : Sccd.Model F) (first : List Scene)
    (batches : List (List Scene)) : Except Sccd.Err (Pack F R M) := do
  let p ← Sccd.detect E m0 z first
  Sccd.feed E p batches

/-- Green, red, NIR, SWIR1, SWIR2 among the six bands of S-CCD. -/
def reflective : List (Fin 6) := [1, 2, 3, 4, 5]

/-- A stored observation without its blue value. -/
def unblue (o : Obs) : Int × List Int := (o.date, o.vals.drop 1)

/-- A record without its blue band: start, break, number of observations, and per band the coefficients, the
RMSE and the magnitude. -/
structure RecView (F : Type) where
  tStart : Int
  tBreak : Int
  numObs : Int
  coefs : List (List F)
  rmse : List F
  magnitude : List F
deriving DecidableEq

/-- The model under monitoring without its blue band: start, number of observations, strength, direction and
number of the latest anomalies, per band the state of the filter, and the stored observations. -/
structure ModelView (F P : Type) where
  tStart : Int
  numObs : Int
  normCm : Int
  cmAngle : Int
  conseLast : Int
  bands : List (BandState F P)
  obs : List (Int × List Int)
deriving DecidableEq

/-- A pack without its blue band. -/
structure PackView (F P : Type) where
  mode : Nat
  recs : List (RecView F)
  minRmse : List Int
  model : Option (ModelView F P)
  queue : List (Int × List Int)
deriving DecidableEq

/-- See `PackView`. -/
def view (p : Pack (Fin 6 → BandState F P) (Body F (Fin 6)) (Fin 6 → Int)) : PackView F P :=
  { mode := p.mode
    recs := p.recs.map fun r =>
      { tStart := r.tStart, tBreak := r.tBreak, numObs := r.numObs, coefs := reflective.map r.body.coefs,
        rmse := reflective.map r.body.rmse, magnitude := reflective.map r.body.magn }
    minRmse := reflective.map p.minRmse
    model := p.model.map fun m =>
      { tStart := m.tStart, numObs := m.numObs, normCm := m.normCm, cmAngle := m.cmAngle,
        conseLast := m.conseLast, bands := reflective.map m.filt, obs := m.obs.map unblue }
    queue := p.queue.map unblue }

end Pycold.SccdNum.Spec
