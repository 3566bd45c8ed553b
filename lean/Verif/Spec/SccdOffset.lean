import Verif.Spec.Offset
import Verif.Spec.Sccd
import Verif.Model.SccdNum
/-!
# S-CCD with a constant added to each band (C82)
-/
namespace Pycold.SccdNum.Spec

open Pycold.Sccd (Obs Rec Model Pack)

/-- An observation with the constant `d b` added to its band `b`. -/
def raise (d : Fin 7 → Int) (o : Obs) : Obs :=
  ⟨o.date, (List.finRange 6).map fun b : Fin 6 => o.vals.getD b 0 + d b.castSucc⟩

/-- A slot of the pack: an observation, or the zeros that fill up the eight places of a model. -/
def slot (d : Fin 7 → Int) (o : Obs) : Obs := if o = ⟨0, [0, 0, 0, 0, 0, 0]⟩ then o else raise d o

/-- A minimum RMSE of S-CCD as the noise floor of the screening. -/
noncomputable def floorOf (rmin : Fin 6 → Int) : Fin 7 → ℝ :=
  fun b => if h : (b : ℕ) < 6 then (rmin ⟨b, h⟩ : ℝ) else 0

/-- The noise screening flags the same observations before and after the constants are added, in every window of at
least six observations of the series. -/
def SameFlags (robust : List (List ℝ) → List ℝ → List ℝ) (rmin : Fin 6 → Int) (d : Fin 7 → Int) (series : List Obs) :
    Prop :=
  ColdNum.Spec.SameFlags robust (floorOf rmin) d (series.map fun o => ⟨o.date, o.vals⟩)

/-- Coefficients that differ in the intercept only. -/
def SameSlopes (δ : Int) (c c' : List ℝ) : Prop := c'.getD 0 0 = c.getD 0 0 + (δ : ℝ) ∧ c'.tail = c.tail

/-- Two records that differ in the intercepts only. -/
structure SameRec (d : Fin 7 → Int) (r r' : Rec (Body ℝ (Fin 6))) : Prop where
  tStart : r'.tStart = r.tStart
  tBreak : r'.tBreak = r.tBreak
  numObs : r'.numObs = r.numObs
  rmse : r'.body.rmse = r.body.rmse
  magnitude : r'.body.magn = r.body.magn
  coefs : ∀ b, SameSlopes (d b.castSucc) (r.body.coefs b) (r'.body.coefs b)

/-- Two monitoring models that differ in the intercepts and in the values of the stored observations only. -/
structure SameModel {P : Type} (d : Fin 7 → Int) (m m' : Model (Fin 6 → BandState ℝ P)) : Prop where
  tStart : m'.tStart = m.tStart
  numObs : m'.numObs = m.numObs
  obs : m'.obs = m.obs.map (slot d)
  normCm : m'.normCm = m.normCm
  cmAngle : m'.cmAngle = m.cmAngle
  conseLast : m'.conseLast = m.conseLast
  filter : ∀ b, (m'.filt b).cov = (m.filt b).cov ∧ (m'.filt b).H = (m.filt b).H ∧ (m'.filt b).ssv = (m.filt b).ssv ∧
    SameSlopes (d b.castSucc) (m.filt b).cft (m'.filt b).cft

/-- Two packs that differ in the intercepts and in the values of the stored observations only. -/
structure SamePack {P : Type} (d : Fin 7 → Int)
    (p p' : Pack (Fin 6 → BandState ℝ P) (Body ℝ (Fin 6)) (Fin 6 → Int)) : Prop where
  mode : p'.mode = p.mode
  recs : List.Forall₂ (SameRec d) p.recs p'.recs
  minRmse : p'.minRmse = p.minRmse
  noModel : p.model = none → p'.model = none
  model : ∀ m, p.model = some m → ∃ m', p'.model = some m' ∧ SameModel d m m'
  queue : p'.queue = p.queue.map (slot d)

end Pycold.SccdNum.Spec
