import Verif.Model.SccdNum
/-!
# The tests of `sccd_identify`

`Sccd.identify` (Model/Sccd.lean) has arbitrary Boolean functions for the tests of strength, direction and
greening; here are those of the program.
-/
namespace Pycold.SccdNum
open Pycold.ColdNum (Fl)
open Pycold.Sccd (Obs)
variable {F P B : Type}

/-- The parameters of `sccd_identify` (`src/python/pycold/colds.py` 474–481): `dist_conse`, `t_cg_scale100`,
`t_cg_singleband_scale1000`, `t_angle_scale100`, `transform_mode`. -/
structure Params (F : Type) where
  distConse : Nat
  tCg : F
  tSingle : F
  tAngle : F
  transform : Bool

/-- `nrt_coefs[b]` of the stored model: an array of six numbers (`src/cxx/s_ccd.c` 2238–2241, 2890–2893,
`SCCD_NUM_C`). -/
def sixCoefs (A : Fl F) (c : List F) : List F :=
  (List.range 6).map fun k => c.getD k A.zero

/-- `calculate_sccd_cm`, `src/python/pycold/utils.py` 536–563, for one band: the median of `obs − predict_ref`
over the stored observations from place 6 − `conse_last` to place 5 (`NRT_BAND` and `DEFAULT_CONSE` are both 6,
`src/python/pycold/constants.yaml`).  `predict_ref` gets six coefficients, so its `none` does not occur. -/
def cmMedian (E : Env F P B) (m : Sccd.Model (B → BandState F P)) (b : B) : F :=
  let A := E.base.A
  ColdNum.median A ((List.range m.conseLast.toNat).map fun i =>
    let o := m.obs.getD (i + (6 - m.conseLast).toNat) Sccd.padObs
    A.sub (A.ofInt (o.vals.getD (E.idx b) 0))
      ((ColdNum.predictRef A (sixCoefs A (m.filt b).cft) (A.ofInt (o.date + Sccd.LAUNCH)) 6).getD A.zero))

/-- The test for greening, `colds.py` 520–524, of the medians of red, NIR and SWIR1 (the bands 2, 3, 4).
Without anomalies the medians are NaN and the test fails. -/
def greening (E : Env F P B) (red nir swir : B) (t : F) (m : Sccd.Model (B → BandState F P)) : Bool :=
  let A := E.base.A
  decide (0 < m.conseLast) && (A.lt (cmMedian E m red) (A.neg t) && A.lt t (cmMedian E m nir) &&
    A.lt (cmMedian E m swir) (A.neg t))

/-- The tests of `sccd_identify` (`colds.py` 514–524). -/
def ask (E : Env F P (Fin 6)) (q : Params F) : Sccd.Ask (Fin 6 → BandState F P) :=
  { distConse := q.distConse, strong := fun n => E.base.A.lt q.tCg (E.base.A.ofInt n),
    aligned := fun n => E.base.A.lt (E.base.A.ofInt n) q.tAngle, greening := greening E 2 3 4 q.tSingle,
    transform := q.transform }

end Pycold.SccdNum
