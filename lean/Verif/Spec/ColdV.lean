import Verif.Model.ColdV
/-!
# What the numbers in a COLD record are computed from (C69)

Only the data types and the numerical functions of a `Kit` are used, none of the functions of the loop.
-/
namespace Pycold.ColdV.Spec

open Pycold.ColdV

variable {Y M V W D G : Type}

/-- A number of coefficients the program uses. -/
def Order (c : Int) : Prop := c = 4 ∨ c = 6 ∨ c = 8

/-- The number of coefficients behind a category code. -/
def coefCount (category : Int) : Int := category % 10

/-- The column `x` of a window compares the observation `x.row` of the series with a model that was
fitted, with `c` coefficients, to at least twelve observations `obs` of the series, all of them not before
`t0` and strictly earlier than `x.row`; the yardstick is either the RMSE of that fit, or the RMSE of its
residuals at the dates nearest in the year. -/
def Judged (K : Kit Y M V W D G) (series : List (Row Y)) (t0 : Int) (x : Sc Y V W D) : Prop :=
  x.row ∈ series ∧ ∃ (c : Int) (obs : List (Row Y)), Order c ∧ obs.Sublist series ∧ 12 ≤ obs.length ∧
    (∀ o ∈ obs, t0 ≤ o.date ∧ o.date < x.row.date) ∧
    (x = column x.row (K.score c (K.fit c obs) x.row) ∨
      ∃ df, Order df ∧ c ≤ df ∧
        x = column x.row (K.near df c (K.fit c obs) (K.fit c obs) (obs.map (·.date)) x.row))

/-- The same for the window of the segment at the start of the series: the model was fitted, with four
coefficients, to at least twelve observations that are all later than `x.row`. -/
def JudgedBack (K : Kit Y M V W D G) (series : List (Row Y)) (x : Sc Y V W D) : Prop :=
  x.row ∈ series ∧ ∃ obs : List (Row Y), obs.Sublist series ∧ 12 ≤ obs.length ∧
    (∀ o ∈ obs, x.row.date < o.date) ∧ x = column x.row (K.score 4 (K.fit 4 obs) x.row)

/-- The numbers of a record. -/
structure RecData (K : Kit Y M V W D G) (series : List (Row Y)) (r : Rec Y M V W D G) : Prop where
  /-- the model was fitted to observations of the series -/
  obs : r.fitted.Sublist series
  /-- coefficients and RMSE are the result of that fit, with the number of coefficients of the category -/
  model : r.model = some (K.fit (coefCount r.category) r.fitted)
  /-- category 14: the magnitude is the negated median of the differences over the window -/
  first : r.category = 14 →
    r.magn = some (K.magnNeg (r.window.map (·.dif))) ∧ ∀ x ∈ r.window, JudgedBack K series x
  /-- otherwise it is the median of the differences over the window, or zero without a window -/
  other : r.category ≠ 14 →
    r.magn = some (if r.window.isEmpty then K.magn0 else K.magn (r.window.map (·.dif))) ∧
    ∀ x ∈ r.window, Judged K series r.tStart x

/-- `x` is the column of some observation against some model. -/
def Scored (K : Kit Y M V W D G) (x : Sc Y V W D) : Prop :=
  (∃ c m, x = column x.row (K.score c m x.row)) ∨
    ∃ c q m m' ds, x = column x.row (K.near c q m m' ds x.row)

/-- The value that is offered for the change-magnitude output is the one computed from a window: mean angle
and smallest magnitude, limited to 32767 and stored in 16 bits. -/
def Offered (K : Kit Y M V W D G) (v : Int) : Prop :=
  ∃ w : List (Sc Y V W D), (∀ x ∈ w, Scored K x) ∧
    v = Cold.toShort (if cmRaw K w > 32767 then 32767 else cmRaw K w)

end Pycold.ColdV.Spec
