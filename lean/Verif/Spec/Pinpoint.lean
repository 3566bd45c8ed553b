import Verif.Spec.Sccd
import Verif.Model.Pinpoint
/-!
# What pinpoint records are

A *round* is an observation that S-CCD compares with the current model, in monitoring: it carries the
filter, the number of observations used so far and the remaining observations, of which the first `conse`
are the window.
-/
namespace Pycold.Sccd.Spec
open Pycold.Sccd
variable {V F R : Type}

/-- The 365.25-day period, counted from 1 January 1982, that a date falls in. -/
def period (d : Int) : Int := (4 * (d - 723546)) / 1461

/-- The comparison is a strict weak order (any two magnitudes can be compared: no NaN); 9999 is not below
the gate or the change threshold. -/
structure Ordered (N : Num V F R) : Prop where
  asymm : ∀ a b, N.lt a b = true → N.lt b a = false
  negtrans : ∀ a b c, N.lt a b = false → N.lt b c = false → N.lt a c = false
  big : N.lt N.big N.gate = false
  bigT : N.lt N.big N.tcg = false

/-- Zero is recognised, and what is above zero is not zero. -/
structure ZeroOk (N : Num V F R) (Z : ZeroV V) : Prop where
  zero : Z.isZero Z.zero = true
  pos : ∀ v, N.lt Z.zero v = true → Z.isZero v = false

/-- Smallest of 9999 and the magnitudes of the first `k` observations of a round. -/
def strength (N : Num V F R) (k : Nat) (r : Round F) : V :=
  ((r.rest.take k).map (N.mag r.filt r.numObs)).foldl (fun m v => if N.lt v m then v else m) N.big

/-- The date of a round. -/
def dateOf (r : Round F) : Int := (r.rest.head?.map (·.date)).getD 0

/-- The window has at least three observations, and none of the first three is below the gate. -/
def Anomalous (N : Num V F R) (conse : Nat) (r : Round F) : Prop :=
  3 ≤ conse ∧ ∀ o ∈ r.rest.take 3, N.lt (N.mag r.filt r.numObs o) N.gate = false

/-- S-CCD's change rule: no observation of the window below the threshold, and the mean angle not above
its limit. -/
def Change (N : Num V F R) (conse : Nat) (r : Round F) : Prop :=
  (∀ o ∈ r.rest.take conse, N.lt (N.mag r.filt r.numObs o) N.tcg = false) ∧
    N.lt N.nsign (N.angle r.filt r.numObs (r.rest.take conse)) = false

/-- What the record of a round holds. -/
structure Shows (N : Num V F R) (conse : Nat) (r : Round F) (p : Pin V F) : Prop where
  date : p.tBreak = dateOf r
  coefs : p.filt = r.filt
  mag : p.mag = strength N conse r
  normCm : ∀ k, k < conse → p.normCm[k]? = some (N.scale (strength N (k + 1) r))
  cmAngle : ∀ k, k < conse → p.cmAngle[k]? = some (N.scale (N.angle r.filt r.numObs (r.rest.take (k + 1))))
  obs : ∀ k, k < 8 → p.obs[k]? = some ((r.rest[k]?).map encode)

/-- The rounds of a run over the observations `obs`. -/
structure Rounds (conse : Nat) (obs : List Obs) (log : List (Round F)) : Prop where
  order : log.Pairwise (fun a b => dateOf a < dateOf b)
  within : ∀ r ∈ log, r.rest.Sublist obs ∧ conse < r.rest.length

/-- One record per period, in order of time; it is that of the strongest anomalous round of the period,
the earliest one if several are equally strong; and no period with an anomalous round of positive
strength is left out. -/
structure Pinpoints (N : Num V F R) (Z : ZeroV V) (conse : Nat) (log : List (Round F)) (pins : List (Pin V F)) :
    Prop where
  apart : pins.Pairwise (fun p q => period p.tBreak < period q.tBreak)
  strongest : ∀ p ∈ pins, ∃ r ∈ log, Anomalous N conse r ∧ Shows N conse r p ∧ N.lt Z.zero p.mag = true ∧
    ∀ r' ∈ log, Anomalous N conse r' → period (dateOf r') = period p.tBreak →
      N.lt p.mag (strength N conse r') = false ∧
      (N.lt (strength N conse r') p.mag = false → p.tBreak ≤ dateOf r')
  complete : ∀ r ∈ log, Anomalous N conse r → N.lt Z.zero (strength N conse r) = true →
    ∃ p ∈ pins, period p.tBreak = period (dateOf r) ∧ N.lt p.mag (strength N conse r) = false

/-- The records are an opening record, or none, and the rounds at which the change rule held. -/
def BreaksOf (N : Num V F R) (conse : Nat) (log : List (Round F)) (recs : List (Rec R)) : Prop :=
  ∃ opening breaks, recs = opening ++ breaks ∧ opening.length ≤ 1 ∧
    ∃ rs : List (Round F), rs.Sublist log ∧ (∀ r ∈ log, r ∈ rs ↔ Change N conse r) ∧
      breaks.map (·.tBreak) = rs.map dateOf

/-- More than forty periods have a clear observation. -/
def ManyPeriods (obs : List Obs) : Prop :=
  ∃ ds : List Int, 40 < ds.length ∧ ds.Pairwise (fun a b => period a < period b) ∧
    ∀ d ∈ ds, ∃ o ∈ obs, o.date = d

end Pycold.Sccd.Spec
