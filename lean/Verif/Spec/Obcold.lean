import Verif.Model.Obcold
import Verif.Spec.Preprocess
/-!
# Vocabulary for object-based reconstruction (C23)

Only the data types `ClrObs`, `Rec`, `Env` of the model are used, none of its functions.
-/
namespace Pycold.Obcold.Spec

open Pycold

variable {R M : Type}

/-- `clear` is the series of clear observations: ascending dates, one observation for the first usable
clear scene of each date, with that scene's values. -/
structure ClearSeries (bC2 : Bool) (scenes : List Scene) (clear : List ClrObs) : Prop where
  asc : clear.Pairwise (fun a b => a.date < b.date)
  mem : ∀ c, c ∈ clear ↔ ∃ (i : Nat) (o : Scene), scenes[i]? = some o ∧ Pycold.Spec.ClearUsable bC2 o ∧
    c = Pycold.Spec.toClr false o ∧ ∀ (j : Nat) (p : Scene), j < i → scenes[j]? = some p →
      Pycold.Spec.ClearUsable bC2 p → p.date ≠ o.date

/-- `d` is the entry of `dates` nearest to `b`, the earlier one in case of a tie. -/
def NearestTo (dates : List Int) (b d : Int) : Prop :=
  d ∈ dates ∧ ∀ y ∈ dates, (d - b).natAbs ≤ (y - b).natAbs ∧ ((d - b).natAbs = (y - b).natAbs → d ≤ y)

/-- The accepted breaks: supplied, positive, in order and at least 365.25 days apart, the first at least
365.25 days after day 0; and every other supplied date that late is less than 365.25 days after an
accepted one. -/
structure Accepts (breaks acc : List Int) : Prop where
  mem : ∀ a ∈ acc, a ∈ breaks ∧ 4 * a ≥ 1461
  apart : acc.Pairwise (fun a b => 4 * (b - a) ≥ 1461)
  all : ∀ d ∈ breaks, 4 * d ≥ 1461 → ∃ a ∈ acc, a ≤ d ∧ 4 * (d - a) < 1461

/-- The clear observations from day `lo` on and before day `hi` (`none`: no limit). -/
def span (clear : List ClrObs) (lo hi : Option Int) : List ClrObs :=
  clear.filter (fun o => (match lo with | some l => decide (l ≤ o.date) | none => true) &&
    (match hi with | some h => decide (o.date < h) | none => true))

/-- Number of coefficients for a number of observations. -/
def coefs (n : Nat) : Int := if n < 18 then 4 else if n < 24 then 6 else 8

/-- What every record says about the observations it was fitted to. -/
structure SegOk (E : Env R M) (clear : List ClrObs) (r : Rec R M) : Prop where
  sub : r.fitted.Sublist clear
  six : 6 ≤ r.fitted.length
  start : r.fitted.head?.map (·.date) = some r.tStart
  stop : r.fitted.getLast?.map (·.date) = some r.tEnd
  /-- `num_obs` is one too large -/
  num : r.numObs = r.fitted.length + 1
  cat : r.category = coefs r.fitted.length
  body : r.body = E.fit r.fitted r.category

/-- The observations of a span that a segment is fitted to: all of them when there are fewer than 12;
otherwise those that neither the mask flags nor the provisional fit finds to be outliers. -/
def usable (E : Env R M) (win : List ClrObs) : List ClrObs :=
  if win.length < 12 then win
  else
    let kept := (win.zipIdx.filter (fun p => !E.mask win p.2)).map (·.1)
    kept.filter (fun o => !E.outlier kept o)

/-- A segment from day `lo` (the previous break, or the beginning) closed by a break on day `d`; the
magnitude comes from the first `conse` clear observations at and after the break. -/
structure Closed (E : Env R M) (conse : Nat) (clear : List ClrObs) (lo : Option Int) (d : Int)
    (r : Rec R M) : Prop where
  ok : SegOk E clear r
  fit : r.fitted = usable E (span clear lo (some d))
  brk : r.tBreak = d
  prob : r.changeProb = 100
  after : r.after = (span clear (some d) none).take conse
  mag : r.mag = some (E.magnitude r.body r.after)

/-- A segment from day `lo` to the end of the series. -/
structure Open (E : Env R M) (clear : List ClrObs) (lo : Option Int) (r : Rec R M) : Prop where
  ok : SegOk E clear r
  fit : r.fitted = span clear lo none
  brk : r.tBreak = 0
  prob : r.changeProb = 0
  mag : r.mag = none

/-- The segments that follow day `lo` (`none`: the beginning of the series), given the accepted breaks
still to be used.  Each break is moved to the nearest clear observation.  With at least 6 usable clear
observations since the last break it closes a segment; with fewer it is ignored.  The observations after
the last break used form a segment if there are at least 6. -/
inductive Follows (E : Env R M) (conse : Nat) (clear : List ClrObs) :
    Option Int → List Int → List (Rec R M) → Prop
  | rest {lo} : (span clear lo none).length < 6 → Follows E conse clear lo [] []
  | last {lo r} : Open E clear lo r → Follows E conse clear lo [] [r]
  | skip {lo b bs d rs} : NearestTo (clear.map (·.date)) b d →
      (usable E (span clear lo (some d))).length < 6 → Follows E conse clear lo bs rs →
      Follows E conse clear lo (b :: bs) rs
  | brk {lo b bs d r rs} : NearestTo (clear.map (·.date)) b d → Closed E conse clear lo d r →
      Follows E conse clear (some d) bs rs → Follows E conse clear lo (b :: bs) (r :: rs)

/-- `recs` is `rs`, except that its last record reports no break. -/
def LastClosed (rs recs : List (Rec R M)) : Prop :=
  ∃ front r, rs = front ++ [r] ∧ recs = front ++ [{ r with tBreak := 0, changeProb := 0, mag := none }]

end Pycold.Obcold.Spec
