import Verif.Model.Cold
/-!
# Vocabulary for the COLD properties (C05–C11, C21, C48)

Only the data types `Rec`, `Score`, `Num`, `Params`, `Cm` of the model are used here, none of its
functions.
-/
namespace Pycold.Cold.Spec

open Pycold.Cold

variable {V W : Type}

/-- The comparisons of the numerical environment are a linear order (no NaN) in which 9999 is above
the change threshold. -/
structure Ordered (N : Num V W) : Prop where
  /-- `<=` is the negation of the reversed `<` -/
  le_iff : ∀ a b, N.le a b = !N.lt b a
  trans : ∀ a b c, N.lt a b = true → N.lt b c = true → N.lt a c = true
  /-- `<` is total up to ties -/
  cotrans : ∀ a b c, N.lt a c = true → N.lt a b = true ∨ N.lt b c = true
  irrefl : ∀ a, N.lt a a = false
  big : N.lt N.tcg N.big = true

/-- Every score exceeds the change threshold and the mean angle is below the limit. -/
def Confirmed (N : Num V W) (sc : List (Score V W)) : Prop :=
  (∀ x ∈ sc, N.lt N.tcg x.mag = true) ∧ N.lt (N.angle (sc.map Score.vec)) N.nsign = true

/-- The change-magnitude arrays are large enough for every date of the series. -/
def CmSized (P : Params) (dates : List Int) (nCm : Nat) : Prop :=
  P.bOutputCM = true → 0 < P.interval ∧
    ∀ d ∈ dates, P.startingDate ≤ d ∧ (d - P.startingDate) / P.interval < nCm

/-- Contents of the change-magnitude arrays after offering the (date, value) pairs `log`. -/
def CmHolds (P : Params) (nCm : Nat) (cm : Cm) : Prop :=
  cm.out.length = nCm ∧ cm.date.length = nCm ∧
  ∀ k : Nat, k < nCm →
    -- nothing above -9999 was offered for this slot, and it is untouched
    (cm.out[k]? = some (-9999) ∧ cm.date[k]? = some (-9999) ∧
      ∀ p ∈ cm.log, (p.1 - P.startingDate) / P.interval = k → p.2 ≤ -9999) ∨
    -- or the slot holds the largest value offered for it, and the date it was offered with
    (∃ p ∈ cm.log, (p.1 - P.startingDate) / P.interval = k ∧ cm.out[k]? = some p.2 ∧
      cm.date[k]? = some (Int.bmod (p.1 - 723742) 65536) ∧ -9999 < p.2 ∧ p.2 ≤ 32767 ∧
      ∀ q ∈ cm.log, (q.1 - P.startingDate) / P.interval = k → q.2 ≤ p.2)

end Pycold.Cold.Spec
