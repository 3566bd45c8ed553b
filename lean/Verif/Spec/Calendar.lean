/-!
# Specification vocabulary for C18–C20: the proleptic Gregorian calendar

Written from the definition used by Python's `datetime.date.toordinal` (day 1 = 1 January of year 1),
independently of the program's loops.
-/
namespace Pycold
namespace Spec

/-- Gregorian leap-year rule. -/
def Leap (y : Int) : Prop := 4 ∣ y ∧ (100 ∣ y → 400 ∣ y)

instance (y : Int) : Decidable (Leap y) := by unfold Leap; infer_instance

/-- Number of days before 1 January of year `y` (closed form). -/
def daysBeforeYear (y : Int) : Int :=
  365 * (y - 1) + (y - 1) / 4 - (y - 1) / 100 + (y - 1) / 400

/-- Length of year `y`. -/
def yearLength (y : Int) : Int := if Leap y then 366 else 365

/-- Ordinal of day `doy` of year `y`. -/
def ordinal (y doy : Int) : Int := daysBeforeYear y + doy

/-- `doy` is a day of year `y`. -/
def ValidDoy (y doy : Int) : Prop := 1 ≤ doy ∧ doy ≤ yearLength y

/-- Length of month `m` (1..12) in year `y`. -/
def monthLength (y : Int) (m : Nat) : Int :=
  if m = 2 then (if Leap y then 29 else 28)
  else if m = 4 ∨ m = 6 ∨ m = 9 ∨ m = 11 then 30 else 31

/-- Days of year `y` before the first of month `m`. -/
def daysBeforeMonth (y : Int) : Nat → Int
  | 0 => 0
  | 1 => 0
  | m + 2 => daysBeforeMonth y (m + 1) + monthLength y (m + 1)

end Spec
end Pycold
