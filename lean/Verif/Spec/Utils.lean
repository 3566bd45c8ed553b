import Verif.Spec.Calendar
/-!
# Counting days
-/
namespace Pycold.Utils.Spec

/-- Year, month and day. -/
abbrev Date := Nat × Nat × Nat

/-- The Gregorian leap-year rule. -/
def IsLeap (y : Nat) : Prop := y % 400 = 0 ∨ (y % 4 = 0 ∧ y % 100 ≠ 0)

instance (y : Nat) : Decidable (IsLeap y) := by unfold IsLeap; infer_instance

/-- The number of days of a month: thirty days hath September, April, June and November. -/
def days (y m : Nat) : Nat :=
  if m = 9 ∨ m = 4 ∨ m = 6 ∨ m = 11 then 30 else if m = 2 then (if IsLeap y then 29 else 28) else 31

/-- The day after. -/
def next (t : Date) : Date :=
  if t.2.2 < days t.1 t.2.1 then (t.1, t.2.1, t.2.2 + 1) else if t.2.1 < 12 then (t.1, t.2.1 + 1, 1) else (t.1 + 1, 1, 1)

/-- A day of the years 1 to 9999. -/
def IsDay (t : Date) : Prop :=
  1 ≤ t.1 ∧ t.1 ≤ 9999 ∧ 1 ≤ t.2.1 ∧ t.2.1 ≤ 12 ∧ 1 ≤ t.2.2 ∧ t.2.2 ≤ days t.1 t.2.1

instance (t : Date) : Decidable (IsDay t) := by unfold IsDay; infer_instance

/-- The day `n` days after 1 January of the year 1. -/
def after : Nat → Date
  | 0 => (1, 1, 1)
  | n + 1 => next (after n)

/-- What the documentation of `generate_rowcolimage` promises for a reference image of `rows` lines and `cols` columns: an image
of the same size, the pixel in line `i` and column `j` (from 0) being ten thousand times its line plus its column (from 1). -/
def IsIndex (ysize xsize : Nat) (pixel : Nat → Nat → Int) (rows cols : Nat) : Prop :=
  ysize = rows ∧ xsize = cols ∧ ∀ i j, i < rows → j < cols → pixel i j = 10000 * ((i : Int) + 1) + ((j : Int) + 1)

end Pycold.Utils.Spec
