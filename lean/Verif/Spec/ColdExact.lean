import Mathlib.Analysis.SpecialFunctions.Trigonometric.Inverse
import Mathlib.Analysis.SpecialFunctions.Sqrt
import Verif.Model.ColdNum
/-!
# Exact arithmetic (C72, C73)

The operations of `Fl` on real numbers, and what the quantities of a record mean in this case.
-/
namespace Pycold.ColdNum.Spec

open Pycold.ColdNum

/-- `PI`, `src/cxx/const.h` 28: the literal of the program, close to π. -/
noncomputable def PI : ℝ := 3.1415926535897935

open Classical in
/-- Real arithmetic: every operation without rounding.  `round` is C's rounding half away from zero. -/
noncomputable def exact : Fl ℝ :=
  { add := (· + ·), sub := (· - ·), mul := (· * ·), div := (· / ·), neg := fun x => -x, abs := fun x => |x|,
    sqrt := Real.sqrt, acos := Real.arccos, cos := Real.cos, sin := Real.sin,
    lt := fun a b => decide (a < b), le := fun a b => decide (a ≤ b), ofInt := fun n => (n : ℝ),
    lit := fun n d => (n : ℝ) / (d : ℝ), pi := PI,
    round := fun x => if 0 ≤ x then (⌊x + 1 / 2⌋ : ℤ) else -((⌊-x + 1 / 2⌋ : ℤ) : ℝ),
    ceil := fun x => ⌈x⌉,
    trunc := fun x => if 0 ≤ x then ⌊x⌋ else ⌈x⌉ }

/-- The curve of a record: intercept, slope per 10000 days, and three harmonics of the year, from the eight
stored coefficients. -/
noncomputable def storedCurve (c : List ℝ) (t : ℝ) : ℝ :=
  c.getD 0 0 + c.getD 1 0 * t / 10000 +
    (c.getD 2 0 * Real.cos (2 * PI / 365.25 * t) + c.getD 3 0 * Real.sin (2 * PI / 365.25 * t)) +
    (c.getD 4 0 * Real.cos (2 * (2 * PI / 365.25) * t) +
      c.getD 5 0 * Real.sin (2 * (2 * PI / 365.25) * t)) +
    (c.getD 6 0 * Real.cos (3 * (2 * PI / 365.25) * t) +
      c.getD 7 0 * Real.sin (3 * (2 * PI / 365.25) * t))

/-- The regressors of a fit with `n` coefficients, without the constant: the date and one, two or three
harmonics of the year. -/
noncomputable def regressors (n : ℤ) (t : ℝ) : List ℝ :=
  [t, Real.cos (2 * PI / 365.25 * t), Real.sin (2 * PI / 365.25 * t)] ++
    (if n ≥ 6 then [Real.cos (2 * (2 * PI / 365.25) * t), Real.sin (2 * (2 * PI / 365.25) * t)]
      else []) ++
    (if n ≥ 8 then [Real.cos (3 * (2 * PI / 365.25) * t), Real.sin (3 * (2 * PI / 365.25) * t)]
      else [])

/-- The curve found by the solver: intercept first, then one coefficient per regressor. -/
noncomputable def solverCurve (n : ℤ) (s : List ℝ) (t : ℝ) : ℝ :=
  s.getD 0 0 + ((List.range (regressors n t).length).map
    (fun j => s.getD (j + 1) 0 * (regressors n t).getD j 0)).sum

/-- At least half of the values are not above `v`, and at least half not below. -/
def Middle (l : List ℝ) (v : ℝ) : Prop :=
  l.length ≤ 2 * l.countP (fun x => x ≤ v) ∧ l.length ≤ 2 * l.countP (fun x => v ≤ x)

/-- Distance of two dates within the year: to the nearest multiple of 365.25 days. -/
noncomputable def yearDistance (t u : ℤ) : ℝ := ⨅ k : ℤ, |((t - u : ℤ) : ℝ) - k * 365.25|

end Pycold.ColdNum.Spec
