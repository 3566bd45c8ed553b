import Verif.Spec.ColdExact
import Verif.Spec.Cold
/-!
# Series without a change, and with one (C79)

What the values of the clear observations must be like, band by band.
-/
namespace Pycold.ColdNum.Spec

/-- The bands of the change test: green, red, near infrared and the two short-wave infrared bands. -/
def testBands : List (Fin 7) := [1, 2, 3, 4, 5]

/-- The values of a band, in the order of the dates. -/
noncomputable def valuesOf (w : List ClrObs) (b : Fin 7) : List ℝ := w.map fun o => ((o.bands.getD b 0 : ℤ) : ℝ)

/-- The absolute differences of successive values. -/
noncomputable def jumps (l : List ℝ) : List ℝ := List.zipWith (fun a b => |b - a|) l l.tail

open Classical in
/-- More than half of the successive differences are at least `v`. -/
def MostlyAbove (l : List ℝ) (v : ℝ) : Prop := 2 * (jumps l).countP (fun d => d < v) < (jumps l).length

open Classical in
/-- More than half of the successive differences are at most `v`. -/
def MostlyBelow (l : List ℝ) (v : ℝ) : Prop := 2 * (jumps l).countP (fun d => v < d) < (jumps l).length

/-- All values of `w` lie between `lo` and `hi`, not more than 40 apart. -/
structure Within (w : List ClrObs) (lo hi : Fin 7 → ℝ) : Prop where
  range : ∀ b ∈ testBands, ∀ y ∈ valuesOf w b, lo b ≤ y ∧ y ≤ hi b
  width : ∀ b ∈ testBands, hi b - lo b ≤ 40

/-- From one observation to the next the values of the series mostly change by at least `v`. -/
structure Noisy (w : List ClrObs) (v : Fin 7 → ℝ) : Prop where
  pos : ∀ b ∈ testBands, 0 < v b
  noise : ∀ b ∈ testBands, MostlyAbove (valuesOf w b) (v b)

/-- A sum over the bands of the change test. -/
noncomputable def bandSum (f : Fin 7 → ℝ) : ℝ := (testBands.map f).sum

/-- The numbers of observations the first model can be tried on: the first `m`, where `m` is the least number of at
least 12 that spans a year. -/
structure FirstYear (w : List ClrObs) (m : ℕ) : Prop where
  twelve : 12 ≤ m
  year : ∀ a b, w[0]? = some a → w[m - 1]? = some b → 1461 ≤ 4 * (b.date - a.date)
  least : ∀ j, 12 ≤ j → j < m → ∀ a b, w[0]? = some a → w[j - 1]? = some b → 4 * (b.date - a.date) < 1461

/-- The gaps between successive dates among the first `m` are all allowed. -/
def NoGap (P : Cold.Params) (w : List ClrObs) (m : ℕ) : Prop :=
  ∀ k a b, k + 1 < m → w[k]? = some a → w[k + 1]? = some b → P.gapExceeds (b.date - a.date) = false

/-- The curve of the noise screening: a constant, the yearly cycle and the cycle of the whole window, `years` years
long, with five coefficients. -/
noncomputable def screenCurve (years : ℝ) (c : List ℝ) (t : ℝ) : ℝ :=
  c.getD 0 0 + c.getD 1 0 * Real.cos (2 * PI / 365.25 * t) + c.getD 2 0 * Real.sin (2 * PI / 365.25 * t) +
    c.getD 3 0 * Real.cos (2 * PI / 365.25 / years * t) + c.getD 4 0 * Real.sin (2 * PI / 365.25 / years * t)

/-- The regressors of the noise screening, without the constant. -/
noncomputable def screenRow (years : ℝ) (t : ℝ) : List ℝ :=
  [Real.cos (2 * PI / 365.25 * t), Real.sin (2 * PI / 365.25 * t), Real.cos (2 * PI / 365.25 / years * t),
    Real.sin (2 * PI / 365.25 / years * t)]

/-- The number of years of a window, rounded up. -/
noncomputable def yearsOf (w : List ClrObs) : ℝ :=
  (⌈(((w.map (·.date)).getLast?.getD 0 - (w.map (·.date)).head?.getD 0 : ℤ) : ℝ) / 365.25⌉ : ℤ)

/-- The noise screening flags none of the first `m` observations of the window `w`: in green (1) and SWIR1 (4) they
are within 4.42 times the noise floor of the curve found by the robust regression. -/
def Screened (robust : List (List ℝ) → List ℝ → List ℝ) (floor : Fin 7 → ℝ) (w : List ClrObs) (m : ℕ) : Prop :=
  ∀ b ∈ ([1, 4] : List (Fin 7)), ∀ (k : ℕ) o, k < m → w[k]? = some o →
    |((o.bands.getD b 0 : ℤ) : ℝ) - screenCurve (yearsOf w)
      (robust (w.map fun o => screenRow (yearsOf w) (o.date : ℝ)) (valuesOf w b)) (o.date : ℝ)| ≤ 4.42 * floor b

/-- The observations `w` differ, band by band, from every value between `lo` and `hi` by at least `least` and at most
`most`, all in the direction `dir` of the band. -/
structure Shifted (w : List ClrObs) (lo hi : Fin 7 → ℝ) (dir least most : Fin 7 → ℝ) : Prop where
  sign : ∀ b ∈ testBands, dir b = 1 ∨ dir b = -1
  pos : ∀ b ∈ testBands, 0 < least b
  far : ∀ b ∈ testBands, ∀ y ∈ valuesOf w b, least b ≤ dir b * (y - lo b) ∧ least b ≤ dir b * (y - hi b)
  near : ∀ b ∈ testBands, ∀ y ∈ valuesOf w b, dir b * (y - lo b) ≤ most b ∧ dir b * (y - hi b) ≤ most b

end Pycold.ColdNum.Spec
