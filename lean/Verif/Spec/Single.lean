import Verif.Model.ColdNum
import Mathlib.Data.Int.Log
import Mathlib.Algebra.Order.Round
import Mathlib.Analysis.SpecialFunctions.Trigonometric.Inverse
/-!
# Arithmetic with 24 significant bits

The numbers of the type `float`, without limits of the exponent.  `none` is NaN (and infinity, which does not occur here).
-/
namespace Pycold.Single.Spec
open Pycold.ColdNum (Fl)

/-- The nearest number with 24 significant bits.  (In the middle between two such numbers, the larger; IEEE 754 takes the even
one.) -/
noncomputable def rnd (x : ℝ) : ℝ := (round (x / (2 : ℝ) ^ (Int.log 2 |x| - 23)) : ℝ) * (2 : ℝ) ^ (Int.log 2 |x| - 23)

/-- An operation on numbers: the nearest number to the exact result; NaN if one of the operands is. -/
noncomputable def op (f : ℝ → ℝ → ℝ) (a b : Option ℝ) : Option ℝ := a.bind fun x => b.map fun y => rnd (f x y)

open Classical in
/-- Single precision: every operation is exact up to the rounding of its result. -/
noncomputable def single : Fl (Option ℝ) where
  add := op (· + ·)
  sub := op (· - ·)
  mul := op (· * ·)
  div a b := if b = some 0 then none else op (· / ·) a b
  neg a := a.map (- ·)
  abs a := a.map (|·|)
  sqrt a := a.bind fun x => if x < 0 then none else some (rnd (Real.sqrt x))
  acos a := a.bind fun x => if |x| ≤ 1 then some (rnd (Real.arccos x)) else none
  cos a := a.map fun x => rnd (Real.cos x)
  sin a := a.map fun x => rnd (Real.sin x)
  lt a b := match a, b with
    | some x, some y => decide (x < y)
    | _, _ => false
  le a b := match a, b with
    | some x, some y => decide (x ≤ y)
    | _, _ => false
  ofInt n := some (rnd n)
  lit a b := some (rnd (a / b))
  pi := some (rnd (31415926535897935 / 10000000000000000))
  round a := a.map fun x => rnd (round x : ℤ)
  ceil a := (a.map fun x => ⌈x⌉).getD 0
  trunc a := (a.map fun x => if 0 ≤ x then ⌊x⌋ else ⌈x⌉).getD 0

/-- Converting the number to `short int` is defined: it is a number, and without its fraction it fits into 16 bits (C11,
6.3.1.4). -/
def Convertible (a : Option ℝ) : Prop := ∃ x, a = some x ∧ -32769 < x ∧ x < 32768

end Pycold.Single.Spec
