import Mathlib.Logic.Equiv.Defs
import Verif.Model.Sort
/-! Vocabulary for the sorting properties (only the data type `Arr` of the model is used). -/
namespace Pycold.Sort.Spec

open Pycold.Sort

variable {K B : Type}

/-- `lt` is a strict weak order: what `<` is on integers, and on floats that are not NaN. -/
structure StrictWeak (lt : K → K → Bool) : Prop where
  irrefl : ∀ a, lt a a = false
  trans : ∀ a b c, lt a b = true → lt b c = true → lt a c = true
  cotrans : ∀ a b c, lt a c = true → lt a b = true ∨ lt b c = true

/-- No later entry of `left..right` is smaller than an earlier one. -/
def Sorted (lt : K → K → Bool) (a : Int → K) (left right : Int) : Prop :=
  ∀ x y, left ≤ x → x < y → y ≤ right → lt (a y) (a x) = false

/-- `t` arises from `s` by permuting the rows `left..right`: key and companions of a row move
together, every other row stays where it is. -/
def Permuted (s t : Arr K B) (left right : Int) : Prop :=
  t.n = s.n ∧ t.nb = s.nb ∧
  ∃ σ : Equiv.Perm Int, (∀ k, ¬ (left ≤ k ∧ k ≤ right) → σ k = k) ∧
    (∀ k, t.arr k = s.arr (σ k)) ∧ (∀ b, b < s.nb → ∀ k, t.brr b k = s.brr b (σ k)) ∧
    (∀ b, s.nb ≤ b → t.brr b = s.brr b)

/-- The rows `l .. l+m-1` of an array as a list. -/
def window (a : Int → K) (l : Int) (m : Nat) : List K :=
  (List.range m).map (fun (k : Nat) => a (l + (k : Int)))

/-- Rows (key with all companions) as a list. -/
def rowWindow (s : Arr K B) (l : Int) (m : Nat) : List (K × List B) :=
  (List.range m).map (fun (k : Nat) =>
    (s.arr (l + (k : Int)), (List.range s.nb).map (fun b => s.brr b (l + (k : Int)))))

end Pycold.Sort.Spec
