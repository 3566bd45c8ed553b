import Verif.Spec.Preprocess
import Mathlib.Data.List.Forall2
/-!
# Clear scenes that cannot be used, and further scenes of a day
-/
namespace Pycold.Repeats.Spec
open Pycold.Spec

/-- The quality code says clear land or water. -/
def Clear (o : Scene) : Prop := o.qa = 0 ∨ o.qa = 1

/-- The earlier scenes have a clear one of this date with usable values. -/
def Repeated (c2 : Bool) (l : List Scene) (i : Nat) (o : Scene) : Prop :=
  ∃ j p, j < i ∧ l[j]? = some p ∧ ClearUsable c2 p ∧ p.date = o.date

/-- Two series with the same dates that are the same up to clear scenes which, in both, have a value outside the
physical range or come after a usable clear scene of their date. -/
def SameUse (c2 : Bool) (a b : List Scene) : Prop :=
  a.length = b.length ∧ ∀ i x y, a[i]? = some x → b[i]? = some y → x = y ∨
    (x.date = y.date ∧ Clear x ∧ Clear y ∧ (¬ Usable c2 x ∨ Repeated c2 a i x) ∧ (¬ Usable c2 y ∨ Repeated c2 b i y))

/-- Two series with the same dates that are the same up to clear scenes which, in both, have a value outside the
physical range. -/
def SameUsable (c2 : Bool) (a b : List Scene) : Prop :=
  List.Forall₂ (fun x y => x = y ∨ (x.date = y.date ∧ Clear x ∧ Clear y ∧ ¬ Usable c2 x ∧ ¬ Usable c2 y)) a b

end Pycold.Repeats.Spec
