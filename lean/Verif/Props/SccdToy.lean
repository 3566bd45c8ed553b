import Verif.Spec.Sccd
/-!
# A concrete numerical environment for S-CCD examples

The filter is the first value of the window it was fitted to; magnitudes are distances of the first band
from it.  Used only to show that hypotheses of theorems can be met and in counterexamples.
-/
namespace Pycold.Sccd.Toy
open Pycold.Sccd

def v0 (o : Obs) : Int := o.vals.headD 0
def dist (f : Int) (o : Obs) : Int := ((v0 o - f).natAbs : Nat)

def num : Num Int Int Unit where
  lt a b := decide (a < b)
  le a b := decide (a ≤ b)
  big := 1000000
  tcg := 10
  tmax := 400
  tmaxLb := 400
  nsign := 1
  gate := 5
  pred := 10
  mask w k := match w[k]? with | some o => decide (v0 o = 9000) | none => false
  unstable w := w.any (fun o => decide (dist (v0 (w.headD ⟨0, []⟩)) o > 100))
  lbMag w o := dist (v0 (w.headD ⟨0, []⟩)) o
  lbAngle _ _ := 0
  firstRec _ _ _ := ()
  fit _ w _ := v0 (w.headD ⟨0, []⟩)
  mag f _ o := dist f o
  angle _ _ _ := 0
  changeRec _ _ _ := ()
  filter f _ _ := f
  skip f _ _ := f
  endMag f _ o := dist f o
  endAngle _ _ _ := 0
  scale v := v
  narrow f := f
  snowFit _ := 0
  snowFilter f _ _ := f + 1

def env (conse : Nat) : Env Int Int Unit Unit where
  conse := conse
  bC2 := true
  num _ := num
  variogram _ := ()
  snowPct sn clr := decide (3 * clr < sn)

def zero : Model Int := ⟨0, 0, 0, [], 0, 0, 0, [], []⟩

/-- `n` scenes, every `gap` days from `day` on, all bands `v`, quality `qa`. -/
def scenesOf (day : Int) (gap : Int) (v qa : Int) : Nat → List Scene
  | 0 => []
  | n + 1 => ⟨day, v, v, v, v, v, v, 0, qa⟩ :: scenesOf (day + gap) gap v qa n

def isOk (e : Except Err (Pack Int Unit Unit)) (t : Pack Int Unit Unit → Bool) : Bool :=
  match e with
  | .ok q => t q
  | .error _ => false

theorem isOk_iff {e : Except Err (Pack Int Unit Unit)} {t : Pack Int Unit Unit → Bool} (h : isOk e t = true) :
    ∃ q, e = .ok q ∧ t q = true := by
  cases e with
  | error _ => simp [isOk] at h
  | ok q => exact ⟨q, rfl, h⟩

/-- The result of a call, as an option. -/
def get (e : Except Err (Pack Int Unit Unit)) : Pack Int Unit Unit :=
  match e with
  | .ok q => q
  | .error _ => ⟨99, [], (), none, [], []⟩

end Pycold.Sccd.Toy
