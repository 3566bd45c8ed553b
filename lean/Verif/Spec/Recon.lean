import Verif.Model.Recon
import Verif.Spec.Stack
/-!
# What the third stage of OBCOLD should do

The vocabulary of C85.
-/
namespace Pycold.Recon.Spec

open Stack (Name Block Config)
open Stack.Spec (pixel)

/-- What the object analysis decided for one date: which pixels changed (0 or 1) and the break dates, both for the whole
tile. -/
structure Decision where
  change : List Nat
  dates : List Int

/-- Both images have the size of the tile, and the first is a map of zeros and ones. -/
def Decision.Sized (c : Config) (x : Decision) : Prop :=
  x.change.length = c.nRows * c.nCols ∧ x.dates.length = c.nRows * c.nCols ∧ ∀ v ∈ x.change, v = 0 ∨ v = 1

/-- The break of a pixel at one date: its date if the pixel changed and has one (dates below zero are fill), else 0. -/
def Decision.break_ (x : Decision) (k : Nat) : Int :=
  if x.change.getD k 0 = 1 ∧ 0 < x.dates.getD k 0 then x.dates.getD k 0 else 0

/-- The arguments that belong to pixel `pos` of block (`i`, `j`): the dates and bands of the block's stack, the breaks of
that pixel in the order of the dates, and its number in the tile, from 1. -/
def callOf (c : Config) (decided : Nat → Decision) (dates : List Nat) (stack : List (Int × Block)) (conse i j pos : Nat) :
    Call where
  dates := stack.map (·.1)
  bands := fun b => stack.map fun x => (x.2.getD pos []).getD b 0
  breaks := dates.map fun d => (decided d).break_ (pixel c i j pos)
  pos := pixel c i j pos + 1
  conse := conse
  bC2 := false

/-- In the folder there are, of files beginning with `obiaresult`, only those of an earlier run with the same dates. -/
def OnlyEarlierRun (c : Config) (dates : List Nat) (dir : Store) : Prop :=
  ∀ f ∈ dir, obiaresult <+: f.1 →
    ∃ d ∈ dates, ∃ i j, i < c.nby ∧ j < c.nbx ∧ f.1 = obiaName d (j + 1) (i + 1)

/-- Ordinals with six digits: 0274-10-16 to 2738-11-27. -/
def SixDigits (dates : List Nat) : Prop := ∀ d ∈ dates, 100000 ≤ d ∧ d < 1000000

end Pycold.Recon.Spec
