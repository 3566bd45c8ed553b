import Verif.Proof.ColdNumEnd
/-!
Concrete cases for C69–C71: integer arithmetic with the mean as solver, evaluated by the kernel.
-/
namespace Pycold.ColdNum.Toy

open Pycold.ColdNum Pycold.ColdNum.Spec

/-! ### Integer arithmetic -/

def isqrtGo (x : Int) : Nat → Int → Int
  | 0, g => g
  | f + 1, g => let h := (g + x / g) / 2; if h < g then isqrtGo x f h else g

def isqrt (x : Int) : Int := if x ≤ 0 then 0 else isqrtGo x 60 x

/-- Integer arithmetic; the trigonometric functions are constant. -/
def zA : Fl Int :=
  { add := (· + ·), sub := (· - ·), mul := (· * ·), div := Int.tdiv, neg := fun x => -x,
    abs := fun x => x.natAbs, sqrt := fun x => isqrt x, acos := fun _ => 0, cos := fun _ => 0,
    sin := fun _ => 0, lt := fun a b => decide (a < b), le := fun a b => decide (a ≤ b), ofInt := id,
    lit := fun n d => n.tdiv d, pi := 3, round := id, ceil := id, trunc := id }

def mean (_ : List (List Int)) (ys : List Int) : List Int := [ys.foldl (· + ·) 0 / ys.length]

def zE : Env Int (Fin 7) := program zA mean mean 75

def zP : Cold.Params :=
  { conse := 2, gapExceeds := fun d => decide (d > 400), bOutputCM := true, startingDate := 1,
    interval := 120 }

/-- Every 35 days, level 500, from the 17th scene on 2000, from the 25th scene on alternating between 500
and 4500. -/
def scene (k : Nat) : Scene :=
  let lev : Int := if k < 16 then 500 else if k < 24 then 2000 else if k % 2 = 0 then 500 else 4500
  let j : Int := (k % 2 : Nat) * 20
  ⟨1 + 35 * k, 300, lev + j, lev + j, lev + j, lev + j, lev + j, 2900, 0⟩

/-- The same with other blue and thermal values. -/
def scene' (k : Nat) : Scene := { scene k with b := 100 + 70 * k, t := 2500 + 13 * k }

def obs (n : Nat) : List Scene := (List.range n).map scene
def obs' (n : Nat) : List Scene := (List.range n).map scene'

/-- Dates, counts, green coefficients, RMSE and magnitude of a record. -/
structure Line where
  dates : List Int
  counts : List Int
  coefs : Option (List Int)
  rmse : Option Int
  magnitude : Option Int
deriving DecidableEq, Repr

def line (r : Rec Int (Fin 7)) : Line :=
  ⟨[r.tStart, r.tEnd, r.tBreak], [r.numObs, r.category, r.changeProb],
    r.model.map (fun (m : Fin 7 → Fit Int) => (m 1).coefs),
    r.model.map (fun (m : Fin 7 → Fit Int) => (m 1).rmse), r.magn.map (fun (g : Fin 7 → Int) => g 1)⟩

/-- The records and the change magnitudes. -/
def summary (r : Top (Except Cold.Err (Output Int (Fin 7)))) : Option (List Line × List Int) :=
  match r with
  | .standard (.ok o) => some (o.recs.map line, o.cm.out)
  | _ => none

/-- Four more scenes at the level of the last ones. -/
def more : List Scene := (List.range 4).map fun k =>
  let j : Int := (k % 2 : Nat) * 20
  ⟨841 + 35 * k, 300, 2000 + j, 2000 + j, 2000 + j, 2000 + j, 2000 + j, 2900, 0⟩

set_option maxRecDepth 100000

theorem run24 : summary (cold zP zE false (obs 24) 15) = some
    ([⟨[1, 526, 561], [16, 4, 100], some [510, 0, 0, 0, 0, 0, 0, 0], some 13, some 1500⟩,
      ⟨[561, 806, 0], [8, 24, 0], some [2010, 0, 0, 0, 0, 0, 0, 0], some 14, some 0⟩],
    [-9999, -9999, -9999, 0, 32767, -9999, -9999, -9999, -9999, -9999, -9999, -9999, -9999, -9999, -9999]) := by
  decide +kernel

theorem run28 : summary (cold zP zE false (obs 24 ++ more) 15) = some
    ([⟨[1, 526, 561], [16, 4, 100], some [510, 0, 0, 0, 0, 0, 0, 0], some 13, some 1500⟩,
      ⟨[561, 946, 0], [12, 24, 0], some [2010, 0, 0, 0, 0, 0, 0, 0], some 17, some 0⟩],
    [-9999, -9999, -9999, 0, 32767, -9999, -9999, -9999, -9999, -9999, -9999, -9999, -9999, -9999, -9999]) := by
  decide +kernel

theorem run49 : summary (cold zP zE false (obs 49) 15) = some
    ([⟨[1, 1681, 0], [47, 8, 0], some [1701, 0, 0, 0, 0, 0, 0, 0], some 1886, some 0⟩],
    [-9999, -9999, -9999, 0, 0, 0, 0, 0, 0, 0, 0, 0, 0, 0, -9999]) := by
  decide +kernel

/-- The noise floor of the reflective bands is 20 for both series. -/
theorem floor28 : ∀ b ∈ reflective,
    variogram zA (bandOf b (rowsOf zA (clearObs false (obs 24)))) =
      variogram zA (bandOf b (rowsOf zA (clearObs false (obs 24 ++ more)))) := by
  decide +kernel

theorem summary_some {t : Top (Except Cold.Err (Output Int (Fin 7)))} {v} (h : summary t = some v) :
    ∃ out, t = .standard (.ok out) ∧ v = (out.recs.map line, out.cm.out) := by
  unfold summary at h
  split at h
  · injection h with h
    exact ⟨_, rfl, h.symm⟩
  · cases h

end Pycold.ColdNum.Toy
