import Verif.Model.Fallback
import Verif.Spec.Preprocess
import Verif.Spec.Misc
/-!
# Vocabulary for the fallback fit (C22)

Only the data types `Scene`, `Band`, `Rec` of the model are used, none of its functions.
-/
namespace Pycold.Fallback.Spec

open Pycold

/-- The seven bands of a scene in the order of the record. -/
def fields (bC2 : Bool) : List (Scene → Int) :=
  [fun o => o.b, fun o => o.g, fun o => o.r, fun o => o.n, fun o => o.s1, fun o => o.s2,
   fun o => if bC2 then 0 else o.t * 10 - 27320]

/-- Scenes flagged snow, clear or water. -/
def snowScenes (scenes : List Scene) : List Scene :=
  scenes.filter (fun o => decide (o.qa = 3) || decide (o.qa < 2))

/-- The range tested for band `k`. -/
def InRange (k : Nat) (v : Int) : Prop := if k = 6 then -9320 < v ∧ v < 7070 else 0 < v ∧ v < 10000

instance (k : Nat) (v : Int) : Decidable (InRange k v) := by unfold InRange; infer_instance

/-- The (date, value) pairs of band `k` that are in range. -/
def goodPairs (k : Nat) (f : Scene → Int) (sel : List Scene) : List (Int × Option Int) :=
  (sel.filter (fun o => decide (InRange k (f o)))).map (fun o => (o.date, some (f o)))

/-- What band `k` should be: a fit of the pairs in range; for an optical band with fewer than 12 of them
the saturated curve. -/
def snowBand (k : Nat) (f : Scene → Int) (sel : List Scene) : Band :=
  if k ≠ 6 ∧ (goodPairs k f sel).length < 12 then .saturated else .fit (goodPairs k f sel)

/-- The pair occurred in the input, as date and value of one scene. -/
def Occurred (scenes : List Scene) (f : Scene → Int) (p : Int × Option Int) : Prop :=
  ∃ o ∈ scenes, p = (o.date, some (f o))

/-- `l` holds, in date order, the first usable scene of each date, whatever its QA code. -/
structure FirstUsable (bC2 : Bool) (scenes l : List Scene) : Prop where
  asc : l.Pairwise (fun a b => a.date < b.date)
  mem : ∀ o, o ∈ l ↔ ∃ i : Nat, scenes[i]? = some o ∧ Pycold.Spec.Usable bC2 o ∧
    ∀ (j : Nat) (p : Scene), j < i → scenes[j]? = some p → Pycold.Spec.Usable bC2 p → p.date ≠ o.date

end Pycold.Fallback.Spec
