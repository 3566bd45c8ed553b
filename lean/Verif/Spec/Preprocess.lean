import Verif.Model.Preprocess
/-!
# Specification vocabulary for C01–C04 (observation screening)

Nothing here refers to loops or accumulators; only the input data types are shared with the model.
-/
namespace Pycold
namespace Spec

/-- A spectral/thermal/QA tuple is physically usable (English of C01). -/
def Usable (bC2 : Bool) (o : Scene) : Prop :=
  (-200 < o.b ∧ o.b < 10000) ∧ (0 < o.g ∧ o.g < 10000) ∧ (0 < o.r ∧ o.r < 10000) ∧
  (0 < o.n ∧ o.n < 10000) ∧ (0 < o.s1 ∧ o.s1 < 10000) ∧ (0 < o.s2 ∧ o.s2 < 10000) ∧
  (bC2 = false → o.t ≠ 0 → -9320 < o.t * 10 - 27320 ∧ o.t * 10 - 27320 < 7070) ∧
  o.qa < 255

/-- QA codes the program knows. -/
def KnownQa (q : Int) : Prop := q = 0 ∨ q = 1 ∨ q = 2 ∨ q = 3 ∨ q = 4 ∨ q = 255

instance (q : Int) : Decidable (KnownQa q) := by unfold KnownQa; infer_instance

/-- Number of scenes with a given QA code. -/
def qaCount (obs : List Scene) (q : Int) : Nat := obs.countP (fun o => o.qa == q)

/-- Any two scenes, however far apart, are in date order. -/
def DatesInOrder (obs : List Scene) : Prop := obs.Pairwise (fun x y => x.date ≤ y.date)

/-- A scene that takes part in fitting: clear or water, and usable. -/
def ClearUsable (bC2 : Bool) (o : Scene) : Prop := o.qa < 2 ∧ Usable bC2 o

/-- The clear observation made from a scene: its date and its seven band values; the thermal band is
converted from 0.1 K to 0.01 °C except that 0 stays 0 for Collection 2. -/
def toClr (bC2 : Bool) (o : Scene) : ClrObs :=
  ⟨o.date, [o.b, o.g, o.r, o.n, o.s1, o.s2,
    if bC2 = true ∧ o.t = 0 then 0 else o.t * 10 - 27320]⟩

end Spec

end Pycold
