import Verif.Spec.Preprocess
/-!
# Scenes that do not show the ground
-/
namespace Pycold.Hidden.Spec

/-- The quality code says cloud shadow, cloud or fill: the ground cannot be seen. -/
def Hidden (o : Scene) : Prop := o.qa = 2 ∨ o.qa = 4 ∨ o.qa = 255

/-- The ground cannot be seen, or is covered by snow. -/
def NotClear (o : Scene) : Prop := Hidden o ∨ o.qa = 3

instance (o : Scene) : Decidable (Hidden o) := by unfold Hidden; infer_instance
instance (o : Scene) : Decidable (NotClear o) := by unfold NotClear; infer_instance

/-- Two series with the same scenes, up to scenes in which the ground cannot be seen: of these each series may have
any number, at any dates and with any band values. -/
def SameSeen (a b : List Scene) : Prop := a.filter (fun o => ¬ Hidden o) = b.filter (fun o => ¬ Hidden o)

/-- The same, up to scenes that are not clear. -/
def SameClear (a b : List Scene) : Prop := a.filter (fun o => ¬ NotClear o) = b.filter (fun o => ¬ NotClear o)

/-- A series of at least a year. -/
def Year (l : List Scene) : Prop := ∃ x y, l.head? = some x ∧ l.getLast? = some y ∧ 1461 ≤ 4 * (y.date - x.date)

end Pycold.Hidden.Spec
