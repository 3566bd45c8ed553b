import Verif.Model.Extent
/-!
# GeoJSON geometries and their positions
-/
namespace Pycold.Extent.Spec
open Pycold.Extent

mutual
/-- `IsGeometry n g ps`: `g` is a position (two coordinates and `n` further numbers, as the height) or a list of geometries,
and `ps` are the first two coordinates of its positions, in order. -/
inductive IsGeometry (n : Nat) : Geo → List (ℚ × ℚ) → Prop
  | position (x y : ℚ) (more : List ℚ) (h : more.length = n) :
      IsGeometry n (.list (.num x :: .num y :: more.map .num)) [(x, y)]
  | parts (gs : List Geo) (ps : List (ℚ × ℚ)) (h : AreGeometries n gs ps) : IsGeometry n (.list gs) ps

/-- A list of geometries. -/
inductive AreGeometries (n : Nat) : List Geo → List (ℚ × ℚ) → Prop
  | none : AreGeometries n [] []
  | more (g : Geo) (ps : List (ℚ × ℚ)) (gs : List Geo) (qs : List (ℚ × ℚ)) (h : IsGeometry n g ps) (h' : AreGeometries n gs qs) :
      AreGeometries n (g :: gs) (ps ++ qs)
end

/-- The box with these limits contains all points, and none of its sides can be moved inwards. -/
def IsBox (ps : List (ℚ × ℚ)) (x0 y0 x1 y1 : ℚ) : Prop :=
  (∀ p ∈ ps, x0 ≤ p.1 ∧ p.1 ≤ x1 ∧ y0 ≤ p.2 ∧ p.2 ≤ y1) ∧
  (∃ p ∈ ps, p.1 = x0) ∧ (∃ p ∈ ps, p.2 = y0) ∧ (∃ p ∈ ps, p.1 = x1) ∧ (∃ p ∈ ps, p.2 = y1)

end Pycold.Extent.Spec
