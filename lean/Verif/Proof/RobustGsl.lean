import Verif.Spec.Robust
import Mathlib.Analysis.InnerProductSpace.Projection.Basic
import Mathlib.Analysis.InnerProductSpace.PiL2
import Mathlib.LinearAlgebra.Basis.VectorSpace
import Mathlib.Data.List.GetD
/-! Functions with the documented behaviour of the least-squares solvers exist (C80). -/
namespace Pycold.Robust

open Pycold.Robust.Spec

/-- The fitted values, times the roots of the weights, as a linear function of the coefficients. -/
noncomputable def design (X : List (List ℝ)) (w : List ℝ) (p : ℕ) : (Fin p → ℝ) →ₗ[ℝ] EuclideanSpace ℝ (Fin X.length) where
  toFun c := WithLp.toLp 2 fun i => Real.sqrt (w.getD i 0) * ∑ j : Fin p, (X.getD i []).getD j 0 * c j
  map_add' a b := by
    ext i
    simp only [PiLp.add_apply, Pi.add_apply]
    rw [← mul_add, ← Finset.sum_add_distrib]
    congr 1
    apply Finset.sum_congr rfl
    intro j _
    ring
  map_smul' t a := by
    ext i
    simp only [PiLp.smul_apply, Pi.smul_apply, smul_eq_mul, RingHom.id_apply]
    rw [mul_left_comm t]
    congr 1
    rw [Finset.mul_sum]
    apply Finset.sum_congr rfl
    intro j _
    ring

/-- A linear choice of coefficients for each attainable vector of fitted values. -/
theorem section_exists (X : List (List ℝ)) (w : List ℝ) (p : ℕ) :
    ∃ g : LinearMap.range (design X w p) →ₗ[ℝ] (Fin p → ℝ), (design X w p).rangeRestrict ∘ₗ g = LinearMap.id :=
  (design X w p).rangeRestrict.exists_rightInverse_of_surjective (LinearMap.range_rangeRestrict _)

/-- The values, times the roots of the weights. -/
noncomputable def target (n : ℕ) (w y : List ℝ) : EuclideanSpace ℝ (Fin n) :=
  WithLp.toLp 2 fun i => Real.sqrt (w.getD i 0) * y.getD i 0

/-- The weighted least-squares solution. -/
noncomputable def solve (X : List (List ℝ)) (w y : List ℝ) : List ℝ :=
  List.ofFn ((section_exists X w (X.headD []).length).choose
    ((LinearMap.range (design X w (X.headD []).length)).orthogonalProjectionOnto (target X.length w y)))

theorem design_solve (X : List (List ℝ)) (w y : List ℝ) (p : ℕ) :
    design X w p ((section_exists X w p).choose
      ((LinearMap.range (design X w p)).orthogonalProjectionOnto (target X.length w y))) =
      (LinearMap.range (design X w p)).orthogonalProjectionOnto (target X.length w y) := by
  have h := (section_exists X w p).choose_spec
  have := LinearMap.congr_fun h ((LinearMap.range (design X w p)).orthogonalProjectionOnto (target X.length w y))
  exact congrArg Subtype.val this

theorem solve_min (X : List (List ℝ)) (w y : List ℝ) (p : ℕ) (c : Fin p → ℝ) :
    ‖target X.length w y - design X w p ((section_exists X w p).choose
      ((LinearMap.range (design X w p)).orthogonalProjectionOnto (target X.length w y)))‖ ≤
      ‖target X.length w y - design X w p c‖ := by
  rw [design_solve]
  have h := Submodule.starProjection_minimal (U := LinearMap.range (design X w p)) (target X.length w y)
  rw [Submodule.starProjection_apply] at h
  rw [h]
  exact ciInf_le (f := fun x : LinearMap.range (design X w p) => ‖target X.length w y - x‖)
    ⟨0, by rintro _ ⟨x, rfl⟩; exact norm_nonneg _⟩ ⟨design X w p c, LinearMap.mem_range_self _ _⟩

theorem value_sum {row c : List ℝ} {p : ℕ} (hr : row.length = p) (hc : c.length = p) :
    value row c = ∑ j : Fin p, row.getD j 0 * c.getD j 0 := by
  unfold value
  rw [← List.sum_ofFn]
  congr 1
  apply List.ext_getElem
  · simp [hr, hc]
  · intro i h1 h2
    rw [List.getElem_zipWith, List.getElem_ofFn]
    simp only [List.length_ofFn] at h2
    rw [List.getD_eq_getElem _ _ (by omega), List.getD_eq_getElem _ _ (by omega)]

theorem loss_norm {X : List (List ℝ)} {w y c : List ℝ} {p : ℕ} (h : Table X y p) (hw : w.length = y.length)
    (h0 : ∀ q ∈ w, 0 ≤ q) (hc : c.length = p) :
    loss X w y c = ‖target X.length w y - design X w p (fun j => c.getD j 0)‖ ^ 2 := by
  rw [EuclideanSpace.norm_sq_eq]
  unfold loss
  rw [← List.sum_ofFn]
  congr 1
  have hx := h.rows
  apply List.ext_getElem
  · simp [hx, hw]
  · intro i h1 h2
    rw [List.getElem_ofFn]
    simp only [List.length_ofFn] at h2
    rw [List.getElem_zipWith, List.getElem_zipWith]
    have e1 : (target X.length w y - design X w p (fun j => c.getD j 0)) ⟨i, h2⟩ =
        Real.sqrt (w.getD i 0) * (y.getD i 0) - Real.sqrt (w.getD i 0) * ∑ j : Fin p, (X.getD i []).getD j 0 * c.getD j 0 := rfl
    rw [e1, ← mul_sub, Real.norm_eq_abs, sq_abs, mul_pow, List.getD_eq_getElem w _ (by omega),
      List.getD_eq_getElem y _ (by omega), List.getD_eq_getElem X _ h2,
      Real.sq_sqrt (h0 _ (List.getElem_mem _)), value_sum (h.cols _ (List.getElem_mem _)) hc]

theorem solve_length {X : List (List ℝ)} {w y : List ℝ} {p : ℕ} (h : Table X y p) : (solve X w y).length = p := by
  unfold solve
  rw [List.length_ofFn]
  cases X with
  | nil => exact absurd rfl h.pos
  | cons r X => exact h.cols r (by simp)

theorem solve_least {X : List (List ℝ)} {w y c : List ℝ} {p : ℕ} (h : Table X y p) (hw : w.length = y.length)
    (h0 : ∀ q ∈ w, 0 ≤ q) (hc : c.length = p) : loss X w y (solve X w y) ≤ loss X w y c := by
  have hp : (X.headD []).length = p := by
    cases X with
    | nil => exact absurd rfl h.pos
    | cons r X => exact h.cols r (by simp)
  subst hp
  rw [loss_norm h hw h0 (solve_length h), loss_norm h hw h0 hc]
  have e : (fun j : Fin (X.headD []).length => (solve X w y).getD j 0) =
      (section_exists X w (X.headD []).length).choose
        ((LinearMap.range (design X w (X.headD []).length)).orthogonalProjectionOnto (target X.length w y)) := by
    funext j
    unfold solve
    rw [List.getD_eq_getElem _ _ (by rw [List.length_ofFn]; exact j.2), List.getElem_ofFn]
  rw [e]
  exact pow_le_pow_left₀ (norm_nonneg _) (solve_min X w y _ _) 2

theorem solve_scale (X : List (List ℝ)) (w y : List ℝ) (a : ℝ) : solve X w (y.map (a * ·)) = (solve X w y).map (a * ·) := by
  have e : target X.length w (y.map (a * ·)) = a • target X.length w y := by
    ext i
    unfold target
    simp only [PiLp.smul_apply, smul_eq_mul]
    have : (y.map (a * ·)).getD i 0 = a * y.getD i 0 := by
      rw [List.getD_eq_getElem?_getD, List.getD_eq_getElem?_getD, List.getElem?_map]
      cases y[(i : ℕ)]? <;> simp
    rw [this]
    ring
  unfold solve
  rw [e, map_smul, map_smul, List.map_ofFn]
  rfl

/-- Exact solvers; the leverage of an observation is the diagonal entry of the projection on the fitted values. -/
noncomputable def exactGsl : Gsl where
  linear X y := solve X (List.replicate y.length 1) y
  wlinear X w y := solve X w y
  leverage X := List.ofFn fun i : Fin X.length =>
    ‖(LinearMap.range (design X (List.replicate X.length 1) (X.headD []).length)).orthogonalProjectionOnto
      (EuclideanSpace.single i (1 : ℝ))‖ ^ 2

theorem exactGsl_leastSquares : LeastSquares exactGsl where
  linear_length _ _ _ h := solve_length h
  linear X y p c h hc := solve_least h (List.length_replicate ..)
    (fun q hq => by rw [(List.mem_replicate.1 hq).2]; exact zero_le_one) hc
  wlinear_length _ _ _ _ h := solve_length h
  wlinear _ _ _ _ _ h hw h0 hc := solve_least h hw h0 hc
  leverage_length _ := List.length_ofFn

theorem exactGsl_homogeneous : Homogeneous exactGsl where
  linear X y a := by
    show solve X (List.replicate (y.map (a * ·)).length 1) _ = _
    rw [List.length_map, solve_scale]
    rfl
  wlinear X w y a := solve_scale X w y a

end Pycold.Robust
