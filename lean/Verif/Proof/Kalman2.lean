import Verif.Proof.Kalman
import Mathlib.Algebra.QuadraticDiscriminant
/-!
# The covariance recursion
-/
namespace Pycold.Kalman

open Matrix Spec

/-- The variance of a combination of the states. -/
def q (S : Mat) (x : Vec) : ℝ := x ⬝ᵥ (S *ᵥ x)

theorem symU_symm (P : Mat) (i j : Fin 6) : symU P i j = symU P j i := by
  simp only [symU, Matrix.of_apply]
  rcases lt_trichotomy i j with h | h | h
  · simp [le_of_lt h, not_le.mpr h]
  · subst h; rfl
  · simp [le_of_lt h, not_le.mpr h]

theorem symU_transpose (P : Mat) : (symU P)ᵀ = symU P := by
  ext i j
  exact symU_symm P j i

theorem symU_of_symm {P : Mat} (h : ∀ i j, P i j = P j i) : symU P = P := by
  ext i j
  simp only [symU, Matrix.of_apply]
  split
  · rfl
  · exact h j i

theorem symU_cov {P : Mat} (h : Covariance P) : Covariance (symU P) := by
  rw [symU_of_symm h.1]; exact h

theorem cross {S : Mat} (h : ∀ i j, S i j = S j i) (x z : Vec) : z ⬝ᵥ (S *ᵥ x) = x ⬝ᵥ (S *ᵥ z) := by
  have : Sᵀ = S := by ext i j; exact h j i
  rw [dotProduct_mulVec, ← mulVec_transpose, this, dotProduct_comm]

theorem cauchy {S : Mat} (h : Covariance S) (x z : Vec) : (x ⬝ᵥ (S *ᵥ z)) ^ 2 ≤ q S x * q S z := by
  have key : ∀ t : ℝ, 0 ≤ q S z * (t * t) + 2 * (x ⬝ᵥ (S *ᵥ z)) * t + q S x := by
    intro t
    have := h.2 (x + t • z)
    have e : (x + t • z) ⬝ᵥ (S *ᵥ (x + t • z)) =
        q S z * (t * t) + 2 * (x ⬝ᵥ (S *ᵥ z)) * t + q S x := by
      rw [mulVec_add, mulVec_smul, dotProduct_add, add_dotProduct, add_dotProduct, dotProduct_smul,
        dotProduct_smul, smul_dotProduct, smul_dotProduct, cross h.1 x z]
      simp only [q, smul_eq_mul]
      ring
    rwa [e] at this
  have := discrim_le_zero key
  simp only [discrim] at this
  nlinarith

theorem Q_nonneg (r : ℝ) (x : Vec) : 0 ≤ x ⬝ᵥ ((ssm r).Q *ᵥ x) := by
  have e : (ssm r).Q = Matrix.diagonal (fun i : Fin 6 => if (i : Nat) = 1 then (0.1 / 1000000 : ℝ) else 0.1) := by
    ext i j
    by_cases h : i = j
    · subst h; simp [ssm]
    · simp [ssm, h]
  rw [e, dotProduct]
  apply Finset.sum_nonneg
  intro i _
  rw [mulVec_diagonal]
  have : 0 ≤ (if (i : Nat) = 1 then (0.1 / 1000000 : ℝ) else 0.1) := by split <;> norm_num
  nlinarith [mul_nonneg this (mul_self_nonneg (x i))]

theorem missing_cov {P : Mat} (r : ℝ) (h : Covariance (symU P)) : Covariance (missing (ssm r) P) := by
  constructor
  · intro i j
    have : (missing (ssm r) P)ᵀ = missing (ssm r) P := by
      have hQ : ((ssm r).Q)ᵀ = (ssm r).Q := by
        ext i j
        by_cases h : i = j
        · subst h; rfl
        · simp [ssm, h, Ne.symm h]
      simp only [missing, transpose_add, transpose_mul, transpose_transpose, symU_transpose, hQ, Matrix.mul_assoc]
    exact congrFun (congrFun this j) i
  · intro x
    simp only [missing, add_mulVec, dotProduct_add]
    refine add_nonneg ?_ (Q_nonneg r x)
    have e : x ⬝ᵥ (((ssm r).T * symU P * ((ssm r).T)ᵀ) *ᵥ x) =
        (((ssm r).T)ᵀ *ᵥ x) ⬝ᵥ (symU P *ᵥ (((ssm r).T)ᵀ *ᵥ x)) := by
      rw [← mulVec_mulVec, ← mulVec_mulVec, dotProduct_mulVec, ← mulVec_transpose]
    rw [e]
    exact h.2 _

theorem missing_iter_cov {P : Mat} (r : ℝ) : ∀ (n : Nat) (P : Mat), Covariance P →
    Covariance ((missing (ssm r))^[n] P)
  | 0, _, h => h
  | n + 1, P, h => missing_iter_cov (P := P) r n _ (missing_cov r (symU_cov h))

/-- The gain vector and the variance of the residual. -/
noncomputable def gain (P : Mat) (r : ℝ) : Vec := symU P *ᵥ (ssm r).Z
noncomputable def resVar (P : Mat) (r : ℝ) : ℝ := (ssm r).Z ⬝ᵥ gain P r + r

theorem symU_syr (al : ℝ) (x : Vec) (P : Mat) : symU (syr al x P) = symU P + al • vecMulVec x x := by
  ext i j
  simp only [symU, syr, Matrix.of_apply, Matrix.add_apply, Matrix.smul_apply, vecMulVec_apply, smul_eq_mul]
  by_cases h : i ≤ j
  · simp only [h, if_true]; ring
  · have h' : j ≤ i := le_of_lt (not_le.mp h)
    simp only [h, h', if_false, if_true]; ring

theorem q_rank1 (S : Mat) (al : ℝ) (k x : Vec) : q (S + al • vecMulVec k k) x = q S x + al * (x ⬝ᵥ k) ^ 2 := by
  simp only [q, add_mulVec, dotProduct_add, smul_mulVec, dotProduct_smul, smul_eq_mul]
  congr 1
  have : vecMulVec k k *ᵥ x = (k ⬝ᵥ x) • k := by
    ext i
    simp only [mulVec, dotProduct, vecMulVec_apply, Pi.smul_apply, smul_eq_mul, Finset.sum_mul]
    exact Finset.sum_congr rfl (fun j _ => by ring)
  rw [this, dotProduct_smul, dotProduct_comm k x, smul_eq_mul]
  ring

theorem update_cov {P : Mat} {r : ℝ} (hr : 0 ≤ r) (h : Covariance (symU P)) (hf : 0 < resVar P r) :
    Covariance (symU (syr (-(1 / resVar P r)) (gain P r) P)) := by
  rw [symU_syr]
  constructor
  · intro i j
    simp only [Matrix.add_apply, Matrix.smul_apply, vecMulVec_apply, symU_symm P i j, mul_comm (gain P r i)]
  · intro x
    have e := q_rank1 (symU P) (-(1 / resVar P r)) (gain P r) x
    simp only [q] at e
    rw [e]
    have c := cauchy h x (ssm r).Z
    have hx := h.2 x
    simp only [q] at c
    have hz : (ssm r).Z ⬝ᵥ (symU P *ᵥ (ssm r).Z) ≤ resVar P r := by
      simp only [resVar, gain]; linarith
    have : (x ⬝ᵥ gain P r) ^ 2 ≤ x ⬝ᵥ (symU P *ᵥ x) * resVar P r :=
      le_trans c (mul_le_mul_of_nonneg_left hz hx)
    have h2 : (1 / resVar P r) * (x ⬝ᵥ gain P r) ^ 2 ≤ x ⬝ᵥ (symU P *ᵥ x) := by
      rw [one_div, inv_mul_le_iff₀ hf]
      linarith
    linarith

theorem TOL_pos : 0 < TOL := by unfold TOL; norm_num

theorem valid_cov {P : Mat} {r : ℝ} (hr : 0 ≤ r) (y : ℝ) (a : Vec) (h : Covariance (symU P)) :
    Covariance (valid (ssm r) y a P).2.1 := by
  unfold valid
  have hk : symU P *ᵥ (ssm r).Z = gain P r := rfl
  have hf : (ssm r).Z ⬝ᵥ gain P r + (ssm r).H = resVar P r := rfl
  simp only [hk, hf]
  split
  · rename_i hgt
    exact missing_cov r (update_cov hr h (lt_trans TOL_pos hgt))
  · exact missing_cov r h

theorem regular_cov {r : ℝ} (hr : 0 ≤ r) (y : ℝ) (t next : Int) (s : St) (h : Covariance s.P) :
    Covariance (regular (ssm r) y t next s).P := by
  unfold regular
  split
  · exact h
  · exact missing_iter_cov (P := s.P) r _ _ (valid_cov hr y _ (symU_cov h))

theorem falseChange_cov {r : ℝ} (t next : Int) (s : St) (h : Covariance s.P) :
    Covariance (falseChange (ssm r) t next s).P :=
  missing_iter_cov (P := s.P) r _ _ h

theorem filterAll_cov {r : ℝ} (hr : 0 ≤ r) : ∀ (l : List (Int × ℝ)) (s : St), Covariance s.P →
    Covariance (filterAll (ssm r) l s).P
  | [], _, h => h
  | [_], _, h => h
  | a :: b :: rest, s, h => by
    unfold filterAll
    exact filterAll_cov hr (b :: rest) _ (regular_cov hr a.2 a.1 b.1 s h)

theorem initP_zero_cov : Covariance (initP 0) := by
  have e : initP 0 = Matrix.diagonal (fun i : Fin 6 => if (i : Nat) = 1 then (10000 / 1000000 : ℝ) else 10000) := by
    ext i j
    by_cases h : i = j
    · subst h; simp [initP]
    · simp [initP, h]
  rw [e]
  constructor
  · intro i j
    by_cases h : i = j
    · subst h; rfl
    · simp [h, Ne.symm h]
  · intro x
    rw [dotProduct]
    apply Finset.sum_nonneg
    intro i _
    rw [mulVec_diagonal]
    have : 0 ≤ (if (i : Nat) = 1 then (10000 / 1000000 : ℝ) else 10000) := by split <;> norm_num
    nlinarith [mul_nonneg this (mul_self_nonneg (x i))]

end Pycold.Kalman
