import Mathlib.Algebra.BigOperators.Ring.Finset
import Mathlib.Algebra.Order.BigOperators.Ring.Finset
import Mathlib.Tactic.Linarith
import Mathlib.Tactic.Ring
import Mathlib.Tactic.FieldSimp
import Verif.Model.Glmnet
import Verif.Spec.Lasso
import Verif.Proof.Misc
/-! Coordinate descent: invariant, descent, optimality (C78). -/
namespace Pycold.Glmnet

variable {n p : ℕ}

/-! ### The quadratic -/

/-- What the coefficients leave of `y`. -/
noncomputable def res (A : Args n p) (y : Fin n → ℝ) (a : Fin p → ℝ) (i : Fin n) : ℝ := y i - ∑ k, a k * A.x i k

noncomputable def grad (A : Args n p) (y : Fin n → ℝ) (a : Fin p → ℝ) (j : Fin p) : ℝ := ∑ i, res A y a i * A.x i j

noncomputable def gram (A : Args n p) (j k : Fin p) : ℝ := ∑ i, A.x i j * A.x i k

/-- The cost in standardised units. -/
noncomputable def phi (A : Args n p) (y : Fin n → ℝ) (a : Fin p → ℝ) : ℝ :=
  (∑ i, res A y a i ^ 2) / 2 + A.ab * ∑ k, |a k|

/-- The properties of the call: standardised variables, no ridge penalty, room for all variables. -/
structure Good (A : Args n p) : Prop where
  xv : ∀ k, A.xv k = 1
  dem : A.dem = 0
  ab : 0 ≤ A.ab
  unit : ∀ k, A.ju k → ∑ i, A.x i k ^ 2 = 1
  room : p ≤ A.nx
  thr : 0 < A.thr

theorem sum_update (f : Fin p → ℝ → ℝ) (a : Fin p → ℝ) (k : Fin p) (v : ℝ) :
    ∑ j, f j (Function.update a k v j) = ∑ j, f j (a j) + (f k v - f k (a k)) := by
  rw [← Finset.add_sum_erase _ _ (Finset.mem_univ k), ← Finset.add_sum_erase Finset.univ (fun j => f j (a j)) (Finset.mem_univ k)]
  have : ∑ j ∈ Finset.univ.erase k, f j (Function.update a k v j) = ∑ j ∈ Finset.univ.erase k, f j (a j) := by
    apply Finset.sum_congr rfl
    intro j hj
    rw [Function.update_of_ne (Finset.ne_of_mem_erase hj)]
  rw [this, Function.update_self]
  ring

theorem res_update (A : Args n p) (y : Fin n → ℝ) (a : Fin p → ℝ) (k : Fin p) (v : ℝ) (i : Fin n) :
    res A y (Function.update a k v) i = res A y a i - (v - a k) * A.x i k := by
  unfold res
  rw [sum_update (fun j t => t * A.x i j)]
  ring

theorem grad_update (A : Args n p) (y : Fin n → ℝ) (a : Fin p → ℝ) (k : Fin p) (v : ℝ) (j : Fin p) :
    grad A y (Function.update a k v) j = grad A y a j - gram A j k * (v - a k) := by
  unfold grad gram
  simp only [res_update]
  rw [Finset.sum_mul, ← Finset.sum_sub_distrib]
  exact Finset.sum_congr rfl (fun i _ => by ring)

theorem gram_comm (A : Args n p) (j k : Fin p) : gram A j k = gram A k j :=
  Finset.sum_congr rfl (fun i _ => mul_comm _ _)

theorem gram_le {A : Args n p} (h : Good A) {j k : Fin p} (hj : A.ju j) (hk : A.ju k) : |gram A j k| ≤ 1 := by
  have h1 := Finset.sum_mul_sq_le_sq_mul_sq Finset.univ (fun i => A.x i j) (fun i => A.x i k)
  rw [h.unit j hj, h.unit k hk, one_mul] at h1
  exact abs_le_one_iff_mul_self_le_one.mpr (by unfold gram; nlinarith)

theorem gram_self {A : Args n p} (h : Good A) {k : Fin p} (hk : A.ju k) : gram A k k = 1 := by
  rw [← h.unit k hk]
  exact Finset.sum_congr rfl (fun i _ => by ring)

/-- The subgradient of the penalty at `a`. -/
def Sub (ab z a : ℝ) : Prop := |z| ≤ ab ∧ z * a = ab * |a|

theorem newCoef_sub {A : Args n p} (h : Good A) (k : Fin p) (u : ℝ) : Sub A.ab (u - newCoef A k u) (newCoef A k u) := by
  have hab := h.ab
  unfold newCoef Sub
  simp only [h.xv, h.dem, one_mul, add_zero, div_one]
  split
  · rename_i hv
    rw [abs_of_pos hv]
    split
    · rename_i hu
      rw [abs_of_nonneg hu] at hv ⊢
      rw [abs_of_nonneg (by linarith : 0 ≤ u - (u - A.ab)), abs_of_pos hv]
      constructor
      · linarith
      · ring
    · rename_i hu
      rw [not_le] at hu
      rw [abs_of_neg hu] at hv ⊢
      rw [abs_of_nonpos (by linarith : u - -(-u - A.ab) ≤ 0), abs_of_neg (by linarith : -(-u - A.ab) < 0)]
      constructor
      · linarith
      · ring
  · rename_i hv
    simp only [sub_zero, mul_zero, abs_zero]
    exact ⟨by linarith [not_lt.mp hv], trivial⟩

theorem Sub.le {ab z a b : ℝ} (h : Sub ab z a) : z * (b - a) ≤ ab * |b| - ab * |a| := by
  have : z * b ≤ ab * |b| := by
    calc z * b ≤ |z * b| := le_abs_self _
      _ = |z| * |b| := abs_mul _ _
      _ ≤ ab * |b| := mul_le_mul_of_nonneg_right h.1 (abs_nonneg _)
  rw [mul_sub, h.2]
  linarith

/-- Changing one coefficient lowers the cost by at least half the square of the step. -/
theorem descent {A : Args n p} (h : Good A) (y : Fin n → ℝ) (a : Fin p → ℝ) (k : Fin p) (hk : A.ju k) :
    let v := newCoef A k (grad A y a k + a k)
    phi A y (Function.update a k v) + (v - a k) ^ 2 / 2 ≤ phi A y a := by
  intro v
  have hs : Sub A.ab (grad A y a k + a k - v) v := newCoef_sub h k _
  have h1 := hs.le (b := a k)
  unfold phi
  simp only [res_update]
  rw [sum_update (fun _ t => |t|)]
  have e : ∑ i, (res A y a i - (v - a k) * A.x i k) ^ 2 = ∑ i, res A y a i ^ 2 - 2 * (v - a k) * grad A y a k +
      (v - a k) ^ 2 := by
    have : ∀ i, (res A y a i - (v - a k) * A.x i k) ^ 2 = res A y a i ^ 2 - 2 * (v - a k) * (res A y a i * A.x i k) +
        (v - a k) ^ 2 * A.x i k ^ 2 := fun i => by ring
    simp only [this]
    rw [Finset.sum_add_distrib, Finset.sum_sub_distrib, ← Finset.mul_sum, ← Finset.mul_sum, h.unit k hk, mul_one]
    rfl
  rw [e]
  nlinarith

/-- A point whose gradient is close to a subgradient is close to the minimum. -/
theorem near_minimum {A : Args n p} (y : Fin n → ℝ) (a b : Fin p → ℝ) (ε : ℝ)
    (ha : ∀ k, A.ju k → ∃ z, Sub A.ab z (a k) ∧ |grad A y a k - z| ≤ ε)
    (hb : ∀ k, ¬ A.ju k → b k = a k) :
    phi A y a ≤ phi A y b + ε * ∑ k, |b k - a k| := by
  have hr : ∀ i, res A y b i = res A y a i - ∑ k, (b k - a k) * A.x i k := by
    intro i
    unfold res
    simp only [sub_mul, Finset.sum_sub_distrib]
    ring
  have h1 : ∑ i, res A y a i ^ 2 - 2 * ∑ k, (b k - a k) * grad A y a k ≤ ∑ i, res A y b i ^ 2 := by
    have e : ∑ k, (b k - a k) * grad A y a k = ∑ i, res A y a i * ∑ k, (b k - a k) * A.x i k := by
      unfold grad
      simp only [Finset.mul_sum]
      rw [Finset.sum_comm]
      exact Finset.sum_congr rfl (fun i _ => Finset.sum_congr rfl (fun k _ => by ring))
    rw [e, Finset.mul_sum, ← Finset.sum_sub_distrib]
    apply Finset.sum_le_sum
    intro i _
    rw [hr i]
    nlinarith [sq_nonneg (∑ k, (b k - a k) * A.x i k)]
  have h2 : ∑ k, (b k - a k) * grad A y a k ≤ ∑ k, (A.ab * |b k| - A.ab * |a k| + ε * |b k - a k|) := by
    apply Finset.sum_le_sum
    intro k _
    by_cases hk : A.ju k
    · obtain ⟨z, hz, he⟩ := ha k hk
      have h3 := hz.le (b := b k)
      have h4 : (b k - a k) * (grad A y a k - z) ≤ ε * |b k - a k| := by
        calc (b k - a k) * (grad A y a k - z) ≤ |(b k - a k) * (grad A y a k - z)| := le_abs_self _
          _ = |b k - a k| * |grad A y a k - z| := abs_mul _ _
          _ ≤ |b k - a k| * ε := mul_le_mul_of_nonneg_left he (abs_nonneg _)
          _ = ε * |b k - a k| := mul_comm _ _
      nlinarith
    · rw [hb k hk]; simp
  rw [Finset.sum_add_distrib, Finset.sum_sub_distrib, ← Finset.mul_sum, ← Finset.mul_sum, ← Finset.mul_sum] at h2
  unfold phi
  linarith

end Pycold.Glmnet
