import Verif.Spec.Kalman
import Mathlib.Tactic.Ring
import Mathlib.Algebra.BigOperators.Fin
import Mathlib.Tactic.LinearCombination
import Mathlib.Tactic.NormNum
import Mathlib.Tactic.Linarith
import Mathlib.Tactic.FieldSimp
import Mathlib.Tactic.FinCases
import Mathlib.Tactic.Positivity
/-!
# Proofs about the Kalman filter of S-CCD
-/
namespace Pycold.Kalman

open Matrix Spec

theorem vec_ext {a b : Vec} (h0 : a 0 = b 0) (h1 : a 1 = b 1) (h2 : a 2 = b 2) (h3 : a 3 = b 3)
    (h4 : a 4 = b 4) (h5 : a 5 = b 5) : a = b := by
  funext i
  fin_cases i <;> assumption

theorem predict_curve (cft : Vec) (t : Int) : predict cft t = curve cft t := by
  unfold predict curve SLOPE_SCALE w PI
  have e : (2.0 : ℝ) = 2 := by norm_num
  simp only [e]
  rw [show ((t : ℝ) * (2 * 3.1415926535897935 / 365.25)) = 2 * 3.1415926535897935 / 365.25 * t by ring,
    show ((t : ℝ) * (2 * (2 * 3.1415926535897935 / 365.25))) = 2 * (2 * 3.1415926535897935 / 365.25) * t by ring]
  ring

theorem toCoef_toState (cft : Vec) (t : Int) : toCoef (toState cft t) t = cft := by
  have h1 := Real.sin_sq_add_cos_sq ((t : ℝ) * w)
  have h2 := Real.sin_sq_add_cos_sq ((t : ℝ) * 2 * w)
  apply vec_ext <;> simp [toCoef, toState, SLOPE_SCALE]
  · ring
  · linear_combination (cft 2) * h1
  · linear_combination (cft 3) * h1
  · linear_combination (cft 4) * h2
  · linear_combination (cft 5) * h2

theorem toState_toCoef (a : Vec) (t : Int) : toState (toCoef a t) t = a := by
  have h1 := Real.sin_sq_add_cos_sq ((t : ℝ) * w)
  have h2 := Real.sin_sq_add_cos_sq ((t : ℝ) * 2 * w)
  apply vec_ext <;> simp [toCoef, toState, SLOPE_SCALE]
  · ring
  · linear_combination (a 2) * h1
  · linear_combination (a 3) * h1
  · linear_combination (a 4) * h2
  · linear_combination (a 5) * h2

theorem Z_dot (x : Vec) (r : ℝ) : (ssm r).Z ⬝ᵥ x = x 0 + x 2 + x 4 := by
  simp [ssm, dotProduct, Fin.sum_univ_six]

theorem Z_state (cft : Vec) (t : Int) (r : ℝ) : (ssm r).Z ⬝ᵥ toState cft t = predict cft t := by
  rw [Z_dot]
  simp [toState, predict]
  rw [show ((t : ℝ) * 2 * w) = t * (2 * w) by ring]
  ring

theorem T_mulVec (a : Vec) (r : ℝ) : (ssm r).T *ᵥ a =
    ![a 0 + a 1, a 1, Real.cos w * a 2 + Real.sin w * a 3, -Real.sin w * a 2 + Real.cos w * a 3,
      Real.cos (w * 2) * a 4 + Real.sin (w * 2) * a 5, -Real.sin (w * 2) * a 4 + Real.cos (w * 2) * a 5] := by
  apply vec_ext <;> (simp only [ssm, mulVec, dotProduct, Fin.sum_univ_six, Matrix.of_apply]; simp [entryT])

theorem T_state (cft : Vec) (t : Int) (r : ℝ) : (ssm r).T *ᵥ toState cft t = toState cft (t + 1) := by
  rw [T_mulVec]
  have e1 : ((t + 1 : Int) : ℝ) * w = t * w + w := by push_cast; ring
  have e2 : ((t + 1 : Int) : ℝ) * 2 * w = t * 2 * w + w * 2 := by push_cast; ring
  have c1 := Real.cos_add ((t : ℝ) * w) w
  have s1 := Real.sin_add ((t : ℝ) * w) w
  have c2 := Real.cos_add ((t : ℝ) * 2 * w) (w * 2)
  have s2 := Real.sin_add ((t : ℝ) * 2 * w) (w * 2)
  rw [← e1] at c1 s1
  rw [← e2] at c2 s2
  apply vec_ext
  · simp [toState]; ring
  · simp [toState]
  · simp only [toState, Matrix.cons_val]; rw [c1, s1]; ring
  · simp only [toState, Matrix.cons_val]; rw [c1, s1]; ring
  · simp only [toState, Matrix.cons_val]; rw [c2, s2]; ring
  · simp only [toState, Matrix.cons_val]; rw [c2, s2]; ring

end Pycold.Kalman
