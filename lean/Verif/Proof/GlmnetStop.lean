import Verif.Model.Glmnet
import Verif.Spec.Lasso
import Verif.Proof.Misc
import Mathlib.Data.Fin.VecNotation
import Mathlib.Tactic.FinCases
/-!
# A case in which the LASSO solver stops before the minimum
-/
namespace Pycold.Glmnet

open Spec

/-- Two regressors with correlation 3/5. -/
noncomputable def stopX : Fin 4 → Fin 2 → ℝ := ![![1, 7/5], ![1, -1/5], ![-1, 1/5], ![-1, -7/5]]

/-- Values with a large part that neither regressor explains. -/
noncomputable def stopY : Fin 4 → ℝ := ![66636, -66594, -66606, 66564]

theorem sqrt_quarter : Real.sqrt (1 / ((4 : ℕ) : ℝ)) = 1 / 2 := by
  rw [show (1 / ((4 : ℕ) : ℝ)) = (1 / 2) ^ 2 by norm_num]
  exact Real.sqrt_sq (by norm_num)

theorem stop_xm (j : Fin 2) : xm stopX j = 0 := by
  unfold xm stopX
  fin_cases j <;> simp [Fin.sum_univ_four] <;> norm_num

theorem stop_xc (i : Fin 4) (j : Fin 2) : xc stopX i j = stopX i j / 2 := by
  unfold xc
  rw [sqrt_quarter, stop_xm]
  ring

theorem stop_xs (j : Fin 2) : xs stopX j = 1 := by
  unfold xs
  have : ∑ i, xc stopX i j * xc stopX i j = 1 := by
    simp only [stop_xc]
    unfold stopX
    fin_cases j <;> simp [Fin.sum_univ_four] <;> norm_num
  rw [this, Real.sqrt_one]

theorem stop_xt (i : Fin 4) (j : Fin 2) : xt stopX i j = stopX i j / 2 := by
  unfold xt
  rw [stop_xc, stop_xs, div_one]

theorem stop_ym : ym stopY = 0 := by
  unfold ym stopY
  simp [Fin.sum_univ_four]
  norm_num

theorem stop_yc (i : Fin 4) : yc stopY i = stopY i / 2 := by
  unfold yc
  rw [sqrt_quarter, stop_ym]
  ring

theorem stop_ys : 66600 ≤ ys stopY := by
  unfold ys
  apply Real.le_sqrt_of_sq_le
  simp only [stop_yc]
  unfold stopY
  simp [Fin.sum_univ_four]
  norm_num

theorem stop_used (j : Fin 2) : Used stopX j := by
  refine ⟨2, 0, rfl, ?_⟩
  unfold stopX
  fin_cases j <;> simp <;> norm_num

/-- The first pass ends with the coefficients 1 and 4 (in units of the spread of the values), and the loop ends. -/
theorem stop_elnetu (fuel : ℕ) : elnetu 1 20 0.0001 2 (fuel + 1) stopX stopY = some (0, [(0, 1), (1, 4)]) := by
  have hY := stop_ys
  generalize hys : ys stopY = Y at hY
  have hY0 : Y ≠ 0 := by linarith
  have hYp : 0 < Y := by linarith
  have hu := stop_used
  have g0 : (start stopX stopY).g 0 = 21 / Y := by
    unfold start
    simp only [hu, if_true, yt, hys, stop_xt, stop_yc]
    unfold stopX stopY
    simp [Fin.sum_univ_four]
    field_simp
    norm_num
  have g1 : (start stopX stopY).g 1 = (123 / 5) / Y := by
    unfold start
    simp only [hu, if_true, yt, hys, stop_xt, stop_yc]
    unfold stopX stopY
    simp [Fin.sum_univ_four]
    field_simp
    norm_num
  have c10 : ∑ i, (args 1 20 0.0001 2 stopX stopY).x i 1 * (args 1 20 0.0001 2 stopX stopY).x i 0 = 3 / 5 := by
    simp only [args, stop_xt]
    unfold stopX
    simp [Fin.sum_univ_four]
    norm_num
  have hab : (args 1 20 0.0001 2 stopX stopY).ab = 20 / Y := by
    simp only [args, hys]
    norm_num
  have hdem : (args 1 20 0.0001 2 stopX stopY).dem = 0 := by
    simp only [args]
    norm_num
  have hthr : (args 1 20 0.0001 2 stopX stopY).thr = 0.0001 := rfl
  have hju : ∀ j, (args 1 20 0.0001 2 stopX stopY).ju j := hu
  have hxv : ∀ j, (args 1 20 0.0001 2 stopX stopY).xv j = 1 := fun _ => rfl
  have hnx : (args 1 20 0.0001 2 stopX stopY).nx = 2 := rfl
  generalize hA : args 1 20 0.0001 2 stopX stopY = A at *
  have n0 : newCoef A 0 (21 / Y + 0 * 1) = 1 / Y := by
    unfold newCoef
    simp only [hab, hdem, hxv]
    have e : |21 / Y + 0 * 1| - 1 * (20 / Y) = 1 / Y := by
      rw [abs_of_pos (by positivity)]
      field_simp
      norm_num
    rw [e, if_pos (by positivity), if_pos (by positivity), abs_of_pos (by positivity)]
    norm_num
  have n1 : newCoef A 1 ((123 / 5) / Y - 3 / 5 * (1 / Y - 0) + 0 * 1) = 4 / Y := by
    unfold newCoef
    simp only [hab, hdem, hxv]
    have e1 : (123 / 5) / Y - 3 / 5 * (1 / Y - 0) + 0 * 1 = 24 / Y := by
      field_simp
      norm_num
    have e : |24 / Y| - 1 * (20 / Y) = 4 / Y := by
      rw [abs_of_pos (by positivity)]
      field_simp
      norm_num
    rw [e1, e, if_pos (by positivity), if_pos (by positivity), abs_of_pos (by positivity)]
    norm_num
  have hne0 : (1 : ℝ) / Y ≠ 0 := by positivity
  have hne1 : (4 : ℝ) / Y ≠ 0 := by positivity
  have hpass : ∃ s, fullPass A (start stopX stopY) = some (s, 4 / Y) ∧ s.ia = [0, 1] ∧ s.a 0 = 1 / Y ∧ s.a 1 = 4 / Y := by
    unfold fullPass
    have e : List.finRange 2 = [0, 1] := rfl
    rw [e]
    have f0 : ∃ s, fullStep A (start stopX stopY, 0) 0 = some (s, 1 / Y) ∧ s.ia = [0] ∧ s.a 0 = 1 / Y ∧ s.a 1 = 0 ∧
        s.g 1 = (123 / 5) / Y - 3 / 5 * (1 / Y - 0) ∧ s.mm 1 = 0 := by
      unfold fullStep
      have ha : (start stopX stopY).a 0 = 0 := rfl
      have hm : (start stopX stopY).mm 0 = 0 := rfl
      have hia : (start stopX stopY).ia = [] := rfl
      have hm' : ∀ j, (start stopX stopY).mm j = 0 := fun _ => rfl
      simp only [hju, not_true, if_false, ha, g0, hxv, n0, hne0, hm, if_true]
      unfold enter
      simp only [hia, hnx, List.length_nil]
      rw [if_neg (by norm_num)]
      simp only [Option.map_some]
      have hmax : max (|1 / Y - 0| / Real.sqrt 1) 0 = 1 / Y := by
        rw [sub_zero, Real.sqrt_one, div_one, abs_of_pos (by positivity)]
        exact max_eq_left (by positivity)
      rw [hmax]
      refine ⟨_, rfl, rfl, ?_, ?_, ?_, ?_⟩
      · simp
      · simp [start]
      · simp [g1, hm', hia, hju, c10]
      · simp [hm']
    obtain ⟨s, h0, i0, a0, a1, gg, mm⟩ := f0
    have f1 : ∃ s', fullStep A (s, 1 / Y) 1 = some (s', 4 / Y) ∧ s'.ia = [0, 1] ∧ s'.a 0 = 1 / Y ∧ s'.a 1 = 4 / Y := by
      unfold fullStep
      simp only [hju, not_true, if_false, a1, gg, hxv, n1, hne1, mm, if_true]
      unfold enter
      simp only [i0, hnx, List.length_cons, List.length_nil]
      rw [if_neg (by norm_num)]
      simp only [Option.map_some]
      have hmax : max (|4 / Y - 0| / Real.sqrt 1) (1 / Y) = 4 / Y := by
        rw [sub_zero, Real.sqrt_one, div_one, abs_of_pos (by positivity)]
        exact max_eq_left (by gcongr; norm_num)
      rw [hmax]
      refine ⟨_, rfl, rfl, ?_, ?_⟩
      · simp [a0]
      · simp
    obtain ⟨s', h1, i1, b0, b1⟩ := f1
    refine ⟨s', ?_, i1, b0, b1⟩
    simp only [List.foldlM_cons, List.foldlM_nil, h0, h1, Option.bind_eq_bind, Option.bind_some]
    rfl
  obtain ⟨s, h1, h2, h3, h4⟩ := hpass
  unfold elnetu
  rw [if_neg (fun h => h 0 (hu 0)), hA]
  have hp : passes A (fuel + 1) none (start stopX stopY) = some s := by
    unfold passes
    simp only [h1, hthr]
    rw [if_pos]
    rw [div_lt_iff₀ hYp]
    linarith
  simp only [hp, Option.map_some, h2, List.map_cons, List.map_nil, h3, h4, hys, stop_xs, stop_xm, stop_ym]
  have e1 : Y * (1 / Y) / 1 = 1 := by field_simp
  have e4 : Y * (4 / Y) / 1 = 4 := by field_simp
  rw [e1, e4]
  norm_num

theorem stop_result (fuel : ℕ) : cGlmnet 20 0.0001 (fuel + 1) stopX stopY = some [0, 1, 4] := by
  unfold cGlmnet
  rw [stop_elnetu]
  simp only
  obtain ⟨cfs, ia', e, q1, q2, _⟩ := Misc.glmExpand_ok (0 : ℝ) 2 [((0 : Fin 2), (1 : ℝ)), (1, 4)].length
    (fun k => [((0 : Fin 2), (1 : ℝ)), (1, 4)][k.toNat]?.elim 0 fun q => (q.1.val : Int) + 1) 0
    (fun k => [((0 : Fin 2), (1 : ℝ)), (1, 4)][k.toNat]?.elim 0 fun q => q.2)
    (by
      intro m hm
      have : m = 0 ∨ m = 1 := by simp at hm; omega
      rcases this with rfl | rfl <;> simp)
    (by
      intro a b ha hb h
      have h1 : a = 0 ∨ a = 1 := by simp at ha; omega
      have h2 : b = 0 ∨ b = 1 := by simp at hb; omega
      rcases h1 with rfl | rfl <;> rcases h2 with rfl | rfl <;> simp_all)
  rw [e]
  have r1 := q2 0 (by simp)
  have r2 := q2 1 (by simp)
  simp at r1 r2
  have hr : List.range 3 = [0, 1, 2] := rfl
  simp [hr, q1, r1, r2]

theorem stop_cost : cost 20 stopX stopY [0, 0, 4] < cost 20 stopX stopY [0, 1, 4] := by
  have hs : ∀ j, spread (fun i => stopX i j) = 1 := by
    intro j
    unfold spread mean
    have : (∑ i, (stopX i j - (∑ i, stopX i j) / ((4 : ℕ) : ℝ)) ^ 2) / ((4 : ℕ) : ℝ) = 1 := by
      unfold stopX
      fin_cases j <;> simp [Fin.sum_univ_four] <;> norm_num
    rw [this, Real.sqrt_one]
  unfold cost fit
  simp only [hs]
  unfold stopX stopY
  simp [Fin.sum_univ_four, Fin.sum_univ_two]
  norm_num

end Pycold.Glmnet
