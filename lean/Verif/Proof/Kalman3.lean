import Verif.Proof.Kalman2
import Mathlib.Topology.Algebra.Order.Field
import Mathlib.Topology.Instances.Matrix
import Mathlib.Topology.Instances.Real.Lemmas
/-!
# One observation, series of observations, and what a second model starts from
-/
namespace Pycold.Kalman

open Matrix Spec Filter Topology

theorem toCoef_next (a : Vec) (t : Int) (r : ℝ) : toCoef ((ssm r).T *ᵥ a) (t + 1) = toCoef a t := by
  conv_lhs => rw [← toState_toCoef a t, T_state, toCoef_toState]

theorem predict_toCoef (a : Vec) (t : Int) (r : ℝ) : predict (toCoef a t) t = (ssm r).Z ⬝ᵥ a := by
  rw [← Z_state _ _ r, toState_toCoef]

theorem predVar_eq {P : Mat} (r : ℝ) (h : Covariance P) : (ssm r).Z ⬝ᵥ gain P r = predVar P := by
  simp only [gain, symU_of_symm h.1]; rfl

/-- The effect of one observation on the curve. -/
theorem regular_curve {r : ℝ} (y : ℝ) (t next : Int) (s : St) (h : Covariance s.P) (hn : t < next) :
    let s' := regular (ssm r) y t next s
    s'.vt = some (y - predict s.cft t) ∧
    (TOL < predVar s.P + r →
      predict s'.cft t = predict s.cft t + predVar s.P / (predVar s.P + r) * (y - predict s.cft t)) ∧
    (¬ TOL < predVar s.P + r → s'.cft = s.cft) := by
  obtain ⟨n, hn'⟩ : ∃ n, (next - t).toNat = n + 1 := ⟨(next - t).toNat - 1, by omega⟩
  simp only [regular, hn', valid]
  have hk : symU s.P *ᵥ (ssm r).Z = gain s.P r := rfl
  have hH : (ssm r).H = r := rfl
  simp only [hk, hH, predVar_eq r h, Z_state]
  by_cases hT : TOL < predVar s.P + r
  · have hT' : predVar s.P + r > TOL := hT
    simp only [hT', if_true, true_and, not_true, false_implies, and_true, true_implies]
    rw [toCoef_next, predict_toCoef _ _ r, dotProduct_add, dotProduct_smul, Z_state, predVar_eq r h, smul_eq_mul]
    have : 0 < predVar s.P + r := lt_trans TOL_pos hT
    field_simp
  · have hT' : ¬ predVar s.P + r > TOL := hT
    simp only [hT', if_false, true_and, hT, false_implies, not_false_eq_true, true_implies]
    rw [toCoef_next, toCoef_toState]

/-! ## the covariance does not depend on the observed values -/

/-- The covariance over consecutive days; `true`: a day with an observation. -/
noncomputable def covDays (r : ℝ) : List Bool → Mat → Mat
  | [], P => P
  | true :: l, P => covDays r l (valid (ssm r) 0 0 P).2.1
  | false :: l, P => covDays r l (missing (ssm r) P)

theorem valid_cov_eq (c : Ssm) (y y' : ℝ) (a a' : Vec) (P : Mat) : (valid c y a P).2.1 = (valid c y' a' P).2.1 := by
  unfold valid
  simp only
  split <;> rfl

theorem covDays_append (r : ℝ) : ∀ (l l' : List Bool) (P : Mat), covDays r (l ++ l') P = covDays r l' (covDays r l P)
  | [], _, _ => rfl
  | true :: l, l', P => by simp only [List.cons_append, covDays]; exact covDays_append r l l' _
  | false :: l, l', P => by simp only [List.cons_append, covDays]; exact covDays_append r l l' _

theorem covDays_missing (r : ℝ) : ∀ (n : Nat) (P : Mat), covDays r (List.replicate n false) P = (missing (ssm r))^[n] P
  | 0, _ => rfl
  | n + 1, P => by
    simp only [List.replicate_succ, covDays, Function.iterate_succ, Function.comp]
    exact covDays_missing r n _

/-- The days of one observation up to the next. -/
def daysOf (t next : Int) : List Bool :=
  match (next - t).toNat with
  | 0 => []
  | n + 1 => true :: List.replicate n false

theorem length_daysOf (t next : Int) : (daysOf t next).length = (next - t).toNat := by
  unfold daysOf
  split
  · rename_i h; simp [h]
  · rename_i n h; simp [h]

theorem regular_days (r y : ℝ) (t next : Int) (s : St) :
    (regular (ssm r) y t next s).P = covDays r (daysOf t next) s.P := by
  unfold regular daysOf
  cases (next - t).toNat with
  | zero => rfl
  | succ n =>
    simp only [covDays, covDays_missing]
    rw [valid_cov_eq (ssm r) y 0 _ 0 s.P]

/-- The days covered by a series. -/
def daysAll : List (Int × ℝ) → List Bool
  | a :: b :: rest => daysOf a.1 b.1 ++ daysAll (b :: rest)
  | _ => []

theorem filterAll_days (r : ℝ) : ∀ (l : List (Int × ℝ)) (s : St), (filterAll (ssm r) l s).P = covDays r (daysAll l) s.P
  | [], _ => rfl
  | [_], _ => rfl
  | a :: b :: rest, s => by
    unfold filterAll daysAll
    rw [filterAll_days r (b :: rest), covDays_append, regular_days]

theorem length_daysAll : ∀ (l : List (Int × ℝ)) (a b : Int × ℝ), l.head? = some a → l.getLast? = some b →
    b.1 - a.1 ≤ (daysAll l).length
  | [x], a, b, ha, hb => by
    simp at ha hb; subst ha; subst hb; simp
  | x :: y :: rest, a, b, ha, hb => by
    simp only [List.head?_cons, Option.some.injEq] at ha
    subst ha
    have := length_daysAll (y :: rest) y b rfl (by rw [← hb]; simp [List.getLast?_cons_cons])
    unfold daysAll
    simp only [List.length_append, length_daysOf]
    omega

/-! ## large observation variance -/

theorem missing_entry (r : ℝ) (P : Mat) :
    missing (ssm r) P 0 1 = symU P 0 1 + symU P 1 1 ∧ missing (ssm r) P 1 1 = symU P 1 1 + 1 / 10000000 := by
  constructor
  · simp only [missing, Matrix.add_apply, Matrix.mul_apply, Fin.sum_univ_six, transpose_apply]
    simp [ssm, entryT]
  · simp only [missing, Matrix.add_apply, Matrix.mul_apply, Fin.sum_univ_six, transpose_apply]
    simp [ssm, entryT]; norm_num

theorem missing_symm (r : ℝ) (P : Mat) : symU (missing (ssm r) P) = missing (ssm r) P := by
  apply symU_of_symm
  intro i j
  have : (missing (ssm r) P)ᵀ = missing (ssm r) P := by
    have hQ : ((ssm r).Q)ᵀ = (ssm r).Q := by
      ext i j
      by_cases h : i = j
      · subst h; rfl
      · simp [ssm, h, Ne.symm h]
    simp only [missing, transpose_add, transpose_mul, transpose_transpose, symU_transpose, hQ, Matrix.mul_assoc]
  exact congrFun (congrFun this j) i

/-- Without any information from observations the covariance of level and slope grows by at least the
variance of the slope per day. -/
theorem grow : ∀ (n : Nat) (P : Mat), symU P = P → 1 / 100 ≤ P 1 1 →
    P 0 1 + (n : ℝ) / 100 ≤ ((missing (ssm 0))^[n] P) 0 1
  | 0, P, _, _ => by simp
  | n + 1, P, hs, h1 => by
    have e := missing_entry 0 P
    rw [hs] at e
    have := grow n (missing (ssm 0) P) (missing_symm 0 P) (by rw [e.2]; linarith)
    rw [Function.iterate_succ, Function.comp]
    rw [e.1] at this
    push_cast
    linarith

theorem symU_cont : Continuous symU := by
  unfold symU
  refine continuous_matrix (fun i j => ?_)
  by_cases h : i ≤ j
  · simp only [Matrix.of_apply, h, if_true]; fun_prop
  · simp only [Matrix.of_apply, h, if_false]; fun_prop

theorem missing_cont : Continuous (missing (ssm 0)) := by
  unfold missing
  have := symU_cont
  fun_prop

theorem missing_ssm (r : ℝ) (P : Mat) : missing (ssm r) P = missing (ssm 0) P := rfl

theorem valid_tendsto {P : ℝ → Mat} {L : Mat} (h : Tendsto P atTop (𝓝 L)) :
    Tendsto (fun r => (valid (ssm r) 0 0 (P r)).2.1) atTop (𝓝 (missing (ssm 0) L)) := by
  have hg : Tendsto (fun r => gain (P r) r) atTop (𝓝 (gain L 0)) := by
    have : Continuous (fun S : Mat => gain S 0) := by
      unfold gain
      have := symU_cont
      fun_prop
    exact (this.tendsto L).comp h
  have hp : Tendsto (fun r => (ssm r).Z ⬝ᵥ gain (P r) r) atTop (𝓝 ((ssm 0).Z ⬝ᵥ gain L 0)) := by
    have : Continuous (fun v : Vec => (ssm 0).Z ⬝ᵥ v) := by fun_prop
    exact (this.tendsto _).comp hg
  have hf : Tendsto (fun r => resVar (P r) r) atTop atTop := hp.add_atTop tendsto_id
  have hinv : Tendsto (fun r => -(1 / resVar (P r) r)) atTop (𝓝 0) := by
    have := (tendsto_inv_atTop_zero.comp hf).neg
    simpa using this
  have hs : Tendsto (fun r => syr (-(1 / resVar (P r) r)) (gain (P r) r) (P r)) atTop (𝓝 (syr 0 (gain L 0) L)) := by
    refine tendsto_pi_nhds.mpr (fun i => tendsto_pi_nhds.mpr (fun j => ?_))
    have hij : Tendsto (fun r => P r i j) atTop (𝓝 (L i j)) :=
      (tendsto_pi_nhds.mp (tendsto_pi_nhds.mp h i) j)
    have gi := tendsto_pi_nhds.mp hg i
    have gj := tendsto_pi_nhds.mp hg j
    by_cases hle : i ≤ j
    · simp only [syr, Matrix.of_apply, hle, if_true]
      exact hij.add ((hinv.mul gi).mul gj)
    · simp only [syr, Matrix.of_apply, hle, if_false]
      exact hij
  have h0 : syr 0 (gain L 0) L = L := by
    ext i j
    simp [syr]
  rw [h0] at hs
  have hm := (missing_cont.tendsto L).comp hs
  refine hm.congr' ?_
  filter_upwards [hf.eventually_gt_atTop TOL] with r hr
  have hk : symU (P r) *ᵥ (ssm r).Z = gain (P r) r := rfl
  have hF : (ssm r).Z ⬝ᵥ gain (P r) r + (ssm r).H = resVar (P r) r := rfl
  simp only [valid, hk, hF, Function.comp]
  rw [if_pos hr]
  rfl

theorem covDays_tendsto : ∀ (l : List Bool) (P : ℝ → Mat) (L : Mat), Tendsto P atTop (𝓝 L) →
    Tendsto (fun r => covDays r l (P r)) atTop (𝓝 ((missing (ssm 0))^[l.length] L))
  | [], _, _, h => h
  | true :: l, P, L, h => by
    simp only [covDays, List.length_cons, Function.iterate_succ, Function.comp]
    exact covDays_tendsto l _ _ (valid_tendsto h)
  | false :: l, P, L, h => by
    simp only [covDays, List.length_cons, Function.iterate_succ, Function.comp]
    exact covDays_tendsto l _ _ ((missing_cont.tendsto L).comp h)

/-- With a level-slope covariance above 10 the reset diagonal no longer fits. -/
theorem not_cov {P : Mat} (h : 10 < P 0 1) : ¬ Covariance (symU (initP P)) := by
  intro hc
  have hs : symU (initP P) 0 1 = P 0 1 := by simp [symU, initP]
  have h0 : symU (initP P) 0 0 = 10000 := by simp [symU, initP]
  have h1 : symU (initP P) 1 1 = 1 / 100 := by simp [symU, initP]; norm_num
  have h10 : symU (initP P) 1 0 = P 0 1 := by rw [symU_symm, hs]
  have := hc.2 ![1, -1000, 0, 0, 0, 0]
  simp [dotProduct, mulVec, Fin.sum_univ_six, hs, h0, h1, h10] at this
  linarith

/-- After enough days there is an observation variance for which a second model does not start from a
covariance matrix. -/
theorem second_start (l : List Bool) (hl : 1001 ≤ l.length) :
    ∃ r : ℝ, 0 < r ∧ ¬ Covariance (symU (initP (covDays r l (initP 0)))) := by
  have ht := covDays_tendsto l (fun _ => initP 0) (initP 0) tendsto_const_nhds
  have h01 := tendsto_pi_nhds.mp (tendsto_pi_nhds.mp ht 0) 1
  have hs : symU (initP 0) = initP 0 := symU_of_symm initP_zero_cov.1
  have hg := grow l.length (initP 0) hs (by simp [initP]; norm_num)
  have h00 : initP 0 0 1 = 0 := by simp [initP]
  rw [h00] at hg
  have hbig : (10 : ℝ) < ((missing (ssm 0))^[l.length] (initP 0)) 0 1 := by
    have : (1001 : ℝ) ≤ l.length := by exact_mod_cast hl
    linarith
  have hev := h01.eventually_const_lt hbig
  obtain ⟨r, hr1, hr2⟩ := (hev.and (eventually_gt_atTop 0)).exists
  exact ⟨r, hr2, not_cov hr1⟩

end Pycold.Kalman
