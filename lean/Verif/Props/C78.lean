import Verif.Proof.GlmnetStop
import Verif.Proof.GlmnetCurve
import Verif.Proof.ColdNumToyReal
import Verif.Props.C69_C73
import Verif.Props.C76
/-!
# C78: the curves are those of the LASSO

The solver of the fits (`src/cxx/GLMnet.f`) in exact arithmetic.  Up to here it was an arbitrary function.
-/
namespace Pycold.Glmnet

open Pycold.Glmnet.Spec
open Pycold.ColdNum.Spec (regressors solverCurve storedCurve exact)

variable {n p : ℕ}

/-! ### The solver -/

/-- **C78, the loop ends.**  Nothing but convergence ends the loop of the solver.  In exact arithmetic it converges,
after at most 2/thr² + 1 passes: with this or any larger number of passes the result is the same model, with an
intercept and a coefficient for every regressor. -/
theorem C78_terminates {lam thr : ℝ} (hl : 0 ≤ lam) (ht : 0 < thr) {x : Fin n → Fin p → ℝ} (hx : Varies x)
    (y : Fin n → ℝ) : ∃ c, c.length = p + 1 ∧
      ∀ fuel, 2 * ⌊1 / thr ^ 2⌋₊ + 1 ≤ fuel → cGlmnet lam thr fuel x y = some c :=
  terminates hl ht hx y

/-- **C78, the model is the best one (partial: up to the tolerance `thr` of the loop).**  Compared with any other
model, the one returned costs at most a little more, in proportion to the distance between the two. -/
theorem C78_optimal_partial {lam thr : ℝ} (hl : 0 ≤ lam) (ht : 0 < thr) {x : Fin n → Fin p → ℝ} {y : Fin n → ℝ}
    {fuel : ℕ} {c : List ℝ} (h : cGlmnet lam thr fuel x y = some c) (d : List ℝ) :
    cost lam x y c ≤ cost lam x y d +
      (p - 1) * thr * spread y * ∑ j : Fin p, spread (fun i => x i j) * |d.getD (j + 1) 0 - c.getD (j + 1) 0| :=
  optimal hl ht h d

/-- With one regressor it is the best one. -/
theorem C78_optimal_one {lam thr : ℝ} (hl : 0 ≤ lam) (ht : 0 < thr) {x : Fin n → Fin 1 → ℝ} {y : Fin n → ℝ}
    {fuel : ℕ} {c : List ℝ} (h : cGlmnet lam thr fuel x y = some c) (d : List ℝ) :
    cost lam x y c ≤ cost lam x y d := by
  simpa using optimal hl ht h d

/-- **C78, sizes.**  The mean square error is at most the variance of the values, the coefficients together are at
most half that variance over `lam`, and the errors sum to zero. -/
theorem C78_sizes {lam thr : ℝ} (hl : 0 < lam) (ht : 0 < thr) {x : Fin n → Fin p → ℝ} {y : Fin n → ℝ}
    {fuel : ℕ} {c : List ℝ} (h : cGlmnet lam thr fuel x y = some c) :
    (∑ i, (y i - fit x c i) ^ 2) / n ≤ spread y ^ 2 ∧
    ∑ j : Fin p, spread (fun i => x i j) * |c.getD (j + 1) 0| ≤ spread y ^ 2 / (2 * lam) ∧
    ∑ i, (y i - fit x c i) = 0 := by
  have h1 := no_worse hl.le ht h
  unfold cost at h1
  have h2 : 0 ≤ (∑ i, (y i - fit x c i) ^ 2) / (2 * n : ℝ) := by positivity
  have h3 : 0 ≤ ∑ j : Fin p, spread (fun i => x i j) * |c.getD (j + 1) 0| :=
    Finset.sum_nonneg fun j _ => mul_nonneg (Real.sqrt_nonneg _) (abs_nonneg _)
  have h4 := mul_nonneg hl.le h3
  refine ⟨?_, ?_, unbiased hl.le ht h⟩
  · have e : (∑ i, (y i - fit x c i) ^ 2) / (n : ℝ) = 2 * ((∑ i, (y i - fit x c i) ^ 2) / (2 * n : ℝ)) := by
      rw [← div_div, div_right_comm, mul_div_cancel₀ _ (two_ne_zero)]
    rw [e]
    linarith
  · rw [le_div_iff₀ (by linarith)]
    linarith

/-- **C78, small variation.**  If the standard deviation of the values is at most `lam`, the model is their mean. -/
theorem C78_flat {lam thr : ℝ} (ht : 0 < thr) {x : Fin n → Fin p → ℝ} {y : Fin n → ℝ} (hs : spread y ≤ lam)
    {fuel : ℕ} {c : List ℝ} (h : cGlmnet lam thr fuel x y = some c) : c = mean y :: List.replicate p 0 :=
  flat ht hs h

/-- Regressors of three observations with a solution. -/
example : ∃ c, c.length = 3 ∧ cGlmnet (n := 3) (p := 2) 20 0.0001 200000001 (fun i j => if j = 0 then i else 5)
    (fun i => 100 * i) = some c := by
  obtain ⟨c, h1, h2⟩ := C78_terminates (lam := 20) (thr := 0.0001) (by norm_num) (by norm_num)
    (x := fun (i : Fin 3) (j : Fin 2) => if j = 0 then (i : ℝ) else 5) ⟨0, 0, 1, by norm_num⟩ (fun i => 100 * i)
  exact ⟨c, h1, h2 _ (by norm_num)⟩

/-- **C78: it is not exactly the best one.**  With the settings of the program (`lam` = 20, `thr` = 0.0001), two
correlated regressors, and values with a large part that they do not explain, the first pass already moves no
coefficient by more than `thr` in units of the spread of the values: the solver stops there, and another model is
cheaper.  So the tolerance in `C78_optimal_partial` cannot be dropped. -/
theorem C78_not_minimal : ∃ (x : Fin 4 → Fin 2 → ℝ) (y : Fin 4 → ℝ) (c d : List ℝ), Varies x ∧ d.length = 3 ∧
    (∀ fuel, 1 ≤ fuel → cGlmnet 20 0.0001 fuel x y = some c) ∧ cost 20 x y d < cost 20 x y c := by
  refine ⟨stopX, stopY, [0, 1, 4], [0, 0, 4], ?_, rfl, ?_, stop_cost⟩
  · obtain ⟨i, k, _, h⟩ := stop_used 0
    exact ⟨0, i, k, h⟩
  · intro fuel h
    obtain ⟨f, rfl⟩ : ∃ f, fuel = f + 1 := ⟨fuel - 1, by omega⟩
    exact stop_result f

/-! ### Curves -/

/-- **C78, curves (partial: up to the tolerance).**  For observations on at least two days, the solver returns `m`
coefficients, and no curve with `m` coefficients costs less, but for the tolerance: a part (m − 2)/10000 of the
standard deviation of the values, times the distance of the curves. -/
theorem C78_curve_partial {m : ℤ} (hm : m = 4 ∨ m = 6 ∨ m = 8) {w : List (ℤ × ℝ)}
    (hw : ∃ o ∈ w, ∃ q ∈ w, o.1 ≠ q.1) {fuel : ℕ} (hf : 200000001 ≤ fuel) :
    let s := lasso fuel (w.map fun o => regressors m (o.1 : ℝ)) (w.map (·.2))
    s.length = m ∧
    (∀ d, curveCost m w s ≤ curveCost m w d + (m - 2) / 10000 * spreadOf (w.map (·.2)) * apart m w s d) ∧
    (w.map fun o => o.2 - solverCurve m s (o.1 : ℝ)).sum = 0 ∧
    (w.map fun o => (o.2 - solverCurve m s (o.1 : ℝ)) ^ 2).sum / w.length ≤ spreadOf (w.map (·.2)) ^ 2 ∧
    (spreadOf (w.map (·.2)) ≤ 20 → ∀ t, solverCurve m s t = (w.map (·.2)).sum / w.length) := by
  intro s
  have hw0 : w ≠ [] := by
    rintro rfl
    obtain ⟨o, ho, _⟩ := hw
    cases ho
  obtain ⟨c, hc, hr⟩ := C78_terminates (lam := 20) (thr := 0.0001) (by norm_num) (by norm_num) (varies_curve hm hw)
    (fun i => w[i].2)
  have hr := hr fuel (le_trans (by norm_num) hf)
  have hs : s = c := by
    show lasso _ _ _ = c
    rw [lasso_eq hm hw0, hr]
    rfl
  rw [hs]
  have hlen : ((m - 1).toNat : ℤ) = m - 1 := by omega
  have hlenR : (((m - 1).toNat : ℕ) : ℝ) = m - 1 := by exact_mod_cast hlen
  obtain ⟨z1, _, z3⟩ := C78_sizes (by norm_num) (by norm_num) hr
  simp only [fit_curve hm] at z1 z3
  refine ⟨by rw [hc]; push_cast; omega, fun d => ?_, ?_, ?_, ?_⟩
  · have h := C78_optimal_partial (by norm_num) (by norm_num) hr d
    rw [cost_curve hm, cost_curve hm, hlenR] at h
    unfold apart regSpread
    rw [sum_range_fin, spreadOf_map]
    simp only [spreadOf_map]
    calc _ ≤ _ := h
      _ = _ := by ring
  · rw [sum_map_fin]; exact z3
  · rw [sum_map_fin, spreadOf_map]; exact z1
  · intro h20 t
    rw [spreadOf_map] at h20
    have hf := C78_flat (by norm_num) h20 hr
    have hg : ∀ j, c.getD (j + 1) 0 = 0 := by
      intro j
      rw [hf, List.getD_cons_succ, List.getD_eq_getElem?_getD, List.getElem?_replicate]
      split <;> rfl
    have h0 : c.getD 0 0 = (w.map (·.2)).sum / w.length := by
      rw [hf, List.getD_cons_zero, sum_map_fin]
      rfl
    unfold solverCurve
    simp only [hg, zero_mul, h0]
    simp

/-- Four days, with a trend. -/
example : ∃ o ∈ ([(730000, 500), (730016, 530), (730032, 560), (730048, 590)] : List (ℤ × ℝ)),
    ∃ q ∈ ([(730000, 500), (730016, 530), (730032, 560), (730048, 590)] : List (ℤ × ℝ)), o.1 ≠ q.1 :=
  ⟨(730000, 500), by simp, (730016, 530), by simp, by norm_num⟩

theorem two_days {w : List (ℤ × ℝ)} (hs : (w.map (·.1)).Pairwise (· < ·)) (hl : 2 ≤ w.length) :
    ∃ o ∈ w, ∃ q ∈ w, o.1 ≠ q.1 := by
  match w, hl with
  | o :: q :: w, _ =>
    refine ⟨o, by simp, q, by simp, ?_⟩
    simp only [List.map_cons, List.pairwise_cons] at hs
    have := hs.1 q.1 (by simp)
    omega

/-- **C78, records of COLD (partial: up to the tolerance).**  The stored curve of every band of every record is the
cheapest curve with the record's number of coefficients for the record's observations, but for the tolerance. -/
theorem C78_cold_record_partial {P : Cold.Params} {E : ColdNum.Env ℝ (Fin 7)} (hA : E.A = exact) {fuel : ℕ}
    (hf : 200000001 ≤ fuel) (hE : E.lasso = lasso fuel) {bC2 : Bool} {obs : List Scene} {nCm : Nat}
    (hc : 1 ≤ P.conse) (hs : Cold.Spec.CmSized P (obs.map (·.date)) nCm) {out : ColdNum.Output ℝ (Fin 7)}
    (h : ColdNum.cold P E bC2 obs nCm = .standard (.ok out)) (r : ColdNum.Rec ℝ (Fin 7)) (hr : r ∈ out.recs)
    (b : Fin 7) :
    let m := ColdV.Spec.coefCount r.category
    let w := r.fitted.map fun o => (o.date, o.y b)
    ∃ f s, r.model = some f ∧ (∀ t : ℝ, storedCurve (f b).coefs t = solverCurve m s t) ∧
      (∀ d, curveCost m w s ≤ curveCost m w d + (m - 2) / 10000 * spreadOf (w.map (·.2)) * apart m w s d) ∧
      (w.map fun o => o.2 - storedCurve (f b).coefs (o.1 : ℝ)).sum = 0 ∧
      (spreadOf (w.map (·.2)) ≤ 20 → ∀ t, storedCurve (f b).coefs t = (w.map (·.2)).sum / w.length) := by
  intro m w
  obtain ⟨f, q1, q2, _, _, q5, _⟩ := C72_record_curve hA hc hs h r hr b
  rw [hE] at q5
  obtain ⟨out', e', hrec⟩ := C69_record_data hc hs h
  cases e'
  obtain ⟨_, g2, _⟩ := hrec r hr
  have hl : 6 ≤ r.fitted.length := by
    obtain ⟨ω, hω⟩ := ColdNum.cold_core P E bC2 obs nCm
    rw [h] at hω
    have hr' : ColdV.Rec.core r ∈ (ColdV.Output.core out).recs := List.mem_map_of_mem hr
    have h6 := (C10_num_obs hc hs hω _ hr').2.2.2.2.1
    have : (ColdV.Rec.core r).fitted.length = r.fitted.length := by
      show (r.fitted.map (·.date)).length = _
      rw [List.length_map]
    omega
  have e1 : w.map (·.1) = r.fitted.map (·.date) := by rw [List.map_map]; rfl
  have e2 : w.map (·.2) = r.fitted.map (fun o => o.y b) := by rw [List.map_map]; rfl
  have e3 : (w.map fun o => regressors m (o.1 : ℝ)) = r.fitted.map (fun o => regressors m (o.date : ℝ)) := by
    rw [List.map_map]; rfl
  obtain ⟨_, k2, k3, _, k5⟩ := C78_curve_partial (m := m) q2 (w := w)
    (two_days (by rw [e1]; exact g2) (by rw [List.length_map]; omega)) hf
  have q5' : ∀ t : ℝ, storedCurve (f b).coefs t =
      solverCurve m (lasso fuel (w.map fun o => regressors m (o.1 : ℝ)) (w.map (·.2))) t := by
    rw [e2, e3]; exact q5
  refine ⟨f, _, q1, q5', k2, ?_, ?_⟩
  · simp only [q5']; exact k3
  · intro h20 t
    rw [q5' t]; exact k5 h20 t

/-- A record of 25 observations. -/
example : ∃ E : ColdNum.Env ℝ (Fin 7), E.A = exact ∧ E.lasso = lasso 200000001 ∧ 1 ≤ ColdNum.Toy.rP.conse ∧
    Cold.Spec.CmSized ColdNum.Toy.rP (ColdNum.Toy.robs.map (·.date)) 0 ∧
    ∃ out, ColdNum.cold ColdNum.Toy.rP E false ColdNum.Toy.robs 0 = .standard (.ok out) ∧
      ∃ r ∈ out.recs, r.category = 24 ∧ r.fitted.length = 25 :=
  ⟨ColdNum.program exact (lasso 200000001) ColdNum.Toy.first 15, rfl, rfl, by decide, nofun,
    ColdNum.Toy.real_record_with _⟩

/-- **C78, fits of S-CCD (partial: up to the tolerance).**  The curves that S-CCD fits (`fitted`, used in C76 and C77
for the start of every filter and for the first record) are such curves too. -/
theorem C78_sccd_fit_partial {m : ℤ} (hm : m = 4 ∨ m = 6 ∨ m = 8) (b : Fin 6) {w : List Sccd.Obs} (ha : Sccd.Asc w)
    (hl : 2 ≤ w.length) {fuel : ℕ} (hf : 200000001 ≤ fuel) :
    let v := w.map fun o => (o.date, (o.vals.getD b 0 : ℝ))
    ∃ s, (∀ t, SccdNum.Spec.fitted (lasso fuel) m b w t = solverCurve m s t) ∧
      (∀ d, curveCost m v s ≤ curveCost m v d + (m - 2) / 10000 * spreadOf (v.map (·.2)) * apart m v s d) ∧
      SccdNum.Spec.squares (lasso fuel) m b w / w.length ≤ spreadOf (v.map (·.2)) ^ 2 := by
  intro v
  have e1 : (v.map fun o => regressors m (o.1 : ℝ)) = w.map (fun o => regressors m (o.date : ℝ)) := by
    rw [List.map_map]; rfl
  have e2 : v.map (·.2) = w.map (fun o => (o.vals.getD b 0 : ℝ)) := by rw [List.map_map]; rfl
  obtain ⟨_, k2, _, k4, _⟩ := C78_curve_partial (m := m) hm (w := v)
    (two_days (by rw [List.map_map]; exact List.pairwise_map.mpr ha) (by rw [List.length_map]; exact hl)) hf
  refine ⟨_, fun t => ?_, k2, ?_⟩
  · rw [e1, e2]; rfl
  · unfold SccdNum.Spec.squares
    rw [List.length_map] at k4
    convert k4 using 2
    rw [e1, e2, List.map_map]
    rfl

set_option maxRecDepth 100000 in
/-- The series of C76. -/
example : Sccd.Asc (Sccd.fresh false false SccdNum.Toy.robs) ∧
    2 ≤ (Sccd.fresh false false SccdNum.Toy.robs).length :=
  ⟨by unfold Sccd.Asc; decide +kernel, by decide +kernel⟩

end Pycold.Glmnet
