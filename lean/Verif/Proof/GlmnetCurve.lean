import Verif.Proof.GlmnetUnits
import Verif.Proof.ColdNumReal
/-! The solver's guarantees, and those for curves (C78). -/
namespace Pycold.Glmnet

open Pycold.Glmnet.Spec

variable {n p : ℕ}

theorem terminates {lam thr : ℝ} (hl : 0 ≤ lam) (ht : 0 < thr) {x : Fin n → Fin p → ℝ} (hx : Varies x)
    (y : Fin n → ℝ) : ∃ c, c.length = p + 1 ∧
      ∀ fuel, 2 * ⌊1 / thr ^ 2⌋₊ + 1 ≤ fuel → cGlmnet lam thr fuel x y = some c := by
  obtain ⟨j, hj⟩ := (varies_iff x).mp hx
  have hu : ¬ ∀ j, ¬ Used x j := fun h => h j hj
  have hleft : left (args 1 lam thr p x y) (yt y) (start x y) ≤ ⌊1 / thr ^ 2⌋₊ := by
    unfold left
    apply Nat.floor_le_floor
    have := phi_start (lam := lam) (thr := thr) x y
    show 2 * _ / thr ^ 2 ≤ 1 / thr ^ 2
    exact div_le_div_of_nonneg_right (by linarith) (sq_nonneg _)
  have hok := fun fuel => passes_ok (good_args hl ht x y) fuel none (start x y) (start_ok x y).1 (start_ok x y).2
  obtain ⟨s, hs⟩ := (hok (2 * ⌊1 / thr ^ 2⌋₊ + 1)).2 (by simp only [Option.isSome_none, Bool.false_eq_true, if_false]; omega)
  have hall : ∀ k, passes (args 1 lam thr p x y) (2 * ⌊1 / thr ^ 2⌋₊ + 1 + k) none (start x y) = some s := by
    intro k
    induction k with
    | zero => exact hs
    | succ k ih => exact passes_mono _ _ _ _ _ ih
  have hd := ((hok _).1 s hs).inv
  obtain ⟨c, e, q1, _⟩ := expand hd hu hs
  refine ⟨c, q1, fun fuel hf => ?_⟩
  obtain ⟨k, rfl⟩ := Nat.exists_eq_add_of_le hf
  rw [← e]
  unfold cGlmnet elnetu
  rw [if_neg hu, if_neg hu, hall k, hs]

theorem optimal {lam thr : ℝ} (hl : 0 ≤ lam) (ht : 0 < thr) {x : Fin n → Fin p → ℝ} {y : Fin n → ℝ} {fuel : ℕ}
    {c : List ℝ} (h : cGlmnet lam thr fuel x y = some c) (d : List ℝ) :
    cost lam x y c ≤ cost lam x y d +
      (p - 1) * thr * spread y * ∑ j : Fin p, spread (fun i => x i j) * |d.getD (j + 1) 0 - c.getD (j + 1) 0| := by
  obtain ⟨hn, hp⟩ := Result.pos h
  have hp1 : (0 : ℝ) ≤ p - 1 := by
    have : (1 : ℝ) ≤ p := by exact_mod_cast hp
    linarith
  obtain ⟨s, hs⟩ := result_of hl ht h
  have hsum : 0 ≤ ∑ j : Fin p, spread (fun i => x i j) * |d.getD (j + 1) 0 - c.getD (j + 1) 0| :=
    Finset.sum_nonneg fun j _ => mul_nonneg (Real.sqrt_nonneg _) (abs_nonneg _)
  by_cases hy : ys y = 0
  · rw [cost_flat hn hy hs]
    have := cost_nonneg hl x y d
    have : 0 ≤ (p - 1) * thr * spread y := mul_nonneg (mul_nonneg hp1 ht.le) (Real.sqrt_nonneg _)
    have := mul_nonneg this hsum
    linarith
  · have h1 : cost lam x y c = ys y ^ 2 * phi (args 1 lam thr p x y) (yt y) s.a := by
      rw [cost_result hn hs, rest_phi (thr := thr) hn x y hy, std_result hy hs]
    have h2 := cost_ge lam hn x y d
    rw [rest_phi (thr := thr) hn x y hy] at h2
    have h3 := near_minimum (yt y) s.a (std x y d) ((p - 1) * thr) hs.done.near (by
      intro k hk
      have hx : xs x k = 0 := by
        by_contra hc
        exact hk ((used_iff x k).mpr hc)
      rw [← std_result hy hs]
      unfold std
      rw [hx]
      simp)
    have h4 : ∑ k, |std x y d k - s.a k| =
        (∑ j : Fin p, spread (fun i => x i j) * |d.getD (j + 1) 0 - c.getD (j + 1) 0|) / ys y := by
      rw [← std_result hy hs, Finset.sum_div]
      apply Finset.sum_congr rfl
      intro j _
      unfold std
      rw [← xs_spread, ← sub_div, ← sub_mul, abs_div, abs_mul,
        abs_of_nonneg (show 0 ≤ xs x j from Real.sqrt_nonneg _), abs_of_nonneg (ys_nonneg y)]
      ring
    rw [h4] at h3
    rw [h1, ← ys_spread]
    have h5 : ys y ^ 2 * ((p - 1) * thr * ((∑ j : Fin p, spread (fun i => x i j) *
        |d.getD (j + 1) 0 - c.getD (j + 1) 0|) / ys y)) = (p - 1) * thr * ys y *
        ∑ j : Fin p, spread (fun i => x i j) * |d.getD (j + 1) 0 - c.getD (j + 1) 0| := by
      field_simp
    have h6 := mul_le_mul_of_nonneg_left h3 (sq_nonneg (ys y))
    rw [mul_add, h5] at h6
    linarith

/-- Not worse than the mean. -/
theorem no_worse {lam thr : ℝ} (hl : 0 ≤ lam) (ht : 0 < thr) {x : Fin n → Fin p → ℝ} {y : Fin n → ℝ} {fuel : ℕ}
    {c : List ℝ} (h : cGlmnet lam thr fuel x y = some c) : cost lam x y c ≤ spread y ^ 2 / 2 := by
  obtain ⟨hn, _⟩ := Result.pos h
  obtain ⟨s, hs⟩ := result_of hl ht h
  by_cases hy : ys y = 0
  · rw [cost_flat hn hy hs]; positivity
  · rw [cost_result hn hs, rest_phi (thr := thr) hn x y hy, std_result hy hs, ← ys_spread]
    have := mul_le_mul_of_nonneg_left (hs.done.lower.trans (phi_start x y)) (sq_nonneg (ys y))
    linarith

theorem unbiased {lam thr : ℝ} (hl : 0 ≤ lam) (ht : 0 < thr) {x : Fin n → Fin p → ℝ} {y : Fin n → ℝ} {fuel : ℕ}
    {c : List ℝ} (h : cGlmnet lam thr fuel x y = some c) : ∑ i, (y i - fit x c i) = 0 := by
  obtain ⟨hn, _⟩ := Result.pos h
  obtain ⟨s, hs⟩ := result_of hl ht h
  simp only [fit_rest, ← hs.zero, sub_self, add_zero]
  exact sum_rest hn x y c

/-! ### Small spread -/

theorem start_small {lam : ℝ} {x : Fin n → Fin p → ℝ} {y : Fin n → ℝ} (h : ys y ≤ lam) (k : Fin p) (hk : Used x k) :
    |(start x y).g k| ≤ lam / ys y := by
  have hl : 0 ≤ lam := (ys_nonneg y).trans h
  unfold start
  dsimp only
  rw [if_pos hk]
  by_cases hy : ys y = 0
  · have : ∀ i, yt y i = 0 := fun i => by unfold yt; rw [hy, div_zero]
    simp [this, hy]
  · have h1 : 1 ≤ lam / ys y := (one_le_div (lt_of_le_of_ne (ys_nonneg y) (Ne.symm hy))).mpr h
    refine le_trans ?_ h1
    have hx := (used_iff x k).mp hk
    have e1 : ∑ i, yt y i ^ 2 = 1 := by
      have : ∀ i, yt y i ^ 2 = (yc y i * yc y i) / (ys y * ys y) := fun i => by unfold yt; ring
      simp only [this]
      rw [← Finset.sum_div, ← sq_ys, div_self (mul_ne_zero hy hy)]
    have e2 : ∑ i, xt x i k ^ 2 = 1 := by
      have : ∀ i, xt x i k ^ 2 = (xc x i k * xc x i k) / (xs x k * xs x k) := fun i => by unfold xt; ring
      simp only [this]
      rw [← Finset.sum_div, ← sq_xs, div_self (mul_ne_zero hx hx)]
    have := Finset.sum_mul_sq_le_sq_mul_sq Finset.univ (yt y) (fun i => xt x i k)
    rw [e1, e2, one_mul] at this
    exact (sq_le_one_iff_abs_le_one _).mp this

theorem flat {lam thr : ℝ} (ht : 0 < thr) {x : Fin n → Fin p → ℝ} {y : Fin n → ℝ} (hs : spread y ≤ lam)
    {fuel : ℕ} {c : List ℝ} (h : cGlmnet lam thr fuel x y = some c) : c = mean y :: List.replicate p 0 := by
  have hl : 0 ≤ lam := (Real.sqrt_nonneg _).trans hs
  have hu : ¬ ∀ j, ¬ Used x j := by
    intro hc
    unfold cGlmnet elnetu at h
    rw [if_pos hc] at h
    cases h
  rw [← ys_spread] at hs
  have hm : max (1 : ℝ) 0.001 = 1 := max_eq_left (by norm_num)
  have hstep : ∀ k, fullStep (args 1 lam thr p x y) (start x y, 0) k = some (start x y, 0) := by
    intro k
    unfold fullStep
    dsimp only
    by_cases hk : Used x k
    · rw [if_neg (show ¬ ¬ (args 1 lam thr p x y).ju k from fun hc => hc hk)]
      have e : newCoef (args 1 lam thr p x y) k ((start x y).g k + (start x y).a k * (args 1 lam thr p x y).xv k) = 0 := by
        unfold newCoef
        dsimp only
        rw [if_neg]
        have := start_small hs k hk
        show ¬ (|(start x y).g k + 0 * _| - 1 * (lam / ys y * max 1 0.001) > 0)
        rw [hm, zero_mul, add_zero, mul_one, one_mul, not_lt]
        linarith
      rw [if_pos (by rw [e]; rfl)]
    · rw [if_pos (show ¬ (args 1 lam thr p x y).ju k from hk)]
  have hfold : ∀ l : List (Fin p), l.foldlM (fullStep (args 1 lam thr p x y)) (start x y, 0) = some (start x y, 0) := by
    intro l
    induction l with
    | nil => rfl
    | cons k l ih =>
      rw [List.foldlM_cons, hstep k]
      exact ih
  have hpass : fuel ≠ 0 → passes (args 1 lam thr p x y) fuel none (start x y) = some (start x y) := by
    intro hf
    obtain ⟨f, rfl⟩ := Nat.exists_eq_succ_of_ne_zero hf
    unfold passes fullPass
    rw [hfold]
    dsimp only
    exact if_pos ht
  have hf : fuel ≠ 0 := by
    rintro rfl
    unfold cGlmnet elnetu at h
    rw [if_neg hu] at h
    cases h
  obtain ⟨c', e, q1, q2, q3⟩ := expand (start_ok x y).1 hu (hpass hf)
  rw [e] at h
  cases h
  have q4 : ∀ j : Fin p, c.getD (j + 1) 0 = 0 := by
    intro j
    rw [q3 j]
    show ys y * 0 / _ = 0
    simp
  simp only [q4, zero_mul, Finset.sum_const_zero, sub_zero] at q2
  rw [ym_mean] at q2
  apply List.ext_getElem
  · simp [q1]
  · intro i h1 h2
    cases i with
    | zero =>
      rw [List.getElem_cons_zero, ← q2, List.getD_eq_getElem _ _ h1]
    | succ i =>
      rw [List.getElem_cons_succ, List.getElem_replicate]
      have := q4 ⟨i, by omega⟩
      rwa [List.getD_eq_getElem _ _ h1] at this

/-! ### Curves -/

open Pycold.ColdNum.Spec (regressors solverCurve)

theorem regressors_length {m : ℤ} (hm : m = 4 ∨ m = 6 ∨ m = 8) (t : ℝ) : (regressors m t).length = (m - 1).toNat := by
  rcases hm with rfl | rfl | rfl <;> simp [regressors]

theorem cGlmnet_cast {n' p' : ℕ} (hn : n = n') (hp : p = p') (lam thr : ℝ) (fuel : ℕ) (x : ℕ → ℕ → ℝ) (y : ℕ → ℝ) :
    cGlmnet (n := n) (p := p) lam thr fuel (fun i j => x i j) (fun i => y i) =
      cGlmnet (n := n') (p := p') lam thr fuel (fun i j => x i j) (fun i => y i) := by
  subst hn hp
  rfl

theorem lasso_eq {m : ℤ} (hm : m = 4 ∨ m = 6 ∨ m = 8) {w : List (ℤ × ℝ)} (hw : w ≠ []) (fuel : ℕ) :
    lasso fuel (w.map fun o => regressors m (o.1 : ℝ)) (w.map (·.2)) =
      (cGlmnet (n := w.length) (p := (m - 1).toNat) 20 0.0001 fuel (fun i j => (regressors m (w[i].1 : ℝ)).getD j 0)
        (fun i => w[i].2)).getD [] := by
  unfold lasso
  have h1 : (w.map fun o => regressors m (o.1 : ℝ)).length = w.length := List.length_map _
  have h2 : ((w.map fun o => regressors m (o.1 : ℝ)).headD []).length = (m - 1).toNat := by
    cases w with
    | nil => exact absurd rfl hw
    | cons o w => exact regressors_length hm _
  rw [cGlmnet_cast h1 h2 20 0.0001 fuel (fun i j => ((w.map fun o => regressors m (o.1 : ℝ)).getD i []).getD j 0)
    (fun i => (w.map (·.2)).getD i 0)]
  congr 2
  · funext i j
    have : (w.map fun o => regressors m (o.1 : ℝ)).getD i [] = regressors m (w[i].1 : ℝ) := by
      rw [List.getD_eq_getElem _ _ (by rw [List.length_map]; exact i.isLt), List.getElem_map]
      rfl
    rw [this]
  · funext i
    rw [List.getD_eq_getElem _ _ (by rw [List.length_map]; exact i.isLt), List.getElem_map]
    rfl

theorem spreadOf_map {α : Type} (w : List α) (f : α → ℝ) : spreadOf (w.map f) = spread (fun i : Fin w.length => f w[i]) := by
  have key : ∀ (N : ℕ) (h : N = w.length) (g : Fin N → ℝ), (∀ i : Fin N, g i = f (w[(i : ℕ)]'(h ▸ i.isLt))) →
      spread g = spread (fun i : Fin w.length => f w[i]) := by
    intro N h g hg
    subst h
    congr 1
    funext i
    exact hg i
  unfold spreadOf
  exact key _ (List.length_map _) _ (fun i => by simp)

theorem sum_map_fin {α : Type} (w : List α) (f : α → ℝ) : (w.map f).sum = ∑ i : Fin w.length, f w[i] := by
  rw [← List.sum_ofFn]
  congr 1
  exact (List.ofFn_getElem_eq_map w f).symm

theorem sum_range_fin (q : ℕ) (f : ℕ → ℝ) : ((List.range q).map f).sum = ∑ j : Fin q, f j := by
  rw [← List.sum_ofFn]
  congr 1
  apply List.ext_getElem <;> simp

theorem fit_curve {m : ℤ} (hm : m = 4 ∨ m = 6 ∨ m = 8) (w : List (ℤ × ℝ)) (c : List ℝ) (i : Fin w.length) :
    fit (p := (m - 1).toNat) (fun (i : Fin w.length) j => (regressors m (w[i].1 : ℝ)).getD j 0) c i =
      solverCurve m c (w[i].1 : ℝ) := by
  unfold fit solverCurve
  rw [regressors_length hm, sum_range_fin]

theorem cost_curve {m : ℤ} (hm : m = 4 ∨ m = 6 ∨ m = 8) (w : List (ℤ × ℝ)) (c : List ℝ) :
    cost 20 (p := (m - 1).toNat) (fun (i : Fin w.length) j => (regressors m (w[i].1 : ℝ)).getD j 0) (fun i => w[i].2) c =
      curveCost m w c := by
  unfold cost curveCost regSpread
  simp only [fit_curve hm]
  rw [sum_map_fin, sum_range_fin]
  simp only [spreadOf_map]

theorem varies_curve {m : ℤ} (hm : m = 4 ∨ m = 6 ∨ m = 8) {w : List (ℤ × ℝ)}
    (hw : ∃ o ∈ w, ∃ q ∈ w, o.1 ≠ q.1) :
    Varies (p := (m - 1).toNat) (fun (i : Fin w.length) j => (regressors m (w[i].1 : ℝ)).getD j 0) := by
  obtain ⟨o, ho, q, hq, hne⟩ := hw
  obtain ⟨i, hi, rfl⟩ := List.mem_iff_getElem.mp ho
  obtain ⟨k, hk, rfl⟩ := List.mem_iff_getElem.mp hq
  refine ⟨⟨0, by omega⟩, ⟨i, hi⟩, ⟨k, hk⟩, ?_⟩
  simp only [regressors, Fin.getElem_fin]
  intro h
  apply hne
  have : ((w[i].1 : ℤ) : ℝ) = (w[k].1 : ℝ) := by simpa using h
  exact_mod_cast this

end Pycold.Glmnet
