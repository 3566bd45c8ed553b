import Verif.Proof.GlmnetCurve
/-! Adding a constant to the values adds it to the intercept (C81). -/
namespace Pycold.Glmnet

open Pycold.Glmnet.Spec

variable {n p : ℕ}

/-- The coefficients with `δ` added to the intercept. -/
noncomputable def offset (δ : ℝ) (c : List ℝ) : List ℝ := (c.getD 0 0 + δ) :: c.tail

theorem getD_zero_offset (δ : ℝ) (c : List ℝ) : (offset δ c).getD 0 0 = c.getD 0 0 + δ := rfl

theorem getD_succ_offset (δ : ℝ) (c : List ℝ) (k : ℕ) : (offset δ c).getD (k + 1) 0 = c.getD (k + 1) 0 := by
  cases c <;> rfl

theorem ym_offset (hn : 0 < n) (y : Fin n → ℝ) (δ : ℝ) : ym (fun i => y i + δ) = ym y + δ := by
  unfold ym
  have : (n : ℝ) ≠ 0 := by exact_mod_cast hn.ne'
  simp only [mul_add, Finset.sum_add_distrib, Finset.sum_const, Finset.card_univ, Fintype.card_fin, nsmul_eq_mul]
  field_simp

theorem yc_offset (hn : 0 < n) (y : Fin n → ℝ) (δ : ℝ) : yc (fun i => y i + δ) = yc y := by
  funext i
  unfold yc
  rw [ym_offset hn]
  congr 1
  ring

theorem ys_offset (hn : 0 < n) (y : Fin n → ℝ) (δ : ℝ) : ys (fun i => y i + δ) = ys y := by
  unfold ys
  rw [yc_offset hn]

theorem yt_offset (hn : 0 < n) (y : Fin n → ℝ) (δ : ℝ) : yt (fun i => y i + δ) = yt y := by
  funext i
  unfold yt
  rw [yc_offset hn, ys_offset hn]

theorem cGlmnet_offset {lam thr : ℝ} (hl : 0 ≤ lam) (ht : 0 < thr) {x : Fin n → Fin p → ℝ} (hx : Varies x)
    (y : Fin n → ℝ) (δ : ℝ) {fuel : ℕ} (hf : 2 * ⌊1 / thr ^ 2⌋₊ + 1 ≤ fuel) :
    ∃ c, c.length = p + 1 ∧ cGlmnet lam thr fuel x y = some c ∧
      cGlmnet lam thr fuel x (fun i => y i + δ) = some (offset δ c) := by
  obtain ⟨j, hj⟩ := (varies_iff x).mp hx
  have hu : ¬ ∀ j, ¬ Used x j := fun h => h j hj
  have hn : 0 < n := by
    obtain ⟨i, _⟩ := hj
    exact Fin.pos i
  have run : ∀ y : Fin n → ℝ, ∃ s, passes (args 1 lam thr p x y) fuel none (start x y) = some s ∧
      Inv (args 1 lam thr p x y) s := by
    intro y
    have hleft : left (args 1 lam thr p x y) (yt y) (start x y) ≤ ⌊1 / thr ^ 2⌋₊ := by
      unfold left
      apply Nat.floor_le_floor
      have := phi_start (lam := lam) (thr := thr) x y
      show 2 * _ / thr ^ 2 ≤ 1 / thr ^ 2
      exact div_le_div_of_nonneg_right (by linarith) (sq_nonneg _)
    have hok := passes_ok (good_args hl ht x y) fuel none (start x y) (start_ok x y).1 (start_ok x y).2
    obtain ⟨s, hs⟩ := hok.2 (by simp only [Option.isSome_none, Bool.false_eq_true, if_false]; omega)
    exact ⟨s, hs, (hok.1 s hs).inv⟩
  obtain ⟨s, hs, hi⟩ := run y
  obtain ⟨s', hs', hi'⟩ := run (fun i => y i + δ)
  have ea : args 1 lam thr p x (fun i => y i + δ) = args 1 lam thr p x y := by
    unfold args; rw [ys_offset hn]
  have es : start x (fun i => y i + δ) = start x y := by
    unfold start; rw [yt_offset hn]
  have ess : s' = s := by
    rw [ea, es, hs] at hs'
    exact (Option.some.inj hs').symm
  subst ess
  obtain ⟨c, e, q1, q2, q3⟩ := expand hi hu hs
  obtain ⟨c', e', q1', q2', q3'⟩ := expand hi' hu hs'
  refine ⟨c, q1, e, ?_⟩
  rw [e']
  congr 1
  have hs3 : ∀ j : Fin p, c'.getD (j + 1) 0 = c.getD (j + 1) 0 := fun j => by
    rw [q3, q3', ys_offset hn]
  have h0 : c'.getD 0 0 = c.getD 0 0 + δ := by
    rw [q2, q2', ym_offset hn]
    simp only [hs3]
    ring
  apply List.ext_getElem
  · rw [q1']
    unfold offset
    rw [List.length_cons, List.length_tail, q1]
    omega
  · intro k h1 h2
    rw [← List.getD_eq_getElem _ 0 h1, ← List.getD_eq_getElem _ 0 h2]
    cases k with
    | zero => rw [h0, getD_zero_offset]
    | succ k => rw [getD_succ_offset]; exact hs3 ⟨k, by omega⟩

/-- The solver of the fits, on rows whose first regressor is not constant. -/
theorem lasso_offset {fuel : ℕ} (hf : 200000001 ≤ fuel) {rows : List (List ℝ)} {values : List ℝ}
    (hl : values.length = rows.length) {i j : ℕ} (hi : i < rows.length) (hj : j < rows.length)
    (hp : ∀ r ∈ rows, 0 < r.length) (hx : (rows.getD i []).getD 0 0 ≠ (rows.getD j []).getD 0 0) (δ : ℝ) :
    lasso fuel rows (values.map (· + δ)) = offset δ (lasso fuel rows values) := by
  have hp0 : 0 < (rows.headD []).length := by
    cases rows with
    | nil => simp at hi
    | cons r rs => exact hp r (List.mem_cons_self ..)
  have hv : Varies (fun (i : Fin rows.length) (j : Fin (rows.headD []).length) => (rows.getD i []).getD j 0) :=
    ⟨⟨0, hp0⟩, ⟨i, hi⟩, ⟨j, hj⟩, hx⟩
  obtain ⟨c, _, e, e'⟩ := cGlmnet_offset (lam := 20) (thr := 0.0001) (by norm_num) (by norm_num) hv
    (fun i => values.getD i 0) δ (fuel := fuel) (by
      have : ⌊1 / (0.0001 : ℝ) ^ 2⌋₊ = 100000000 := by
        rw [show (1 / (0.0001 : ℝ) ^ 2) = ((100000000 : ℕ) : ℝ) by norm_num, Nat.floor_natCast]
      omega)
  unfold lasso
  have ey : (fun i : Fin rows.length => (values.map (· + δ)).getD i 0) = fun i : Fin rows.length => values.getD (i : ℕ) 0 + δ := by
    funext i
    have : (i : ℕ) < values.length := by rw [hl]; exact i.isLt
    rw [List.getD_eq_getElem _ _ (by rw [List.length_map]; exact this), List.getElem_map, List.getD_eq_getElem _ _ this]
  rw [ey, e, e']
  rfl

end Pycold.Glmnet
