import Verif.Proof.GlmnetOffset
/-! Adding a constant to the first regressor changes only the intercept (C83). -/
namespace Pycold.Glmnet

open Pycold.Glmnet.Spec

variable {n p : ℕ}

/-- The first regressor with `κ` added. -/
noncomputable def slid (κ : ℝ) (x : Fin n → Fin p → ℝ) : Fin n → Fin p → ℝ :=
  fun i j => x i j + if (j : ℕ) = 0 then κ else 0

theorem used_slid (κ : ℝ) (x : Fin n → Fin p → ℝ) : Used (slid κ x) = Used x := by
  funext j
  apply propext
  unfold Used slid
  simp only [ne_eq, add_left_inj]

theorem xm_slid (hn : 0 < n) (κ : ℝ) (x : Fin n → Fin p → ℝ) (j : Fin p) :
    xm (slid κ x) j = xm x j + if (j : ℕ) = 0 then κ else 0 := by
  unfold xm slid
  have : (n : ℝ) ≠ 0 := by exact_mod_cast hn.ne'
  simp only [mul_add, Finset.sum_add_distrib, Finset.sum_const, Finset.card_univ, Fintype.card_fin, nsmul_eq_mul]
  field_simp

theorem xc_slid (hn : 0 < n) (κ : ℝ) (x : Fin n → Fin p → ℝ) : xc (slid κ x) = xc x := by
  funext i j
  unfold xc
  rw [xm_slid hn]
  unfold slid
  congr 1
  ring

theorem xs_slid (hn : 0 < n) (κ : ℝ) (x : Fin n → Fin p → ℝ) : xs (slid κ x) = xs x := by
  funext j
  unfold xs
  rw [xc_slid hn]

theorem xt_slid (hn : 0 < n) (κ : ℝ) (x : Fin n → Fin p → ℝ) : xt (slid κ x) = xt x := by
  funext i j
  unfold xt
  rw [xc_slid hn, xs_slid hn]

theorem cGlmnet_slid {lam thr : ℝ} (hl : 0 ≤ lam) (ht : 0 < thr) {x : Fin n → Fin p → ℝ} (hx : Varies x)
    (hp : 0 < p) (y : Fin n → ℝ) (κ : ℝ) {fuel : ℕ} (hf : 2 * ⌊1 / thr ^ 2⌋₊ + 1 ≤ fuel) :
    ∃ c, c.length = p + 1 ∧ cGlmnet lam thr fuel x y = some c ∧
      cGlmnet lam thr fuel (slid κ x) y = some (offset (-(κ * c.getD 1 0)) c) := by
  obtain ⟨j, hj⟩ := (varies_iff x).mp hx
  have hu : ¬ ∀ j, ¬ Used x j := fun h => h j hj
  have hu' : ¬ ∀ j, ¬ Used (slid κ x) j := by rw [used_slid]; exact hu
  have hn : 0 < n := by
    obtain ⟨i, _⟩ := hj
    exact Fin.pos i
  have run : ∀ x : Fin n → Fin p → ℝ, ∃ s, passes (args 1 lam thr p x y) fuel none (start x y) = some s ∧
      Inv (args 1 lam thr p x y) s := by
    intro x
    have hleft : left (args 1 lam thr p x y) (yt y) (start x y) ≤ ⌊1 / thr ^ 2⌋₊ := by
      unfold left
      apply Nat.floor_le_floor
      have := phi_start (lam := lam) (thr := thr) x y
      show 2 * _ / thr ^ 2 ≤ 1 / thr ^ 2
      exact div_le_div_of_nonneg_right (by linarith) (sq_nonneg _)
    have hok := passes_ok (good_args hl ht x y) fuel none (start x y) (start_ok x y).1 (start_ok x y).2
    obtain ⟨s, hs⟩ := hok.2 (by simp only [Option.isSome_none, Bool.false_eq_true, if_false]; omega)
    exact ⟨s, hs, (hok.1 s hs).inv⟩
  obtain ⟨s, hs, hi⟩ := run x
  obtain ⟨s', hs', hi'⟩ := run (slid κ x)
  have ea : args 1 lam thr p (slid κ x) y = args 1 lam thr p x y := by
    unfold args; rw [used_slid, xt_slid hn]
  have es : start (slid κ x) y = start x y := by
    unfold start; rw [used_slid, xt_slid hn]
  have ess : s' = s := by
    rw [ea, es, hs] at hs'
    exact (Option.some.inj hs').symm
  subst ess
  obtain ⟨c, e, q1, q2, q3⟩ := expand hi hu hs
  obtain ⟨c', e', q1', q2', q3'⟩ := expand hi' hu' hs'
  refine ⟨c, q1, e, ?_⟩
  rw [e']
  congr 1
  have hs3 : ∀ j : Fin p, c'.getD (j + 1) 0 = c.getD (j + 1) 0 := fun j => by
    rw [q3, q3', xs_slid hn]
  have h0 : c'.getD 0 0 = c.getD 0 0 + -(κ * c.getD 1 0) := by
    rw [q2, q2']
    simp only [hs3, xm_slid hn, mul_add, Finset.sum_add_distrib]
    have : ∑ j : Fin p, c.getD ((j : ℕ) + 1) 0 * (if (j : ℕ) = 0 then κ else 0) = κ * c.getD 1 0 := by
      rw [Finset.sum_eq_single (⟨0, hp⟩ : Fin p)]
      · simp [mul_comm]
      · intro b _ hb
        rw [if_neg (fun h => hb (Fin.ext h)), mul_zero]
      · intro h; exact absurd (Finset.mem_univ _) h
    rw [this]
    ring
  apply List.ext_getElem
  · rw [q1']
    unfold offset
    rw [List.length_cons, List.length_tail, q1]
    omega
  · intro k h1 h2
    rw [← List.getD_eq_getElem _ 0 h1, ← List.getD_eq_getElem _ 0 h2]
    cases k with
    | zero => rw [h0, getD_zero_offset]
    | succ k => rw [getD_succ_offset]; exact hs3 ⟨k, by omega⟩

/-- A row with `κ` added to its first number. -/
noncomputable def slidRow (κ : ℝ) (r : List ℝ) : List ℝ := (r.getD 0 0 + κ) :: r.tail

/-- The solver of the fits, on rows whose first regressor is not constant. -/
theorem lasso_slid {fuel : ℕ} (hf : 200000001 ≤ fuel) {rows : List (List ℝ)} {values : List ℝ}
    {i j : ℕ} (hi : i < rows.length) (hj : j < rows.length)
    (hp : ∀ r ∈ rows, 0 < r.length) (hx : (rows.getD i []).getD 0 0 ≠ (rows.getD j []).getD 0 0) (κ : ℝ) :
    lasso fuel (rows.map (slidRow κ)) values =
      offset (-(κ * (lasso fuel rows values).getD 1 0)) (lasso fuel rows values) := by
  have hp0 : 0 < (rows.headD []).length := by
    cases rows with
    | nil => simp at hi
    | cons r rs => exact hp r (List.mem_cons_self ..)
  have hv : Varies (fun (i : Fin rows.length) (j : Fin (rows.headD []).length) => (rows.getD i []).getD j 0) :=
    ⟨⟨0, hp0⟩, ⟨i, hi⟩, ⟨j, hj⟩, hx⟩
  obtain ⟨c, _, e, e'⟩ := cGlmnet_slid (lam := 20) (thr := 0.0001) (by norm_num) (by norm_num) hv hp0
    (fun i => values.getD i 0) κ (fuel := fuel) (by
      have : ⌊1 / (0.0001 : ℝ) ^ 2⌋₊ = 100000000 := by
        rw [show (1 / (0.0001 : ℝ) ^ 2) = ((100000000 : ℕ) : ℝ) by norm_num, Nat.floor_natCast]
      omega)
  have hgen : ∀ (rows' : List (List ℝ)) (hl : rows'.length = rows.length)
      (hw : (rows'.headD []).length = (rows.headD []).length)
      (hx : ∀ (i : Fin rows.length) (j : Fin (rows.headD []).length), (rows'.getD i []).getD j 0 =
        (rows.getD i []).getD j 0 + if (j : ℕ) = 0 then κ else 0),
      lasso fuel rows' values = offset (-(κ * c.getD 1 0)) c := by
    intro rows' hl hw hx
    unfold lasso
    have : cGlmnet (n := rows'.length) (p := (rows'.headD []).length) 20 0.0001 fuel
        (fun i j => (rows'.getD i []).getD j 0) (fun i => values.getD i 0) =
        cGlmnet (n := rows.length) (p := (rows.headD []).length) 20 0.0001 fuel
        (fun i j => (rows'.getD i []).getD j 0) (fun i => values.getD i 0) := by
      rw [hl, hw]
    rw [this]
    have ex : (fun (i : Fin rows.length) (j : Fin (rows.headD []).length) => (rows'.getD i []).getD j 0) =
        slid κ (fun (i : Fin rows.length) (j : Fin (rows.headD []).length) => (rows.getD i []).getD j 0) := by
      funext i j; exact hx i j
    rw [ex, e']
    rfl
  have e0 : lasso fuel rows values = c := by unfold lasso; rw [e]; rfl
  rw [e0]
  refine hgen _ (List.length_map ..) ?_ ?_
  · cases rows with
    | nil => simp at hi
    | cons r rs =>
      have := hp r (List.mem_cons_self ..)
      show (slidRow κ r).length = r.length
      unfold slidRow
      rw [List.length_cons, List.length_tail]
      omega
  · intro i j
    rw [List.getD_eq_getElem (rows.map _) _ (by rw [List.length_map]; exact i.isLt), List.getElem_map,
      List.getD_eq_getElem rows _ i.isLt]
    generalize rows[(i : ℕ)] = r
    unfold slidRow
    generalize (j : ℕ) = k
    cases k with
    | zero => simp
    | succ k => cases r <;> simp

end Pycold.Glmnet
