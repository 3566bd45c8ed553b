import Verif.Proof.GlmnetLoop
import Mathlib.Algebra.BigOperators.Field
/-! From standardised units to those of the data (C78). -/
namespace Pycold.Glmnet

open Pycold.Glmnet.Spec

variable {n p : ℕ}

theorem xm_mean (x : Fin n → Fin p → ℝ) (j : Fin p) : xm x j = mean (fun i => x i j) := by
  unfold xm mean
  rw [← Finset.mul_sum]
  ring

theorem ym_mean (y : Fin n → ℝ) : ym y = mean y := by
  unfold ym mean
  rw [← Finset.mul_sum]
  ring

theorem scaled_sq (t : ℝ) : Real.sqrt (1 / (n : ℝ)) * t * (Real.sqrt (1 / (n : ℝ)) * t) = t ^ 2 / n := by
  have : Real.sqrt (1 / (n : ℝ)) * Real.sqrt (1 / (n : ℝ)) = 1 / n := Real.mul_self_sqrt (by positivity)
  calc _ = (Real.sqrt (1 / (n : ℝ)) * Real.sqrt (1 / (n : ℝ))) * t ^ 2 := by ring
    _ = _ := by rw [this]; ring

theorem xs_spread (x : Fin n → Fin p → ℝ) (j : Fin p) : xs x j = spread (fun i => x i j) := by
  unfold xs spread xc
  simp only [scaled_sq, xm_mean, Finset.sum_div]

theorem ys_spread (y : Fin n → ℝ) : ys y = spread y := by
  unfold ys spread yc
  simp only [scaled_sq, ym_mean, Finset.sum_div]

theorem sq_xs (x : Fin n → Fin p → ℝ) (j : Fin p) : xs x j * xs x j = ∑ i, xc x i j * xc x i j :=
  Real.mul_self_sqrt (Finset.sum_nonneg fun i _ => mul_self_nonneg _)

theorem sq_ys (y : Fin n → ℝ) : ys y * ys y = ∑ i, yc y i * yc y i :=
  Real.mul_self_sqrt (Finset.sum_nonneg fun i _ => mul_self_nonneg _)

theorem root_pos (h : 0 < n) : 0 < Real.sqrt (1 / (n : ℝ)) := Real.sqrt_pos.mpr (by positivity)

theorem xc_zero {x : Fin n → Fin p → ℝ} {j : Fin p} (h : xs x j = 0) (i : Fin n) : xc x i j = 0 := by
  have h1 : ∑ i, xc x i j * xc x i j = 0 := by rw [← sq_xs, h, zero_mul]
  have := (Finset.sum_eq_zero_iff_of_nonneg (fun i _ => mul_self_nonneg (xc x i j))).mp h1 i (Finset.mem_univ i)
  exact mul_self_eq_zero.mp this

theorem yc_zero {y : Fin n → ℝ} (h : ys y = 0) (i : Fin n) : yc y i = 0 := by
  have h1 : ∑ i, yc y i * yc y i = 0 := by rw [← sq_ys, h, zero_mul]
  have := (Finset.sum_eq_zero_iff_of_nonneg (fun i _ => mul_self_nonneg (yc y i))).mp h1 i (Finset.mem_univ i)
  exact mul_self_eq_zero.mp this

theorem xc_eq (x : Fin n → Fin p → ℝ) (i : Fin n) (j : Fin p) : xc x i j = xs x j * xt x i j := by
  unfold xt
  by_cases h : xs x j = 0
  · rw [xc_zero h, h, zero_mul]
  · rw [mul_div_cancel₀ _ h]

theorem yc_eq (y : Fin n → ℝ) (i : Fin n) : yc y i = ys y * yt y i := by
  unfold yt
  by_cases h : ys y = 0
  · rw [yc_zero h, h, zero_mul]
  · rw [mul_div_cancel₀ _ h]

/-- A variable is used exactly if it has a spread. -/
theorem used_iff (x : Fin n → Fin p → ℝ) (j : Fin p) : Used x j ↔ xs x j ≠ 0 := by
  constructor
  · rintro ⟨i, i0, _, hne⟩ h
    have h1 := xc_zero h i
    have h2 := xc_zero h i0
    have hr := root_pos (n := n) (lt_of_le_of_lt (Nat.zero_le _) i.isLt)
    unfold xc at h1 h2
    have h3 := (mul_eq_zero.mp h1).resolve_left hr.ne'
    have h4 := (mul_eq_zero.mp h2).resolve_left hr.ne'
    exact hne (by linarith)
  · intro h
    by_contra hu
    apply h
    unfold Used at hu
    push Not at hu
    have : ∀ i, xc x i j = 0 := by
      intro i
      have hn : 0 < n := lt_of_le_of_lt (Nat.zero_le _) i.isLt
      have he : ∀ k, x k j = x ⟨0, hn⟩ j := fun k => hu k ⟨0, hn⟩ rfl
      unfold xc xm
      simp only [he]
      rw [Finset.sum_const, Finset.card_univ, Fintype.card_fin, nsmul_eq_mul]
      have : (n : ℝ) ≠ 0 := by positivity
      field_simp
      ring
    unfold xs
    simp [this]

theorem varies_iff (x : Fin n → Fin p → ℝ) : Varies x ↔ ∃ j, Used x j := by
  constructor
  · rintro ⟨j, i, k, hne⟩
    refine ⟨j, ?_⟩
    have hn : 0 < n := lt_of_le_of_lt (Nat.zero_le _) i.isLt
    by_cases h : x i j = x ⟨0, hn⟩ j
    · exact ⟨k, ⟨0, hn⟩, rfl, fun hc => hne (h.trans hc.symm)⟩
    · exact ⟨i, ⟨0, hn⟩, rfl, h⟩
  · rintro ⟨j, i, i0, _, hne⟩
    exact ⟨j, i, i0, hne⟩

theorem ys_nonneg (y : Fin n → ℝ) : 0 ≤ ys y := Real.sqrt_nonneg _

theorem good_args {lam thr : ℝ} (hl : 0 ≤ lam) (ht : 0 < thr) (x : Fin n → Fin p → ℝ) (y : Fin n → ℝ) :
    Good (args 1 lam thr p x y) := by
  have hm : max (1 : ℝ) 0.001 = 1 := max_eq_left (by norm_num)
  refine ⟨fun _ => rfl, ?_, ?_, ?_, le_refl _, ht⟩
  · show lam / ys y * (1 - max 1 0.001) = 0
    rw [hm]; ring
  · show 0 ≤ lam / ys y * max 1 0.001
    rw [hm, mul_one]
    exact div_nonneg hl (ys_nonneg y)
  · intro k hk
    have hne := (used_iff x k).mp hk
    show ∑ i, xt x i k ^ 2 = 1
    have : ∀ i, xt x i k ^ 2 = (xc x i k * xc x i k) / (xs x k * xs x k) := fun i => by unfold xt; ring
    simp only [this]
    rw [← Finset.sum_div, ← sq_xs, div_self (mul_ne_zero hne hne)]

theorem start_ok {lam thr : ℝ} (x : Fin n → Fin p → ℝ) (y : Fin n → ℝ) :
    Inv (args 1 lam thr p x y) (start x y) ∧ Grad (args 1 lam thr p x y) (yt y) (start x y) := by
  refine ⟨⟨List.nodup_nil, ?_, nofun, fun _ _ => rfl, nofun⟩, ?_⟩
  · intro k m
    constructor
    · intro h; exact absurd h (by show ¬ (0 = m + 1); omega)
    · intro h; cases h
  · intro j hj
    have hj' : Used x j := hj
    show (start x y).g j = _
    unfold start
    dsimp only
    rw [if_pos hj']
    unfold grad res
    simp [args]

theorem phi_start {lam thr : ℝ} (x : Fin n → Fin p → ℝ) (y : Fin n → ℝ) :
    phi (args 1 lam thr p x y) (yt y) (start x y).a ≤ 1 / 2 := by
  unfold phi res
  have e : ∀ k, (start x y).a k = 0 := fun _ => rfl
  simp only [e, zero_mul, Finset.sum_const_zero, sub_zero, abs_zero, mul_zero, add_zero]
  have : ∑ i, yt y i ^ 2 ≤ 1 := by
    by_cases h : ys y = 0
    · unfold yt
      simp [h]
    · have : ∀ i, yt y i ^ 2 = (yc y i * yc y i) / (ys y * ys y) := fun i => by unfold yt; ring
      simp only [this]
      rw [← Finset.sum_div, ← sq_ys, div_self (mul_ne_zero h h)]
  linarith

/-! ### The expansion -/

/-- What `c_glmnet` returns, in terms of the coefficients of `elnet1`. -/
structure Result (lam thr : ℝ) (x : Fin n → Fin p → ℝ) (y : Fin n → ℝ) (s : St p) (c : List ℝ) : Prop where
  done : Done (args 1 lam thr p x y) (yt y) (start x y) s
  len : c.length = p + 1
  zero : c.getD 0 0 = ym y - ∑ j : Fin p, c.getD (j + 1) 0 * xm x j
  coef : ∀ j : Fin p, c.getD (j + 1) 0 = ys y * s.a j / xs x j

theorem expand {lam thr : ℝ} {x : Fin n → Fin p → ℝ} {y : Fin n → ℝ} {fuel : ℕ} {s : St p}
    (hA : Inv (args 1 lam thr p x y) s)
    (hx : ¬ ∀ j, ¬ Used x j) (hs : passes (args 1 lam thr p x y) fuel none (start x y) = some s) :
    ∃ c, cGlmnet lam thr fuel x y = some c ∧ c.length = p + 1 ∧
      c.getD 0 0 = ym y - ∑ j : Fin p, c.getD (j + 1) 0 * xm x j ∧
      ∀ j : Fin p, c.getD (j + 1) 0 = ys y * s.a j / xs x j := by
  unfold cGlmnet elnetu
  rw [if_neg hx, hs]
  simp only [Option.map_some]
  set ca := s.ia.map fun k => (k, ys y * s.a k / xs x k) with hca
  have hl : ca.length = s.ia.length := by rw [hca, List.length_map]
  have hget : ∀ (m : ℕ) k, s.ia[m]? = some k → ca[m]? = some (k, ys y * s.a k / xs x k) := by
    intro m k h
    rw [hca, List.getElem?_map, h]
    rfl
  obtain ⟨cfs, ia', e, q1, q2, q3⟩ := Misc.glmExpand_ok (0 : ℝ) p ca.length
    (fun k => ca[k.toNat]?.elim 0 fun q => (q.1.val : Int) + 1)
    (ym y - (ca.map fun q => q.2 * xm x q.1).sum)
    (fun k => ca[k.toNat]?.elim 0 fun q => q.2)
    (by
      intro m hm
      obtain ⟨k, hk⟩ : ∃ k, s.ia[m]? = some k := ⟨_, List.getElem?_eq_getElem (hl ▸ hm)⟩
      simp only [Int.toNat_natCast, hget m k hk, Option.elim_some]
      have := k.isLt
      omega)
    (by
      intro a b ha hb
      obtain ⟨k, hk⟩ : ∃ k, s.ia[a]? = some k := ⟨_, List.getElem?_eq_getElem (hl ▸ ha)⟩
      obtain ⟨q, hq⟩ : ∃ q, s.ia[b]? = some q := ⟨_, List.getElem?_eq_getElem (hl ▸ hb)⟩
      simp only [Int.toNat_natCast, hget a k hk, hget b q hq, Option.elim_some]
      intro h
      have : k = q := Fin.ext (by omega)
      subst this
      have h1 := (hA.mm k a).mpr hk
      have h2 := (hA.mm k b).mpr hq
      omega)
  rw [e]
  have hcoef : ∀ j : Fin p, cfs ((j : ℕ) + 1 : ℕ) = ys y * s.a j / xs x j := by
    intro j
    by_cases hj : j ∈ s.ia
    · obtain ⟨m, hm, _⟩ := hA.mem hj
      have hlt : m < ca.length := by
        rw [hl]
        by_contra hc
        rw [List.getElem?_eq_none (by omega)] at hm
        cases hm
      have := q2 m hlt
      simp only [Int.toNat_natCast, hget m j hm, Option.elim_some] at this
      rw [← this]
      congr 1
    · rw [hA.zero j hj, mul_zero, zero_div]
      apply q3
      · have : (((j : ℕ) + 1 : ℕ) : Int) ≠ 0 := by omega
        exact this
      · intro m hm
        obtain ⟨k, hk⟩ : ∃ k, s.ia[m]? = some k := ⟨_, List.getElem?_eq_getElem (hl ▸ hm)⟩
        simp only [Int.toNat_natCast, hget m k hk, Option.elim_some]
        intro h
        have : k = j := Fin.ext (by omega)
        subst this
        exact hj (List.mem_of_getElem? hk)
  have hD : ∀ m : ℕ, m < p + 1 → ((List.range (p + 1)).map fun (j : ℕ) => cfs j).getD m 0 = cfs m := by
    intro m hm
    rw [List.getD_eq_getElem?_getD, List.getElem?_map, List.getElem?_range hm]
    rfl
  have hc : ∀ j : Fin p, ((List.range (p + 1)).map fun (j : ℕ) => cfs j).getD (j + 1) 0 = ys y * s.a j / xs x j := by
    intro j
    rw [hD _ (by omega), hcoef j]
  refine ⟨_, rfl, by simp, ?_, hc⟩
  rw [hD 0 (by omega)]
  show cfs 0 = _
  rw [q1]
  congr 1
  simp only [hc]
  rw [hca, List.map_map, ← List.sum_toFinset _ hA.nodup]
  apply Finset.sum_subset (Finset.subset_univ _)
  intro k _ hk
  rw [List.mem_toFinset] at hk
  simp [hA.zero k hk]

theorem result_of {lam thr : ℝ} (hl : 0 ≤ lam) (ht : 0 < thr) {fuel : ℕ} {x : Fin n → Fin p → ℝ} {y : Fin n → ℝ}
    {c : List ℝ} (h : cGlmnet lam thr fuel x y = some c) : ∃ s, Result lam thr x y s c := by
  have hu : ¬ ∀ j, ¬ Used x j := by
    intro hc
    unfold cGlmnet elnetu at h
    rw [if_pos hc] at h
    cases h
  cases hp : passes (args 1 lam thr p x y) fuel none (start x y) with
  | none =>
    unfold cGlmnet elnetu at h
    rw [if_neg hu, hp] at h
    cases h
  | some s =>
    have hd := (passes_ok (good_args hl ht x y) fuel none (start x y) (start_ok x y).1 (start_ok x y).2).1 s hp
    obtain ⟨c', e, q1, q2, q3⟩ := expand hd.inv hu hp
    rw [e] at h
    cases h
    exact ⟨s, hd, q1, q2, q3⟩

/-! ### Costs -/

theorem center (y : Fin n → ℝ) (hn : 0 < n) : ∑ i, (y i - mean y) = 0 := by
  rw [Finset.sum_sub_distrib, Finset.sum_const, Finset.card_univ, Fintype.card_fin, nsmul_eq_mul]
  unfold mean
  have : (n : ℝ) ≠ 0 := by positivity
  field_simp
  ring

/-- The coefficients in standardised units. -/
noncomputable def std (x : Fin n → Fin p → ℝ) (y : Fin n → ℝ) (c : List ℝ) (j : Fin p) : ℝ :=
  c.getD (j + 1) 0 * xs x j / ys y

/-- What a model leaves of the centred values. -/
noncomputable def rest (x : Fin n → Fin p → ℝ) (y : Fin n → ℝ) (c : List ℝ) (i : Fin n) : ℝ :=
  y i - ym y - ∑ j : Fin p, c.getD (j + 1) 0 * (x i j - xm x j)

theorem fit_rest (x : Fin n → Fin p → ℝ) (y : Fin n → ℝ) (c : List ℝ) (i : Fin n) :
    y i - fit x c i = rest x y c i + (ym y - ∑ j : Fin p, c.getD (j + 1) 0 * xm x j - c.getD 0 0) := by
  unfold fit rest
  simp only [mul_sub, Finset.sum_sub_distrib]
  ring

theorem sum_rest (hn : 0 < n) (x : Fin n → Fin p → ℝ) (y : Fin n → ℝ) (c : List ℝ) : ∑ i, rest x y c i = 0 := by
  unfold rest
  rw [Finset.sum_sub_distrib]
  have h1 := center y hn
  rw [← ym_mean] at h1
  rw [h1, Finset.sum_comm]
  have : ∀ j : Fin p, ∑ i, c.getD (j + 1) 0 * (x i j - xm x j) = 0 := by
    intro j
    rw [← Finset.mul_sum, xm_mean, center (fun i => x i j) hn, mul_zero]
  simp only [this, Finset.sum_const_zero, sub_zero]

/-- The best intercept. -/
theorem sq_fit (hn : 0 < n) (x : Fin n → Fin p → ℝ) (y : Fin n → ℝ) (c : List ℝ) :
    ∑ i, (y i - fit x c i) ^ 2 = ∑ i, rest x y c i ^ 2 +
      n * (ym y - ∑ j : Fin p, c.getD (j + 1) 0 * xm x j - c.getD 0 0) ^ 2 := by
  simp only [fit_rest]
  generalize ym y - ∑ j : Fin p, c.getD (j + 1) 0 * xm x j - c.getD 0 0 = δ
  have : ∀ i, (rest x y c i + δ) ^ 2 = rest x y c i ^ 2 + 2 * δ * rest x y c i + δ ^ 2 := fun i => by ring
  simp only [this]
  rw [Finset.sum_add_distrib, Finset.sum_add_distrib, ← Finset.mul_sum, sum_rest hn, Finset.sum_const, Finset.card_univ,
    Fintype.card_fin, nsmul_eq_mul]
  ring

theorem rest_sq (hn : 0 < n) (x : Fin n → Fin p → ℝ) (y : Fin n → ℝ) (c : List ℝ) :
    (∑ i, rest x y c i ^ 2) / (2 * n) = (∑ i, (yc y i - ∑ j : Fin p, c.getD (j + 1) 0 * xc x i j) ^ 2) / 2 := by
  have e : ∀ i, (yc y i - ∑ j : Fin p, c.getD (j + 1) 0 * xc x i j) ^ 2 = rest x y c i ^ 2 / n := by
    intro i
    have : yc y i - ∑ j : Fin p, c.getD (j + 1) 0 * xc x i j = Real.sqrt (1 / (n : ℝ)) * rest x y c i := by
      unfold yc xc rest
      rw [mul_sub _ (y i - ym y), Finset.mul_sum]
      congr 1
      exact Finset.sum_congr rfl (fun j _ => by ring)
    rw [this, ← scaled_sq]
    ring
  simp only [e]
  rw [← Finset.sum_div]
  have : (n : ℝ) ≠ 0 := by positivity
  field_simp

theorem rest_phi {lam thr : ℝ} (hn : 0 < n) (x : Fin n → Fin p → ℝ) (y : Fin n → ℝ) (hy : ys y ≠ 0) (c : List ℝ) :
    (∑ i, rest x y c i ^ 2) / (2 * n) + lam * ∑ j : Fin p, spread (fun i => x i j) * |c.getD (j + 1) 0| =
      ys y ^ 2 * phi (args 1 lam thr p x y) (yt y) (std x y c) := by
  rw [rest_sq hn]
  unfold phi
  have hm : max (1 : ℝ) 0.001 = 1 := max_eq_left (by norm_num)
  have e1 : ∀ i, yc y i - ∑ j : Fin p, c.getD (j + 1) 0 * xc x i j =
      ys y * res (args 1 lam thr p x y) (yt y) (std x y c) i := by
    intro i
    unfold res
    rw [mul_sub, ← yc_eq, Finset.mul_sum]
    congr 1
    apply Finset.sum_congr rfl
    intro j _
    show _ = ys y * (std x y c j * xt x i j)
    unfold std
    rw [xc_eq]
    field_simp
  have e2 : ∀ j : Fin p, spread (fun i => x i j) * |c.getD (j + 1) 0| = ys y * |std x y c j| := by
    intro j
    unfold std
    rw [← xs_spread, abs_div, abs_mul, abs_of_nonneg (show 0 ≤ xs x j from Real.sqrt_nonneg _), abs_of_nonneg (ys_nonneg y)]
    field_simp
  have e3 : (args 1 lam thr p x y).ab = lam / ys y := by
    show lam / ys y * max 1 0.001 = _
    rw [hm, mul_one]
  simp only [e1, e2, e3, mul_pow]
  rw [← Finset.mul_sum, ← Finset.mul_sum]
  field_simp

theorem std_result {lam thr : ℝ} {x : Fin n → Fin p → ℝ} {y : Fin n → ℝ} (hy : ys y ≠ 0) {s : St p} {c : List ℝ}
    (h : Result lam thr x y s c) : std x y c = s.a := by
  funext j
  unfold std
  rw [h.coef j]
  by_cases hx : xs x j = 0
  · have hz : s.a j = 0 := h.done.inv.zero j (fun hc => (used_iff x j).mp (h.done.inv.used j hc) hx)
    rw [hz, hx]; simp
  · field_simp

theorem cost_result {lam thr : ℝ} (hn : 0 < n) {x : Fin n → Fin p → ℝ} {y : Fin n → ℝ} {s : St p} {c : List ℝ}
    (h : Result lam thr x y s c) : cost lam x y c =
      (∑ i, rest x y c i ^ 2) / (2 * n) + lam * ∑ j : Fin p, spread (fun i => x i j) * |c.getD (j + 1) 0| := by
  unfold cost
  rw [sq_fit hn, ← h.zero, sub_self]
  ring

theorem cost_ge (lam : ℝ) (hn : 0 < n) (x : Fin n → Fin p → ℝ) (y : Fin n → ℝ) (c : List ℝ) :
    (∑ i, rest x y c i ^ 2) / (2 * n) + lam * ∑ j : Fin p, spread (fun i => x i j) * |c.getD (j + 1) 0| ≤
      cost lam x y c := by
  unfold cost
  rw [sq_fit hn, add_div]
  have : 0 ≤ n * (ym y - ∑ j : Fin p, c.getD (j + 1) 0 * xm x j - c.getD 0 0) ^ 2 / (2 * n : ℝ) := by positivity
  linarith

theorem cost_nonneg {lam : ℝ} (hl : 0 ≤ lam) (x : Fin n → Fin p → ℝ) (y : Fin n → ℝ) (c : List ℝ) :
    0 ≤ cost lam x y c := by
  unfold cost
  have h1 : 0 ≤ (∑ i, (y i - fit x c i) ^ 2) / (2 * n : ℝ) := by positivity
  have h2 : 0 ≤ ∑ j : Fin p, spread (fun i => x i j) * |c.getD (j + 1) 0| :=
    Finset.sum_nonneg fun j _ => mul_nonneg (Real.sqrt_nonneg _) (abs_nonneg _)
  exact add_nonneg h1 (mul_nonneg hl h2)

theorem cost_flat {lam thr : ℝ} (hn : 0 < n) {x : Fin n → Fin p → ℝ} {y : Fin n → ℝ} (hy : ys y = 0) {s : St p}
    {c : List ℝ} (h : Result lam thr x y s c) : cost lam x y c = 0 := by
  have hc : ∀ j : Fin p, c.getD (j + 1) 0 = 0 := fun j => by rw [h.coef j, hy]; simp
  rw [cost_result hn h, rest_sq hn]
  simp only [hc, yc_zero hy]
  simp

theorem Result.pos {lam thr : ℝ} {x : Fin n → Fin p → ℝ} {y : Fin n → ℝ} {fuel : ℕ} {c : List ℝ}
    (h : cGlmnet lam thr fuel x y = some c) : 0 < n ∧ 0 < p := by
  have hu : ¬ ∀ j, ¬ Used x j := by
    intro hc
    unfold cGlmnet elnetu at h
    rw [if_pos hc] at h
    cases h
  push Not at hu
  obtain ⟨j, i, _⟩ := hu
  exact ⟨lt_of_le_of_lt (Nat.zero_le _) i.isLt, lt_of_le_of_lt (Nat.zero_le _) j.isLt⟩

end Pycold.Glmnet
