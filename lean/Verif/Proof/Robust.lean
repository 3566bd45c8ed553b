import Verif.Spec.Robust
import Mathlib.Data.List.Sort
import Mathlib.Data.List.GetD
import Mathlib.Tactic.Linarith
import Mathlib.Tactic.NormNum
import Mathlib.Tactic.Positivity
import Mathlib.Tactic.Ring
import Mathlib.Tactic.FieldSimp
/-! Lemmas about the robust regression (C80). -/
namespace Pycold.Robust

open Pycold.Robust.Spec

theorem sd_nonneg (y : List ℝ) : 0 ≤ sd y := Real.sqrt_nonneg _

theorem sigLower_pos (y : List ℝ) : 0 < sigLower y := by
  unfold sigLower
  split
  · exact one_pos
  · rename_i h
    have := sd_nonneg y
    exact lt_of_le_of_ne (by positivity) (Ne.symm h)

/-! ### The median -/

open Classical in
theorem countP_sorted {l : List ℝ} (h : l.Pairwise (· ≤ ·)) {j : ℕ} (hj : j < l.length) {t : ℝ} (ht : l[j] ≤ t) :
    j + 1 ≤ l.countP (fun v => decide (v ≤ t)) := by
  have h1 : (l.take (j + 1)).countP (fun v => decide (v ≤ t)) = j + 1 := by
    rw [List.countP_eq_length.2]
    · rw [List.length_take]; omega
    · intro a ha
      obtain ⟨i, hi, rfl⟩ := List.getElem_of_mem ha
      rw [List.getElem_take, decide_eq_true_eq]
      rw [List.length_take] at hi
      refine le_trans ?_ ht
      rcases Nat.lt_or_ge i j with hij | hij
      · exact List.pairwise_iff_getElem.1 h i j (by omega) hj hij
      · have : i = j := by omega
        subst this
        exact le_rfl
  rw [← h1]
  exact (List.take_sublist _ _).countP_le

theorem medianSorted_ge {v : List ℝ} (h : v.Pairwise (· ≤ ·)) (hv : 0 < v.length) :
    v[(v.length - 1) / 2]'(by omega) ≤ medianSorted v := by
  unfold medianSorted
  split
  · rw [List.getD_eq_getElem _ _ (by omega)]
  · rename_i hne
    rw [List.getD_eq_getElem _ _ (show (v.length - 1) / 2 < v.length by omega),
      List.getD_eq_getElem _ _ (show v.length / 2 < v.length by omega)]
    have := List.pairwise_iff_getElem.1 h ((v.length - 1) / 2) (v.length / 2) (by omega) (by omega) (by omega)
    linarith

open Classical in
theorem madSigma_count {r : List ℝ} (h : 5 ≤ r.length) :
    (r.length + 4) / 2 ≤ r.countP (fun v => decide (|v| ≤ 0.6745 * madSigma 5 r)) := by
  have hperm := List.mergeSort_perm (r.map fun v => |v|) (fun a b => decide (a ≤ b))
  have hsort : ((r.map fun v => |v|).mergeSort (fun a b => decide (a ≤ b))).Pairwise (· ≤ ·) := by
    have := List.pairwise_mergeSort (le := fun a b : ℝ => decide (a ≤ b))
      (by intro a b c h1 h2; simp only [decide_eq_true_eq] at *; exact h1.trans h2)
      (by intro a b; simp only [Bool.or_eq_true, decide_eq_true_eq]; exact le_total a b) (r.map fun v => |v|)
    exact this.imp (by intro a b h; simpa using h)
  have e : 0.6745 * madSigma 5 r =
      medianSorted (((r.map fun v => |v|).mergeSort (fun a b => decide (a ≤ b))).drop 4) := by
    unfold madSigma
    rw [show (5 : ℕ) - 1 = 4 from rfl]
    ring
  rw [e]
  have hlen : ((r.map fun v => |v|).mergeSort (fun a b => decide (a ≤ b))).length = r.length := by
    rw [List.length_mergeSort, List.length_map]
  have hc : r.countP (fun v => decide (|v| ≤ medianSorted (((r.map fun v => |v|).mergeSort
      (fun a b => decide (a ≤ b))).drop 4))) =
      ((r.map fun v => |v|).mergeSort (fun a b => decide (a ≤ b))).countP (fun v => decide (v ≤ medianSorted
        (((r.map fun v => |v|).mergeSort (fun a b => decide (a ≤ b))).drop 4))) := by
    rw [hperm.countP_eq, List.countP_map]
    rfl
  rw [hc]
  generalize (r.map fun v => |v|).mergeSort (fun a b => decide (a ≤ b)) = l at hsort hlen
  have hm := medianSorted_ge (v := l.drop 4) (hsort.sublist (List.drop_sublist _ _))
    (by rw [List.length_drop]; omega)
  rw [List.getElem_drop] at hm
  have hidx : (l.drop 4).length = r.length - 4 := by rw [List.length_drop, hlen]
  have := countP_sorted hsort (j := 4 + ((l.drop 4).length - 1) / 2) (by rw [hidx]; omega) hm
  omega

/-! ### The weights -/

theorem bisquare_range (r : ℝ) : 0 ≤ bisquare r ∧ bisquare r ≤ 1 := by
  unfold bisquare
  split
  · rename_i h
    have h1 := abs_lt.1 h
    have h2 : r * r ≤ 1 := by nlinarith
    constructor
    · exact mul_self_nonneg _
    · nlinarith [mul_self_nonneg r]
  · exact ⟨le_rfl, zero_le_one⟩

theorem bisquare_ge {r : ℝ} (h : |r| ≤ 0.6745 / 4.685) : 0.95 ≤ bisquare r := by
  unfold bisquare
  have h0 : |r| < 1 := lt_of_le_of_lt h (by norm_num)
  rw [if_pos h0]
  have h1 : r * r ≤ (0.6745 / 4.685) * (0.6745 / 4.685) := by
    rw [← abs_mul_abs_self r]
    exact mul_le_mul h h (abs_nonneg _) (by norm_num)
  have h2 : r * r ≤ 0.0208 := h1.trans (by norm_num)
  nlinarith [mul_self_nonneg r]

theorem weights_length (p : ℕ) (lower : ℝ) (fac r : List ℝ) :
    (weights p lower fac r).length = min r.length fac.length := by
  unfold weights
  simp

theorem weights_range {p : ℕ} {lower : ℝ} {fac r : List ℝ} {q : ℝ} (h : q ∈ weights p lower fac r) :
    0 ≤ q ∧ q ≤ 1 := by
  unfold weights at h
  obtain ⟨v, _, rfl⟩ := List.mem_map.1 h
  exact bisquare_range _

open Classical in
theorem weights_count {lower : ℝ} (hl : 0 < lower) {fac r : List ℝ} (hr : 5 ≤ r.length) (hf : fac.length = r.length) :
    (r.length + 4) / 2 ≤ (weights 5 lower fac r).countP (fun q => decide (0.95 ≤ q)) := by
  unfold weights
  dsimp only
  have hlen : (List.zipWith (· * ·) r fac).length = r.length := by simp [hf]
  have hc := madSigma_count (r := List.zipWith (· * ·) r fac) (by omega)
  rw [hlen] at hc
  refine hc.trans ?_
  rw [List.countP_map]
  apply List.countP_mono_left
  intro v _ hv
  simp only [decide_eq_true_eq, Function.comp] at hv ⊢
  apply bisquare_ge
  generalize madSigma 5 (List.zipWith (· * ·) r fac) = s at hv ⊢
  have hm : 0 < max s lower := lt_of_lt_of_le hl (le_max_right _ _)
  unfold tune
  rw [abs_mul, abs_of_pos (show 0 < 1 / (max s lower * 4.685) by positivity), mul_one_div, div_le_div_iff₀ (by positivity) (by norm_num)]
  have : s ≤ max s lower := le_max_left _ _
  nlinarith

/-! ### The rounds -/

/-- A round happens at least once, and the result is that of a round. -/
theorem rounds_last (G : Gsl) (X : List (List ℝ)) (y : List ℝ) (p : ℕ) (lower : ℝ) (fac : List ℝ) :
    ∀ (k : ℕ) (c : List ℝ), ∃ c', rounds G X y p lower fac (k + 1) c = round G X y p lower fac c'
  | 0, c => by
    refine ⟨c, ?_⟩
    unfold rounds
    dsimp only
    split <;> rfl
  | k + 1, c => by
    rw [rounds]
    split
    · exact ⟨c, rfl⟩
    · exact rounds_last G X y p lower fac k _

theorem dot_value (row c : List ℝ) : dot row c = value row c := rfl

theorem loss_residuals (X : List (List ℝ)) (w y c : List ℝ) :
    loss X w y c = (List.zipWith (fun q e => q * e ^ 2) w (residuals X y c)).sum := rfl

theorem residuals_length {X : List (List ℝ)} {y : List ℝ} {p : ℕ} (h : Table X y p) (c : List ℝ) :
    (residuals X y c).length = y.length := by
  unfold residuals
  rw [List.length_zipWith, h.rows, Nat.min_self]

open Classical in
/-- The result minimises a weighted sum of squares. -/
theorem robust_weighted {G : Gsl} (hG : LeastSquares G) {X : List (List ℝ)} {y : List ℝ} (h : Table X y 5)
    (hn : 5 ≤ y.length) : ∃ w : List ℝ, w.length = y.length ∧ (∀ q ∈ w, 0 ≤ q ∧ q ≤ 1) ∧
      (y.length + 4) / 2 ≤ w.countP (fun q => decide (0.95 ≤ q)) ∧
      multifitRobust G X y 5 = G.wlinear X w y := by
  obtain ⟨c', hc⟩ := rounds_last G X y 5 (sigLower y) ((G.leverage X).map resfac) 4 (G.linear X y)
  have hr := residuals_length h c'
  have hf : ((G.leverage X).map resfac).length = (residuals X y c').length := by
    rw [List.length_map, hG.leverage_length, hr, h.rows]
  refine ⟨weights 5 (sigLower y) ((G.leverage X).map resfac) (residuals X y c'), ?_, fun q => weights_range, ?_, hc⟩
  · rw [weights_length, hf, Nat.min_self, hr]
  · have := weights_count (sigLower_pos y) (fac := (G.leverage X).map resfac) (r := residuals X y c')
      (by omega) hf
    rwa [hr] at this

/-! ### Values on a curve -/

theorem sum_squares_zero : ∀ {w e : List ℝ}, w.length = e.length → (∀ q ∈ w, 0 < q) →
    (List.zipWith (fun q e => q * e ^ 2) w e).sum ≤ 0 → ∀ x ∈ e, x = 0
  | [], [], _, _, _ => by simp
  | q :: w, x :: e, hl, hw, h => by
    have hq := hw q (by simp)
    have hnn : 0 ≤ (List.zipWith (fun q e => q * e ^ 2) w e).sum := by
      apply List.sum_nonneg
      intro a ha
      obtain ⟨i, hi, rfl⟩ := List.getElem_of_mem ha
      rw [List.getElem_zipWith]
      have : 0 < w[i]'(by simp at hi; omega) := hw _ (List.mem_cons_of_mem _ (List.getElem_mem _))
      positivity
    rw [List.zipWith_cons_cons, List.sum_cons] at h
    have hx : q * x ^ 2 = 0 := le_antisymm (by linarith) (by positivity)
    have hx0 : x = 0 := by
      rcases mul_eq_zero.1 hx with h0 | h0
      · exact absurd h0 hq.ne'
      · exact pow_eq_zero_iff (two_ne_zero) |>.1 h0
    intro z hz
    rcases List.mem_cons.1 hz with rfl | hz
    · exact hx0
    · exact sum_squares_zero (by simpa using hl) (fun q hq' => hw q (List.mem_cons_of_mem _ hq'))
        (by linarith) z hz

/-- The coefficients give every value. -/
def Passes (X : List (List ℝ)) (y c : List ℝ) : Prop := ∀ e ∈ residuals X y c, e = 0

theorem loss_passes {X : List (List ℝ)} {y c : List ℝ} (w : List ℝ) (h : Passes X y c) : loss X w y c = 0 := by
  rw [loss_residuals]
  apply List.sum_eq_zero
  intro a ha
  obtain ⟨i, hi, rfl⟩ := List.getElem_of_mem ha
  rw [List.getElem_zipWith, h _ (List.getElem_mem _)]
  ring

theorem passes_weights {X : List (List ℝ)} {y c : List ℝ} (h : Passes X y c) (p : ℕ) (lower : ℝ) (fac : List ℝ) :
    ∀ q ∈ weights p lower fac (residuals X y c), q = 1 := by
  intro q hq
  unfold weights at hq
  obtain ⟨v, hv, rfl⟩ := List.mem_map.1 hq
  obtain ⟨i, hi, rfl⟩ := List.getElem_of_mem hv
  rw [List.getElem_zipWith, h _ (List.getElem_mem _)]
  simp [bisquare]

theorem passes_round {G : Gsl} (hG : LeastSquares G) {X : List (List ℝ)} {y : List ℝ} {p : ℕ} (h : Table X y p)
    {c0 : List ℝ} (hl : c0.length = p) (h0 : Passes X y c0) (lower : ℝ) {fac : List ℝ} (hf : fac.length = y.length)
    {c : List ℝ} (hc : Passes X y c) : Passes X y (round G X y p lower fac c) := by
  have hw := passes_weights hc p lower fac
  have hlen : (weights p lower fac (residuals X y c)).length = y.length := by
    rw [weights_length, residuals_length h, hf, Nat.min_self]
  have := hG.wlinear X _ y p c0 h hlen (fun q hq => by rw [hw q hq]; exact zero_le_one) hl
  rw [loss_passes _ h0, loss_residuals] at this
  exact sum_squares_zero (by rw [hlen, residuals_length h]) (fun q hq => by rw [hw q hq]; exact one_pos) this

theorem passes_rounds {G : Gsl} (hG : LeastSquares G) {X : List (List ℝ)} {y : List ℝ} {p : ℕ} (h : Table X y p)
    {c0 : List ℝ} (hl : c0.length = p) (h0 : Passes X y c0) (lower : ℝ) {fac : List ℝ} (hf : fac.length = y.length) :
    ∀ (k : ℕ) {c : List ℝ}, Passes X y c → Passes X y (rounds G X y p lower fac k c)
  | 0, c, hc => hc
  | k + 1, c, hc => by
    rw [rounds]
    have := passes_round hG h hl h0 lower hf hc
    split
    · exact this
    · exact passes_rounds hG h hl h0 lower hf k this

theorem robust_passes {G : Gsl} (hG : LeastSquares G) {X : List (List ℝ)} {y : List ℝ} {p : ℕ} (h : Table X y p)
    {c0 : List ℝ} (hl : c0.length = p) (h0 : Passes X y c0) : Passes X y (multifitRobust G X y p) := by
  unfold multifitRobust
  apply passes_rounds hG h hl h0
  · rw [List.length_map, hG.leverage_length, h.rows]
  · have := hG.linear X y p c0 h hl
    rw [loss_passes _ h0, loss_residuals] at this
    refine sum_squares_zero ?_ ?_ this
    · rw [List.length_replicate, residuals_length h]
    · intro q hq
      rw [(List.mem_replicate.1 hq).2]
      exact one_pos

/-! ### Units -/

theorem residuals_scale (X : List (List ℝ)) (y c : List ℝ) (a : ℝ) :
    residuals X (y.map (a * ·)) (c.map (a * ·)) = (residuals X y c).map (a * ·) := by
  unfold residuals
  rw [List.zipWith_map_right, List.map_zipWith]
  congr 1
  funext row v
  have : ∀ row c : List ℝ, dot row (c.map (a * ·)) = a * dot row c := by
    intro row c
    unfold dot
    rw [List.zipWith_map_right]
    induction row generalizing c with
    | nil => simp
    | cons r row ih =>
      cases c with
      | nil => simp
      | cons x c => simp only [List.zipWith_cons_cons, List.sum_cons, ih]; ring
  rw [this]
  ring

theorem sd_scale (y : List ℝ) (a : ℝ) : sd (y.map (a * ·)) = |a| * sd y := by
  unfold sd
  have hs : (y.map (a * ·)).sum = a * y.sum := by simpa using List.sum_map_mul_left y (fun x => x) a
  have e : ((y.map (a * ·)).map fun v => (v - (y.map (a * ·)).sum / ((y.map (a * ·)).length : ℝ)) ^ 2).sum =
      a ^ 2 * (y.map fun v => (v - y.sum / (y.length : ℝ)) ^ 2).sum := by
    rw [hs, List.length_map, List.map_map, ← List.sum_map_mul_left]
    congr 1
    apply List.map_congr_left
    intro v _
    simp only [Function.comp]
    ring
  rw [e, List.length_map, mul_div_assoc, Real.sqrt_mul (sq_nonneg a), Real.sqrt_sq_eq_abs]

theorem medianSorted_scale (v : List ℝ) (a : ℝ) : medianSorted (v.map (a * ·)) = a * medianSorted v := by
  unfold medianSorted
  have : ∀ k : ℕ, (v.map (a * ·)).getD k 0 = a * v.getD k 0 := by
    intro k
    rw [List.getD_eq_getElem?_getD, List.getD_eq_getElem?_getD, List.getElem?_map]
    cases v[k]? <;> simp
  rw [List.length_map, this, this]
  split
  · rfl
  · ring

open Classical in
theorem sort_scale (l : List ℝ) {a : ℝ} (ha : 0 < a) : (l.map (a * ·)).mergeSort (fun x y => decide (x ≤ y)) =
    (l.mergeSort (fun x y => decide (x ≤ y))).map (a * ·) := by
  have sorted : ∀ l : List ℝ, (l.mergeSort (fun a b => decide (a ≤ b))).Pairwise (· ≤ ·) := by
    intro l
    have := List.pairwise_mergeSort (le := fun a b : ℝ => decide (a ≤ b))
      (by intro a b c h1 h2; simp only [decide_eq_true_eq] at *; exact h1.trans h2)
      (by intro a b; simp only [Bool.or_eq_true, decide_eq_true_eq]; exact le_total a b) l
    exact this.imp (by intro a b h; simpa using h)
  apply List.Perm.eq_of_pairwise' (r := fun a b : ℝ => a ≤ b)
  · exact sorted _
  · rw [List.pairwise_map]
    exact (sorted l).imp (by intro x y h; exact mul_le_mul_of_nonneg_left h ha.le)
  · exact (List.mergeSort_perm _ _).trans ((List.mergeSort_perm _ _).symm.map _)

theorem madSigma_scale (p : ℕ) (r : List ℝ) {a : ℝ} (ha : a ≠ 0) : madSigma p (r.map (a * ·)) = |a| * madSigma p r := by
  unfold madSigma
  have e : (r.map (a * ·)).map (fun v => |v|) = (r.map fun v => |v|).map (|a| * ·) := by
    rw [List.map_map, List.map_map]
    apply List.map_congr_left
    intro v _
    simp only [Function.comp]
    rw [abs_mul]
  rw [e, sort_scale _ (abs_pos.2 ha), ← List.map_drop, medianSorted_scale, mul_div_assoc]

theorem bisquare_neg (r : ℝ) : bisquare (-r) = bisquare r := by
  unfold bisquare
  rw [abs_neg]
  simp

theorem weights_scale (p : ℕ) (lower : ℝ) (fac r : List ℝ) {a : ℝ} (ha : a ≠ 0) :
    weights p (|a| * lower) fac (r.map (a * ·)) = weights p lower fac r := by
  unfold weights
  dsimp only
  have e : List.zipWith (· * ·) (r.map (a * ·)) fac = (List.zipWith (· * ·) r fac).map (a * ·) := by
    rw [List.zipWith_map_left, List.map_zipWith]
    congr 1
    funext x f
    ring
  rw [e, madSigma_scale _ _ ha, List.map_map]
  apply List.map_congr_left
  intro v _
  simp only [Function.comp]
  have hp : 0 < |a| := abs_pos.2 ha
  rw [← mul_max_of_nonneg _ _ hp.le]
  have : a * v * (1 / (|a| * max (madSigma p (List.zipWith (· * ·) r fac)) lower * tune)) =
      (a / |a|) * (v * (1 / (max (madSigma p (List.zipWith (· * ·) r fac)) lower * tune))) := by
    rw [mul_assoc |a|, one_div, one_div, mul_inv]
    ring
  rw [this]
  rcases lt_or_gt_of_ne ha with h | h
  · rw [abs_of_neg h, show a / -a = -1 by rw [div_neg, div_self ha], neg_one_mul, bisquare_neg]
  · rw [abs_of_pos h, div_self ha, one_mul]

theorem converged_scale (prev c : List ℝ) {a : ℝ} (ha : a ≠ 0) :
    converged (prev.map (a * ·)) (c.map (a * ·)) = converged prev c := by
  unfold converged
  rw [List.zipWith_map]
  congr 1
  have : ∀ x z : ℝ, (1.4901161193847656e-08 * max |a * x| |a * z| < |a * z - a * x|) ↔
      (1.4901161193847656e-08 * max |x| |z| < |z - x|) := by
    intro x z
    have hp : 0 < |a| := abs_pos.2 ha
    rw [← mul_sub, abs_mul, abs_mul, abs_mul, ← mul_max_of_nonneg _ _ hp.le, mul_left_comm]
    exact mul_lt_mul_iff_right₀ hp
  congr 1
  funext x z
  rw [decide_eq_decide]
  exact this x z

theorem rounds_scale {G : Gsl} (hG : Homogeneous G) (X : List (List ℝ)) (y : List ℝ) (p : ℕ) (lower : ℝ)
    (fac : List ℝ) {a : ℝ} (ha : a ≠ 0) : ∀ (k : ℕ) (c : List ℝ),
    rounds G X (y.map (a * ·)) p (|a| * lower) fac k (c.map (a * ·)) = (rounds G X y p lower fac k c).map (a * ·)
  | 0, c => rfl
  | k + 1, c => by
    have hr : round G X (y.map (a * ·)) p (|a| * lower) fac (c.map (a * ·)) = (round G X y p lower fac c).map (a * ·) := by
      unfold round
      rw [residuals_scale, weights_scale _ _ _ _ ha, hG.wlinear]
    rw [rounds, rounds]
    rw [hr, converged_scale _ _ ha]
    split
    · rfl
    · exact rounds_scale hG X y p lower fac ha k _

/-- For values on a curve the lower bound of the scale plays no part. -/
theorem rounds_lower {G : Gsl} (hG : LeastSquares G) {X : List (List ℝ)} {y : List ℝ} {p : ℕ} (h : Table X y p)
    {c0 : List ℝ} (hl : c0.length = p) (h0 : Passes X y c0) (lower lower' : ℝ) {fac : List ℝ}
    (hf : fac.length = y.length) : ∀ (k : ℕ) {c : List ℝ}, Passes X y c →
      rounds G X y p lower fac k c = rounds G X y p lower' fac k c
  | 0, c, hc => rfl
  | k + 1, c, hc => by
    have hw : weights p lower fac (residuals X y c) = weights p lower' fac (residuals X y c) := by
      apply List.ext_getElem
      · rw [weights_length, weights_length]
      · intro i h1 h2
        rw [passes_weights hc p lower fac _ (List.getElem_mem h1), passes_weights hc p lower' fac _ (List.getElem_mem h2)]
    have hr : round G X y p lower fac c = round G X y p lower' fac c := by
      unfold round
      rw [hw]
    rw [rounds, rounds, hr]
    split
    · rfl
    · exact rounds_lower hG h hl h0 lower lower' hf k (hr ▸ passes_round hG h hl h0 lower hf hc)

theorem sd_zero {y : List ℝ} (h : sd y = 0) (hn : 2 ≤ y.length) : ∀ v ∈ y, v = y.sum / y.length := by
  unfold sd at h
  have hp : (0 : ℝ) < (y.length : ℝ) - 1 := by
    have : (2 : ℝ) ≤ (y.length : ℝ) := by exact_mod_cast hn
    linarith
  have hnn : ∀ x ∈ y.map (fun v => (v - y.sum / (y.length : ℝ)) ^ 2), (0 : ℝ) ≤ x := by
    intro x hx
    obtain ⟨v, _, rfl⟩ := List.mem_map.1 hx
    positivity
  rw [Real.sqrt_eq_zero (div_nonneg (List.sum_nonneg hnn) hp.le), div_eq_zero_iff] at h
  rcases h with h | h
  · intro v hv
    have h1 := List.single_le_sum hnn _ (List.mem_map_of_mem (f := fun v => (v - y.sum / (y.length : ℝ)) ^ 2) hv)
    rw [h] at h1
    have h2 : v - y.sum / (y.length : ℝ) = 0 := by
      have : (v - y.sum / (y.length : ℝ)) ^ 2 = 0 := le_antisymm h1 (by positivity)
      exact pow_eq_zero_iff two_ne_zero |>.1 this
    linarith
  · linarith

/-- Multiplied values give multiplied coefficients. -/
theorem robust_scale {G : Gsl} (hG : LeastSquares G) (hH : Homogeneous G) {x : List (List ℝ)} {y : List ℝ} {p : ℕ}
    (h : Table x y p) (hn : 2 ≤ y.length) {a : ℝ} (ha : a ≠ 0) :
    multifitRobust G (x.map fun r => 1 :: r) (y.map (a * ·)) (p + 1) =
      (multifitRobust G (x.map fun r => 1 :: r) y (p + 1)).map (a * ·) := by
  have hT : Table (x.map fun r => 1 :: r) y (p + 1) := by
    refine ⟨by simpa using h.pos, by rw [List.length_map, h.rows], ?_⟩
    intro r hr
    obtain ⟨q, hq, rfl⟩ := List.mem_map.1 hr
    rw [List.length_cons, h.cols q hq]
  unfold multifitRobust
  rw [hH.linear, ← rounds_scale hH _ _ _ _ _ ha]
  by_cases hs : sd y = 0
  · have hs' : sd (y.map (a * ·)) = 0 := by rw [sd_scale, hs, mul_zero]
    have h0 : Passes (x.map fun r => 1 :: r) y ((y.sum / y.length) :: List.replicate p 0) := by
      intro e he
      unfold residuals at he
      obtain ⟨i, hi, rfl⟩ := List.getElem_of_mem he
      rw [List.getElem_zipWith, List.getElem_map]
      have hz : ∀ (r : List ℝ) (k : ℕ), dot r (List.replicate k 0) = 0 := by
        intro r k
        unfold dot
        apply List.sum_eq_zero
        intro t ht
        obtain ⟨j, hj, rfl⟩ := List.getElem_of_mem ht
        rw [List.getElem_zipWith, List.getElem_replicate, mul_zero]
      have hd : dot (1 :: x[i]'(by simp at hi; omega)) ((y.sum / y.length) :: List.replicate p 0) = y.sum / y.length := by
        have := hz (x[i]'(by simp at hi; omega)) p
        unfold dot at this ⊢
        rw [List.zipWith_cons_cons, List.sum_cons, this, one_mul, add_zero]
      rw [hd, sd_zero hs hn _ (List.getElem_mem _), sub_self]
    have hl0 : ((y.sum / y.length) :: List.replicate p (0 : ℝ)).length = p + 1 := by simp
    have hf : ((G.leverage (x.map fun r => 1 :: r)).map resfac).length = y.length := by
      rw [List.length_map, hG.leverage_length, hT.rows]
    have hlin : Passes (x.map fun r => 1 :: r) y (G.linear (x.map fun r => 1 :: r) y) := by
      have := hG.linear _ y (p + 1) _ hT hl0
      rw [loss_passes _ h0, loss_residuals] at this
      refine sum_squares_zero ?_ ?_ this
      · rw [List.length_replicate, residuals_length hT]
      · intro q hq
        rw [(List.mem_replicate.1 hq).2]
        exact one_pos
    have hP : ∀ {c : List ℝ}, Passes (x.map fun r => 1 :: r) y c →
        Passes (x.map fun r => 1 :: r) (y.map (a * ·)) (c.map (a * ·)) := by
      intro c hc e he
      rw [residuals_scale] at he
      obtain ⟨e', he', rfl⟩ := List.mem_map.1 he
      rw [hc _ he', mul_zero]
    have hT' : Table (x.map fun r => 1 :: r) (y.map (a * ·)) (p + 1) :=
      ⟨hT.pos, by rw [hT.rows, List.length_map], hT.cols⟩
    exact rounds_lower hG hT' (by rw [List.length_map, hl0]) (hP h0) _ _ (by rw [hf, List.length_map]) _ (hP hlin)
  · have hL : sigLower (y.map (a * ·)) = |a| * sigLower y := by
      unfold sigLower
      rw [sd_scale, if_neg, if_neg]
      · ring
      · exact mul_ne_zero (by norm_num) hs
      · exact mul_ne_zero (by norm_num) (mul_ne_zero (abs_ne_zero.2 ha) hs)
    rw [hL]

end Pycold.Robust
