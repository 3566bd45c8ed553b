import Mathlib.Algebra.Order.Chebyshev
import Verif.Spec.Quiet
import Verif.Proof.ColdVTrack
import Verif.Props.C78
/-! COLD in exact arithmetic on series without a change, and with one. -/
namespace Pycold.ColdNum

open ColdNum.Spec ColdV.Spec Glmnet.Spec

theorem foldl_sum {B : Type} (f : B → ℝ) (l : List B) (a : ℝ) : l.foldl (fun s b => s + f b) a = a + (l.map f).sum := by
  induction l generalizing a with
  | nil => simp
  | cons x xs ih => rw [List.foldl_cons, ih, List.map_cons, List.sum_cons]; ring

theorem max_exact (a b : ℝ) : exact.max a b = max a b := by
  unfold Fl.max
  show (if decide (b < a) = true then a else b) = _
  by_cases h : b < a
  · rw [if_pos (by simpa using h), max_eq_left h.le]
  · rw [if_neg (by simpa using h), max_eq_right (not_lt.1 h)]

theorem zColumn_exact {B : Type} (E : Env ℝ B) (hA : E.A = exact) (rmin rm dif : B → ℝ) :
    zColumn E rmin rm dif = ((E.blist.map fun b => (dif b / max (rmin b) (rm b)) ^ 2).sum,
      E.blist.map (fun b => dif b / max (rmin b) (rm b)), dif) := by
  have hz : ∀ b, E.A.div (dif b) (E.A.max (rmin b) (rm b)) = dif b / max (rmin b) (rm b) := by
    intro b; rw [hA, max_exact]; rfl
  unfold zColumn
  simp only [hz]
  congr 1
  rw [hA]
  show List.foldl (fun s b => s + (dif b / max (rmin b) (rm b)) * (dif b / max (rmin b) (rm b))) exact.zero _ = _
  rw [foldl_sum (fun b => (dif b / max (rmin b) (rm b)) * (dif b / max (rmin b) (rm b))), zero_exact, zero_add]
  congr 2
  funext b
  ring

/-- Sum of squares of bounded numbers. -/
theorem sum_sq_le (l : List ℝ) {w : ℝ} (h : ∀ x ∈ l, |x| ≤ w) : (l.map (fun x => x ^ 2)).sum ≤ l.length * w ^ 2 := by
  induction l with
  | nil => simp
  | cons x xs ih =>
    have h1 := ih (fun y hy => h y (List.mem_cons_of_mem _ hy))
    have h2 := h x (List.mem_cons_self ..)
    have h3 : x ^ 2 ≤ w ^ 2 := by rw [← sq_abs x]; exact pow_le_pow_left₀ (abs_nonneg _) h2 2
    rw [List.map_cons, List.sum_cons, List.length_cons]
    push_cast
    linarith

theorem sum_sq_nonneg (l : List ℝ) : 0 ≤ (l.map (fun x => x ^ 2)).sum := by
  apply List.sum_nonneg
  intro x hx
  obtain ⟨y, _, rfl⟩ := List.mem_map.1 hx
  positivity

/-- A comparison of an observation with a model. -/
def Against (E : Env ℝ (Fin 7)) (rmin : Fin 7 → ℝ) (c : Int) (obs : List (ColdV.Row (Fin 7 → ℝ)))
    (x : ColdV.Sc (Fin 7 → ℝ) ℝ (List ℝ) (Fin 7 → ℝ)) : Prop :=
  x = ColdV.column x.row ((kit E rmin).score c ((kit E rmin).fit c obs) x.row) ∨
    ∃ df, Order df ∧ c ≤ df ∧ x = ColdV.column x.row
      ((kit E rmin).near df c ((kit E rmin).fit c obs) ((kit E rmin).fit c obs) (obs.map (·.date)) x.row)

/-- The curve found for the observations. -/
noncomputable def curveOf (E : Env ℝ (Fin 7)) (c : Int) (obs : List (ColdV.Row (Fin 7 → ℝ))) (b : Fin 7) (t : ℝ) : ℝ :=
  solverCurve c (E.lasso (obs.map (fun o => regressors c (o.date : ℝ))) (obs.map (fun o => o.y b))) t

theorem fitAll_dif {E : Env ℝ (Fin 7)} (hA : E.A = exact) {c : Int} (hc : Order c)
    (obs : List (ColdV.Row (Fin 7 → ℝ))) (b : Fin 7) :
    (fitAll E c obs b).dif = obs.map (fun o => o.y b - curveOf E c obs b (o.date : ℝ)) := by
  obtain ⟨_, _, _, q4, _⟩ := C72_fit E hA c hc (obs.map (·.date)) (obs.map (fun o => o.y b))
  show (fitBand E c (obs.map (·.date)) (obs.map (fun o => o.y b))).dif = _
  rw [q4, List.map_map]
  unfold curveOf
  rw [List.zipWith_map, List.zipWith_self]
  rfl

theorem against {E : Env ℝ (Fin 7)} (hA : E.A = exact) {rmin : Fin 7 → ℝ} {c : Int} (hc : Order c)
    {obs : List (ColdV.Row (Fin 7 → ℝ))} {x : ColdV.Sc (Fin 7 → ℝ) ℝ (List ℝ) (Fin 7 → ℝ)}
    (h : Against E rmin c obs x) :
    (∀ b, x.dif b = x.row.y b - curveOf E c obs b (x.row.date : ℝ)) ∧
    ∃ rm : Fin 7 → ℝ, (∀ b, 0 ≤ rm b) ∧
      x.vec = E.blist.map (fun b => x.dif b / max (rmin b) (rm b)) ∧
      x.mag = (E.blist.map fun b => (x.dif b / max (rmin b) (rm b)) ^ 2).sum ∧
      ∀ b w, 0 ≤ w → 3 * c ≤ obs.length → (∀ o ∈ obs, |o.y b - curveOf E c obs b (o.date : ℝ)| ≤ w) →
        rm b ^ 2 ≤ 3 / 2 * w ^ 2 := by
  have hc0 : (0 : ℝ) < c := by
    have : (0 : ℤ) < c := by rcases hc with h | h | h <;> omega
    exact_mod_cast this
  rcases h with h | ⟨df, hdf, hle, h⟩
  · have e1 : x.dif = difs E c (fitAll E c obs) x.row := by rw [h]; rfl
    have e2 : (x.mag, x.vec, x.dif) = zColumn E rmin (fun b => (fitAll E c obs b).rmse)
        (difs E c (fitAll E c obs) x.row) := by rw [h]; rfl
    rw [zColumn_exact E hA, ← e1] at e2
    refine ⟨fun b => by rw [e1]; exact difs_exact hA hc hc le_rfl _ _ _, fun b => (fitAll E c obs b).rmse, ?_, ?_, ?_, ?_⟩
    · intro b
      obtain ⟨_, _, _, _, q5⟩ := C72_fit E hA c hc (obs.map (·.date)) (obs.map (fun o => o.y b))
      show 0 ≤ (fitBand E c (obs.map (·.date)) (obs.map (fun o => o.y b))).rmse
      rw [q5]
      positivity
    · exact congrArg (fun p => p.2.1) e2
    · exact congrArg (fun p => p.1) e2
    · intro b w hw h3 hb
      obtain ⟨_, _, _, _, q5⟩ := C72_fit E hA c hc (obs.map (·.date)) (obs.map (fun o => o.y b))
      have hd := fitAll_dif hA hc obs b
      show (fitBand E c (obs.map (·.date)) (obs.map (fun o => o.y b))).rmse ^ 2 ≤ _
      rw [q5]
      have hdd : (fitBand E c (obs.map (·.date)) (obs.map (fun o => o.y b))).dif =
        obs.map (fun o => o.y b - curveOf E c obs b (o.date : ℝ)) := hd
      rw [hdd]
      have hs := sum_sq_le (obs.map (fun o => o.y b - curveOf E c obs b (o.date : ℝ))) (w := w) (by
        intro x hx
        obtain ⟨o, ho, rfl⟩ := List.mem_map.1 hx
        exact hb o ho)
      have h0 := sum_sq_nonneg (obs.map (fun o => o.y b - curveOf E c obs b (o.date : ℝ)))
      rw [List.length_map] at hs ⊢
      have hl : (3 : ℝ) * c ≤ obs.length := by exact_mod_cast h3
      have hpos : (0 : ℝ) < obs.length - c := by linarith
      rw [div_pow, Real.sq_sqrt h0, Real.sq_sqrt hpos.le, div_le_iff₀ hpos]
      nlinarith [sq_nonneg w]
  · have e1 : x.dif = difs E df (fitAll E c obs) x.row := by rw [h]; rfl
    have e2 : (x.mag, x.vec, x.dif) = zColumn E rmin
        (fun b => nearRmse E.A c (obs.map (·.date)) x.row.date (fitAll E c obs b).dif)
        (difs E df (fitAll E c obs) x.row) := by rw [h]; rfl
    rw [zColumn_exact E hA, ← e1] at e2
    have hn : ∀ b, nearRmse E.A c (obs.map (·.date)) x.row.date (fitAll E c obs b).dif =
        Real.sqrt (((((sortOrder exact ((obs.map (·.date)).map (fun t => dYr exact t x.row.date))).take (3 * c).toNat).map
          (fun k => (fitAll E c obs b).dif.getD k 0)).map (fun x => x ^ 2)).sum) / Real.sqrt (2 * c) := by
      intro b
      unfold nearRmse
      rw [hA]
      dsimp only
      rw [norm_exact, zero_exact]
      show _ / Real.sqrt (((3 * c - c : ℤ) : ℝ)) = _
      congr 2
      push_cast
      ring
    refine ⟨fun b => by rw [e1]; exact difs_exact hA hc hdf hle _ _ _,
      fun b => nearRmse E.A c (obs.map (·.date)) x.row.date (fitAll E c obs b).dif, ?_, ?_, ?_, ?_⟩
    · intro b
      dsimp only
      rw [hn]
      positivity
    · exact congrArg (fun p => p.2.1) e2
    · exact congrArg (fun p => p.1) e2
    · intro b w hw h3 hb
      dsimp only
      rw [hn]
      generalize hsel : ((sortOrder exact ((obs.map (·.date)).map (fun t => dYr exact t x.row.date))).take (3 * c).toNat).map
          (fun k => (fitAll E c obs b).dif.getD k 0) = sel
      have hlen : sel.length ≤ (3 * c).toNat := by
        rw [← hsel, List.length_map, List.length_take]
        exact min_le_left _ _
      have hs := sum_sq_le sel (w := w) (by
        intro x hx
        rw [← hsel] at hx
        obtain ⟨k, _, rfl⟩ := List.mem_map.1 hx
        rw [fitAll_dif hA hc, List.getD_eq_getElem?_getD, List.getElem?_map]
        cases ho : obs[k]? with
        | none => simpa using hw
        | some o => exact hb o (List.mem_of_getElem? ho))
      have h0 := sum_sq_nonneg sel
      have hl : (sel.length : ℝ) ≤ 3 * c := by
        have h3' : (0 : ℤ) < c := by exact_mod_cast hc0
        have : (sel.length : ℤ) ≤ 3 * c := by omega
        exact_mod_cast this
      have hpos : (0 : ℝ) < 2 * c := by linarith
      rw [div_pow, Real.sq_sqrt h0, Real.sq_sqrt hpos.le, div_le_iff₀ hpos]
      nlinarith [sq_nonneg w]

/-! ### Flat curves -/

theorem sum_bounds (l : List ℝ) {lo hi : ℝ} (h : ∀ y ∈ l, lo ≤ y ∧ y ≤ hi) :
    l.length * lo ≤ l.sum ∧ l.sum ≤ l.length * hi := by
  induction l with
  | nil => simp
  | cons x xs ih =>
    have h1 := ih (fun y hy => h y (List.mem_cons_of_mem _ hy))
    have h2 := h x (List.mem_cons_self ..)
    rw [List.sum_cons, List.length_cons]
    push_cast
    constructor <;> linarith [h1.1, h1.2, h2.1, h2.2]

theorem mean_bounds {l : List ℝ} (hl : l ≠ []) {lo hi : ℝ} (h : ∀ y ∈ l, lo ≤ y ∧ y ≤ hi) :
    lo ≤ l.sum / l.length ∧ l.sum / l.length ≤ hi := by
  have hp : (0 : ℝ) < l.length := by exact_mod_cast List.length_pos_iff.2 hl
  have := sum_bounds l h
  rw [le_div_iff₀ hp, div_le_iff₀ hp]
  constructor <;> linarith [this.1, this.2]

/-- Popoviciu's inequality: the standard deviation is at most half the range. -/
theorem spreadOf_le {l : List ℝ} (hl : l ≠ []) {lo hi : ℝ} (h : ∀ y ∈ l, lo ≤ y ∧ y ≤ hi) :
    spreadOf l ≤ (hi - lo) / 2 := by
  have hn : 0 < l.length := List.length_pos_iff.2 hl
  have hp : (0 : ℝ) < l.length := by exact_mod_cast hn
  have hy : ∀ i : Fin l.length, lo ≤ l[i] ∧ l[i] ≤ hi := fun i => h _ (List.getElem_mem _)
  have hlh : lo ≤ hi := (hy ⟨0, hn⟩).1.trans (hy ⟨0, hn⟩).2
  unfold spreadOf spread
  apply Real.sqrt_le_iff.2
  refine ⟨by linarith, ?_⟩
  rw [div_le_iff₀ hp]
  set m := mean (fun i : Fin l.length => l[i]) with hm
  have hsum : ∑ i : Fin l.length, l[i] = l.length * m := by
    rw [hm]; unfold mean; field_simp
  -- deviation from the mean is not more than deviation from the middle
  have e : ∀ i : Fin l.length, (l[i] - m) ^ 2 = (l[i] - (lo + hi) / 2) ^ 2 - 2 * (m - (lo + hi) / 2) * l[i] +
      (m ^ 2 - ((lo + hi) / 2) ^ 2) := fun i => by ring
  have h2 : ∑ i : Fin l.length, (l[i] - (lo + hi) / 2) ^ 2 ≤ ∑ _i : Fin l.length, ((hi - lo) / 2) ^ 2 := by
    apply Finset.sum_le_sum
    intro i _
    obtain ⟨a, b⟩ := hy i
    nlinarith [mul_nonneg (sub_nonneg.2 a) (sub_nonneg.2 b)]
  rw [Finset.sum_const, Finset.card_univ, Fintype.card_fin, nsmul_eq_mul] at h2
  rw [Finset.sum_congr rfl (fun i _ => e i), Finset.sum_add_distrib, Finset.sum_sub_distrib, ← Finset.mul_sum, hsum,
    Finset.sum_const, Finset.card_univ, Fintype.card_fin, nsmul_eq_mul]
  nlinarith [mul_nonneg hp.le (sq_nonneg (m - (lo + hi) / 2))]

/-- The curve for values within 40 of each other is a constant between them. -/
theorem flat_curve {E : Env ℝ (Fin 7)} {fuel : ℕ} (hf : 200000001 ≤ fuel) (hE : E.lasso = Glmnet.lasso fuel)
    {c : Int} (hc : Order c) {obs : List (ColdV.Row (Fin 7 → ℝ))}
    (hs : obs.Pairwise (fun a b => a.date < b.date)) (hl : 2 ≤ obs.length) {b : Fin 7} {lo hi : ℝ}
    (h : ∀ o ∈ obs, lo ≤ o.y b ∧ o.y b ≤ hi) (h40 : hi - lo ≤ 40) :
    ∃ μ, (∀ t, curveOf E c obs b t = μ) ∧ lo ≤ μ ∧ μ ≤ hi := by
  let w := obs.map fun o => (o.date, o.y b)
  have e1 : (w.map fun o => regressors c (o.1 : ℝ)) = obs.map (fun o => regressors c (o.date : ℝ)) := by
    rw [List.map_map]; rfl
  have e2 : w.map (·.2) = obs.map (fun o => o.y b) := by rw [List.map_map]; rfl
  have e3 : w.map (·.1) = obs.map (·.date) := by rw [List.map_map]; rfl
  have hv : ∀ y ∈ obs.map (fun o => o.y b), lo ≤ y ∧ y ≤ hi := by
    intro y hy
    obtain ⟨o, ho, rfl⟩ := List.mem_map.1 hy
    exact h o ho
  have hne : obs.map (fun o => o.y b) ≠ [] := by
    intro he
    have := congrArg List.length he
    rw [List.length_map, List.length_nil] at this
    omega
  obtain ⟨_, _, _, _, k5⟩ := Glmnet.C78_curve_partial (m := c) hc (w := w)
    (Glmnet.two_days (by rw [e3]; exact List.pairwise_map.2 hs) (by rw [List.length_map]; exact hl)) hf
  rw [e1, e2, List.length_map] at k5
  have hm := mean_bounds hne hv
  rw [List.length_map] at hm
  refine ⟨_, fun t => ?_, hm.1, hm.2⟩
  unfold curveOf
  rw [hE]
  exact k5 ((spreadOf_le hne hv).trans (by linarith)) t

/-! ### The noise floor -/

theorem trunc_int (k : ℤ) : exact.trunc (k : ℝ) = k := by
  show (if (0 : ℝ) ≤ (k : ℝ) then ⌊(k : ℝ)⌋ else ⌈(k : ℝ)⌉) = k
  split <;> simp

theorem variogram_jumps (w : List ClrObs) (b : Fin 7) :
    variogram exact (bandOf b (rowsOf exact w)) = median exact (jumps (valuesOf w b)) := by
  have e : bandOf b (rowsOf exact w) = w.map (fun o => exact.ofInt (o.bands.getD b 0)) := by
    unfold bandOf rowsOf; rw [List.map_map]; rfl
  unfold variogram jumps valuesOf
  congr 1
  rw [e, ← List.map_tail, ← List.map_tail, List.zipWith_map, List.zipWith_map]
  congr 1
  funext p q
  show (((exact.trunc (((q.bands.getD b 0 : ℤ) : ℝ) - ((p.bands.getD b 0 : ℤ) : ℝ))).natAbs : ℤ) : ℝ) = _
  rw [← Int.cast_sub, trunc_int, Int.natCast_natAbs, Int.cast_abs]

theorem middle_ge {l : List ℝ} {m v : ℝ} (h : Middle l m) (hv : 2 * l.countP (fun d => decide (d < v)) < l.length) :
    v ≤ m := by
  by_contra hc
  rw [not_le] at hc
  have h1 := h.1
  have : l.countP (fun x => decide (x ≤ m)) ≤ l.countP (fun d => decide (d < v)) := by
    apply List.countP_mono_left
    intro x _ hx
    simp only [decide_eq_true_eq] at hx ⊢
    linarith
  omega

theorem middle_le {l : List ℝ} {m v : ℝ} (h : Middle l m) (hv : 2 * l.countP (fun d => decide (v < d)) < l.length) :
    m ≤ v := by
  by_contra hc
  rw [not_le] at hc
  have h1 := h.2
  have : l.countP (fun x => decide (m ≤ x)) ≤ l.countP (fun d => decide (v < d)) := by
    apply List.countP_mono_left
    intro x _ hx
    simp only [decide_eq_true_eq] at hx ⊢
    linarith
  omega

theorem floor_ge {w : List ClrObs} {b : Fin 7} {v : ℝ} (h : MostlyAbove (valuesOf w b) v) :
    v ≤ variogram exact (bandOf b (rowsOf exact w)) := by
  rw [variogram_jumps]
  have hne : jumps (valuesOf w b) ≠ [] := by
    intro he; unfold MostlyAbove at h; rw [he] at h; simp at h
  refine middle_ge (median_middle _ hne) ?_
  unfold MostlyAbove at h
  convert h

theorem floor_le {w : List ClrObs} {b : Fin 7} {v : ℝ} (h : MostlyBelow (valuesOf w b) v) :
    variogram exact (bandOf b (rowsOf exact w)) ≤ v := by
  rw [variogram_jumps]
  have hne : jumps (valuesOf w b) ≠ [] := by
    intro he; unfold MostlyBelow at h; rw [he] at h; simp at h
  refine middle_le (median_middle _ hne) ?_
  unfold MostlyBelow at h
  convert h

end Pycold.ColdNum
