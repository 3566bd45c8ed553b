import Verif.Proof.ColdQuiet
/-! Comparisons of quiet observations with quiet models, and of shifted ones. -/
namespace Pycold.ColdNum

open ColdNum.Spec ColdV.Spec Glmnet.Spec

/-- The numbers in exact arithmetic are ordered. -/
theorem ordered_exact {E : Env ℝ (Fin 7)} (hA : E.A = exact) (ht : E.tcg < 9999) : Cold.Spec.Ordered (num E) where
  le_iff := by
    intro a b
    show E.A.le a b = !E.A.lt b a
    rw [hA]
    show decide (a ≤ b) = !decide (b < a)
    by_cases h : a ≤ b
    · simp [h]
    · simp [h, not_le.1 h]
  trans := by
    intro a b c
    show E.A.lt a b = true → E.A.lt b c = true → E.A.lt a c = true
    rw [hA]
    show decide (a < b) = true → decide (b < c) = true → decide (a < c) = true
    simp only [decide_eq_true_eq]
    exact lt_trans
  cotrans := by
    intro a b c
    show E.A.lt a c = true → E.A.lt a b = true ∨ E.A.lt b c = true
    rw [hA]
    show decide (a < c) = true → decide (a < b) = true ∨ decide (b < c) = true
    simp only [decide_eq_true_eq]
    intro h
    exact (lt_or_ge a b).imp_right (fun hb => hb.trans_lt h)
  irrefl := by
    intro a
    show E.A.lt a a = false
    rw [hA]
    show decide (a < a) = false
    simp
  big := by
    show E.A.lt E.tcg (E.A.lit 9999 1) = true
    rw [hA, lit_exact]
    show decide (E.tcg < _) = true
    rw [decide_eq_true_eq]
    norm_num
    exact ht

/-- The environment of the theorems. -/
structure Exact (E : Env ℝ (Fin 7)) (fuel : ℕ) : Prop where
  A : E.A = exact
  enough : 200000001 ≤ fuel
  lasso : E.lasso = Glmnet.lasso fuel
  bands : E.blist = testBands
  green : E.green = 1
  swir : E.swir = 4

theorem program_exact {fuel : ℕ} (hf : 200000001 ≤ fuel) (robust : List (List ℝ) → List ℝ → List ℝ) (tcg : ℝ) :
    Exact (program exact (Glmnet.lasso fuel) robust tcg) fuel := ⟨rfl, hf, rfl, rfl, rfl, rfl⟩

theorem sum_le_sum {B : Type} (l : List B) {f g : B → ℝ} (h : ∀ b ∈ l, f b ≤ g b) : (l.map f).sum ≤ (l.map g).sum := by
  induction l with
  | nil => simp
  | cons x xs ih =>
    rw [List.map_cons, List.map_cons, List.sum_cons, List.sum_cons]
    have h1 := h x (List.mem_cons_self ..)
    have h2 := ih (fun b hb => h b (List.mem_cons_of_mem _ hb))
    linarith

/-- An observation within the range, compared with a model of observations within the range. -/
theorem quiet_mag {E : Env ℝ (Fin 7)} {fuel : ℕ} (hE : Exact E fuel) {rmin lo hi v : Fin 7 → ℝ}
    (hv : ∀ b ∈ testBands, 0 < v b ∧ v b ≤ rmin b) (h40 : ∀ b ∈ testBands, hi b - lo b ≤ 40)
    {c : Int} (hc : Order c) {obs : List (ColdV.Row (Fin 7 → ℝ))} (hs : obs.Pairwise (fun a b => a.date < b.date))
    (hl : 2 ≤ obs.length) (ho : ∀ b ∈ testBands, ∀ o ∈ obs, lo b ≤ o.y b ∧ o.y b ≤ hi b)
    {x : ColdV.Sc (Fin 7 → ℝ) ℝ (List ℝ) (Fin 7 → ℝ)} (hx : ∀ b ∈ testBands, lo b ≤ x.row.y b ∧ x.row.y b ≤ hi b)
    (h : Against E rmin c obs x) : x.mag ≤ bandSum (fun b => ((hi b - lo b) / v b) ^ 2) := by
  obtain ⟨h1, rm, h2, _, h4, _⟩ := against hE.A hc h
  rw [h4, hE.bands]
  apply sum_le_sum
  intro b hb
  obtain ⟨μ, q1, q2, q3⟩ := flat_curve hE.enough hE.lasso hc hs hl (ho b hb) (h40 b hb)
  obtain ⟨v1, v2⟩ := hv b hb
  obtain ⟨x1, x2⟩ := hx b hb
  have hd : |x.dif b| ≤ hi b - lo b := by
    rw [h1, q1, abs_le]; constructor <;> linarith
  have hm : v b ≤ max (rmin b) (rm b) := v2.trans (le_max_left _ _)
  rw [← sq_abs, abs_div, abs_of_pos (v1.trans_le hm)]
  apply pow_le_pow_left₀ (div_nonneg (abs_nonneg _) (v1.le.trans hm))
  exact div_le_div₀ ((abs_nonneg _).trans hd) hd v1 hm

/-- The initial model of quiet observations is stable. -/
theorem quiet_stable {E : Env ℝ (Fin 7)} {fuel : ℕ} (hE : Exact E fuel) {rmin lo hi v : Fin 7 → ℝ}
    (hv : ∀ b ∈ testBands, 0 < v b ∧ v b ≤ rmin b) (h40 : ∀ b ∈ testBands, hi b - lo b ≤ 40)
    {obs : List (ColdV.Row (Fin 7 → ℝ))} (hs : obs.Pairwise (fun a b => a.date < b.date))
    (hl : 2 ≤ obs.length) (ho : ∀ b ∈ testBands, ∀ o ∈ obs, lo b ≤ o.y b ∧ o.y b ≤ hi b)
    (ht : bandSum (fun b => ((hi b - lo b) / v b) ^ 2) ≤ E.tcg) :
    unstable E rmin (fitAll E 4 obs) obs = false := by
  have hc : Order 4 := Or.inl rfl
  have hlo : ∀ b ∈ testBands, lo b ≤ hi b := by
    intro b hb
    obtain ⟨o, ho'⟩ := List.exists_mem_of_length_pos (show 0 < obs.length by omega)
    exact (ho b hb o ho').1.trans (ho b hb o ho').2
  have hslope : ∀ b ∈ testBands, (fitAll E 4 obs b).coefs.getD 1 0 = 0 := by
    intro b hb
    obtain ⟨_, q2, q3, _, _⟩ := C72_fit E hE.A 4 hc (obs.map (·.date)) (obs.map (fun o => o.y b))
    obtain ⟨μ, p1, _, _⟩ := flat_curve hE.enough hE.lasso hc hs hl (ho b hb) (h40 b hb)
    have hst : ∀ t, storedCurve (fitAll E 4 obs b).coefs t = μ := by
      intro t
      show storedCurve (fitBand E 4 (obs.map (·.date)) (obs.map (fun o => o.y b))).coefs t = μ
      rw [q3 t, ← p1 t, List.map_map]
      rfl
    generalize (fitAll E 4 obs b).coefs = cf at hst
    have hP : (0 : ℝ) < PI := by unfold PI; norm_num
    have e0 := hst 0
    have e1 := hst (2 * Real.pi / (2 * PI / 365.25))
    have hT : 2 * PI / 365.25 * (2 * Real.pi / (2 * PI / 365.25)) = 2 * Real.pi := by
      field_simp
    have hT2 : 2 * (2 * PI / 365.25) * (2 * Real.pi / (2 * PI / 365.25)) = 2 * Real.pi + 2 * Real.pi := by
      rw [mul_assoc, hT]; ring
    have hT3 : 3 * (2 * PI / 365.25) * (2 * Real.pi / (2 * PI / 365.25)) = 2 * Real.pi + 2 * Real.pi + 2 * Real.pi := by
      rw [mul_assoc, hT]; ring
    unfold storedCurve at e0 e1
    rw [hT, hT2, hT3] at e1
    simp only [mul_zero, Real.cos_zero, Real.sin_zero, Real.cos_two_pi, Real.sin_two_pi, Real.cos_add_two_pi,
      Real.sin_add_two_pi] at e0 e1
    have hz : cf.getD 1 0 * (2 * Real.pi / (2 * PI / 365.25)) = 0 := by linarith
    have hpos : (0 : ℝ) < 2 * Real.pi / (2 * PI / 365.25) := by have := Real.pi_pos; positivity
    rcases mul_eq_zero.1 hz with h | h
    · exact h
    · exact absurd h hpos.ne'
  unfold unstable
  dsimp only
  rw [hE.bands, hE.A, zero_exact]
  show decide (E.tcg < List.foldl (fun s b => s + _ * _) 0 testBands) = false
  rw [decide_eq_false_iff_not, not_lt, foldl_sum (fun b => _ * _), zero_add]
  refine le_trans (sum_le_sum _ ?_) ht
  intro b hb
  obtain ⟨v1, v2⟩ := hv b hb
  obtain ⟨μ, q1, q2, q3⟩ := flat_curve hE.enough hE.lasso hc hs hl (ho b hb) (h40 b hb)
  have hres : ∀ e ∈ (fitAll E 4 obs b).dif, |e| ≤ hi b - lo b := by
    intro e he
    rw [fitAll_dif hE.A hc] at he
    obtain ⟨o, ho', rfl⟩ := List.mem_map.1 he
    obtain ⟨o1, o2⟩ := ho b hb o ho'
    rw [q1, abs_le]
    constructor <;> linarith
  have hne : (fitAll E 4 obs b).dif ≠ [] := by
    rw [fitAll_dif hE.A hc]
    intro h0
    have := congrArg List.length h0
    rw [List.length_map, List.length_nil] at this
    omega
  have hh : |(fitAll E 4 obs b).dif.headD 0| ≤ hi b - lo b := by
    generalize (fitAll E 4 obs b).dif = l at hres hne
    cases l with
    | nil => exact absurd rfl hne
    | cons e es => exact hres e (List.mem_cons_self ..)
  have hg : |(fitAll E 4 obs b).dif.getLastD 0| ≤ hi b - lo b := by
    generalize (fitAll E 4 obs b).dif = l at hres hne
    rw [List.getLastD_eq_getLast?, List.getLast?_eq_some_getLast hne]
    exact hres _ (List.getLast_mem hne)
  rw [hslope b hb, max_exact, max_exact]
  set M := max (rmin b) (fitAll E 4 obs b).rmse with hM
  have hm : v b ≤ M := v2.trans (le_max_left _ _)
  have hMp : 0 < M := v1.trans_le hm
  show (|0 * _ / M / _| + max |_ / M| |_ / M|) * (|0 * _ / M / _| + max |_ / M| |_ / M|) ≤ _
  rw [zero_mul, zero_div, zero_div, abs_zero, zero_add, ← pow_two, abs_div, abs_div, abs_of_pos hMp]
  apply pow_le_pow_left₀ (by positivity)
  exact max_le (div_le_div₀ ((abs_nonneg _).trans hh) hh v1 hm) (div_le_div₀ ((abs_nonneg _).trans hg) hg v1 hm)

/-! ### Shifted observations -/

/-- Standardised differences of a shifted observation from a quiet model: band by band in the direction of the shift,
between `least / U` and `most / v`. -/
theorem shifted_column {E : Env ℝ (Fin 7)} {fuel : ℕ} (hE : Exact E fuel) {rmin lo hi v U dir least most : Fin 7 → ℝ}
    (hv : ∀ b ∈ testBands, 0 < v b ∧ v b ≤ rmin b) (h40 : ∀ b ∈ testBands, hi b - lo b ≤ 40)
    (hU : ∀ b ∈ testBands, rmin b ≤ U b ∧ 3 / 2 * (hi b - lo b) ^ 2 ≤ U b ^ 2)
    {c : Int} (hc : Order c) {obs : List (ColdV.Row (Fin 7 → ℝ))} (hs : obs.Pairwise (fun a b => a.date < b.date))
    (hl : 2 ≤ obs.length) (h3 : 3 * c ≤ obs.length) (ho : ∀ b ∈ testBands, ∀ o ∈ obs, lo b ≤ o.y b ∧ o.y b ≤ hi b)
    {x : ColdV.Sc (Fin 7 → ℝ) ℝ (List ℝ) (Fin 7 → ℝ)}
    (hdir : ∀ b ∈ testBands, dir b = 1 ∨ dir b = -1) (hpos : ∀ b ∈ testBands, 0 < least b)
    (hfar : ∀ b ∈ testBands, least b ≤ dir b * (x.row.y b - lo b) ∧ least b ≤ dir b * (x.row.y b - hi b))
    (hnear : ∀ b ∈ testBands, dir b * (x.row.y b - lo b) ≤ most b ∧ dir b * (x.row.y b - hi b) ≤ most b)
    (h : Against E rmin c obs x) :
    (∀ b ∈ testBands, least b ≤ dir b * x.dif b ∧ dir b * x.dif b ≤ most b) ∧
    ∃ z : Fin 7 → ℝ, x.vec = testBands.map z ∧ x.mag = bandSum (fun b => z b ^ 2) ∧
      ∀ b ∈ testBands, least b / U b ≤ dir b * z b ∧ dir b * z b ≤ most b / v b := by
  obtain ⟨h1, rm, h2, h3', h4, h5⟩ := against hE.A hc h
  rw [hE.bands] at h3' h4
  have key : ∀ b ∈ testBands, (least b ≤ dir b * x.dif b ∧ dir b * x.dif b ≤ most b) ∧
      least b / U b ≤ dir b * (x.dif b / max (rmin b) (rm b)) ∧
      dir b * (x.dif b / max (rmin b) (rm b)) ≤ most b / v b := by
    intro b hb
    obtain ⟨μ, q1, q2, q3⟩ := flat_curve hE.enough hE.lasso hc hs hl (ho b hb) (h40 b hb)
    obtain ⟨v1, v2⟩ := hv b hb
    obtain ⟨u1, u2⟩ := hU b hb
    obtain ⟨f1, f2⟩ := hfar b hb
    obtain ⟨n1, n2⟩ := hnear b hb
    have p := hpos b hb
    have hlh : lo b ≤ hi b := q2.trans q3
    have hUp : 0 < U b := v1.trans_le (v2.trans u1)
    have hrm : rm b ≤ U b := by
      have hr : rm b ^ 2 ≤ 3 / 2 * (hi b - lo b) ^ 2 := h5 b (hi b - lo b) (by linarith) h3 (by
        intro o ho'
        obtain ⟨o1, o2⟩ := ho b hb o ho'
        rw [q1, abs_le]
        constructor <;> linarith)
      exact le_of_sq_le_sq (hr.trans u2) hUp.le
    have hd : least b ≤ dir b * x.dif b ∧ dir b * x.dif b ≤ most b := by
      rw [h1, q1]
      rcases hdir b hb with e | e <;> rw [e] at f1 f2 n1 n2 ⊢ <;> constructor <;> linarith
    have hMl : v b ≤ max (rmin b) (rm b) := v2.trans (le_max_left _ _)
    have hMu : max (rmin b) (rm b) ≤ U b := max_le u1 hrm
    refine ⟨hd, ?_⟩
    rw [← mul_div_assoc]
    exact ⟨div_le_div₀ (p.le.trans hd.1) hd.1 (v1.trans_le hMl) hMu,
      div_le_div₀ (p.le.trans (hd.1.trans hd.2)) hd.2 v1 hMl⟩
  exact ⟨fun b hb => (key b hb).1, _, h3', h4, fun b hb => (key b hb).2⟩

theorem foldl_dot {B : Type} (f g : B → ℝ) (l : List B) (a : ℝ) :
    (List.zip (l.map f) (l.map g)).foldl (fun s p => s + p.1 * p.2) a = a + (l.map fun b => f b * g b).sum := by
  induction l generalizing a with
  | nil => simp
  | cons x xs ih =>
    rw [List.map_cons, List.map_cons, List.zip_cons_cons, List.foldl_cons, ih, List.map_cons, List.sum_cons]; ring

theorem cos_margin : Real.sqrt 2 / 2 < 240 / 338 := by
  rw [div_lt_iff₀ (by norm_num), Real.sqrt_lt' (by norm_num)]
  norm_num

/-- Two columns whose entries have the same signs and differ by less than a factor of 2.4 are less than 45 degrees
apart. -/
theorem angle_lt {f g : Fin 7 → ℝ} {dir p q : Fin 7 → ℝ} (hdir : ∀ b ∈ testBands, dir b = 1 ∨ dir b = -1)
    (hp : ∀ b ∈ testBands, 0 < p b) (hq : ∀ b ∈ testBands, q b ≤ 2.4 * p b)
    (hf : ∀ b ∈ testBands, p b ≤ dir b * f b ∧ dir b * f b ≤ q b)
    (hg : ∀ b ∈ testBands, p b ≤ dir b * g b ∧ dir b * g b ≤ q b) :
    angle2 exact (testBands.map f) (testBands.map g) < 45 := by
  have hterm : ∀ b ∈ testBands, 0 < f b ^ 2 ∧ 0 < g b ^ 2 ∧ f b ^ 2 + g b ^ 2 ≤ 338 / 120 * (f b * g b) := by
    intro b hb
    obtain ⟨f1, f2⟩ := hf b hb
    obtain ⟨g1, g2⟩ := hg b hb
    have p0 := hp b hb
    have q0 := hq b hb
    have e : ∀ F G : ℝ, p b ≤ F → F ≤ q b → p b ≤ G → G ≤ q b →
        0 < F ^ 2 ∧ 0 < G ^ 2 ∧ F ^ 2 + G ^ 2 ≤ 338 / 120 * (F * G) := by
      intro F G a1 a2 a3 a4
      have hF : 0 < F := p0.trans_le a1
      have hG : 0 < G := p0.trans_le a3
      refine ⟨by positivity, by positivity, ?_⟩
      have c1 : 0 ≤ 2.4 * F - G := by linarith
      have c2 : 0 ≤ 2.4 * G - F := by linarith
      nlinarith [mul_nonneg c1 c2]
    have := e _ _ f1 f2 g1 g2
    rcases hdir b hb with d | d <;> rw [d] at this <;> simpa using this
  have hA : 0 < (testBands.map fun b => f b * f b).sum ∧ 0 < (testBands.map fun b => g b * g b).sum ∧
      (testBands.map fun b => f b * f b).sum + (testBands.map fun b => g b * g b).sum ≤
        338 / 120 * (testBands.map fun b => f b * g b).sum := by
    unfold testBands at hterm ⊢
    simp only [List.mem_cons, List.not_mem_nil, or_false, forall_eq_or_imp, forall_eq] at hterm
    simp only [List.map_cons, List.map_nil, List.sum_cons, List.sum_nil]
    obtain ⟨a1, a2, a3, a4, a5⟩ := hterm
    refine ⟨?_, ?_, ?_⟩ <;> linarith [a1.1, a1.2.1, a1.2.2, a2.1, a2.2.1, a2.2.2, a3.1, a3.2.1, a3.2.2, a4.1, a4.2.1,
      a4.2.2, a5.1, a5.2.1, a5.2.2]
  obtain ⟨ha, hb, hab⟩ := hA
  have e180 : exact.lit 180 1 = 180 := by rw [lit_exact]; norm_num
  unfold angle2
  rw [e180, zero_exact]
  show Real.arccos ((List.zip (testBands.map f) (testBands.map g)).foldl (fun s p => s + p.1 * p.2) 0 /
    (Real.sqrt ((List.zip (testBands.map f) (testBands.map f)).foldl (fun s p => s + p.1 * p.2) 0) *
      Real.sqrt ((List.zip (testBands.map g) (testBands.map g)).foldl (fun s p => s + p.1 * p.2) 0))) * 180 / PI < 45
  rw [foldl_dot, foldl_dot, foldl_dot, zero_add, zero_add, zero_add]
  generalize (testBands.map fun b => f b * f b).sum = X at ha hab ⊢
  generalize (testBands.map fun b => g b * g b).sum = Y at hb hab ⊢
  generalize (testBands.map fun b => f b * g b).sum = Z at hab ⊢
  have sx : 0 < Real.sqrt X := Real.sqrt_pos.2 ha
  have sy : 0 < Real.sqrt Y := Real.sqrt_pos.2 hb
  have h2 : 2 * (Real.sqrt X * Real.sqrt Y) ≤ X + Y := by
    nlinarith [sq_nonneg (Real.sqrt X - Real.sqrt Y), Real.sq_sqrt ha.le, Real.sq_sqrt hb.le]
  have hc : 240 / 338 ≤ Z / (Real.sqrt X * Real.sqrt Y) := by
    rw [le_div_iff₀ (by positivity)]
    linarith
  have hcos : Real.arccos (Z / (Real.sqrt X * Real.sqrt Y)) < Real.pi / 4 := by
    refine lt_of_le_of_lt (Real.arccos_le_arccos hc) ?_
    have : Real.arccos (Real.cos (Real.pi / 4)) = Real.pi / 4 :=
      Real.arccos_cos (by have := Real.pi_pos; positivity) (by have := Real.pi_pos; linarith)
    rw [← this, Real.cos_pi_div_four]
    refine Real.strictAntiOn_arccos ?_ ?_ cos_margin
    · constructor
      · have : 0 ≤ Real.sqrt 2 / 2 := by positivity
        linarith
      · linarith [cos_margin]
    · norm_num
  have hP := pi_le
  have hP0 : 0 < PI := Real.pi_pos.trans_le hP
  rw [div_lt_iff₀ hP0]
  linarith

theorem foldl_lt (k : ℝ) : ∀ (l : List (List ℝ × List ℝ)) (a : ℝ), l ≠ [] → (∀ p ∈ l, angle2 exact p.1 p.2 < k) →
    l.foldl (fun s p => exact.add s (angle2 exact p.1 p.2)) a < a + l.length * k
  | [], _, h, _ => absurd rfl h
  | [p], a, _, h => by
    show a + angle2 exact p.1 p.2 < _
    have := h p (List.mem_cons_self ..)
    simp only [List.length_cons, List.length_nil]
    push_cast
    linarith
  | p :: q :: l, a, _, h => by
    rw [List.foldl_cons]
    have h1 := foldl_lt k (q :: l) (exact.add a (angle2 exact p.1 p.2)) (by simp) (fun r hr => h r (List.mem_cons_of_mem _ hr))
    have h2 := h p (List.mem_cons_self ..)
    refine h1.trans_le ?_
    show a + angle2 exact p.1 p.2 + _ ≤ _
    rw [List.length_cons (a := p)]
    push_cast
    linarith

/-- The mean angle of columns that are pairwise less than `k` apart. -/
theorem meanAngle_lt {vs : List (List ℝ)} {k : ℝ} (hk : 0 < k) (h : ∀ a ∈ vs, ∀ b ∈ vs, angle2 exact a b < k) :
    meanAngle exact vs < k := by
  unfold meanAngle
  split
  · rename_i hl
    have hne : List.zip vs vs.tail ≠ [] := by
      intro h0
      have := congrArg List.length h0
      rw [List.length_zip, List.length_tail, List.length_nil] at this
      omega
    have h1 := foldl_lt k (List.zip vs vs.tail) exact.zero hne (fun p hp => by
      have := List.of_mem_zip (a := p.1) (b := p.2) hp
      exact h _ this.1 _ (List.mem_of_mem_tail this.2))
    have hlen : ((List.zip vs vs.tail).length : ℝ) = (((vs.length : ℤ) - 1 : ℤ) : ℝ) := by
      rw [List.length_zip, List.length_tail, Nat.min_eq_right (by omega)]
      push_cast [Nat.cast_sub (show 1 ≤ vs.length by omega)]
      ring
    show _ / (((vs.length : ℤ) - 1 : ℤ) : ℝ) < k
    rw [zero_exact] at h1 ⊢
    rw [hlen] at h1
    have hp : (0 : ℝ) < (((vs.length : ℤ) - 1 : ℤ) : ℝ) := by exact_mod_cast (by omega : (0 : ℤ) < (vs.length : ℤ) - 1)
    rw [div_lt_iff₀ hp]
    linarith
  · rw [zero_exact]; exact hk

/-! ### Gaps -/

theorem maxGap_mem {rows : List (ColdV.Row (Fin 7 → ℝ))} {e stop : Int} : ∀ (n : ℕ) (k m : Int), (stop - k).toNat = n →
    ∀ g, ColdV.maxGap rows e k stop m = .ok g → g = m ∨ ∃ (j : ℕ) (a b : ColdV.Row (Fin 7 → ℝ)), k ≤ j ∧ (j : Int) < stop ∧
      rows[j]? = some a ∧ rows[j + 1]? = some b ∧ g = b.date - a.date := by
  intro n
  induction n with
  | zero =>
    intro k m hn g h
    rw [ColdV.maxGap, if_neg (by omega)] at h
    injection h with h
    exact Or.inl h.symm
  | succ n ih =>
    intro k m hn g h
    rw [ColdV.maxGap, if_pos (by omega)] at h
    cases hb : ColdV.rd rows e (k + 1) with
    | error x => rw [hb] at h; cases h
    | ok b =>
      cases ha : ColdV.rd rows e k with
      | error x => rw [hb, ha] at h; cases h
      | ok a =>
        rw [hb, ha] at h
        have ha' : 0 ≤ k ∧ rows[k.toNat]? = some a := by
          unfold ColdV.rd at ha
          split at ha
          · rename_i h0
            split at ha
            · rename_i v hv; injection ha with ha; exact ⟨h0.1, by rw [hv, ha]⟩
            · cases ha
          · cases ha
        have hb' : rows[k.toNat + 1]? = some b := by
          unfold ColdV.rd at hb
          split at hb
          · split at hb
            · rename_i v hv
              injection hb with hb
              rw [← hb, ← hv]
              congr 1
              omega
            · cases hb
          · cases hb
        rcases ih (k + 1) _ (by omega) g h with h1 | ⟨j, a', b', q1, q2, q3, q4, q5⟩
        · split at h1
          · exact Or.inr ⟨k.toNat, a, b, by omega, by omega, ha'.2, hb', h1⟩
          · exact Or.inl h1
        · exact Or.inr ⟨j, a', b', by omega, q2, q3, q4, q5⟩

theorem maxGap_ok {P : Cold.Params} {w : List ClrObs} (hs : (rowsOf exact w).Pairwise (fun a b => a.date < b.date))
    {m : ℕ} (h12 : 12 ≤ m) (hm : m ≤ w.length) (hg : NoGap P w m) {g : Int}
    (h : ColdV.maxGap (rowsOf exact w) (rowsOf exact w).length 0 ((m : Int) - 1) 0 = .ok g) : P.gapExceeds g = false := by
  have hl : (rowsOf exact w).length = w.length := List.length_map _
  have back : ∀ (j : ℕ) a, (rowsOf exact w)[j]? = some a → ∃ o, w[j]? = some o ∧ o.date = a.date := by
    intro j a ha
    unfold rowsOf at ha
    rw [List.getElem?_map] at ha
    cases ho : w[j]? with
    | none => rw [ho] at ha; cases ha
    | some o => rw [ho] at ha; injection ha with ha; exact ⟨o, rfl, by rw [← ha]⟩
  have main : ∃ (j : ℕ) (a b : ColdV.Row (Fin 7 → ℝ)), j + 1 < m ∧
      (rowsOf exact w)[j]? = some a ∧ (rowsOf exact w)[j + 1]? = some b ∧ g = b.date - a.date := by
    rw [ColdV.maxGap, if_pos (by omega)] at h
    have h0 : 0 < (rowsOf exact w).length := by omega
    have h1 : 1 < (rowsOf exact w).length := by omega
    have r0 : ColdV.rd (rowsOf exact w) (rowsOf exact w).length 0 = .ok (rowsOf exact w)[0] := by
      unfold ColdV.rd
      rw [if_pos (by omega), Int.toNat_zero, List.getElem?_eq_getElem h0]
    have r1 : ColdV.rd (rowsOf exact w) (rowsOf exact w).length (0 + 1) = .ok (rowsOf exact w)[1] := by
      unfold ColdV.rd
      rw [if_pos (by omega), show ((0 : Int) + 1).toNat = 1 from rfl, List.getElem?_eq_getElem h1]
    rw [r0, r1] at h
    have hlt : (rowsOf exact w)[0].date < (rowsOf exact w)[1].date := List.pairwise_iff_getElem.1 hs 0 1 h0 h1 (by omega)
    have h' : ColdV.maxGap (rowsOf exact w) (rowsOf exact w).length (0 + 1) ((m : Int) - 1)
        (if (rowsOf exact w)[1].date - (rowsOf exact w)[0].date > 0 then
          (rowsOf exact w)[1].date - (rowsOf exact w)[0].date else 0) = .ok g := h
    rw [if_pos (by omega)] at h'
    rcases maxGap_mem _ _ _ rfl g h' with e | ⟨j, a, b, q1, q2, q3, q4, q5⟩
    · exact ⟨0, _, _, by omega, List.getElem?_eq_getElem h0, List.getElem?_eq_getElem h1, e⟩
    · exact ⟨j, a, b, by omega, q3, q4, q5⟩
  obtain ⟨j, a, b, q1, q2, q3, rfl⟩ := main
  obtain ⟨o, o1, o2⟩ := back _ _ q2
  obtain ⟨o', o1', o2'⟩ := back _ _ q3
  rw [← o2, ← o2']
  exact hg j o o' q1 o1 o1'

/-! ### The screening -/

theorem screened_mask {E : Env ℝ (Fin 7)} {fuel : ℕ} (hE : Exact E fuel) {rmin : Fin 7 → ℝ} {w : List ClrObs} {m : ℕ}
    (h : Screened E.robust rmin w m) {k : ℕ} (hk : k < m) : mask E rmin (rowsOf exact w) k = false := by
  unfold mask
  dsimp only
  rw [hE.A, hE.green, hE.swir]
  have hd : (rowsOf exact w).map (·.date) = w.map (·.date) := rowsOf_dates _ _
  have hy : exact.div exact.w (exact.ofInt (exact.ceil (exact.div (exact.ofInt
      ((w.map (·.date)).getLast?.getD 0 - (w.map (·.date)).head?.getD 0)) (exact.lit 36525 100)))) =
      2 * PI / 365.25 / yearsOf w := by
    rw [w_exact, lit_exact]
    unfold yearsOf
    show 2 * PI / 365.25 / (((⌈((_ : ℤ) : ℝ) / (((36525 : ℤ) : ℝ) / ((100 : ℤ) : ℝ))⌉ : ℤ)) : ℝ) = _
    norm_num
  rw [hd, hy]
  have hrow : (w.map (·.date)).map (maskRow exact (2 * PI / 365.25 / yearsOf w)) =
      w.map (fun o => screenRow (yearsOf w) (o.date : ℝ)) := by
    rw [List.map_map]
    congr 1
    funext o
    unfold maskRow screenRow
    dsimp only [Function.comp]
    rw [w_exact]
    rfl
  have hb : ∀ b, bandOf b (rowsOf exact w) = valuesOf w b := by
    intro b; unfold bandOf rowsOf valuesOf; rw [List.map_map]; rfl
  rw [hrow]
  cases ho : (rowsOf exact w)[k]? with
  | none => rfl
  | some r =>
    unfold rowsOf at ho
    rw [List.getElem?_map] at ho
    cases hw : w[k]? with
    | none => rw [hw] at ho; cases ho
    | some o =>
      rw [hw] at ho
      injection ho with ho
      subst ho
      have one : ∀ b ∈ ([1, 4] : List (Fin 7)), exact.lt (exact.mul exact.tConst (rmin b)) (exact.abs (exact.sub
          (exact.ofInt (o.bands.getD b 0)) (maskPred exact (2 * PI / 365.25 / yearsOf w)
            (E.robust (w.map (fun o => screenRow (yearsOf w) (o.date : ℝ))) (bandOf b (rowsOf exact w))) o.date))) = false := by
        intro b hb'
        have := h b hb' k o hk hw
        rw [hb]
        have ep : maskPred exact (2 * PI / 365.25 / yearsOf w)
            (E.robust (w.map (fun o => screenRow (yearsOf w) (o.date : ℝ))) (valuesOf w b)) o.date =
            screenCurve (yearsOf w) (E.robust (w.map (fun o => screenRow (yearsOf w) (o.date : ℝ))) (valuesOf w b)) (o.date : ℝ) := by
          generalize E.robust _ _ = cf
          unfold maskPred screenCurve
          dsimp only
          rw [w_exact, zero_exact]
          show cf.getD 0 0 + cf.getD 1 0 * Real.cos ((o.date : ℝ) * _) + cf.getD 2 0 * Real.sin ((o.date : ℝ) * _) +
            cf.getD 3 0 * Real.cos ((o.date : ℝ) * _) + cf.getD 4 0 * Real.sin ((o.date : ℝ) * _) = _
          simp only [mul_comm ((o.date : ℤ) : ℝ)]
        rw [ep]
        have et : exact.tConst = 4.42 := by
          unfold Fl.tConst; rw [lit_exact]; norm_num
        rw [et]
        show decide (4.42 * rmin b < |((o.bands.getD b 0 : ℤ) : ℝ) - _|) = false
        rw [decide_eq_false_iff_not, not_lt]
        exact this
      have o1 := one 1 (by simp)
      have o4 := one 4 (by simp)
      show (exact.lt _ _ || exact.lt _ _) = false
      exact Bool.or_eq_false_iff.2 ⟨o1, o4⟩

/-! ### Courses -/

theorem rowsOf_take (w : List ClrObs) (k : ℕ) : (rowsOf exact w).take k = rowsOf exact (w.take k) := by
  unfold rowsOf; rw [List.map_take]

theorem rowsOf_within {w : List ClrObs} {lo hi : Fin 7 → ℝ} (h : Within w lo hi) {b : Fin 7} (hb : b ∈ testBands)
    {o : ColdV.Row (Fin 7 → ℝ)} (ho : o ∈ rowsOf exact w) : lo b ≤ o.y b ∧ o.y b ≤ hi b := by
  unfold rowsOf at ho
  obtain ⟨c, hc, rfl⟩ := List.mem_map.1 ho
  exact h.range b hb _ (List.mem_map_of_mem hc)

theorem course_of {P : Cold.Params} {E : Env ℝ (Fin 7)} {fuel : ℕ} (hE : Exact E fuel) {rmin lo hi v : Fin 7 → ℝ}
    {w : List ClrObs} {n m : ℕ} (hs : (rowsOf exact w).Pairwise (fun a b => a.date < b.date))
    (hv : ∀ b ∈ testBands, 0 < v b ∧ v b ≤ rmin b) (hw : Within (w.take n) lo hi)
    (ht : bandSum (fun b => ((hi b - lo b) / v b) ^ 2) ≤ E.tcg)
    (hx : bandSum (fun b => ((hi b - lo b) / v b) ^ 2) ≤ 30.8562)
    (hy : FirstYear w m) (hmn : m ≤ n) (hn : n ≤ w.length) (hc : m + P.conse ≤ w.length) (hg : NoGap P w m)
    (hm : Screened E.robust rmin (w.take (m + P.conse)) m) :
    ColdV.Course P (kit E rmin) (rowsOf exact w) n m := by
  have hl : (rowsOf exact w).length = w.length := List.length_map _
  have back : ∀ (j : ℕ) a, (rowsOf exact w)[j]? = some a → ∃ o, w[j]? = some o ∧ o.date = a.date := by
    intro j a ha
    unfold rowsOf at ha
    rw [List.getElem?_map] at ha
    cases ho : w[j]? with
    | none => rw [ho] at ha; cases ha
    | some o => rw [ho] at ha; injection ha with ha; exact ⟨o, rfl, by rw [← ha]⟩
  have inr : ∀ i, i ≤ n → ∀ b ∈ testBands, ∀ o ∈ (rowsOf exact w).take i, lo b ≤ o.y b ∧ o.y b ≤ hi b := by
    intro i hi b hb o ho
    refine rowsOf_within hw hb ?_
    rw [← rowsOf_take]
    exact (List.take_sublist_take_left hi).subset ho
  refine ⟨hs, hy.twelve, hmn, by omega, by omega, ?_, ?_, ?_, ?_, ?_, ?_⟩
  · intro a b ha hb
    obtain ⟨o, o1, o2⟩ := back _ _ ha
    obtain ⟨o', o1', o2'⟩ := back _ _ hb
    have := hy.year o o' o1 o1'
    unfold Cold.yearOrMore
    rw [decide_eq_true_eq]
    omega
  · intro j h1 h2 a b ha hb
    obtain ⟨o, o1, o2⟩ := back _ _ ha
    obtain ⟨o', o1', o2'⟩ := back _ _ hb
    have := hy.least j h1 h2 o o' o1 o1'
    unfold Cold.yearOrMore
    rw [decide_eq_false_iff_not]
    omega
  · intro g h
    exact maxGap_ok hs hy.twelve (by omega) hg h
  · intro k hk
    show mask E rmin ((rowsOf exact w).take (m + P.conse)) k = false
    rw [rowsOf_take]
    exact screened_mask hE hm hk
  · show unstable E rmin (fitAll E 4 ((rowsOf exact w).take m)) ((rowsOf exact w).take m) = false
    refine quiet_stable hE hv hw.width (hs.sublist (List.take_sublist _ _)) ?_ (inr m hmn) ht
    rw [List.length_take]
    have := hy.twelve
    omega
  · intro j x hj ⟨hx0, c, i, k1, k2, k3, k4, k5, k6⟩
    have hmag : x.mag ≤ bandSum (fun b => ((hi b - lo b) / v b) ^ 2) := by
      refine quiet_mag hE hv hw.width k1 (hs.sublist (List.take_sublist i _)) ?_ (inr i k5) ?_ k6
      · rw [List.length_take]; omega
      · intro b hb
        refine inr n le_rfl b hb _ ?_
        rw [List.mem_iff_getElem?]
        exact ⟨j, by rw [List.getElem?_take, if_pos hj]; exact hx0⟩
    show E.A.lt E.tcg x.mag = false ∧ E.A.le x.mag E.tcg = true ∧ E.A.lt (E.A.lit 308562 10000) x.mag = false
    rw [hE.A, lit_exact]
    show decide (E.tcg < x.mag) = false ∧ decide (x.mag ≤ E.tcg) = true ∧ decide (_ < x.mag) = false
    rw [decide_eq_false_iff_not, decide_eq_true_eq, decide_eq_false_iff_not, not_lt, not_lt]
    refine ⟨hmag.trans ht, hmag.trans ht, (hmag.trans hx).trans ?_⟩
    norm_num

/-- A window of shifted observations is a break. -/
theorem shifted_break {P : Cold.Params} {E : Env ℝ (Fin 7)} {fuel : ℕ} (hE : Exact E fuel) (h9 : E.tcg < 9999)
    {rmin lo hi v U dir least most : Fin 7 → ℝ}
    {w : List ClrObs} {n : ℕ} (hs : (rowsOf exact w).Pairwise (fun a b => a.date < b.date)) (hn : n ≤ w.length)
    (hv : ∀ b ∈ testBands, 0 < v b ∧ v b ≤ rmin b) (hw : Within (w.take n) lo hi)
    (hU : ∀ b ∈ testBands, rmin b ≤ U b ∧ 3 / 2 * (hi b - lo b) ^ 2 ≤ U b ^ 2)
    (hsh : Shifted ((w.drop n).take P.conse) lo hi dir least most)
    (hbig : E.tcg < bandSum (fun b => (least b / U b) ^ 2))
    (hratio : ∀ b ∈ testBands, most b / v b ≤ 2.4 * (least b / U b))
    (win : List (ColdV.Sc (Fin 7 → ℝ) ℝ (List ℝ) (Fin 7 → ℝ))) (hlen : win.length = P.conse)
    (hwin : ∀ (k : ℕ) x, win[k]? = some x → ColdV.Compared (kit E rmin) (rowsOf exact w) n (n + k) x) :
    ColdV.isBreak (kit E rmin) win = true ∧
      ∀ x ∈ win, ∀ b ∈ testBands, least b ≤ dir b * x.dif b ∧ dir b * x.dif b ≤ most b := by
  have hUp : ∀ b ∈ testBands, 0 < U b := fun b hb => (hv b hb).1.trans_le ((hv b hb).2.trans (hU b hb).1)
  have col : ∀ x ∈ win, (∀ b ∈ testBands, least b ≤ dir b * x.dif b ∧ dir b * x.dif b ≤ most b) ∧
      ∃ z : Fin 7 → ℝ, x.vec = testBands.map z ∧ x.mag = bandSum (fun b => z b ^ 2) ∧
      ∀ b ∈ testBands, least b / U b ≤ dir b * z b ∧ dir b * z b ≤ most b / v b := by
    intro x hx
    obtain ⟨k, hk⟩ := List.mem_iff_getElem?.1 hx
    obtain ⟨hx0, c, i, k1, k2, k3, k4, k5, k6⟩ := hwin k x hk
    have hkl : k < P.conse := by
      rw [← hlen]; exact (List.getElem?_eq_some_iff.1 hk).1
    obtain ⟨o, o1, o2⟩ : ∃ o, w[n + k]? = some o ∧ x.row = ⟨o.date, fun b => exact.ofInt (o.bands.getD b 0)⟩ := by
      unfold rowsOf at hx0
      rw [List.getElem?_map] at hx0
      cases ho : w[n + k]? with
      | none => rw [ho] at hx0; cases hx0
      | some o => rw [ho] at hx0; injection hx0 with hx0; exact ⟨o, rfl, hx0.symm⟩
    have hmem : o ∈ (w.drop n).take P.conse := by
      rw [List.mem_iff_getElem?]
      exact ⟨k, by rw [List.getElem?_take, if_pos hkl, List.getElem?_drop]; exact o1⟩
    have hyo : ∀ b, x.row.y b = ((o.bands.getD b 0 : ℤ) : ℝ) := by intro b; rw [o2]; rfl
    have hil : ((rowsOf exact w).take i).length = i := by
      rw [List.length_take, Nat.min_eq_left]
      unfold rowsOf
      rw [List.length_map]
      omega
    refine shifted_column hE hv hw.width hU k1 (hs.sublist (List.take_sublist i _)) (by rw [hil]; omega)
      (by rw [hil]; exact k3) ?_ hsh.sign hsh.pos ?_ ?_ k6
    · intro b hb o ho
      refine rowsOf_within hw hb ?_
      rw [← rowsOf_take]
      exact (List.take_sublist_take_left k5).subset ho
    · intro b hb
      rw [hyo]
      exact hsh.far b hb _ (List.mem_map_of_mem hmem)
    · intro b hb
      rw [hyo]
      exact hsh.near b hb _ (List.mem_map_of_mem hmem)
  refine ⟨?_, fun x hx => (col x hx).1⟩
  show Cold.isBreak (num E) (win.map ColdV.Sc.core) = true
  refine (Cold.isBreak_iff (ordered_exact hE.A h9) _).2 ⟨?_, ?_⟩
  · intro y hy
    obtain ⟨x, hx, rfl⟩ := List.mem_map.1 hy
    obtain ⟨_, z, _, z2, z3⟩ := col x hx
    show E.A.lt E.tcg x.mag = true
    rw [hE.A, z2]
    show decide (E.tcg < _) = true
    rw [decide_eq_true_eq]
    refine hbig.trans_le (sum_le_sum _ ?_)
    intro b hb
    have h0 : 0 ≤ least b / U b := div_nonneg (hsh.pos b hb).le (hUp b hb).le
    have h1 := (z3 b hb).1
    have e : z b ^ 2 = (dir b * z b) ^ 2 := by
      rcases hsh.sign b hb with d | d <;> rw [d] <;> ring
    rw [e]
    exact pow_le_pow_left₀ h0 h1 2
  · show E.A.lt (meanAngle E.A ((win.map ColdV.Sc.core).map Cold.Score.vec)) (E.A.lit 45 1) = true
    rw [hE.A, lit_exact]
    show decide (meanAngle exact _ < ((45 : ℤ) : ℝ) / ((1 : ℤ) : ℝ)) = true
    rw [decide_eq_true_eq]
    have e45 : ((45 : ℤ) : ℝ) / ((1 : ℤ) : ℝ) = 45 := by norm_num
    rw [e45]
    have hvec : ∀ a ∈ (win.map ColdV.Sc.core).map Cold.Score.vec, ∃ z : Fin 7 → ℝ, a = testBands.map z ∧
        ∀ b ∈ testBands, least b / U b ≤ dir b * z b ∧ dir b * z b ≤ most b / v b := by
      intro a ha
      obtain ⟨y, hy, rfl⟩ := List.mem_map.1 ha
      obtain ⟨x, hx, rfl⟩ := List.mem_map.1 hy
      obtain ⟨_, z, z1, _, z3⟩ := col x hx
      exact ⟨z, z1, z3⟩
    refine meanAngle_lt (by norm_num) ?_
    intro a ha b hb
    obtain ⟨f, rfl, hf⟩ := hvec a ha
    obtain ⟨g, rfl, hg⟩ := hvec b hb
    exact angle_lt hsh.sign (fun b hb => div_pos (hsh.pos b hb) (hUp b hb)) hratio hf hg

end Pycold.ColdNum
