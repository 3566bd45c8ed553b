import Verif.Proof.Glmnet
import Mathlib.Algebra.Order.Floor.Semiring
/-! The loops of `elnet1` (C78). -/
namespace Pycold.Glmnet

variable {n p : ℕ}

/-- What the bookkeeping of active variables keeps. -/
structure Inv (A : Args n p) (s : St p) : Prop where
  nodup : s.ia.Nodup
  mm : ∀ k m, s.mm k = m + 1 ↔ s.ia[m]? = some k
  used : ∀ k ∈ s.ia, A.ju k
  zero : ∀ k, k ∉ s.ia → s.a k = 0
  col : ∀ j, A.ju j → ∀ m k, s.ia[m]? = some k → s.c j (m + 1) = gram A j k

/-- The gradient is up to date. -/
def Grad (A : Args n p) (y : Fin n → ℝ) (s : St p) : Prop := ∀ j, A.ju j → s.g j = grad A y s.a j

theorem Inv.mem {A : Args n p} {s : St p} (h : Inv A s) {k : Fin p} (hk : k ∈ s.ia) :
    ∃ m, s.ia[m]? = some k ∧ s.mm k = m + 1 := by
  obtain ⟨m, hm, e⟩ := List.mem_iff_getElem.mp hk
  have : s.ia[m]? = some k := by rw [List.getElem?_eq_getElem hm, e]
  exact ⟨m, this, (h.mm k m).mpr this⟩

theorem Inv.mm_zero {A : Args n p} {s : St p} (h : Inv A s) (k : Fin p) : s.mm k = 0 ↔ k ∉ s.ia := by
  constructor
  · intro h0 hk
    obtain ⟨m, _, e⟩ := h.mem hk
    omega
  · intro hk
    by_contra h0
    obtain ⟨m, e⟩ := Nat.exists_eq_succ_of_ne_zero h0
    have := (h.mm k m).mp e
    exact hk (List.mem_of_getElem? this)

theorem Inv.col_mm {A : Args n p} {s : St p} (h : Inv A s) {j k : Fin p} (hj : A.ju j) (hk : k ∈ s.ia) :
    s.c j (s.mm k) = gram A j k := by
  obtain ⟨m, e, e'⟩ := h.mem hk
  rw [e', h.col j hj m k e]

/-- There is room for a variable that is not active yet. -/
theorem Inv.room {A : Args n p} (hA : Good A) {s : St p} (h : Inv A s) {k : Fin p} (hk : k ∉ s.ia) :
    s.ia.length + 1 ≤ A.nx := by
  have h1 : (k :: s.ia).Nodup := List.nodup_cons.mpr ⟨hk, h.nodup⟩
  have h2 := h1.length_le_card
  rw [Fintype.card_fin, List.length_cons] at h2
  exact h2.trans hA.room

theorem enter_ok {A : Args n p} (hA : Good A) {y : Fin n → ℝ} {s : St p} (h : Inv A s) (hg : Grad A y s) {k : Fin p}
    (hk : A.ju k) (h0 : s.mm k = 0) :
    ∃ s', enter A k s = some s' ∧ Inv A s' ∧ Grad A y s' ∧ s'.a = s.a ∧ k ∈ s'.ia := by
  have hnot := (h.mm_zero k).mp h0
  unfold enter
  simp only
  rw [if_neg (by have := h.room hA hnot; omega)]
  refine ⟨_, rfl, ?_, hg, rfl, by simp⟩
  refine ⟨?_, ?_, ?_, ?_, ?_⟩
  · exact List.nodup_append.mpr ⟨h.nodup, List.nodup_singleton _, by
      intro a ha b hb
      rw [List.mem_singleton] at hb
      subst hb
      exact fun e => hnot (e ▸ ha)⟩
  · intro j m
    dsimp only
    by_cases hj : j = k
    · subst hj
      rw [Function.update_self]
      constructor
      · intro e
        have : m = s.ia.length := by omega
        subst this
        simp
      · intro e
        rcases Nat.lt_or_ge m s.ia.length with hl | hl
        · rw [List.getElem?_append_left hl] at e
          exact absurd (List.mem_of_getElem? e) hnot
        · rw [List.getElem?_append_right hl] at e
          have : m - s.ia.length < 1 := by
            by_contra hc
            rw [List.getElem?_eq_none (by rw [List.length_singleton]; omega)] at e
            cases e
          omega
    · rw [Function.update_of_ne hj, h.mm j m]
      rcases Nat.lt_or_ge m s.ia.length with hl | hl
      · rw [List.getElem?_append_left hl]
      · rw [List.getElem?_append_right hl, List.getElem?_eq_none hl]
        constructor
        · intro e; cases e
        · intro e
          have := List.mem_of_getElem? e
          rw [List.mem_singleton] at this
          exact absurd this hj
  · intro j hj
    rcases List.mem_append.mp hj with hj | hj
    · exact h.used j hj
    · rw [List.mem_singleton] at hj; exact hj ▸ hk
  · intro j hj
    exact h.zero j (fun hc => hj (List.mem_append_left _ hc))
  · intro j hj m q hq
    dsimp only
    rcases Nat.lt_or_ge m s.ia.length with hl | hl
    · rw [if_neg (by omega)]
      rw [List.getElem?_append_left hl] at hq
      exact h.col j hj m q hq
    · rw [List.getElem?_append_right hl] at hq
      have hm : m = s.ia.length := by
        by_contra hc
        rw [List.getElem?_eq_none (by simp; omega)] at hq
        cases hq
      subst hm
      simp only [Nat.sub_self, List.getElem?_cons_zero, Option.some.injEq] at hq
      subst hq
      rw [if_pos ⟨rfl, hj⟩]
      by_cases hz : s.mm j = 0
      · rw [if_neg (by simpa using hz)]
        split
        · rename_i e
          subst e
          rw [hA.xv, gram_self hA hj]
        · rfl
      · rw [if_pos hz, h.col_mm hk (by by_contra hc; exact hz ((h.mm_zero j).mpr hc)), gram_comm]

/-- What one update of a coefficient achieves. -/
structure Moved (A : Args n p) (y : Fin n → ℝ) (s s' : St p) (d d' : ℝ) : Prop where
  inv : Inv A s'
  mono : d ≤ d'
  lower : phi A y s'.a ≤ phi A y s.a
  drop : d' = d ∨ phi A y s'.a + d' ^ 2 / 2 ≤ phi A y s.a

theorem full_step {A : Args n p} (hA : Good A) {y : Fin n → ℝ} {s : St p} (h : Inv A s) (hg : Grad A y s) (d : ℝ)
    (hd : 0 ≤ d) (k : Fin p) :
    ∃ s' d', fullStep A (s, d) k = some (s', d') ∧ Moved A y s s' d d' ∧ Grad A y s' ∧
      (A.ju k → Sub A.ab (grad A y s'.a k) (s'.a k)) ∧ (∀ j, j ≠ k → s'.a j = s.a j) ∧
      (∀ j, A.ju j → |grad A y s'.a j - grad A y s.a j| ≤ d') := by
  unfold fullStep
  dsimp only
  by_cases hk : A.ju k
  · rw [if_neg (by simpa using hk), hA.xv, mul_one, hg k hk]
    have hdes := descent hA y s.a k hk
    have hsub := newCoef_sub hA k (grad A y s.a k + s.a k)
    dsimp only at hdes
    generalize newCoef A k (grad A y s.a k + s.a k) = v at *
    by_cases hv : v = s.a k
    · rw [if_pos hv]
      refine ⟨s, d, rfl, ⟨h, le_refl _, le_refl _, .inl rfl⟩, hg, fun _ => ?_, fun _ _ => rfl, fun j _ => by simpa using hd⟩
      rw [hv] at hsub
      simpa using hsub
    · rw [if_neg hv]
      obtain ⟨s1, e1, i1, g1, a1, m1⟩ : ∃ s1, (if s.mm k = 0 then enter A k s else some s) = some s1 ∧ Inv A s1 ∧
          Grad A y s1 ∧ s1.a = s.a ∧ k ∈ s1.ia := by
        by_cases h0 : s.mm k = 0
        · rw [if_pos h0]; exact enter_ok hA h hg hk h0
        · rw [if_neg h0]
          exact ⟨s, rfl, h, hg, rfl, by by_contra hc; exact h0 ((h.mm_zero k).mpr hc)⟩
      rw [e1]
      simp only [Option.map_some]
      rw [a1, Real.sqrt_one, div_one]
      have hgr : ∀ j, A.ju j → |grad A y (Function.update s.a k v) j - grad A y s.a j| ≤ |v - s.a k| := by
        intro j hj
        rw [grad_update]
        have := gram_le hA hj hk
        rw [show grad A y s.a j - gram A j k * (v - s.a k) - grad A y s.a j = -(gram A j k * (v - s.a k)) by ring, abs_neg, abs_mul]
        exact mul_le_of_le_one_left (abs_nonneg _) this
      refine ⟨_, _, rfl, ⟨⟨i1.nodup, i1.mm, i1.used, ?_, i1.col⟩, le_max_right _ _, ?_, ?_⟩, ?_, ?_, ?_, ?_⟩
      · intro j hj
        show Function.update s.a k v j = 0
        rw [Function.update_of_ne (by rintro rfl; exact hj m1), ← a1]
        exact i1.zero j hj
      · show phi A y (Function.update s.a k v) ≤ _
        nlinarith [sq_nonneg (v - s.a k)]
      · rcases le_total (|v - s.a k|) d with hc | hc
        · exact .inl (max_eq_right hc)
        · rw [max_eq_left hc, sq_abs]
          exact .inr hdes
      · intro j hj
        dsimp only
        rw [if_pos hj, i1.col_mm hj m1, grad_update, g1 j hj, a1]
      · intro _
        show Sub A.ab (grad A y (Function.update s.a k v) k) (Function.update s.a k v k)
        rw [grad_update, gram_self hA hk, Function.update_self]
        rw [show grad A y s.a k - 1 * (v - s.a k) = grad A y s.a k + s.a k - v by ring]
        exact hsub
      · intro j hj
        exact Function.update_of_ne hj _ _
      · intro j hj
        exact (hgr j hj).trans (le_max_left _ _)
  · rw [if_pos hk]
    exact ⟨s, d, rfl, ⟨h, le_refl _, le_refl _, .inl rfl⟩, hg, fun hc => absurd hc hk, fun _ _ => rfl,
      fun j _ => by simpa using hd⟩

theorem Moved.trans {A : Args n p} {y : Fin n → ℝ} {s s1 s' : St p} {d d1 d' : ℝ} (h : Moved A y s s1 d d1)
    (h' : Moved A y s1 s' d1 d') : Moved A y s s' d d' := by
  refine ⟨h'.inv, h.mono.trans h'.mono, h'.lower.trans h.lower, ?_⟩
  rcases h'.drop with e | e
  · rcases h.drop with e2 | e2
    · exact .inl (e.trans e2)
    · right
      rw [e]
      linarith [h'.lower]
  · right
    linarith [h.lower]

theorem full_fold {A : Args n p} (hA : Good A) {y : Fin n → ℝ} : ∀ (l : List (Fin p)), l.Nodup → ∀ (s : St p) (d : ℝ),
    Inv A s → Grad A y s → 0 ≤ d →
    ∃ s' d', l.foldlM (fullStep A) (s, d) = some (s', d') ∧ Moved A y s s' d d' ∧ Grad A y s' ∧
      (∀ k ∈ l, A.ju k → ∃ z, Sub A.ab z (s'.a k) ∧ |grad A y s'.a k - z| ≤ (l.length - 1) * d') ∧
      (∀ j, j ∉ l → s'.a j = s.a j) ∧
      (∀ j, A.ju j → |grad A y s'.a j - grad A y s.a j| ≤ l.length * d')
  | [], _, s, d, h, hg, hd => ⟨s, d, rfl, ⟨h, le_refl _, le_refl _, .inl rfl⟩, hg, nofun, fun _ _ => rfl,
      fun j _ => by simp⟩
  | k :: l, hn, s, d, h, hg, hd => by
    obtain ⟨s1, d1, e1, m1, g1, z1, o1, c1⟩ := full_step hA h hg d hd k
    have hd1 : 0 ≤ d1 := hd.trans m1.mono
    rw [List.nodup_cons] at hn
    obtain ⟨s', d', e2, m2, g2, z2, o2, c2⟩ := full_fold hA l hn.2 s1 d1 m1.inv g1 hd1
    have hd' : 0 ≤ d' := hd1.trans m2.mono
    refine ⟨s', d', ?_, m1.trans m2, g2, ?_, ?_, ?_⟩
    · rw [List.foldlM_cons, e1]
      exact e2
    · intro q hq hj
      rw [List.length_cons]
      push_cast
      rcases List.mem_cons.mp hq with rfl | hq
      · refine ⟨_, ?_, by rw [add_sub_cancel_right]; exact c2 q hj⟩
        rw [o2 q hn.1]
        exact z1 hj
      · obtain ⟨z, hz, hb⟩ := z2 q hq hj
        refine ⟨z, hz, hb.trans ?_⟩
        exact mul_le_mul_of_nonneg_right (by linarith) hd'
    · intro j hj
      rw [List.mem_cons, not_or] at hj
      rw [o2 j hj.2, o1 j hj.1]
    · intro j hj
      have h1 := c1 j hj
      have h2 := c2 j hj
      have h3 := m2.mono
      rw [List.length_cons]
      push_cast
      calc |grad A y s'.a j - grad A y s.a j|
          = |(grad A y s'.a j - grad A y s1.a j) + (grad A y s1.a j - grad A y s.a j)| := by ring_nf
        _ ≤ |grad A y s'.a j - grad A y s1.a j| + |grad A y s1.a j - grad A y s.a j| := abs_add_le _ _
        _ ≤ (l.length + 1) * d' := by linarith

/-! ### The loop over the active variables -/

theorem foldl_update (f : Fin p → ℝ) : ∀ (l : List (Fin p)), l.Nodup → ∀ (g : Fin p → ℝ) (j : Fin p),
    l.foldl (fun g j => Function.update g j (g j - f j)) g j = if j ∈ l then g j - f j else g j
  | [], _, g, j => by simp
  | k :: l, hn, g, j => by
    rw [List.nodup_cons] at hn
    rw [List.foldl_cons, foldl_update f l hn.2]
    by_cases hj : j = k
    · subst hj
      rw [if_neg hn.1, if_pos (by simp), Function.update_self]
    · rw [Function.update_of_ne hj]
      simp [hj]

/-- Within the loop, the gradient of the active variables is up to date, and that of the others as it was for
the coefficients `a0`. -/
structure Act (A : Args n p) (y : Fin n → ℝ) (a0 : Fin p → ℝ) (s : St p) : Prop where
  act : ∀ j ∈ s.ia, s.g j = grad A y s.a j
  rest : ∀ j, j ∉ s.ia → A.ju j → s.g j = grad A y a0 j
  zero : ∀ j, j ∉ s.ia → a0 j = 0

theorem active_step {A : Args n p} (hA : Good A) {y : Fin n → ℝ} {a0 : Fin p → ℝ} {s : St p} (h : Inv A s)
    (hg : Act A y a0 s) (d : ℝ) (k : Fin p) (hk : k ∈ s.ia) :
    Moved A y s (activeStep A (s, d) k).1 d (activeStep A (s, d) k).2 ∧ Act A y a0 (activeStep A (s, d) k).1 ∧
      (activeStep A (s, d) k).1.ia = s.ia := by
  unfold activeStep
  dsimp only
  have hju := h.used k hk
  rw [hA.xv, mul_one, hg.act k hk]
  have hdes := descent hA y s.a k hju
  dsimp only at hdes
  generalize newCoef A k (grad A y s.a k + s.a k) = v at *
  by_cases hv : v = s.a k
  · rw [if_pos hv]
    exact ⟨⟨h, le_refl _, le_refl _, .inl rfl⟩, hg, rfl⟩
  · rw [if_neg hv]
    dsimp only
    rw [Real.sqrt_one, div_one]
    refine ⟨⟨⟨h.nodup, h.mm, h.used, ?_, h.col⟩, le_max_right _ _, ?_, ?_⟩, ⟨?_, ?_, hg.zero⟩, rfl⟩
    · intro j hj
      show Function.update s.a k v j = 0
      rw [Function.update_of_ne (by rintro rfl; exact hj hk)]
      exact h.zero j hj
    · show phi A y (Function.update s.a k v) ≤ _
      nlinarith [sq_nonneg (v - s.a k)]
    · rcases le_total (|v - s.a k|) d with hc | hc
      · exact .inl (max_eq_right hc)
      · rw [max_eq_left hc, sq_abs]
        exact .inr hdes
    · intro j hj
      show s.ia.foldl (fun g j => Function.update g j (g j - s.c j (s.mm k) * (v - s.a k))) s.g j = _
      rw [foldl_update (fun j => s.c j (s.mm k) * (v - s.a k)) s.ia h.nodup, if_pos hj, grad_update,
        h.col_mm (h.used j hj) hk, hg.act j hj]
    · intro j hj hjj
      show s.ia.foldl (fun g j => Function.update g j (g j - s.c j (s.mm k) * (v - s.a k))) s.g j = _
      rw [foldl_update (fun j => s.c j (s.mm k) * (v - s.a k)) s.ia h.nodup, if_neg hj]
      exact hg.rest j hj hjj

theorem active_fold {A : Args n p} (hA : Good A) {y : Fin n → ℝ} {a0 : Fin p → ℝ} : ∀ (l : List (Fin p)) (s : St p)
    (d : ℝ), Inv A s → Act A y a0 s → (∀ k ∈ l, k ∈ s.ia) →
    Moved A y s (l.foldl (activeStep A) (s, d)).1 d (l.foldl (activeStep A) (s, d)).2 ∧
      Act A y a0 (l.foldl (activeStep A) (s, d)).1
  | [], s, d, h, hg, _ => ⟨⟨h, le_refl _, le_refl _, .inl rfl⟩, hg⟩
  | k :: l, s, d, h, hg, hl => by
    obtain ⟨m1, g1, e1⟩ := active_step hA h hg d k (hl k (by simp))
    rw [List.foldl_cons]
    generalize activeStep A (s, d) k = r at *
    obtain ⟨s1, d1⟩ := r
    obtain ⟨m2, g2⟩ := active_fold hA l s1 d1 m1.inv g1 (fun q hq => by rw [e1]; exact hl q (by simp [hq]))
    exact ⟨m1.trans m2, g2⟩

theorem fixup_ok {A : Args n p} {y : Fin n → ℝ} {a0 : Fin p → ℝ} {s : St p} (h : Inv A s)
    (hg : Act A y a0 s) : Inv A (fixup A a0 s) ∧ Grad A y (fixup A a0 s) := by
  refine ⟨⟨h.nodup, h.mm, h.used, h.zero, h.col⟩, ?_⟩
  intro j hj
  unfold fixup
  dsimp only
  by_cases h0 : s.mm j = 0
  · have hnot := (h.mm_zero j).mp h0
    rw [if_pos ⟨h0, hj⟩, hg.rest j hnot hj]
    have e : (List.range s.ia.length).map (fun l =>
        (s.ia[l]?.elim 0 fun k => s.a k - a0 k) * s.c j (l + 1)) =
        s.ia.map (fun k => (s.a k - a0 k) * gram A j k) := by
      apply List.ext_getElem
      · simp
      · intro m h1 h2
        rw [List.length_map] at h2
        simp only [List.getElem_map, List.getElem_range, List.getElem?_eq_getElem h2, Option.elim_some]
        rw [h.col j hj m _ (List.getElem?_eq_getElem h2)]
    rw [e, ← List.sum_toFinset _ h.nodup]
    have e2 : ∑ k ∈ s.ia.toFinset, (s.a k - a0 k) * gram A j k = ∑ k, (s.a k - a0 k) * gram A j k := by
      apply Finset.sum_subset (Finset.subset_univ _)
      intro k _ hk
      rw [List.mem_toFinset] at hk
      rw [h.zero k hk, hg.zero k hk]
      ring
    rw [e2]
    unfold grad gram res
    simp only [sub_mul, Finset.sum_sub_distrib, Finset.mul_sum, Finset.sum_mul]
    have e3 : ∀ a : Fin p → ℝ, ∑ i, ∑ k, a k * A.x i k * A.x i j = ∑ k, ∑ i, a k * (A.x i j * A.x i k) := by
      intro a
      rw [Finset.sum_comm]
      exact Finset.sum_congr rfl (fun k _ => Finset.sum_congr rfl (fun i _ => by ring))
    rw [e3, e3]
    ring
  · rw [if_neg (fun hc => h0 hc.1)]
    exact hg.act j (by by_contra hc; exact h0 ((h.mm_zero j).mpr hc))

/-! ### All passes -/

/-- The state before a pass. -/
def Ready (A : Args n p) (y : Fin n → ℝ) (s : St p) : Option (Fin p → ℝ) → Prop
  | none => Grad A y s
  | some a0 => Act A y a0 s

/-- What the loop ends with. -/
structure Done (A : Args n p) (y : Fin n → ℝ) (s s' : St p) : Prop where
  inv : Inv A s'
  lower : phi A y s'.a ≤ phi A y s.a
  near : ∀ k, A.ju k → ∃ z, Sub A.ab z (s'.a k) ∧ |grad A y s'.a k - z| ≤ (p - 1) * A.thr

theorem phi_nonneg {A : Args n p} (hA : Good A) (y : Fin n → ℝ) (a : Fin p → ℝ) : 0 ≤ phi A y a := by
  unfold phi
  have h1 : 0 ≤ ∑ i, res A y a i ^ 2 := Finset.sum_nonneg (fun i _ => sq_nonneg _)
  have h2 : 0 ≤ A.ab * ∑ k, |a k| := mul_nonneg hA.ab (Finset.sum_nonneg (fun i _ => abs_nonneg _))
  linarith

/-- Passes that may still follow. -/
noncomputable def left (A : Args n p) (y : Fin n → ℝ) (s : St p) : ℕ := ⌊2 * phi A y s.a / A.thr ^ 2⌋₊

theorem left_le {A : Args n p} {y : Fin n → ℝ} {s s' : St p} (h : phi A y s'.a ≤ phi A y s.a) :
    left A y s' ≤ left A y s :=
  Nat.floor_le_floor (div_le_div_of_nonneg_right (by linarith) (sq_nonneg _))

theorem left_lt {A : Args n p} (hA : Good A) {y : Fin n → ℝ} {s s' : St p} {d : ℝ} (hd : A.thr ≤ d)
    (h : phi A y s'.a + d ^ 2 / 2 ≤ phi A y s.a) : left A y s' + 1 ≤ left A y s := by
  have ht := hA.thr
  have h2 : A.thr ^ 2 ≤ d ^ 2 := by nlinarith
  unfold left
  rw [← Nat.floor_add_one (div_nonneg (by linarith [phi_nonneg hA y s'.a]) (sq_nonneg _))]
  apply Nat.floor_le_floor
  rw [← sub_nonneg, show 2 * phi A y s.a / A.thr ^ 2 - (2 * phi A y s'.a / A.thr ^ 2 + 1) =
    (2 * phi A y s.a - 2 * phi A y s'.a - A.thr ^ 2) / A.thr ^ 2 by field_simp; ring]
  exact div_nonneg (by linarith) (sq_nonneg _)

theorem passes_ok {A : Args n p} (hA : Good A) {y : Fin n → ℝ} : ∀ (fuel : ℕ) (ph : Option (Fin p → ℝ)) (s : St p),
    Inv A s → Ready A y s ph →
    (∀ s', passes A fuel ph s = some s' → Done A y s s') ∧
    (2 * left A y s + (if ph.isSome then 2 else 1) ≤ fuel → ∃ s', passes A fuel ph s = some s')
  | 0, ph, s, _, _ => ⟨fun s' e => by simp [passes] at e, fun h => by split at h <;> omega⟩
  | fuel + 1, none, s, h, hr => by
    obtain ⟨s1, d1, e1, m1, g1, z1, _, _⟩ := full_fold hA (List.finRange p) (List.nodup_finRange p) s 0 h hr (le_refl _)
    have e : fullPass A s = some (s1, d1) := e1
    unfold passes
    rw [e]
    dsimp only
    by_cases hd : d1 < A.thr
    · rw [if_pos hd]
      refine ⟨fun s' e => ?_, fun _ => ⟨_, rfl⟩⟩
      cases e
      refine ⟨m1.inv, m1.lower, fun k hk => ?_⟩
      obtain ⟨z, hz, hb⟩ := z1 k (List.mem_finRange k) hk
      refine ⟨z, hz, hb.trans ?_⟩
      rw [List.length_finRange]
      have hp : 1 ≤ p := Nat.one_le_of_lt k.isLt
      have : (1 : ℝ) ≤ p := by exact_mod_cast hp
      exact mul_le_mul_of_nonneg_left hd.le (by linarith)
    · rw [if_neg hd]
      rw [not_lt] at hd
      have ha : Act A y s1.a s1 := ⟨fun j hj => g1 j (m1.inv.used j hj), fun j _ hj => g1 j hj, m1.inv.zero⟩
      obtain ⟨q1, q2⟩ := passes_ok hA fuel (some s1.a) s1 m1.inv ha
      refine ⟨fun s' e => ?_, fun hf => q2 ?_⟩
      · have := q1 s' e
        exact ⟨this.inv, this.lower.trans m1.lower, this.near⟩
      · rcases m1.drop with e0 | e0
        · rw [e0] at hd; exact absurd hd (not_le.mpr hA.thr)
        · have := left_lt hA hd e0
          simp only [Option.isSome_none, Option.isSome_some, if_true, Bool.false_eq_true, if_false] at *
          omega
  | fuel + 1, some a0, s, h, hr => by
    obtain ⟨m1, g1⟩ := active_fold hA s.ia s 0 h hr (fun _ hk => hk)
    unfold passes
    have e : s.ia.foldl (activeStep A) (s, 0) = activePass A s := rfl
    rw [e] at m1 g1
    generalize activePass A s = r at *
    obtain ⟨s1, d1⟩ := r
    dsimp only at m1 g1 ⊢
    by_cases hd : d1 < A.thr
    · rw [if_pos hd]
      obtain ⟨i2, g2⟩ := fixup_ok m1.inv g1
      obtain ⟨q1, q2⟩ := passes_ok hA fuel none (fixup A a0 s1) i2 g2
      refine ⟨fun s' e => ?_, fun hf => q2 ?_⟩
      · have := q1 s' e
        exact ⟨this.inv, this.lower.trans m1.lower, this.near⟩
      · have := left_le m1.lower
        have e3 : left A y (fixup A a0 s1) = left A y s1 := rfl
        simp only [Option.isSome_none, Option.isSome_some, if_true, Bool.false_eq_true, if_false] at *
        omega
    · rw [if_neg hd]
      rw [not_lt] at hd
      obtain ⟨q1, q2⟩ := passes_ok hA fuel (some a0) s1 m1.inv g1
      refine ⟨fun s' e => ?_, fun hf => q2 ?_⟩
      · have := q1 s' e
        exact ⟨this.inv, this.lower.trans m1.lower, this.near⟩
      · rcases m1.drop with e0 | e0
        · rw [e0] at hd; exact absurd hd (not_le.mpr hA.thr)
        · have := left_lt hA hd e0
          simp only [Option.isSome_some, if_true] at *
          omega

theorem passes_mono (A : Args n p) : ∀ (fuel : ℕ) (ph : Option (Fin p → ℝ)) (s s' : St p),
    passes A fuel ph s = some s' → passes A (fuel + 1) ph s = some s'
  | 0, ph, s, s', e => by simp [passes] at e
  | fuel + 1, none, s, s', e => by
    unfold passes at e ⊢
    split at e
    · cases e
    · split at e
      · rename_i hd; rw [if_pos hd]; exact e
      · rename_i hd; rw [if_neg hd]; exact passes_mono A fuel _ _ _ e
  | fuel + 1, some a0, s, s', e => by
    unfold passes at e ⊢
    dsimp only at e ⊢
    split at e
    · rename_i hd; rw [if_pos hd]; exact passes_mono A fuel _ _ _ e
    · rename_i hd; rw [if_neg hd]; exact passes_mono A fuel _ _ _ e

end Pycold.Glmnet
