import Verif.Proof.ColdMove
import Verif.Props.C79
/-!
# C83: a series moved by whole periods of four years gives the same result, moved

The C source computes in floating point; this is about exact arithmetic, with the true value of π in place of the
literal of `const.h` 28 (`ideal`), and with the LASSO solver of `glmnet5.c` (`Glmnet.lasso`).  The robust regression of
the noise screening is any function.
-/
namespace Pycold

open ColdNum ColdNum.Spec ColdV.Spec

/-- **C83.**  A series and the same series `1461 j` days later (the change-magnitude output also starting that much later).
If the noise screening flags the same observations in both, in every window of six or more clear observations, then
`cold` treats both the same way, and when it reaches detection the results are the same but for the dates, which are
moved, and the intercepts, which make up for the slopes. -/
theorem C83_moved {P : Cold.Params} {fuel : ℕ} {robust : List (List ℝ) → List ℝ → List ℝ} {tcg : ℝ} {bC2 : Bool}
    {obs : List Scene} {nCm : ℕ} {j : ℤ} (hc : 1 ≤ P.conse) (hs : Cold.Spec.CmSized P (obs.map (·.date)) nCm)
    (hf : 200000001 ≤ fuel) (h0 : ∀ o ∈ obs, o.date ≠ 0)
    (hm : SameOutlying robust (noiseFloor ideal bC2 obs) (1461 * j) (clearObs bC2 obs)) :
    let run := fun P l => ColdNum.cold P (program ideal (Glmnet.lasso fuel) robust tcg) bC2 l nCm
    let P' := laterParams (1461 * j) P
    let obs' := obs.map (later (1461 * j))
    (run P obs = .rejected ↔ run P' obs' = .rejected) ∧ (run P obs = .empty ↔ run P' obs' = .empty) ∧
    (run P obs = .fallback ↔ run P' obs' = .fallback) ∧
    ∀ res, run P obs = .standard res → ∃ out out', res = .ok out ∧ run P' obs' = .standard (.ok out') ∧
      List.Forall₂ (Later (1461 * j)) out.recs out'.recs ∧ LaterCm (1461 * j) out.cm out'.cm ∧
      out'.overflow = out.overflow := by
  intro run P' obs'
  rcases cold_later (P := P) (P' := P') (E := program ideal (Glmnet.lasso fuel) robust tcg) (nCm := nCm) (bC2 := bC2)
    (obs := obs) (δ := 1461 * j) with ⟨e, e'⟩ | ⟨e, e'⟩ | ⟨e, e'⟩ | ⟨e, e'⟩
  · simp only [run, obs', e, e']
    refine ⟨by simp, by simp, by simp, nofun⟩
  · simp only [run, obs', e, e']
    refine ⟨by simp, by simp, by simp, nofun⟩
  · simp only [run, obs', e, e']
    refine ⟨by simp, by simp, by simp, nofun⟩
  · obtain ⟨out, ho⟩ := cold_ok hc hs e
    obtain ⟨_, g2, g3⟩ := cold_standard e
    have hsort := rows_sorted ideal g2 g3
    have h0' : ∀ o ∈ clearObs bC2 obs, o.date ≠ 0 := by
      intro o hoc
      rw [clearObs_eq_spec bC2 obs g2] at hoc
      obtain ⟨s, hs, he⟩ := dedup_dates_mem bC2 none obs o hoc
      rw [he]
      exact h0 s hs
    obtain ⟨out', q1, q2, q3, q4⟩ := run_later (P := P) (E := program ideal (Glmnet.lasso fuel) robust tcg) rfl hf rfl
      rfl rfl hc hsort h0' hm ho
    rw [q1] at e'
    rw [ho] at e
    refine ⟨by simp [run, obs', e, e'], by simp [run, obs', e, e'], by simp [run, obs', e, e'], ?_⟩
    intro res hres
    simp only [run, e] at hres
    injection hres with hres
    exact ⟨out, out', hres.symm, e', q2, q3, q4⟩

/-- **C83, with a regression that does not see the origin of time.**  No condition on the screening is needed. -/
theorem C83_moved_origin_free {P : Cold.Params} {fuel : ℕ} {robust : List (List ℝ) → List ℝ → List ℝ} {tcg : ℝ}
    {bC2 : Bool} {obs : List Scene} {nCm : ℕ} {j : ℤ} (hc : 1 ≤ P.conse)
    (hs : Cold.Spec.CmSized P (obs.map (·.date)) nCm) (hf : 200000001 ≤ fuel) (h0 : ∀ o ∈ obs, o.date ≠ 0)
    (hr : OriginFree robust) :
    let run := fun P l => ColdNum.cold P (program ideal (Glmnet.lasso fuel) robust tcg) bC2 l nCm
    let P' := laterParams (1461 * j) P
    let obs' := obs.map (later (1461 * j))
    (run P obs = .rejected ↔ run P' obs' = .rejected) ∧ (run P obs = .empty ↔ run P' obs' = .empty) ∧
    (run P obs = .fallback ↔ run P' obs' = .fallback) ∧
    ∀ res, run P obs = .standard res → ∃ out out', res = .ok out ∧ run P' obs' = .standard (.ok out') ∧
      List.Forall₂ (Later (1461 * j)) out.recs out'.recs ∧ LaterCm (1461 * j) out.cm out'.cm ∧
      out'.overflow = out.overflow :=
  C83_moved hc hs hf h0 fun _ _ h6 k => noisy_of_originFree hr _ h6 k

/-- **C83, what the moved coefficients mean.**  The curve of each band of the moved record is the curve of the record,
moved. -/
theorem C83_curve {j : ℤ} {r r' : ColdNum.Rec ℝ (Fin 7)} (h : Later (1461 * j) r r') {m m' : Fin 7 → Fit ℝ}
    (hm : r.model = some m) (hm' : r'.model = some m') (b : Fin 7) (t : ℝ) :
    recordCurve (m' b).coefs (t + ((1461 * j : ℤ) : ℝ)) = recordCurve (m b).coefs t := by
  obtain ⟨m'', e, hb⟩ := h.model m hm
  rw [hm'] at e
  injection e with e
  subst e
  obtain ⟨_, h0, ht⟩ := hb b
  have hk : ∀ k : ℕ, (m' b).coefs.getD (k + 1) 0 = (m b).coefs.getD (k + 1) 0 := by
    intro k
    have : ∀ l : List ℝ, l.getD (k + 1) 0 = l.tail.getD k 0 := by intro l; cases l <;> rfl
    rw [this, this, ht]
  have c1 := cos_turn j 1 t
  have s1 := sin_turn j 1 t
  have c2 := cos_turn j 2 t
  have s2 := sin_turn j 2 t
  have c3 := cos_turn j 3 t
  have s3 := sin_turn j 3 t
  rw [Nat.cast_one, one_mul] at c1 s1
  push_cast at c1 s1 c2 s2 c3 s3 h0
  unfold recordCurve
  rw [hk 0, hk 1, hk 2, hk 3, hk 4, hk 5, hk 6, h0]
  push_cast
  rw [c1, s1, c2, s2, c3, s3]
  ring

namespace ColdNum.Toy

/-- The series of C79 with a step, eight years later: it is analysed, and gives the same records, moved. -/
example : ∃ out out', cold qP (program ideal (Glmnet.lasso 200000001) flat 15.0863) false (quiets 20) 0 =
      .standard (.ok out) ∧
    cold (laterParams 2922 qP) (program ideal (Glmnet.lasso 200000001) flat 15.0863) false
      ((quiets 20).map (later 2922)) 0 = .standard (.ok out') ∧ List.Forall₂ (Later 2922) out.recs out'.recs := by
  obtain ⟨res, h⟩ := quiet_standard 20 (Or.inl rfl) (program ideal (Glmnet.lasso 200000001) flat 15.0863)
  obtain ⟨_, _, _, hall⟩ := C83_moved_origin_free (P := qP) (nCm := 0) (tcg := 15.0863) (robust := flat) (j := 2)
    (bC2 := false) (obs := quiets 20) (by decide) nofun (le_refl 200000001) (by decide +kernel)
    (by intro years ts y s _ _ t _; simp [cycleCurve, flat])
  obtain ⟨out, out', e, e', hr, _⟩ := hall _ h
  rw [e] at h
  exact ⟨out, out', h, e', hr⟩

end ColdNum.Toy

end Pycold
