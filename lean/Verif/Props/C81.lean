import Verif.Proof.ColdOffsetTop
import Verif.Props.C79
/-!
# C81: a constant added to a band changes only the intercepts

The C source computes in floating point; this is about exact arithmetic (`exact`), with the LASSO solver of
`glmnet5.c` (`Glmnet.lasso`).  The robust regression of the noise screening is any function.
-/
namespace Pycold

open ColdNum ColdNum.Spec ColdV.Spec

/-- **C81, any constants.**  A series and the same series with a constant added to each reflective band (clear scenes stay
usable or unusable).  If the noise screening flags the same observations in both, in every window of six or more clear
observations, then `cold` treats both the same way, and when it reaches detection the results are the same in dates,
counts, categories, probabilities, RMSE, magnitudes, slopes, harmonic coefficients and change-magnitude output; each
intercept is larger by the constant of its band. -/
theorem C81_offset {P : Cold.Params} {fuel : ℕ} {robust : List (List ℝ) → List ℝ → List ℝ} {tcg : ℝ} {bC2 : Bool}
    {obs obs' : List Scene} {nCm : ℕ} {d : Fin 7 → Int} (hc : 1 ≤ P.conse)
    (hs : Cold.Spec.CmSized P (obs.map (·.date)) nCm) (hf : 200000001 ≤ fuel) (h6 : d 6 = 0)
    (h : List.Forall₂ (Raised bC2 d) obs obs')
    (hm : SameFlags robust (noiseFloor exact bC2 obs) d (clearObs bC2 obs)) :
    let run := fun l => ColdNum.cold P (program exact (Glmnet.lasso fuel) robust tcg) bC2 l nCm
    (run obs = .rejected ↔ run obs' = .rejected) ∧ (run obs = .empty ↔ run obs' = .empty) ∧
    (run obs = .fallback ↔ run obs' = .fallback) ∧
    ∀ res, run obs = .standard res → ∃ out out', res = .ok out ∧ run obs' = .standard (.ok out') ∧
      List.Forall₂ (SameBut d) out.recs out'.recs ∧ out'.cm = out.cm ∧ out'.overflow = out.overflow := by
  intro run
  have hE := program_exact hf robust tcg
  rcases cold_raised (P := P) (E := program exact (Glmnet.lasso fuel) robust tcg) (nCm := nCm) h with
    ⟨e, e'⟩ | ⟨e, e'⟩ | ⟨e, e'⟩ | ⟨e, e'⟩
  · simp only [run, e, e']
    refine ⟨by simp, by simp, by simp, nofun⟩
  · simp only [run, e, e']
    refine ⟨by simp, by simp, by simp, nofun⟩
  · simp only [run, e, e']
    refine ⟨by simp, by simp, by simp, nofun⟩
  · obtain ⟨out, ho⟩ := cold_ok hc hs e
    obtain ⟨_, g2, g3⟩ := cold_standard e
    have hsort := rows_sorted exact g2 g3
    obtain ⟨out', q1, q2, q3, q4⟩ := run_raised hE hc hsort hm ho
    rw [clearObs_raised h6 h g2, q1] at e'
    rw [ho] at e
    refine ⟨by simp [run, e, e'], by simp [run, e, e'], by simp [run, e, e'], ?_⟩
    intro res hres
    simp only [run, e] at hres
    injection hres with hres
    exact ⟨out, out', hres.symm, e', q2, q3, q4⟩

/-- **C81, bands without screening.**  For constants added to blue, red, near infrared and SWIR2 no condition on the noise
screening is needed: it looks at green and SWIR1 only. -/
theorem C81_offset_unscreened {P : Cold.Params} {fuel : ℕ} {robust : List (List ℝ) → List ℝ → List ℝ} {tcg : ℝ}
    {bC2 : Bool} {obs obs' : List Scene} {nCm : ℕ} {d : Fin 7 → Int} (hc : 1 ≤ P.conse)
    (hs : Cold.Spec.CmSized P (obs.map (·.date)) nCm) (hf : 200000001 ≤ fuel) (h6 : d 6 = 0)
    (h : List.Forall₂ (Raised bC2 d) obs obs') (h1 : d 1 = 0) (h4 : d 4 = 0) :
    let run := fun l => ColdNum.cold P (program exact (Glmnet.lasso fuel) robust tcg) bC2 l nCm
    (run obs = .rejected ↔ run obs' = .rejected) ∧ (run obs = .empty ↔ run obs' = .empty) ∧
    (run obs = .fallback ↔ run obs' = .fallback) ∧
    ∀ res, run obs = .standard res → ∃ out out', res = .ok out ∧ run obs' = .standard (.ok out') ∧
      List.Forall₂ (SameBut d) out.recs out'.recs ∧ out'.cm = out.cm ∧ out'.overflow = out.overflow := by
  refine C81_offset hc hs hf h6 h ?_
  intro w _ _ k
  refine flagged_of_equivariant _ w ?_ k
  intro b hb j
  have : d b = 0 := by
    simp only [List.mem_cons, List.not_mem_nil, or_false] at hb
    rcases hb with rfl | rfl
    · exact h1
    · exact h4
  rw [this]
  simp

/-- **C81, with a regression that follows constants.**  If the robust regression answers a constant added to the values
with the same constant added to the intercept, no condition on the screening is needed for any band. -/
theorem C81_offset_equivariant {P : Cold.Params} {fuel : ℕ} {robust : List (List ℝ) → List ℝ → List ℝ} {tcg : ℝ}
    {bC2 : Bool} {obs obs' : List Scene} {nCm : ℕ} {d : Fin 7 → Int} (hc : 1 ≤ P.conse)
    (hs : Cold.Spec.CmSized P (obs.map (·.date)) nCm) (hf : 200000001 ≤ fuel) (h6 : d 6 = 0)
    (h : List.Forall₂ (Raised bC2 d) obs obs') (hr : Equivariant robust) :
    let run := fun l => ColdNum.cold P (program exact (Glmnet.lasso fuel) robust tcg) bC2 l nCm
    (run obs = .rejected ↔ run obs' = .rejected) ∧ (run obs = .empty ↔ run obs' = .empty) ∧
    (run obs = .fallback ↔ run obs' = .fallback) ∧
    ∀ res, run obs = .standard res → ∃ out out', res = .ok out ∧ run obs' = .standard (.ok out') ∧
      List.Forall₂ (SameBut d) out.recs out'.recs ∧ out'.cm = out.cm ∧ out'.overflow = out.overflow := by
  refine C81_offset hc hs hf h6 h ?_
  intro w _ hw k
  refine flagged_of_equivariant _ w ?_ k
  intro b _ j
  have hl : 6 ≤ (valuesOf w b).length := by unfold valuesOf; rwa [List.length_map]
  obtain ⟨e0, e1⟩ := hr (w.map fun o => screenRow (yearsOf w) (o.date : ℝ)) (valuesOf w b) (d b) hl
  cases j with
  | zero => rw [e0, if_pos rfl]
  | succ j => rw [e1, if_neg (Nat.succ_ne_zero j), add_zero]

namespace ColdNum.Toy

/-- Blue lower by 20, red higher by 100, near infrared lower by 50. -/
def consts : Fin 7 → Int := ![-20, 0, 100, -50, 0, 0, 0]

/-- The scenes of `quiets n` with the constants added. -/
def raisedScenes (n : ℕ) : List Scene :=
  (quiets n).map fun o => { o with b := o.b - 20, r := o.r + 100, n := o.n - 50 }

theorem quiets_raised : List.Forall₂ (Raised false consts) (quiets 20) (raisedScenes 20) := by
  unfold raisedScenes
  rw [List.forall₂_map_right_iff, List.forall₂_same]
  intro o ho
  obtain ⟨k, hk, rfl⟩ := List.mem_map.1 ho
  have hk := List.mem_range.1 hk
  have hy : 500 ≤ (if k < 20 then (500 : Int) else 2000) + (k % 2 : ℕ) * 10 ∧
      (if k < 20 then (500 : Int) else 2000) + (k % 2 : ℕ) * 10 ≤ 2010 := by
    split <;> omega
  refine ⟨rfl, rfl, fun _ => ?_, fun _ => ⟨rfl, ?_, rfl, rfl, ?_, ?_, rfl⟩⟩
  · unfold Pycold.Spec.Usable quiet
    dsimp only
    constructor <;> intro _ <;> refine ⟨?_, ?_, ?_, ?_, ?_, ?_, ?_, ?_⟩ <;> omega
  · exact (add_zero _).symm
  · exact (add_zero _).symm
  · exact (add_zero _).symm

/-- The step of `step_found` is found on the same days with the constants added, and the model before the break differs
in the intercepts only. -/
example : ∃ out out' r r', cold qP (program exact (Glmnet.lasso 200000001) flat 15.0863) false (quiets 20) 0 =
      .standard (.ok out) ∧
    cold qP (program exact (Glmnet.lasso 200000001) flat 15.0863) false (raisedScenes 20) 0 = .standard (.ok out') ∧
    out.recs.head? = some r ∧ out'.recs.head? = some r' ∧ r'.tEnd = 666 ∧ r'.tBreak = 701 ∧ SameBut consts r r' := by
  obtain ⟨out, r, g, h, h1, _, _, h4, h5, _⟩ := step_found
  obtain ⟨_, _, _, hall⟩ := C81_offset_unscreened (P := qP) (nCm := 0) (tcg := 15.0863) (robust := flat)
    (by decide) nofun (le_refl 200000001) rfl quiets_raised rfl rfl
  obtain ⟨o, out', e, e', hr, _⟩ := hall _ h
  injection e with e
  subst e
  have key : ∀ {l l' : List (ColdNum.Rec ℝ (Fin 7))}, List.Forall₂ (SameBut consts) l l' → l.head? = some r →
      ∃ r', l'.head? = some r' ∧ SameBut consts r r' := by
    intro l l' hl h0
    cases hl with
    | nil => cases h0
    | cons hd _ =>
      injection h0 with h0
      subst h0
      exact ⟨_, rfl, hd⟩
  obtain ⟨r', hr', hd⟩ := key hr h1
  exact ⟨_, out', r, r', h, e', h1, hr', hd.tEnd.trans h4, hd.tBreak.trans h5, hd⟩

/-- A regression that follows constants: the mean. -/
example : Equivariant (fun _ y => [y.sum / (y.length : ℝ)]) := by
  intro X y c hy
  have hs : ∀ l : List ℝ, (l.map (· + c)).sum = l.sum + l.length * c := by
    intro l
    induction l with
    | nil => simp
    | cons a l ih => simp only [List.map_cons, List.sum_cons, ih, List.length_cons]; push_cast; ring
  refine ⟨?_, fun j => rfl⟩
  have hn : (y.length : ℝ) ≠ 0 := by
    have : y.length ≠ 0 := by omega
    exact_mod_cast this
  show (y.map (· + c)).sum / ((y.map (· + c)).length : ℝ) = y.sum / (y.length : ℝ) + c
  rw [hs, List.length_map]
  field_simp

end ColdNum.Toy

end Pycold
