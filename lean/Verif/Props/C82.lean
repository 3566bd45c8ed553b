import Verif.Proof.SccdOffset
import Verif.Props.C02_C03
import Verif.Proof.SccdToyKalman
/-!
# C82: a constant added to a band changes only the intercepts of S-CCD

The C source computes in floating point; this is about exact arithmetic, with the LASSO solver of `glmnet5.c`
(`Glmnet.lasso`) and the Kalman filter of `KFAS.c` (`withKalman`).  The robust regression of the noise screening is any
function.
-/
namespace Pycold.SccdNum

open Pycold.ColdNum.Spec (Raised Equivariant)
open Pycold.SccdNum.Spec
open Pycold.Sccd (Pack Model fresh snowBranch Asc)

/-- **C82, any constants.**  A series and the same series with a constant added to each reflective band (clear scenes stay
usable or unusable); the pixel is not treated as snow, there is more than one usable observation or none, and the dates
ascend.  If the noise screening flags the same observations in both, in every window of six or more observations, then
`sccd_detect` fails in both cases in the same way, or returns packs with the same mode, the same minimum RMSE, and
records, model and queue that are equal except that the intercepts are larger by the constants, and the stored
observations too. -/
theorem C82_detect {fuel : ℕ} (hf : 200000001 ≤ fuel) {robust : List (List ℝ) → List ℝ → List ℝ} {tcg gate pred junk : ℝ}
    {E : Env ℝ Kalman.Mat (Fin 6)} (hE : E = withKalman (Glmnet.lasso fuel) robust tcg gate pred junk)
    {junk6 m0 : Fin 6 → Int} {conse : ℕ} (hc : 1 ≤ conse) {bC2 : Bool} {snowPct : ℕ → ℕ → Bool}
    {z : Model (Fin 6 → BandState ℝ Kalman.Mat)} (hz : z.conseLast = 0) {scenes scenes' : List Scene} {d : Fin 7 → Int}
    (h : List.Forall₂ (Raised bC2 d) scenes scenes')
    (hsn : snowBranch (env E junk6 conse bC2 snowPct) 0 scenes = false) (hasc : Asc (fresh bC2 false scenes))
    (h1 : (fresh bC2 false scenes).length ≠ 1)
    (hm : SameFlags robust (variogram E junk6 (fresh bC2 false scenes)) d (fresh bC2 false scenes)) :
    let run := Sccd.detect (env E junk6 conse bC2 snowPct) m0 z
    (∀ e, run scenes = .error e → run scenes' = .error e) ∧
    ∀ q, run scenes = .ok q → ∃ q', run scenes' = .ok q' ∧ SamePack d q q' := by
  subst hE
  intro run
  have e := detect_raised (E := withKalman (Glmnet.lasso fuel) robust tcg gate pred junk) (m0 := m0) rfl (fun _ => rfl) rfl
    rfl rfl hf rfl hc hz h hsn hasc h1 hm
  refine ⟨fun x hx => ?_, fun q hq => ?_⟩
  · show Sccd.detect _ _ _ _ = _
    rw [e, show Sccd.detect _ _ _ _ = _ from hx]
    rfl
  · refine ⟨_, ?_, same_move⟩
    show Sccd.detect _ _ _ _ = _
    rw [e, show Sccd.detect _ _ _ _ = _ from hq]
    rfl

/-- **C82, bands without screening.**  For constants added to blue, red, near infrared and SWIR2 no condition on the noise
screening is needed. -/
theorem C82_detect_unscreened {fuel : ℕ} (hf : 200000001 ≤ fuel) {robust : List (List ℝ) → List ℝ → List ℝ}
    {tcg gate pred junk : ℝ} {E : Env ℝ Kalman.Mat (Fin 6)}
    (hE : E = withKalman (Glmnet.lasso fuel) robust tcg gate pred junk)
    {junk6 m0 : Fin 6 → Int} {conse : ℕ} (hc : 1 ≤ conse) {bC2 : Bool} {snowPct : ℕ → ℕ → Bool}
    {z : Model (Fin 6 → BandState ℝ Kalman.Mat)} (hz : z.conseLast = 0) {scenes scenes' : List Scene} {d : Fin 7 → Int}
    (h : List.Forall₂ (Raised bC2 d) scenes scenes')
    (hsn : snowBranch (env E junk6 conse bC2 snowPct) 0 scenes = false) (hasc : Asc (fresh bC2 false scenes))
    (h1 : (fresh bC2 false scenes).length ≠ 1) (d1 : d 1 = 0) (d4 : d 4 = 0) :
    let run := Sccd.detect (env E junk6 conse bC2 snowPct) m0 z
    (∀ e, run scenes = .error e → run scenes' = .error e) ∧
    ∀ q, run scenes = .ok q → ∃ q', run scenes' = .ok q' ∧ SamePack d q q' := by
  refine C82_detect hf hE hc hz h hsn hasc h1 ?_
  intro w _ _ k
  refine ColdNum.flagged_of_equivariant _ w ?_ k
  intro b hb j
  have : d b = 0 := by
    simp only [List.mem_cons, List.not_mem_nil, or_false] at hb
    rcases hb with rfl | rfl
    · exact d1
    · exact d4
  rw [this]
  simp

/-- **C82, with a regression that follows constants.**  If the robust regression answers a constant added to the values
with the same constant added to the intercept, no condition on the screening is needed for any band. -/
theorem C82_detect_equivariant {fuel : ℕ} (hf : 200000001 ≤ fuel) {robust : List (List ℝ) → List ℝ → List ℝ}
    {tcg gate pred junk : ℝ} {E : Env ℝ Kalman.Mat (Fin 6)}
    (hE : E = withKalman (Glmnet.lasso fuel) robust tcg gate pred junk)
    {junk6 m0 : Fin 6 → Int} {conse : ℕ} (hc : 1 ≤ conse) {bC2 : Bool} {snowPct : ℕ → ℕ → Bool}
    {z : Model (Fin 6 → BandState ℝ Kalman.Mat)} (hz : z.conseLast = 0) {scenes scenes' : List Scene} {d : Fin 7 → Int}
    (h : List.Forall₂ (Raised bC2 d) scenes scenes')
    (hsn : snowBranch (env E junk6 conse bC2 snowPct) 0 scenes = false) (hasc : Asc (fresh bC2 false scenes))
    (h1 : (fresh bC2 false scenes).length ≠ 1) (hr : Equivariant robust) :
    let run := Sccd.detect (env E junk6 conse bC2 snowPct) m0 z
    (∀ e, run scenes = .error e → run scenes' = .error e) ∧
    ∀ q, run scenes = .ok q → ∃ q', run scenes' = .ok q' ∧ SamePack d q q' := by
  refine C82_detect hf hE hc hz h hsn hasc h1 ?_
  intro w _ hw k
  refine ColdNum.flagged_of_equivariant _ w ?_ k
  intro b _ j
  have hl : 6 ≤ (ColdNum.Spec.valuesOf w b).length := by unfold ColdNum.Spec.valuesOf; rwa [List.length_map]
  obtain ⟨e0, e1⟩ := hr (w.map fun o => ColdNum.Spec.screenRow (ColdNum.Spec.yearsOf w) (o.date : ℝ))
    (ColdNum.Spec.valuesOf w b) (d b) hl
  cases j with
  | zero => rw [e0, if_pos rfl]
  | succ j => rw [e1, if_neg (Nat.succ_ne_zero j), add_zero]

namespace Toy

/-- Blue lower by 20, red higher by 100, near infrared lower by 50. -/
def consts : Fin 7 → Int := ![-20, 0, 100, -50, 0, 0, 0]

/-- The scenes of `robs` with the constants added. -/
def raisedRobs : List Scene := robs.map fun o => { o with b := o.b - 20, r := o.r + 100, n := o.n - 50 }

theorem robs_raised : List.Forall₂ (Raised false consts) robs raisedRobs := by
  unfold raisedRobs
  rw [List.forall₂_map_right_iff, List.forall₂_same]
  intro o ho
  obtain ⟨k, hk, rfl⟩ := List.mem_map.1 ho
  have hy : 500 ≤ jump k ∧ jump k ≤ 2500 := by
    unfold jump
    split <;> omega
  refine ⟨rfl, rfl, fun _ => ?_, fun _ => ⟨rfl, ?_, rfl, rfl, ?_, ?_, rfl⟩⟩
  · unfold Pycold.Spec.Usable
    dsimp only
    constructor <;> intro _ <;> refine ⟨?_, ?_, ?_, ?_, ?_, ?_, ?_, ?_⟩ <;> omega
  · exact (add_zero _).symm
  · exact (add_zero _).symm
  · exact (add_zero _).symm

set_option maxRecDepth 100000 in
/-- A series of 27 scenes with a jump: `sccd_detect` succeeds on it and, with the same pack but for the intercepts, on the
series with the constants added; the queue of a pack has the constants added too. -/
example : ∃ q q', Sccd.detect (env (withKalman (Glmnet.lasso 200000001) level 15.0863 35 20 0) (fun _ => 0) 6 false
      (fun _ _ => false)) (fun _ => 0) kVoid robs = .ok q ∧
    Sccd.detect (env (withKalman (Glmnet.lasso 200000001) level 15.0863 35 20 0) (fun _ => 0) 6 false
      (fun _ _ => false)) (fun _ => 0) kVoid raisedRobs = .ok q' ∧ SamePack consts q q' := by
  have hq : ∀ o ∈ robs, Pycold.Spec.KnownQa o.qa := by
    intro o ho
    obtain ⟨k, _, rfl⟩ := List.mem_map.1 ho
    exact Or.inl rfl
  obtain ⟨q, hq⟩ := (Sccd.C02_sccd_detect (env (withKalman (Glmnet.lasso 200000001) level 15.0863 35 20 0) (fun _ => 0) 6 false
    (fun _ _ => false)) (by decide) (by decide) (fun _ => 0) kVoid robs
    ⟨730000, 500, 500, 500, 500, 500, 500, 2900, 0⟩ ⟨730650, 2500, 2500, 2500, 2500, 2500, 2500, 2900, 0⟩
    (by decide +kernel) (by decide +kernel) (by decide)).2 (by decide) hq
  obtain ⟨q', h1, h2⟩ := (C82_detect_unscreened (le_refl _) rfl (by decide) rfl robs_raised (by rfl)
    (by rw [fresh_robs]; unfold Asc; decide +kernel) (by rw [fresh_robs]; decide) rfl rfl).2 q hq
  exact ⟨q, q', hq, h1, h2⟩

end Toy

end Pycold.SccdNum
