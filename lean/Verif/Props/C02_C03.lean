import Verif.Props.C22_C23
import Verif.Props.C24_C31
import Verif.Proof.ColdNumTop
/-!
# C02 and C03 at the entry points

`C02_unknown_qa` and `C03_date_order` (`Props/C01_C04.lean`) are about the two checks themselves.  Here: what
`cold_detect`, `obcold_reconstruct`, `sccd_detect` and `sccd_update` do with the series.
-/
namespace Pycold

open Spec

/-- `cold_detect` refuses a series iff it has a scene with an unknown QA code or two scenes in descending
date order, whatever the data, the parameters and the numerical tests. -/
theorem C03_cold_detect {V W : Type} (P : Cold.Params) (N : Cold.Num V W) (ω : Cold.Oracle V W) (bC2 : Bool)
    (obs : List Scene) (nCm : Nat) :
    Cold.cold P N ω bC2 obs nCm = .rejected ↔
      (∃ o ∈ obs, ¬ KnownQa o.qa) ∨
      ∃ (i j : Nat) (x y : Scene), i < j ∧ obs[i]? = some x ∧ obs[j]? = some y ∧ x.date > y.date := by
  rw [← C03_inversion, ← (C02_unknown_qa bC2 obs).1]
  unfold Cold.cold
  by_cases h0 : obs.isEmpty
  · have : obs = [] := by simpa using h0
    subst this
    simp [preprocessing, preLoop, dateCheckFails]
  · rw [if_neg h0]
    by_cases hd : dateCheckFails obs = true
    · simp [hd]
    · rw [if_neg hd]
      dsimp only
      cases hs : (preprocessing bC2 obs).status with
      | success =>
        rw [if_neg (by simp)]
        split <;> simp [hd]
      | failure => simp
      | error =>
        have h := C02_unknown_qa bC2 obs
        rw [hs] at h
        by_cases hk : ∃ o ∈ obs, ¬ KnownQa o.qa
        · exact absurd (h.1.mpr hk) (by simp)
        · exact absurd (h.2.mpr (fun o ho => by by_contra hu; exact hk ⟨o, ho, hu⟩)) (by simp)

/-- `obcold_reconstruct` refuses every series with an unknown QA code and every series with two scenes in
descending date order. -/
theorem C03_obcold_reconstruct {R M : Type} (E : List ClrObs → Obcold.Env R M) (garbage : Bool) (conse : Nat)
    (bC2 : Bool) (scenes : List Scene) (breaks : List Int)
    (h : (∃ o ∈ scenes, ¬ KnownQa o.qa) ∨
      ∃ (i j : Nat) (x y : Scene), i < j ∧ scenes[i]? = some x ∧ scenes[j]? = some y ∧ x.date > y.date) :
    Obcold.reconstruct E garbage conse bC2 scenes breaks = .error .fail := by
  rw [← C03_inversion, ← (C02_unknown_qa bC2 scenes).1] at h
  unfold Obcold.reconstruct
  by_cases h0 : scenes = [] ∨ breaks = []
  · rw [if_pos h0]
  · rw [if_neg h0]
    by_cases hd : dateCheckFails scenes = true
    · rw [if_pos hd]
    · rw [if_neg hd]
      have : (preprocessing bC2 scenes).status = .failure := h.resolve_right hd
      dsimp only
      rw [if_pos (by simp [this])]

namespace Sccd
variable {V F R M : Type}

/-- `sccd_detect`, for a series of at least a year: an error is reported iff some scene has an unknown QA
code.  (With `conse` 7 or 8 a read outside the array is possible too, C53.) -/
theorem C02_sccd_detect (E : Env V F R M) (hc : 0 < E.conse) (hc8 : E.conse ≤ 8) (m0 : M) (z : Model F)
    (scenes : List Scene) (a b : Scene) (ha : scenes.head? = some a) (hb : scenes.getLast? = some b)
    (hspan : 1461 ≤ 4 * (b.date - a.date)) :
    (detect E m0 z scenes = .error .fail ↔ ∃ o ∈ scenes, ¬ KnownQa o.qa) ∧
    (E.conse ≤ 6 → (∀ o ∈ scenes, KnownQa o.qa) → ∃ q, detect E m0 z scenes = .ok q) := by
  have hd : detect E m0 z scenes =
      (sccd E { (start m0 : Pack F R M) with model := some z } scenes >>= packOut) := by
    unfold detect
    have hN : NCONSE = 8 := rfl
    rw [if_neg (by omega)]
    simp only [ha, hb]
    rw [if_neg (by omega)]
    rfl
  have hk : (∀ o ∈ scenes, KnownQa o.qa) → (∃ q, detect E m0 z scenes = .ok q) ∨
      (detect E m0 z scenes = .error .oob ∧ 6 < E.conse) := by
    intro hq
    rw [hd]
    rcases call_cases E (start_promise E.conse m0 : Promise E.conse (start m0 : Pack F R M)) hc hc8 (some z)
      (fun h => absurd rfl h) scenes hq with ⟨q, e, _⟩ | ⟨e, h6, _⟩
    · exact .inl ⟨q, e⟩
    · exact .inr ⟨e, h6⟩
  refine ⟨⟨fun e => ?_, fun ⟨o, ho, hu⟩ => ?_⟩, fun h6 hq => ?_⟩
  · by_contra hn
    rcases hk (fun o ho => by by_contra hu; exact hn ⟨o, ho, hu⟩) with ⟨q, e'⟩ | ⟨e', _⟩ <;> simp [e'] at e
  · rw [hd, sccd_unknown E _ scenes (fun h => hu (h o ho))]
    rfl
  · rcases hk hq with h | ⟨_, h⟩
    · exact h
    · omega

/-- `sccd_update` on any pack that a sequence of calls can produce: likewise. -/
theorem C02_sccd_update (E : Env V F R M) (hc : 0 < E.conse) (hc8 : E.conse ≤ 8) (p : Pack F R M)
    (all : List Obs) (h : History E Any p all) (scenes : List Scene) (hne : scenes ≠ []) :
    update E p scenes = .error .fail ↔ ∃ o ∈ scenes, ¬ KnownQa o.qa := by
  constructor
  · intro e
    by_contra hn
    rcases C25_accepted E hc hc8 p all h scenes hne (fun o ho => by by_contra hu; exact hn ⟨o, ho, hu⟩) with
      ⟨q, e', _⟩ | ⟨e', _⟩ <;> simp [e'] at e
  · rintro ⟨o, ho, hu⟩
    rw [update_eq E (h.promise hc hc8) hne, sccd_unknown E p scenes (fun h => hu (h o ho))]
    rfl

open Toy in
/-- `sccd_detect` accepts series that `cold_detect` refuses because two scenes are in descending date order:
nothing in S-CCD checks the order. -/
theorem C03_sccd_unchecked : ∃ scenes q, ¬ DatesInOrder scenes ∧ detect (env 6) () zero scenes = .ok q := by
  refine ⟨scenesOf 730000 20 500 0 9 ++ scenesOf 729990 40 500 0 12, ?_⟩
  obtain ⟨q, e, -⟩ := isOk_iff (e := detect (env 6) () zero
    (scenesOf 730000 20 500 0 9 ++ scenesOf 729990 40 500 0 12)) (t := fun _ => true) (by decide +kernel)
  exact ⟨q, by unfold DatesInOrder; decide +kernel, e⟩

end Sccd

/-- A case of `C03_cold_detect`: the third scene is older than the first. -/
example (P : Cold.Params) (N : Cold.Num Nat Unit) (ω : Cold.Oracle Nat Unit) :
    Cold.cold P N ω false [⟨5, 1, 1, 1, 1, 1, 1, 1, 0⟩, ⟨7, 1, 1, 1, 1, 1, 1, 1, 0⟩, ⟨4, 1, 1, 1, 1, 1, 1, 1, 0⟩] 0 =
      .rejected :=
  (C03_cold_detect P N ω false _ 0).mpr (.inr ⟨0, 2, _, _, by decide, rfl, rfl, by decide⟩)

open Sccd Sccd.Toy in
/-- A case of `C02_sccd_detect`: a series of two years, one QA code 7. -/
example : detect (env 6) () zero (scenesOf 730000 20 500 0 30 ++ [⟨730700, 1, 1, 1, 1, 1, 1, 1, 7⟩]) = .error .fail :=
  (C02_sccd_detect (env 6) (by decide) (by decide) () zero _ _ _ rfl rfl (by decide)).1.mpr
    ⟨⟨730700, 1, 1, 1, 1, 1, 1, 1, 7⟩, by simp, by decide⟩

end Pycold
