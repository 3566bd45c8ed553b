import Verif.Proof.SccdToyKalman
import Verif.Props.C76
/-!
# C77: S-CCD is a Kalman filter over its segments

`withKalman` is S-CCD over the real numbers with the matrix routines of `KFAS.c`; the solver of the fits stays
arbitrary.  The specification `ByKalman` (`Spec/SccdKalman.lean`) is the textbook filter.
-/
namespace Pycold.SccdNum

open Pycold.Kalman.Spec (curve Covariance predVar)
open Pycold.SccdNum.Spec
open Pycold.Sccd (Pack Obs Asc Codable fresh snowBranch)

/-- The filter of the loop is the filter of C32, C33 and C58. -/
theorem C77_same_filter (lasso robust : List (List ℝ) → List ℝ → List ℝ) (tcg gate pred junk H y : ℝ)
    (t next : Int) (r : Run ℝ Kalman.Mat) :
    Kalman.regular (Kalman.ssm H) y t next ⟨vec r.cft, r.cov, r.vt⟩ =
      ⟨vec (regular (withKalman lasso robust tcg gate pred junk) H y t next r).cft,
        (regular (withKalman lasso robust tcg gate pred junk) H y t next r).cov,
        (regular (withKalman lasso robust tcg gate pred junk) H y t next r).vt⟩ :=
  regular_kalman lasso robust tcg gate pred junk H y t next r

/-- Its innovation is the one C76 asks for. -/
theorem C77_innovation : Innovation kalmanValid := by
  intro H y a q
  unfold kalmanValid Kalman.valid
  simp only
  have : ∀ x : Kalman.Vec, (Kalman.ssm H).Z ⬝ᵥ x = x 0 + x 2 + x 4 := fun x => Kalman.Z_dot x H
  split <;> (simp only [this]; rfl)

/-- **C77, first call (partial: not for later segments of the same call, see `C33_second_model`).**  The curve
of the first record closed by a change is the result of the textbook Kalman filter over the record's
observations; so is the model monitored at the end if there was no change, and its covariance is one. -/
theorem C77_first_segment_partial (lasso robust : List (List ℝ) → List ℝ → List ℝ) (tcg gate pred junk : ℝ)
    (E : Env ℝ Kalman.Mat (Fin 6)) (hE : E = withKalman lasso robust tcg gate pred junk)
    (junk6 : Fin 6 → Int) (conse : Nat) (hc : 0 < conse) (bC2 : Bool) (snowPct : Nat → Nat → Bool)
    (m0 : Fin 6 → Int) (z : Sccd.Model (Fin 6 → BandState ℝ Kalman.Mat)) (scenes : List Scene)
    (q : Pack (Fin 6 → BandState ℝ Kalman.Mat) (Body ℝ (Fin 6)) (Fin 6 → Int))
    (e : Sccd.detect (env E junk6 conse bC2 snowPct) m0 z scenes = .ok q) (all : List Obs)
    (hall : all = fresh bC2 (snowBranch (env E junk6 conse bC2 snowPct) 0 scenes) scenes) (hasc : Asc all)
    (hcod : Codable all) :
    ∃ op rest, q.recs = op ++ rest ∧ op.length ≤ 1 ∧
      (∀ r ∈ rest.head?, ∃ nx, nx.date = r.tBreak ∧ (r.span ++ [nx]).Sublist all ∧
        ∀ b, ∃ P, Covariance P ∧ ByKalman lasso b r.span nx (r.body.coefs b) P) ∧
      (q.mode = 1 → rest = [] → ∃ m nx, q.model = some m ∧ nx ∈ (all.drop (all.length - conse)).head? ∧
        (m.seg ++ [nx]).Sublist all ∧
        ∀ b, Covariance (m.filt b).cov ∧ ByKalman lasso b m.seg nx (m.filt b).cft (m.filt b).cov) := by
  subst hE
  obtain ⟨op, rest, last, h1, h2, h3, h4⟩ := C75_first_call _ junk6 conse hc bC2 snowPct m0 z scenes q e all hall hasc
  refine ⟨op, rest, h1, ?_, ?_, ?_⟩
  · rcases h2 with rfl | ⟨r, rfl, _⟩ <;> simp
  · intro r hr
    cases rest with
    | nil => cases hr
    | cons r' rs =>
      cases hr
      obtain ⟨f, ⟨nx, win, _, g2, g3, g4, _, g6⟩, _⟩ := h3
      have hs : (r.span ++ [nx]).Sublist all :=
        (List.Sublist.append (List.Sublist.refl _) (by simp)).trans g3
      refine ⟨nx, g2, hs, fun b => ?_⟩
      obtain ⟨k1, k2⟩ := by_kalman lasso robust tcg gate pred junk g4 (hasc.sublist hs)
        (hcod.sublist ((List.sublist_append_left _ _).trans hs)) b
      refine ⟨_, k1, ?_⟩
      rw [g6]
      exact k2
  · intro hm hr
    subst hr
    obtain ⟨m, nx, f, k1, k2, k3, k4, k5⟩ := h4 hm
    have hl : last = none := h3
    rw [hl] at k5
    refine ⟨m, nx, k1, k3, k4, fun b => ?_⟩
    have := by_kalman lasso robust tcg gate pred junk k5 (hasc.sublist k4)
        (hcod.sublist ((List.sublist_append_left _ _).trans k4)) b
    rw [k2]
    exact this

/-- What the filter does on the day of a value: the curve moves towards it, not beyond. -/
theorem C77_towards (H : ℝ) (hH : 0 ≤ H) (last t : Int) (y : ℝ) (rest : List (Int × ℝ)) (c : Kalman.Vec)
    (P : Kalman.Mat) (e : Kalman.Vec × Kalman.Mat) (h : Led H last (c, P) ((t, y) :: rest) e) :
    ∃ c' P' g, 0 ≤ g ∧ g ≤ 1 ∧ curve c' t = curve c t + g * (y - curve c t) ∧ Led H last (c', P') rest e := by
  obtain ⟨hP, c', h1, h2, h3⟩ := h
  have hp : 0 ≤ predVar P := hP.2 _
  by_cases hT : (1E-14 : ℝ) < predVar P + H
  · have h0 : 0 < predVar P + H := lt_trans (by norm_num) hT
    refine ⟨c', _, predVar P / (predVar P + H), div_nonneg hp h0.le, (div_le_one h0).mpr (by linarith), ?_, h3⟩
    have := h1 hT 0
    have hc : coVar 0 P = predVar P := by unfold coVar predVar; rw [pow_zero, Matrix.one_mul]
    rw [hc] at this
    simp only [Nat.cast_zero, add_zero] at this
    rw [this]
    ring
  · exact ⟨c', _, 0, le_refl _, zero_le_one, by rw [h2 hT]; ring, h3⟩

/-! ### A case -/

set_option maxRecDepth 100000 in
/-- A series of 26 observations: the first 18 are the segment monitored at the end, whose curve and covariance
are those of the filter. -/
example : ∃ q m nx, Sccd.detect Toy.kEnv (fun _ => 0) Toy.kVoid Toy.kobs = .ok q ∧ q.mode = 1 ∧
    q.model = some m ∧ m.seg.length = 18 ∧ Asc (fresh false false Toy.kobs) ∧ Codable (fresh false false Toy.kobs) ∧
    (m.seg ++ [nx]).Sublist (fresh false false Toy.kobs) ∧
    ∀ b, Covariance (m.filt b).cov ∧ ByKalman Toy.level b m.seg nx (m.filt b).cft (m.filt b).cov := by
  obtain ⟨q, m, h1, h2, h3, h4, h5⟩ := Toy.run_kalman
  have ha : Asc (fresh false false Toy.kobs) := by unfold Asc; decide +kernel
  have hcd : Codable (fresh false false Toy.kobs) := by unfold Codable; decide +kernel
  obtain ⟨op, rest, g1, _, _, g4⟩ := C77_first_segment_partial Toy.level Toy.level 15 35 20 0 Toy.kE rfl
    (fun _ => 0) 8 (by omega) false (fun _ _ => false) (fun _ => 0) Toy.kVoid Toy.kobs q h1 _ rfl ha hcd
  rw [h3] at g1
  obtain ⟨m', nx, k1, _, k3, k4⟩ := g4 h2 (List.append_eq_nil_iff.mp g1.symm).2
  rw [h4] at k1
  cases k1
  exact ⟨q, m, nx, h1, h2, h4, h5, ha, hcd, k3, k4⟩

/-- A filter with one value, 20 above the curve, with error variance 10000: it moves
towards it. -/
example : ∃ c' P' g, 0 ≤ g ∧ g ≤ 1 ∧ curve c' (730000 : Int) = curve ![500, 0, 0, 0, 0, 0] (730000 : Int) +
    g * (520 - curve ![500, 0, 0, 0, 0, 0] (730000 : Int)) ∧
    ∃ e, Led 10000 730025 (![500, 0, 0, 0, 0, 0], startP) [(730000, 520)] e ∧ Led 10000 730025 (c', P') [] e := by
  have hP : Covariance startP := startP_eq ▸ Kalman.initP_zero_cov
  obtain ⟨_, q2, q3, q4⟩ := led_step Toy.level Toy.level 15 35 20 0 (H := 10000) (by norm_num) 520 730000 730025
    (by norm_num) ⟨[500, 0, 0, 0, 0, 0], startP, none⟩ hP
  have hv : vec [500, 0, 0, 0, 0, 0] = ![500, 0, 0, 0, 0, 0] := by ext i; fin_cases i <;> rfl
  obtain ⟨e, he⟩ : ∃ e, Led 10000 730025 (![500, 0, 0, 0, 0, 0], startP) [(730000, 520)] e := by
    rw [← hv]
    exact ⟨_, hP, _, q2, q3, rfl⟩
  obtain ⟨c', P', g, h0, h1, h2, h3⟩ := C77_towards 10000 (by norm_num) 730025 730000 520 [] _ _ e he
  exact ⟨c', P', g, h0, h1, h2, e, he, h3⟩

end Pycold.SccdNum
