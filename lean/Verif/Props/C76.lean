import Verif.Proof.SccdToyReal
import Verif.Props.C75
import Verif.Props.C41_C57
/-!
# C76: what the numbers of an S-CCD record mean, in exact arithmetic

`program exact lasso …` is S-CCD over the real numbers, with any solver `lasso` for the fits, any matrix routines
`valid`, `missing` for the filter, and any threshold.  The only thing asked of them is that the innovation
returned by a filter step is the observation less the state's prediction (`filter1step_validobs`,
`src/cxx/KFAS.c` 65–74).
-/
namespace Pycold.SccdNum

open Pycold.ColdNum.Spec (exact storedCurve Middle)
open Pycold.SccdNum.Spec
open Pycold.Sccd (Pack Obs History Fits Asc Codable fresh snowBranch)

variable {P : Type}

/-- The innovation: observation less the sum of level and the two cycles. -/
def Innovation (valid : ℝ → ℝ → List ℝ → P → List ℝ × P × ℝ) : Prop :=
  ∀ H y a q, (valid H y a q).2.2 = y - (a.getD 0 0 + a.getD 2 0 + a.getD 4 0)

theorem count_of_recs {R : Type} {recs : List (Sccd.Rec R)} (h : Sccd.RecsOk recs) (r : Sccd.Rec R)
    (hr : r ∈ recs) : r.numObs = r.span.length ∧ 0 < r.span.length := by
  cases recs with
  | nil => cases hr
  | cons a l =>
    rcases List.mem_cons.mp hr with rfl | hr
    · rcases h.1 r rfl with h | h
      · exact ⟨h.count, by have := h.long; omega⟩
      · exact ⟨h.count, by have := h.long; omega⟩
    · exact ⟨(h.2 r hr).count, by have := (h.2 r hr).long; omega⟩

/-- **C76, first call.**  The records of `sccd_detect` are those closed by changes, possibly after one for the
start of the series, and their coefficients, RMSEs and magnitudes mean what `ClosedExact` and `OpenedExact`
say: for a change, `conse` received observations in a row, from the break on, each deviate from the record's
curve by the threshold, in directions within 45 degrees on average, and the magnitude is their median deviation;
the curve belongs to a filter led over all the record's observations, and the RMSE is that of its predictions. -/
theorem C76_first_call (lasso robust : List (List ℝ) → List ℝ → List ℝ) (tcg gate pred junk : ℝ)
    (valid : ℝ → ℝ → List ℝ → P → List ℝ × P × ℝ) (hv : Innovation valid) (missing resetP narrowP : P → P)
    (zeroP : P) (E : Env ℝ P (Fin 6))
    (hE : E = program exact lasso robust tcg gate pred junk valid missing resetP narrowP zeroP)
    (junk6 : Fin 6 → Int) (conse : Nat) (hc : 0 < conse) (bC2 : Bool) (snowPct : Nat → Nat → Bool)
    (m0 : Fin 6 → Int) (z : Sccd.Model (Fin 6 → BandState ℝ P)) (scenes : List Scene)
    (q : Pack (Fin 6 → BandState ℝ P) (Body ℝ (Fin 6)) (Fin 6 → Int))
    (e : Sccd.detect (env E junk6 conse bC2 snowPct) m0 z scenes = .ok q) (all : List Obs)
    (hall : all = fresh bC2 (snowBranch (env E junk6 conse bC2 snowPct) 0 scenes) scenes) (hasc : Asc all) :
    ∃ op rest, q.recs = op ++ rest ∧
      (op = [] ∨ ∃ r nx w, op = [r] ∧ nx.date = r.tBreak ∧ 18 ≤ w.length ∧ (∀ o ∈ w, r.tBreak ≤ o.date) ∧
        (r.lead ++ r.span ++ [nx]).Sublist all ∧ (r.lead ++ r.span ++ w).Sublist all ∧
        OpenedExact lasso r nx ((r.lead ++ r.span).drop ((r.lead ++ r.span).length - conse)) w) ∧
      ∀ r ∈ rest, ∃ nx win, (nx :: win).length = conse ∧ nx.date = r.tBreak ∧
        (r.span ++ nx :: win).Sublist all ∧
        ClosedExact (num E q.minRmse) lasso tcg q.minRmse r nx (nx :: win) := by
  subst hE
  obtain ⟨op, rest, last, h1, h2, h3, _⟩ := C75_first_call _ junk6 conse hc bC2 snowPct m0 z scenes q e all hall hasc
  have hr := (Sccd.C54_records_of_first_call _ hc m0 z scenes q e (hall ▸ hasc)).1
  refine ⟨op, rest, h1, ?_, fun r hrr => ?_⟩
  · rcases h2 with h2 | ⟨r, rfl, hop⟩
    · exact .inl h2
    · obtain ⟨nx, w, h⟩ := opened_exact lasso robust tcg gate pred junk valid missing resetP narrowP zeroP
        q.minRmse hc (count_of_recs hr r (by rw [h1]; simp)).2 hop
      exact .inr ⟨r, nx, w, rfl, h⟩
  · obtain ⟨prior, f, hcl⟩ := Sccd.ClosedChain.mem h3 r hrr
    exact closed_exact lasso robust tcg gate pred junk valid missing resetP narrowP zeroP hv q.minRmse hasc hcl
      (count_of_recs hr r (by rw [h1]; simp [hrr])).1

/-- **C76, any sequence of calls.**  The same for the records of every pack a user can have (`conse` = 8 in
monitored modes, because of C26), if the covariance is stored without loss. -/
theorem C76_sequences_partial (lasso robust : List (List ℝ) → List ℝ → List ℝ) (tcg gate pred junk : ℝ)
    (valid : ℝ → ℝ → List ℝ → P → List ℝ × P × ℝ) (hv : Innovation valid) (missing resetP narrowP : P → P)
    (hnar : ∀ p, narrowP p = p) (zeroP : P) (E : Env ℝ P (Fin 6))
    (hE : E = program exact lasso robust tcg gate pred junk valid missing resetP narrowP zeroP)
    (junk6 : Fin 6 → Int) (conse : Nat) (hc : 0 < conse) (hc8 : conse ≤ 8) (bC2 : Bool)
    (snowPct : Nat → Nat → Bool) (p : Pack (Fin 6 → BandState ℝ P) (Body ℝ (Fin 6)) (Fin 6 → Int))
    (all : List Obs) (h : History (env E junk6 conse bC2 snowPct) (Fits (env E junk6 conse bC2 snowPct)) p all)
    (hasc : Asc all) (hcod : Codable all) (hlen : all.length ≤ 32767) :
    (∀ r ∈ p.recs, (∃ nx win, (nx :: win).length = conse ∧ nx.date = r.tBreak ∧
        (r.span ++ nx :: win).Sublist all ∧
        ClosedExact (num E p.minRmse) lasso tcg p.minRmse r nx (nx :: win)) ∨
      (r ∈ p.recs.head? ∧ ∃ nx w, nx.date = r.tBreak ∧ 18 ≤ w.length ∧ (∀ o ∈ w, r.tBreak ≤ o.date) ∧
        (r.lead ++ r.span ++ [nx]).Sublist all ∧ (r.lead ++ r.span ++ w).Sublist all ∧
        OpenedExact lasso r nx ((r.lead ++ r.span).drop ((r.lead ++ r.span).length - conse)) w)) := by
  subst hE
  obtain ⟨h1, h2, _⟩ := C75_sequences_partial _ hnar junk6 conse hc hc8 bC2 snowPct p all h hasc hcod hlen
  have hr := (Sccd.C54_records_of_sequences_partial _ hc hc8 p all h hasc hcod hlen).1
  intro r hrr
  have hk := count_of_recs hr r hrr
  have closed : (∃ prior f, Sccd.ClosedBy (num _ p.minRmse) conse all prior r f) → _ := fun ⟨prior, f, hcl⟩ =>
    closed_exact lasso robust tcg gate pred junk valid missing resetP narrowP zeroP hv p.minRmse hasc hcl hk.1
  cases hp : p.recs with
  | nil => rw [hp] at hrr; cases hrr
  | cons a l =>
    rw [hp] at hrr h1 h2
    rcases List.mem_cons.mp hrr with rfl | hrr
    · rcases h1 r rfl with hx | hx
      · exact .inl (closed hx)
      · exact .inr ⟨rfl, opened_exact lasso robust tcg gate pred junk valid missing resetP narrowP zeroP p.minRmse hc
          hk.2 hx⟩
    · exact .inl (closed (h2 r hrr))

/-! ### A case -/

set_option maxRecDepth 100000 in
/-- A series of 27 observations with a jump after the 18th, in exact arithmetic: one record. -/
example : ∃ q r, Sccd.detect Toy.rEnv (fun _ => 0) Toy.rVoid Toy.robs = .ok q ∧ q.recs = [r] ∧
    r.tBreak = 730450 ∧ Innovation Toy.inno ∧ Asc (fresh false false Toy.robs) ∧
    ∃ op rest, q.recs = op ++ rest ∧ ∀ r ∈ rest, ∃ nx win, (nx :: win).length = 8 ∧ nx.date = r.tBreak ∧
      (r.span ++ nx :: win).Sublist (fresh false false Toy.robs) ∧
      ClosedExact (num Toy.rE q.minRmse) Toy.level 15 q.minRmse r nx (nx :: win) := by
  obtain ⟨q, r, h1, _, _, _, h5, h6, _⟩ := Toy.run_real
  have hv : Innovation Toy.inno := fun _ _ _ _ => rfl
  have ha : Asc (fresh false false Toy.robs) := by unfold Asc; decide +kernel
  obtain ⟨op, rest, g1, _, g3⟩ := C76_first_call Toy.level Toy.level 15 35 20 0 Toy.inno hv id id id () Toy.rE rfl
    (fun _ => 0) 8 (by omega) false (fun _ _ => false) (fun _ => 0) Toy.rVoid Toy.robs q h1 _ rfl ha
  exact ⟨q, r, h1, h5, h6, hv, ha, op, rest, g1, g3⟩

set_option maxRecDepth 100000 in
/-- It also meets the hypotheses of the theorem on sequences. -/
example : ∃ q, q.recs.length = 1 ∧ History Toy.rEnv (Fits Toy.rEnv) q (fresh false false Toy.robs) ∧
    Asc (fresh false false Toy.robs) ∧ Codable (fresh false false Toy.robs) ∧
    (fresh false false Toy.robs).length ≤ 32767 := by
  obtain ⟨q, r, h1, h2, _, h4, h5, h6, _⟩ := Toy.run_real
  refine ⟨q, by rw [h5]; rfl, ?_, by unfold Asc; decide +kernel, by unfold Codable; decide +kernel,
    by decide +kernel⟩
  exact .detect _ _ _ q h1 ⟨by rw [h4]; omega, fun h => by rw [h2] at h; omega⟩

end Pycold.SccdNum
