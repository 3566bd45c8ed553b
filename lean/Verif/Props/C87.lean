import Verif.Proof.SccdIdentify
import Verif.Props.C41_C57
import Verif.Proof.SccdToyIdentify
/-!
# C87: what `sccd_identify` reports, in exact arithmetic

`ask E q` are the program's own tests (Model/SccdIdentify.lean), with the thresholds `q`.  `conse` is 6: with
another value `sccd_identify` looks at the wrong stored observations (C41).
-/
namespace Pycold.SccdNum

open Pycold.ColdNum.Spec (exact)
open Pycold.SccdNum.Spec
open Pycold.Sccd (Pack Obs History Any Asc Codable fresh snowBranch pending encode decode padObs leadCount identify
  LAUNCH)

variable {P : Type}

/-- The answer to a query in terms of the run of anomalies `run` that ends with the newest observation: a date iff
the run is long enough, its stored strength and angle pass the thresholds, and it is not a greening; the date is
that of the first observation of the run. -/
def Answers (E : Env ℝ P (Fin 6)) (p : Pack (Fin 6 → BandState ℝ P) (Body ℝ (Fin 6)) (Fin 6 → Int))
    (m : Sccd.Model (Fin 6 → BandState ℝ P)) (run : List Obs) : Prop :=
  ∀ q : Params ℝ, 1 ≤ q.distConse → ∃ p' d, identify (ask E q) p = .ok (p', d) ∧
    (d ≠ 0 ↔ q.distConse ≤ run.length ∧ q.tCg < m.normCm ∧ m.cmAngle < q.tAngle ∧
      ¬ Greening q.tSingle (fun b => (m.filt b).cft.take 6) run) ∧
    (d ≠ 0 → run.head?.map (·.date) = some d)

section
variable (lasso robust : List (List ℝ) → List ℝ → List ℝ) (tcg gate pred junk : ℝ)
  (valid : ℝ → ℝ → List ℝ → P → List ℝ × P × ℝ) (missing resetP narrowP : P → P) (zeroP : P)

local notation "EE" => program exact lasso robust tcg gate pred junk valid missing resetP narrowP zeroP

theorem answers (p : Pack (Fin 6 → BandState ℝ P) (Body ℝ (Fin 6)) (Fin 6 → Int))
    (m : Sccd.Model (Fin 6 → BandState ℝ P)) (hm : p.mode = 1 ∨ p.mode = 5) (hmm : p.model = some m)
    (A run : List Obs) (hA : A.length + run.length = 6)
    (hcod : Codable run) (ho : m.obs = (A ++ run).map encode ++ List.replicate 2 padObs)
    (hl : m.conseLast = run.length) : Answers EE p m run := by
  intro q h1
  have hgr := ask_greening lasso robust tcg gate pred junk valid missing resetP narrowP zeroP A run hA hcod ho hl q
  unfold identify
  rw [if_neg (by omega)]
  simp only [hmm]
  have hst : (ask EE q).strong m.normCm = decide (q.tCg < (m.normCm : ℝ)) := rfl
  have hal : (ask EE q).aligned m.cmAngle = decide ((m.cmAngle : ℝ) < q.tAngle) := rfl
  have hdc : (ask EE q).distConse = q.distConse := rfl
  rw [hst, hal, hdc]
  by_cases hg : (decide (m.conseLast ≥ q.distConse) && decide (q.tCg < (m.normCm : ℝ)) &&
      decide ((m.cmAngle : ℝ) < q.tAngle)) = true
  · rw [if_pos hg]
    simp only [Bool.and_eq_true, decide_eq_true_eq] at hg
    obtain ⟨⟨hg1, hg2⟩, hg3⟩ := hg
    have hlen : q.distConse ≤ run.length := by omega
    rw [if_neg (by omega)]
    have hne : run ≠ [] := by
      intro e; rw [e] at hlen; simp at hlen; omega
    by_cases hG : (ask EE q).greening m = true
    · rw [if_pos hG]
      refine ⟨_, _, rfl, ?_, by simp⟩
      constructor
      · intro h; exact absurd rfl h
      · rintro ⟨_, _, _, h⟩
        exact absurd (hgr.mp hG).2 h
    · rw [if_neg hG]
      obtain ⟨o, os, hro⟩ := List.exists_cons_of_ne_nil hne
      have hget : m.obs[(6 - m.conseLast).toNat]? = some (encode o) := by
        have hidx : (6 - m.conseLast).toNat = A.length := by omega
        rw [ho, hidx, List.getElem?_append_left (by simp; omega), hro]
        simp
      have hmem : o ∈ run := by rw [hro]; simp
      have hd : (encode o).date + LAUNCH = o.date := by
        have := Sccd.decode_encode (l := [o]) (fun x hx => by
          simp at hx; subst hx; exact hcod _ hmem)
        simp at this
        exact congrArg Obs.date this
      simp only [hget]
      refine ⟨_, _, rfl, ?_, ?_⟩
      · rw [hd]
        have hr := (hcod o hmem).1
        constructor
        · intro _
          exact ⟨hlen, hg2, hg3, fun h => hG (hgr.mpr ⟨hne, h⟩)⟩
        · intro _; omega
      · intro _
        rw [hd, hro]; rfl
  · rw [if_neg hg]
    refine ⟨_, _, rfl, ?_, by simp⟩
    constructor
    · intro h; exact absurd rfl h
    · rintro ⟨h2, h3, h4, _⟩
      simp only [Bool.and_eq_true, decide_eq_true_eq] at hg
      exact absurd ⟨⟨by omega, h3⟩, h4⟩ hg

/-- What is stored about the run. -/
theorem stored_run (rmin : Fin 6 → Int) (f : Fin 6 → BandState ℝ P) (n : Int) (X : List Obs) (hX : 6 ≤ X.length)
    (m : Sccd.Model (Fin 6 → BandState ℝ P)) (hf : m.filt = (num EE rmin).narrow f)
    (hl : m.conseLast = leadCount (num EE rmin) (((X.drop (X.length - 6)).reverse).map ((num EE rmin).endMag f n)))
    (hs : Sccd.Strength (num EE rmin) f n (X.drop (X.length - 6)).reverse m) :
    ∃ A run, X.drop (X.length - 6) = A ++ run ∧ m.conseLast = run.length ∧
      NewestRun gate (fun b => (m.filt b).cft.take 6)
        (fun b => max (rmin b : ℝ) (Real.sqrt (((m.filt b).ssv : ℝ) / ((n : ℝ) - (endOrder n : ℝ))))) X run ∧
      (run ≠ [] → m.normCm = hundredfold (least (run.map (strength (fun b => (m.filt b).cft.take 6)
        (fun b => max (rmin b : ℝ) (Real.sqrt (((m.filt b).ssv : ℝ) / ((n : ℝ) - (endOrder n : ℝ)))))))) ∧
        (1 < run.length → m.cmAngle = hundredfold (meanTurn (run.reverse.map (scaled (fun b => (m.filt b).cft.take 6)
          (fun b => max (rmin b : ℝ) (Real.sqrt (((m.filt b).ssv : ℝ) / ((n : ℝ) - (endOrder n : ℝ)))))))))) := by
  have hk : (fun b => (m.filt b).cft.take 6) = kept f := by
    funext b; rw [hf]; rfl
  have hy : (fun b => max (rmin b : ℝ) (Real.sqrt (((m.filt b).ssv : ℝ) / ((n : ℝ) - (endOrder n : ℝ))))) =
      fun b => max (rmin b : ℝ) (noise EE f n (endOrder n) b) := by
    funext b
    congr 1
    rw [hf]
    show _ = Real.sqrt (((f b).ssv : ℝ) / ((n - endOrder n : Int) : ℝ))
    push_cast; rfl
  rw [hk, hy]
  generalize hyd : (fun b => max (rmin b : ℝ) (noise EE f n (endOrder n) b)) = yard
  have hmag : ∀ o, (num EE rmin).endMag f n o = strength (kept f) yard o := by
    intro o
    rw [← hyd]
    exact (score_kept lasso robust tcg gate pred junk valid missing resetP narrowP zeroP rmin f n (endOrder n) o).1
  obtain ⟨A, run, hAB, hBl, hB, hA⟩ := Sccd.leadCount_split (num EE rmin) ((num EE rmin).endMag f n) (X.drop (X.length - 6))
  have hcl : m.conseLast = run.length := by rw [hl, ← hBl]
  have hlen := congrArg List.length hAB
  rw [List.length_drop, List.length_append] at hlen
  have hle : ∀ o, (num EE rmin).le ((num EE rmin).endMag f n o) (num EE rmin).gate = decide (strength (kept f) yard o ≤ gate) := by
    intro o; rw [hmag]; rfl
  refine ⟨A, run, hAB, hcl, ⟨⟨by omega, X.take (X.length - 6) ++ A, ?_, ?_⟩, ?_⟩, ?_⟩
  · rw [List.append_assoc, ← hAB, List.take_append_drop]
  · intro hlt
    have hAne : A ≠ [] := by
      intro e; rw [e] at hlen; simp at hlen; omega
    rw [List.getLast?_append_of_ne_nil _ hAne]
    refine ⟨_, List.getLast?_eq_some_getLast hAne, ?_⟩
    have := hA _ (List.getLast?_eq_some_getLast hAne)
    rw [hle] at this
    simpa using this
  · intro o hoo
    have := hB o hoo
    rw [hle] at this
    simpa using this
  · intro hne
    have hpos : 0 < run.length := List.length_pos_iff.mpr hne
    obtain ⟨h1, h2⟩ := hs.2 (by omega)
    have htk : (X.drop (X.length - 6)).reverse.take m.conseLast.toNat = run.reverse := by
      rw [hcl, hAB, List.reverse_append, Int.toNat_natCast, ← List.length_reverse (as := run), List.take_left]
    rw [htk] at h1 h2
    constructor
    · rw [h1]
      have e1 : run.reverse.map ((num EE rmin).endMag f n) = (run.map (strength (kept f) yard)).reverse := by
        rw [← List.map_reverse]
        exact List.map_congr_left (fun o _ => hmag o)
      rw [e1]
      show scale exact (Sccd.smallest exact.lt (exact.lit 9999 1) _) = _
      rw [smallest_least, least_reverse]
      exact scale_hundredfold (least_nonneg (by
        intro x hx
        obtain ⟨o, _, rfl⟩ := List.mem_map.mp hx
        exact strength_nonneg _ _ _))
    · intro h1r
      rw [h2]
      show scale exact (ColdNum.meanAngle exact (run.reverse.map fun o => (score EE rmin f n (endOrder n) o).2.1)) = _
      have e1 : (run.reverse.map fun o => (score EE rmin f n (endOrder n) o).2.1) =
          run.reverse.map (scaled (kept f) yard) :=
        List.map_congr_left (fun o _ => by
          rw [← hyd]
          exact (score_kept lasso robust tcg gate pred junk valid missing resetP narrowP zeroP rmin f n (endOrder n) o).2)
      rw [e1, meanAngle_exact _ (by simpa using h1r)]
      exact scale_hundredfold (meanTurn_nonneg (by simpa using hpos))

end

/-- **C87, after `sccd_detect`.**  Let `run` be the newest observations, at most six, that deviate from the curve of
the returned model by more than the gate without a gap, in units of the larger of noise floor and RMSE of the model.
Then `sccd_identify` returns the date of the first of them iff there are at least `dist_conse`, the least of their
deviations (a hundredfold) is above `t_cg_scale100`, their mean angle (a hundredfold) is below
`t_angle_scale100`, and their median deviations in red, NIR and SWIR1 are not those of a greening; otherwise 0. -/
theorem C87_after_detect (lasso robust : List (List ℝ) → List ℝ → List ℝ) (tcg gate pred junk : ℝ)
    (valid : ℝ → ℝ → List ℝ → P → List ℝ × P × ℝ) (missing resetP narrowP : P → P) (zeroP : P)
    (E : Env ℝ P (Fin 6))
    (hE : E = program exact lasso robust tcg gate pred junk valid missing resetP narrowP zeroP)
    (junk6 : Fin 6 → Int) (bC2 : Bool) (snowPct : Nat → Nat → Bool) (m0 : Fin 6 → Int)
    (z : Sccd.Model (Fin 6 → BandState ℝ P)) (scenes : List Scene)
    (p : Pack (Fin 6 → BandState ℝ P) (Body ℝ (Fin 6)) (Fin 6 → Int))
    (e : Sccd.detect (env E junk6 6 bC2 snowPct) m0 z scenes = .ok p) (hm : p.mode = 1) (X : List Obs)
    (hX : X = fresh bC2 (snowBranch (env E junk6 6 bC2 snowPct) 0 scenes) scenes) (hasc : Asc X) (hcod : Codable X) :
    ∃ m run coefs yard, p.model = some m ∧ coefs = (fun b => (m.filt b).cft.take 6) ∧
      (∀ b, yard b = max (p.minRmse b : ℝ) (Real.sqrt (((m.filt b).ssv : ℝ) / ((m.seg.length : ℝ) - 6)))) ∧
      NewestRun gate coefs yard X run ∧
      (run ≠ [] → m.normCm = hundredfold (least (run.map (strength coefs yard)))) ∧
      (1 < run.length → m.cmAngle = hundredfold (meanTurn (run.reverse.map (scaled coefs yard)))) ∧
      Answers E p m run := by
  subst hE
  obtain ⟨_, hq, ec⟩ := Sccd.detect_call _ e
  have hP := Sccd.start_promise (F := Fin 6 → BandState ℝ P) (R := Body ℝ (Fin 6)) 6 m0
  have hpX : Sccd.append (pending (Sccd.start m0 : Pack (Fin 6 → BandState ℝ P) (Body ℝ (Fin 6)) (Fin 6 → Int)))
      (fresh bC2 (snowBranch (env (program exact lasso robust tcg gate pred junk valid missing resetP narrowP zeroP) junk6 6 bC2 snowPct)
        (Sccd.start m0 : Pack (Fin 6 → BandState ℝ P) (Body ℝ (Fin 6)) (Fin 6 → Int)).mode scenes) scenes) = X := by
    have : pending (Sccd.start m0 : Pack (Fin 6 → BandState ℝ P) (Body ℝ (Fin 6)) (Fin 6 → Int)) = [] := rfl
    rw [this, hX]
    exact Sccd.append_asc _ [] (by rw [List.nil_append]; rw [hX] at hasc; exact hasc)
  rcases Sccd.mon_model (G := True) _ hP (by show 0 < 6; omega) (by show 6 ≤ 8; omega) (some z) (by simp [Sccd.start]) scenes hq ec (.inl hm) X
    hpX.symm (fun _ => Sccd.given_start _ (some z) hasc m0) with ⟨_, hpe⟩ | ⟨m, f, n, hmm, hlen, hf, hn, hobs, hcase, hs⟩
  · rw [hpe] at hm; simp [Sccd.start] at hm
  · have hlen : 6 ≤ X.length := hlen
    obtain ⟨hn, hn18⟩ := hn trivial
    have hobs : m.obs = (X.drop (X.length - 6)).map encode ++ List.replicate 2 padObs := hobs (by omega)
    have hl : m.conseLast = leadCount (num (program exact lasso robust tcg gate pred junk valid missing resetP narrowP zeroP) p.minRmse)
        (((X.drop (X.length - 6)).reverse).map ((num (program exact lasso robust tcg gate pred junk valid missing resetP narrowP zeroP) p.minRmse).endMag f n)) := by
      rcases hcase with ⟨_, h⟩ | ⟨h, _⟩
      · exact h
      · exfalso
        rw [hobs] at h
        have hll : (X.drop (X.length - 6)).length = 6 := by rw [List.length_drop]; omega
        generalize hY : X.drop (X.length - 6) = Y at h hll
        have hYa : Asc Y := by rw [← hY]; exact List.Pairwise.sublist (List.drop_sublist _ _) hasc
        have hYc : Codable Y := by rw [← hY]; exact hcod.sublist (List.drop_sublist _ _)
        match Y, hll with
        | y0 :: y1 :: ys, hll =>
          have h0 : encode y0 = padObs := by
            have := congrArg (·[0]?) h
            simpa using this
          have h1 : encode y1 = padObs := by
            have := congrArg (·[1]?) h
            simpa using this
          have hd := Sccd.decode_encode hYc
          simp only [List.map_cons, h0, h1, List.cons.injEq] at hd
          have hlt : y0.date < y1.date := by
            rw [Asc, List.pairwise_cons] at hYa
            exact hYa.1 y1 (by simp)
          rw [← hd.1, ← hd.2.1] at hlt
          omega
    obtain ⟨A, run, hAB, hcl, hrun, hst⟩ := stored_run lasso robust tcg gate pred junk valid missing resetP narrowP zeroP
      p.minRmse f n X hlen m hf hl hs
    have hord : endOrder n = 6 := by
      unfold endOrder Cold.updateCft
      rw [if_neg (by omega), if_neg (by omega)]; rfl
    have hyd : ((n : ℝ) - (endOrder n : ℝ)) = (m.seg.length : ℝ) - 6 := by
      rw [hord, hn]; push_cast; ring
    rw [hyd] at hrun hst
    have hlA := congrArg List.length hAB
    rw [List.length_drop, List.length_append] at hlA
    refine ⟨m, run, _, _, hmm, rfl, fun b => rfl, hrun, fun h => (hst h).1, fun h => (hst ?_).2 h, ?_⟩
    · intro e; rw [e] at h; simp at h
    · refine answers lasso robust tcg gate pred junk valid missing resetP narrowP zeroP p m (.inl hm) hmm A run (by omega)
        ?_ (by rw [hobs, hAB]) hcl
      refine hcod.sublist (List.Sublist.trans ?_ (List.drop_sublist (X.length - 6) X))
      rw [hAB]; exact List.sublist_append_right _ _

/-- 18 observations around a level and six after a jump: `sccd_detect` returns mode 1 with a count of 6. -/
example : ∃ p m, Sccd.detect (env Toy.rE (fun _ => 0) 6 false (fun _ _ => false)) (fun _ => 0) Toy.rVoid Toy.tobs = .ok p ∧
    p.mode = 1 ∧ p.model = some m ∧ m.conseLast = 6 ∧
    fresh false (snowBranch (env Toy.rE (fun _ => 0) 6 false (fun _ _ => false)) 0 Toy.tobs) Toy.tobs = Toy.tX ∧
    Asc Toy.tX ∧ Codable Toy.tX ∧
    Toy.rE = program exact Toy.level Toy.level 15 35 20 0 Toy.inno id id id () := by
  obtain ⟨nx, h⟩ := Toy.trun
  exact ⟨_, _, h, rfl, rfl, Toy.tcount nx, Toy.tfresh, Toy.tgood.1, Toy.tgood.2, rfl⟩

/-- **C87, after `sccd_update`** with at least six usable observations of other dates than those pending: the same for
the run among the new observations (`n` and `k` are the number of observations and coefficients behind the RMSE), unless
the stored count of anomalies is 0; then the answer is 0. -/
theorem C87_after_update (lasso robust : List (List ℝ) → List ℝ → List ℝ) (tcg gate pred junk : ℝ)
    (valid : ℝ → ℝ → List ℝ → P → List ℝ × P × ℝ) (missing resetP narrowP : P → P) (zeroP : P)
    (E : Env ℝ P (Fin 6))
    (hE : E = program exact lasso robust tcg gate pred junk valid missing resetP narrowP zeroP)
    (junk6 : Fin 6 → Int) (bC2 : Bool) (snowPct : Nat → Nat → Bool)
    (p0 : Pack (Fin 6 → BandState ℝ P) (Body ℝ (Fin 6)) (Fin 6 → Int)) (all : List Obs)
    (h : History (env E junk6 6 bC2 snowPct) Any p0 all) (scenes : List Scene)
    (p : Pack (Fin 6 → BandState ℝ P) (Body ℝ (Fin 6)) (Fin 6 → Int))
    (e : Sccd.update (env E junk6 6 bC2 snowPct) p0 scenes = .ok p) (hm : p.mode = 1) (X : List Obs)
    (hX : X = fresh bC2 (snowBranch (env E junk6 6 bC2 snowPct) p0.mode scenes) scenes) (hasc : Asc X)
    (hcod : Codable X) (hnew : ∀ x ∈ pending p0, ∀ o ∈ X, x.date ≠ o.date) (hlen : 6 ≤ X.length) :
    ∃ m, p.model = some m ∧
      ((∃ run coefs yard, coefs = (fun b => (m.filt b).cft.take 6) ∧
        (∃ (n k : Int), ∀ b, yard b = max (p.minRmse b : ℝ) (Real.sqrt (((m.filt b).ssv : ℝ) / ((n : ℝ) - (k : ℝ))))) ∧
        NewestRun gate coefs yard X run ∧
        (run ≠ [] → m.normCm = hundredfold (least (run.map (strength coefs yard)))) ∧
        (1 < run.length → m.cmAngle = hundredfold (meanTurn (run.reverse.map (scaled coefs yard)))) ∧
        Answers E p m run) ∨
       (m.conseLast = 0 ∧ ∀ q : Params ℝ, 1 ≤ q.distConse → identify (ask E q) p = .ok (p, 0))) := by
  subst hE
  have hP := h.promise (by show 0 < 6; omega) (by show 6 ≤ 8; omega)
  obtain ⟨_, hq, ec⟩ := Sccd.update_call _ hP e
  have hpX := Sccd.append_eq X (pending p0) hasc hnew
  rcases Sccd.mon_model (G := False) _ hP (by show 0 < 6; omega) (by show 6 ≤ 8; omega) p0.model (fun _ => rfl) scenes hq ec (.inl hm)
    (pending p0 ++ X) (by rw [← hpX, hX]; rfl)
    (fun hns => Sccd.given_false hP (by show 6 ≤ 8; omega) hns p0.model (fun _ => rfl) X) with
    ⟨hn, hpe⟩ | ⟨m, f, n, hmm, _, hf, _, hobs, hcase, hs⟩
  · have := List.append_right_eq_self.mp hn
    simp [this] at hlen
  · refine ⟨m, hmm, ?_⟩
    have hdrop : (pending p0 ++ X).drop ((pending p0 ++ X).length - 6) = X.drop (X.length - 6) := by
      rw [List.drop_append, List.drop_eq_nil_of_le (by simp; omega), List.nil_append]
      congr 1; simp; omega
    have hc6 : (env (program exact lasso robust tcg gate pred junk valid missing resetP narrowP zeroP) junk6 6 bC2 snowPct).conse = 6 := rfl
    rw [hc6, hdrop] at hcase hs
    rcases hcase with ⟨ho, hl⟩ | ⟨_, hl⟩
    · refine .inl ?_
      obtain ⟨A, run, hAB, hcl, hrun, hst⟩ := stored_run lasso robust tcg gate pred junk valid missing resetP narrowP zeroP
        p.minRmse f n X hlen m hf hl hs
      have hlA := congrArg List.length hAB
      rw [List.length_drop, List.length_append] at hlA
      refine ⟨run, _, _, rfl, ⟨n, endOrder n, fun b => rfl⟩, hrun, fun h => (hst h).1, fun h => (hst ?_).2 h, ?_⟩
      · intro e; rw [e] at h; simp at h
      · refine answers lasso robust tcg gate pred junk valid missing resetP narrowP zeroP p m (.inl hm) hmm A run (by omega)
          ?_ (by rw [ho, hAB]) hcl
        refine hcod.sublist (List.Sublist.trans ?_ (List.drop_sublist (X.length - 6) X))
        rw [hAB]; exact List.sublist_append_right _ _
    · refine .inr ⟨hl, fun q h1 => ?_⟩
      unfold identify
      rw [if_neg (by omega)]
      simp only [hmm]
      rw [if_neg]
      rw [hl]
      have : (ask (program exact lasso robust tcg gate pred junk valid missing resetP narrowP zeroP) q).distConse = q.distConse := rfl
      rw [this]
      simp
      intro h; omega

/-- The same observations given to `sccd_update`. -/
example : ∃ p m, History (env Toy.rE (fun _ => 0) 6 false (fun _ _ => false)) Any ⟨0, [], fun _ => 0, none, [], []⟩ [] ∧
    Sccd.update (env Toy.rE (fun _ => 0) 6 false (fun _ _ => false)) ⟨0, [], fun _ => 0, none, [], []⟩ Toy.tobs = .ok p ∧
    p.mode = 1 ∧ p.model = some m ∧ m.conseLast = 6 ∧
    fresh false (snowBranch (env Toy.rE (fun _ => 0) 6 false (fun _ _ => false)) 0 Toy.tobs) Toy.tobs = Toy.tX ∧
    Asc Toy.tX ∧ Codable Toy.tX ∧ 6 ≤ Toy.tX.length := by
  obtain ⟨nx, h⟩ := Toy.trun_update
  exact ⟨_, _, .void _, h, rfl, rfl, Toy.tcount nx, Toy.tfresh, Toy.tgood.1, Toy.tgood.2, by decide⟩

/-- **C87, confirmed change.**  In mode 5 the medians tested for greening are the magnitudes of the last record, the date
returned is its `t_break`, and strength and angle are those of the six observations that confirmed the change. -/
theorem C87_confirmed (lasso robust : List (List ℝ) → List ℝ → List ℝ) (tcg gate pred junk : ℝ)
    (valid : ℝ → ℝ → List ℝ → P → List ℝ × P × ℝ) (missing resetP narrowP : P → P) (zeroP : P)
    (E : Env ℝ P (Fin 6))
    (hE : E = program exact lasso robust tcg gate pred junk valid missing resetP narrowP zeroP)
    (junk6 : Fin 6 → Int) (bC2 : Bool) (snowPct : Nat → Nat → Bool)
    (p : Pack (Fin 6 → BandState ℝ P) (Body ℝ (Fin 6)) (Fin 6 → Int)) (all : List Obs)
    (h : History (env E junk6 6 bC2 snowPct) Any p all) (hcod : Codable all) (hm : p.mode = 5) :
    ∃ m r, p.model = some m ∧ p.recs.getLast? = some r ∧
      (∀ q : Params ℝ, ∃ p' d, identify (ask E q) p = .ok (p', d) ∧
        (d ≠ 0 ↔ q.distConse ≤ 6 ∧ q.tCg < m.normCm ∧ m.cmAngle < q.tAngle ∧
          ¬ (r.body.magn 2 < -q.tSingle ∧ q.tSingle < r.body.magn 3 ∧ r.body.magn 4 < -q.tSingle)) ∧
        (d ≠ 0 → d = r.tBreak)) ∧
      ∃ (win : List Obs) (floor : Fin 6 → Int) (yard : Fin 6 → ℝ), win.length = 6 ∧ win.head?.map (·.date) = some r.tBreak ∧
        (∀ b, yard b = max (floor b : ℝ) (r.body.rmse b)) ∧
        (∀ o ∈ win, tcg ≤ strength (fun b => (r.body.coefs b).take 6) yard o) ∧
        m.normCm = hundredfold (least (win.map (strength (fun b => (r.body.coefs b).take 6) yard))) ∧
        m.cmAngle = hundredfold (meanTurn (win.map (scaled (fun b => (r.body.coefs b).take 6) yard))) ∧
        (∀ b, IsMedian (win.map (resid ((r.body.coefs b).take 6) b)) (r.body.magn b)) := by
  subst hE
  obtain ⟨m, r, rm, f, n, win, hmm, hr, hwl, hwc, hf, hcl, hobs, hhd, hbody, hch, hnc, hca⟩ :=
    h.snap (by show 0 < 6; omega) (by show 6 ≤ 8; omega) hcod hm
  have hwl : win.length = 6 := hwl
  have hne : win ≠ [] := by intro e; rw [e] at hwl; simp at hwl
  have hcl : m.conseLast = win.length := by rw [hwl]; exact hcl
  have hk : kept m.filt = kept f := by funext b; rw [hf]; rfl
  have hco : (fun b => (r.body.coefs b).take 6) = kept f := by rw [hbody]; rfl
  have hmagn : ∀ b, IsMedian (win.map (resid (kept f b) b)) (r.body.magn b) := by
    intro b
    rw [hbody]
    have e : win.map (fun o => difs (program exact lasso robust tcg gate pred junk valid missing resetP narrowP zeroP) f o b) =
        win.map (resid (kept f b) b) :=
      List.map_congr_left (fun o _ => difs_kept _ _ _ _ _ _ _ _ _ _ _ f o b)
    show IsMedian _ (ColdNum.median exact (win.map (fun o => difs _ f o b)))
    rw [e]
    exact median_is _ (by simpa using hne)
  have hsc := score_kept lasso robust tcg gate pred junk valid missing resetP narrowP zeroP rm f n 6
  refine ⟨m, r, hmm, hr, fun q => ?_, win, rm, fun b => max (rm b : ℝ) (r.body.rmse b), hwl, hhd, fun b => rfl, ?_, ?_, ?_,
    fun b => ?_⟩
  · have hgr := ask_greening lasso robust tcg gate pred junk valid missing resetP narrowP zeroP [] win (by simp [hwl]) hwc
      (by rw [hobs]; rfl) hcl q
    rw [hk, greening_iff hmagn] at hgr
    obtain ⟨o, os, hro⟩ := List.exists_cons_of_ne_nil hne
    have hdo : o.date = r.tBreak := by
      rw [hro] at hhd
      exact Option.some.inj hhd
    have hmem : o ∈ win := by rw [hro]; simp
    have hget : m.obs[(6 - m.conseLast).toNat]? = some (encode o) := by
      have hidx : (6 - m.conseLast).toNat = 0 := by omega
      rw [hobs, hidx, hro]; rfl
    have hd : (encode o).date + LAUNCH = o.date := by
      have := Sccd.decode_encode (l := [o]) (fun x hx => by
        simp at hx; subst hx; exact hwc _ hmem)
      simp at this
      exact congrArg Obs.date this
    have hran := (hwc o hmem).1
    unfold identify
    rw [if_neg (by omega)]
    simp only [hmm]
    have hst : (ask (program exact lasso robust tcg gate pred junk valid missing resetP narrowP zeroP) q).strong m.normCm =
      decide (q.tCg < (m.normCm : ℝ)) := rfl
    have hal : (ask (program exact lasso robust tcg gate pred junk valid missing resetP narrowP zeroP) q).aligned m.cmAngle =
      decide ((m.cmAngle : ℝ) < q.tAngle) := rfl
    have hdc : (ask (program exact lasso robust tcg gate pred junk valid missing resetP narrowP zeroP) q).distConse = q.distConse := rfl
    rw [hst, hal, hdc]
    by_cases hg : (decide (m.conseLast ≥ q.distConse) && decide (q.tCg < (m.normCm : ℝ)) &&
        decide ((m.cmAngle : ℝ) < q.tAngle)) = true
    · rw [if_pos hg]
      simp only [Bool.and_eq_true, decide_eq_true_eq] at hg
      obtain ⟨⟨hg1, hg2⟩, hg3⟩ := hg
      rw [if_neg (by omega)]
      by_cases hG : (ask (program exact lasso robust tcg gate pred junk valid missing resetP narrowP zeroP) q).greening m = true
      · rw [if_pos hG]
        refine ⟨_, _, rfl, ?_, by simp⟩
        constructor
        · intro h; exact absurd rfl h
        · rintro ⟨_, _, _, h⟩
          exact absurd (hgr.mp hG).2 h
      · rw [if_neg hG]
        simp only [hget]
        refine ⟨_, _, rfl, ?_, fun _ => by rw [hd, hdo]⟩
        rw [hd]
        constructor
        · intro _
          exact ⟨by omega, hg2, hg3, fun h => hG (hgr.mpr ⟨hne, h⟩)⟩
        · intro _; omega
    · rw [if_neg hg]
      refine ⟨_, _, rfl, ?_, by simp⟩
      constructor
      · intro h; exact absurd rfl h
      · rintro ⟨h2, h3, h4, _⟩
        simp only [Bool.and_eq_true, decide_eq_true_eq] at hg
        exact absurd ⟨⟨by omega, h3⟩, h4⟩ hg
  · intro o ho
    have hall := allAbove_all (N := num (program exact lasso robust tcg gate pred junk valid missing resetP narrowP zeroP) rm) (by
      intro a b c hab hbc
      have hab' : decide (a < b) = false := hab
      have hbc' : decide (b < c) = false := hbc
      show decide (a < c) = false
      rw [decide_eq_false_iff_not, not_lt] at *
      exact hbc'.trans hab') f n win _ (by
        unfold Sccd.isChange at hch
        rw [Bool.and_eq_true] at hch
        exact hch.1) o ho
    have h3 : decide ((score _ rm f n 6 o).1 < tcg) = false := hall
    rw [decide_eq_false_iff_not, not_lt, (hsc o).1] at h3
    rw [hco, hbody]
    exact h3
  · rw [hnc, hco, hbody]
    have e1 : win.map ((num (program exact lasso robust tcg gate pred junk valid missing resetP narrowP zeroP) rm).mag f n) =
        win.map (strength (kept f) (fun b => max (rm b : ℝ) (noise (program exact lasso robust tcg gate pred junk valid missing resetP narrowP zeroP) f n 6 b))) :=
      List.map_congr_left (fun o _ => (hsc o).1)
    show scale exact (Sccd.minMag _ (win.map ((num _ rm).mag f n))) = _
    rw [e1]
    show scale exact (Sccd.smallest exact.lt (exact.lit 9999 1) _) = _
    rw [smallest_least]
    exact scale_hundredfold (least_nonneg (by
      intro x hx
      obtain ⟨o, _, rfl⟩ := List.mem_map.mp hx
      exact strength_nonneg _ _ _))
  · rw [hca, hco, hbody]
    show scale exact (ColdNum.meanAngle exact (win.map fun o => (score _ rm f n 6 o).2.1)) = _
    have e1 : (win.map fun o => (score (program exact lasso robust tcg gate pred junk valid missing resetP narrowP zeroP) rm f n 6 o).2.1) =
        win.map (scaled (kept f) (fun b => max (rm b : ℝ) (noise (program exact lasso robust tcg gate pred junk valid missing resetP narrowP zeroP) f n 6 b))) :=
      List.map_congr_left (fun o _ => (hsc o).2)
    rw [e1, meanAngle_exact _ (by simp [hwl])]
    exact scale_hundredfold (meanTurn_nonneg (by simp [hwl]))
  · have : (r.body.coefs b).take 6 = kept f b := congrFun hco b
    rw [this]
    exact hmagn b

/-- One scene more confirms the change. -/
example : ∃ p all, History (env Toy.rE (fun _ => 0) 6 false (fun _ _ => false)) Any p all ∧ Codable all ∧ p.mode = 5 := by
  obtain ⟨nx, h⟩ := Toy.trun
  obtain ⟨q, hq, h5⟩ := Toy.tupdate nx
  refine ⟨q, _, .update _ q _ _ (.detect _ _ _ _ h trivial) hq trivial, ?_, h5⟩
  have e : fresh false (snowBranch Toy.tEnv 1 Toy.tnew) Toy.tnew = [Toy.tlast] := by
    have e : snowBranch Toy.tEnv 1 Toy.tnew = false := rfl
    rw [e]; decide +kernel
  show Codable (fresh false (snowBranch Toy.tEnv 0 Toy.tobs) Toy.tobs ++ fresh false (snowBranch Toy.tEnv 1 Toy.tnew) Toy.tnew)
  rw [Toy.tfresh, e]
  unfold Codable; decide +kernel

/-- **C87, default threshold.**  With the default `t_cg_singleband_scale1000 = -200`, a confirmed change whose magnitude
is below 200 in red and SWIR1 and above −200 in NIR, so also one that leaves these bands as they were, counts as a
greening and is not reported. -/
theorem C87_default_threshold (lasso robust : List (List ℝ) → List ℝ → List ℝ) (tcg gate pred junk : ℝ)
    (valid : ℝ → ℝ → List ℝ → P → List ℝ × P × ℝ) (missing resetP narrowP : P → P) (zeroP : P)
    (E : Env ℝ P (Fin 6))
    (hE : E = program exact lasso robust tcg gate pred junk valid missing resetP narrowP zeroP)
    (junk6 : Fin 6 → Int) (bC2 : Bool) (snowPct : Nat → Nat → Bool)
    (p : Pack (Fin 6 → BandState ℝ P) (Body ℝ (Fin 6)) (Fin 6 → Int)) (all : List Obs)
    (h : History (env E junk6 6 bC2 snowPct) Any p all) (hcod : Codable all) (hm : p.mode = 5)
    (q : Params ℝ) (hq : q.tSingle = -200) :
    ∃ r, p.recs.getLast? = some r ∧ (r.body.magn 2 < 200 → -200 < r.body.magn 3 → r.body.magn 4 < 200 →
      ∃ p', identify (ask E q) p = .ok (p', 0)) := by
  obtain ⟨m, r, _, hr, hans, _⟩ := C87_confirmed lasso robust tcg gate pred junk valid missing resetP narrowP zeroP E hE
    junk6 bC2 snowPct p all h hcod hm
  refine ⟨r, hr, fun h2 h3 h4 => ?_⟩
  obtain ⟨p', d, e, hd, _⟩ := hans q
  have : d = 0 := by
    by_contra hne
    exact (hd.mp hne).2.2.2 ⟨by rw [hq]; linarith, by rw [hq]; exact h3, by rw [hq]; linarith⟩
  exact ⟨p', by rw [e, this]⟩

end Pycold.SccdNum
