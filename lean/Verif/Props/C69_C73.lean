import Verif.Proof.ColdNumToy
import Verif.Proof.ColdNumToyReal
/-!
# C69–C73: the numbers in a COLD result

`ColdNum.cold P E bC2 obs nCm` is the C entry point `cold` with the band values: `E` holds the arithmetic,
the two external solvers (`c_glmnet` and the robust fit) and the threshold.  C69–C71 hold for every
arithmetic and every solver, so also for floating point; C72 and C73 are about real arithmetic
(`exact`), with any solver.
-/
namespace Pycold

open ColdNum ColdNum.Spec ColdV.Spec

variable {F : Type}

/-- The noise floor of a series: `min_rmse` of each band. -/
abbrev noiseFloor (A : Fl F) (bC2 : Bool) (obs : List Scene) (b : Fin 7) : F :=
  variogram A (bandOf b (rowsOf A (clearObs bC2 obs)))

/-! ### C69 -/

/-- C69.  The program with band values is an instance of the program of C05–C11, C21 and C48, so that
everything stated there for all answers of the numerical code holds for it. -/
theorem C69_refines (P : Cold.Params) (E : Env F (Fin 7)) (bC2 : Bool) (obs : List Scene) (nCm : Nat) :
    ∃ ω, Cold.cold P (num E) ω bC2 obs nCm = (ColdNum.cold P E bC2 obs nCm).core :=
  cold_core P E bC2 obs nCm

/-- The observations of a record: usable clear scenes within the dates of the record, with their values. -/
theorem fitted_own {P : Cold.Params} {E : Env F (Fin 7)} {bC2 : Bool} {obs : List Scene} {nCm : Nat}
    (hc : 1 ≤ P.conse) (hs : Cold.Spec.CmSized P (obs.map (·.date)) nCm) {out : ColdNum.Output F (Fin 7)}
    (h : ColdNum.cold P E bC2 obs nCm = .standard (.ok out)) (r : ColdNum.Rec F (Fin 7)) (hr : r ∈ out.recs) :
    (r.category ≠ 14 → r.numObs = r.fitted.length) ∧
    (r.category = 14 → r.numObs = r.fitted.length + 1) ∧
    (∀ o ∈ r.fitted, r.tStart ≤ o.date ∧ o.date ≤ r.tEnd) ∧
    (r.category = 4 ∨ r.category = 6 ∨ r.category = 8 ∨ r.category = 14 ∨ r.category = 24) := by
  obtain ⟨ω, hω⟩ := cold_core P E bC2 obs nCm
  rw [h] at hω
  have hr' : ColdV.Rec.core r ∈ (ColdV.Output.core out).recs := List.mem_map_of_mem hr
  obtain ⟨h1, h2, _, h4, _⟩ := C10_num_obs hc hs hω _ hr'
  have hl : (ColdV.Rec.core r).fitted.length = r.fitted.length := by
    show (r.fitted.map (·.date)).length = _
    rw [List.length_map]
  rw [hl] at h1 h2
  refine ⟨h1, h2, fun o ho => h4 o.date (List.mem_map_of_mem ho), ?_⟩
  exact ((C09_category_and_probability hc hs hω).1 _ hr').1

theorem data_of {P : Cold.Params} {E : Env F (Fin 7)} {bC2 : Bool} {obs : List Scene} {nCm : Nat}
    (hc : 1 ≤ P.conse) {out : ColdNum.Output F (Fin 7)}
    (h : ColdNum.cold P E bC2 obs nCm = .standard (.ok out)) (r : ColdNum.Rec F (Fin 7)) (hr : r ∈ out.recs) :
    RecData (kit E (noiseFloor E.A bC2 obs)) (rowsOf E.A (clearObs bC2 obs)) r := by
  obtain ⟨h1, h2, h3⟩ := cold_standard h
  exact ColdV.standProcedure_data hc (rows_sorted E.A h2 h3) h1.symm r hr

/-- C69.  Where the numbers of a record come from.  When `cold` reaches detection it returns a result,
and for each record: the model was fitted to usable clear scenes that lie within the dates of the record
and whose number is the reported one (one less for the start-of-series segment, see C10); for every band
the coefficients and the RMSE are the result of the fit of that band's values of these scenes, with the
number of coefficients of the category; and for every band the magnitude is the median, over the window
of the break, of the difference between observed and predicted value (negated for the start-of-series
segment, zero without a window), the window observations being compared with a model of earlier scenes
of the record (later scenes, for the start-of-series segment). -/
theorem C69_record_data {P : Cold.Params} {E : Env F (Fin 7)} {bC2 : Bool} {obs : List Scene} {nCm : Nat}
    (hc : 1 ≤ P.conse) (hs : Cold.Spec.CmSized P (obs.map (·.date)) nCm)
    {res : Except Cold.Err (ColdNum.Output F (Fin 7))} (h : ColdNum.cold P E bC2 obs nCm = .standard res) :
    ∃ out, res = .ok out ∧ ∀ r ∈ out.recs,
      (∀ o ∈ r.fitted, r.tStart ≤ o.date ∧ o.date ≤ r.tEnd ∧
        ∃ s ∈ obs, Spec.ClearUsable bC2 s ∧ s.date = o.date ∧
          ∀ b : Fin 7, o.y b = E.A.ofInt ((Spec.toClr bC2 s).bands.getD b 0)) ∧
      (r.fitted.map (·.date)).Pairwise (· < ·) ∧
      (r.category ≠ 14 → r.numObs = r.fitted.length) ∧ (r.category = 14 → r.numObs = r.fitted.length + 1) ∧
      r.model = some (fun b => fitBand E (coefCount r.category) (r.fitted.map (·.date))
        (r.fitted.map (fun o => o.y b))) ∧
      (r.category = 14 → r.magn = some (fun b => E.A.neg (median E.A (r.window.map (fun x => x.dif b)))) ∧
        ∀ x ∈ r.window, JudgedBack (kit E (noiseFloor E.A bC2 obs)) (rowsOf E.A (clearObs bC2 obs)) x) ∧
      (r.category ≠ 14 → r.magn = some (fun b => if r.window.isEmpty then E.A.zero else
          median E.A (r.window.map (fun x => x.dif b))) ∧
        ∀ x ∈ r.window, Judged (kit E (noiseFloor E.A bC2 obs)) (rowsOf E.A (clearObs bC2 obs)) r.tStart x) := by
  obtain ⟨out, rfl⟩ := cold_ok hc hs h
  obtain ⟨_, hst, hd⟩ := cold_standard h
  refine ⟨out, rfl, fun r hr => ?_⟩
  obtain ⟨g1, g2, g3, _⟩ := fitted_own hc hs h r hr
  have hdata := data_of hc h r hr
  have hord : Spec.DatesInOrder obs := by
    by_cases hh : Spec.DatesInOrder obs
    · exact hh
    · rw [(C03_date_order obs).mpr hh] at hd; cases hd
  refine ⟨fun o ho => ⟨(g3 o ho).1, (g3 o ho).2, ?_⟩, ?_, g1, g2, hdata.model, ?_, ?_⟩
  · have hm := hdata.obs.subset ho
    obtain ⟨c, hcm, rfl⟩ := List.mem_map.1 hm
    obtain ⟨i, s, hi, hu, rfl, _⟩ := (C04_membership bC2 obs hst hord c).mp hcm
    exact ⟨s, List.mem_of_getElem? hi, hu, rfl, fun b => rfl⟩
  · exact List.pairwise_map.2 ((rows_sorted E.A hst hd).sublist hdata.obs)
  · intro h14
    obtain ⟨q1, q2⟩ := hdata.first h14
    refine ⟨?_, q2⟩
    rw [q1]
    show some (fun b => E.A.neg (median E.A ((r.window.map (·.dif)).map (fun d => d b)))) = _
    simp only [List.map_map]
    rfl
  · intro h14
    obtain ⟨q1, q2⟩ := hdata.other h14
    refine ⟨?_, q2⟩
    rw [q1]
    by_cases hw : r.window.isEmpty = true
    · rw [if_pos hw]
      simp only [hw, if_true]
      rfl
    · rw [if_neg hw]
      simp only [hw]
      show some (fun b => median E.A ((r.window.map (·.dif)).map (fun d => d b))) = _
      simp only [List.map_map]
      rfl

/-- A series with a break: two records, the first with 16 scenes, the mean 510 as model and a magnitude of
1500 (the two scenes of the window are 1490 and 1510 above the model). -/
example : ∃ out, ColdNum.cold Toy.zP Toy.zE false (Toy.obs 24) 15 = .standard (.ok out) ∧ out.recs.length = 2 ∧
    1 ≤ Toy.zP.conse ∧ Cold.Spec.CmSized Toy.zP ((Toy.obs 24).map (·.date)) 15 := by
  obtain ⟨out, h1, h2⟩ := Toy.summary_some Toy.run24
  refine ⟨out, h1, ?_, by decide, ?_⟩
  · have := congrArg (fun p => p.1.length) h2
    simp only [List.length_map] at this
    exact this.symm
  · intro _
    decide

/-! ### C70 -/

/-- C70 (partial).  Later scenes do not change the past: if scenes are appended to a series and the noise
floor of the reflective bands stays the same, then the longer series gives the same confirmed records,
with all their dates and numbers, followed by records that replace the last, open record; and no
entry of the change-magnitude array is lowered.  Missing, and false: the same without the hypothesis on
the noise floor (`C70_later_scenes_false`). -/
theorem C70_later_scenes_partial {P : Cold.Params} {A : Fl F}
    {lasso robust : List (List F) → List F → List F} {tcg : F} {bC2 : Bool} {obs more : List Scene} {n n' : Nat}
    {out out' : ColdNum.Output F (Fin 7)} (hc : 1 ≤ P.conse) (hn : n ≤ n')
    (h : ColdNum.cold P (program A lasso robust tcg) bC2 obs n = .standard (.ok out))
    (h' : ColdNum.cold P (program A lasso robust tcg) bC2 (obs ++ more) n' = .standard (.ok out'))
    (hfloor : ∀ b ∈ reflective, noiseFloor A bC2 obs b = noiseFloor A bC2 (obs ++ more) b) :
    (∃ closed last rest, out.recs = closed ++ last ∧ out'.recs = closed ++ rest ∧ last.length ≤ 1 ∧
      (∀ r ∈ closed, r.changeProb = 100) ∧ ∀ r ∈ last, r.changeProb < 100) ∧
    ∀ (k : Nat) (v : Int), out.cm.out[k]? = some v → ∃ w, out'.cm.out[k]? = some w ∧ v ≤ w := by
  obtain ⟨h1, hst, _⟩ := cold_standard h
  obtain ⟨h2, _, _⟩ := cold_standard h'
  obtain ⟨ys, hys⟩ := clearObs_prefix bC2 obs more hst
  have hk : kit (program A lasso robust tcg) (noiseFloor A bC2 obs) =
      kit (program A lasso robust tcg) (noiseFloor A bC2 (obs ++ more)) :=
    kit_congr _ hfloor (hfloor 1 (by decide)) (hfloor 4 (by decide))
  have hrows : rowsOf A (clearObs bC2 (obs ++ more)) = rowsOf A (clearObs bC2 obs) ++ rowsOf A ys := by
    rw [← hys]
    exact List.map_append
  have e1 : ColdV.standProcedure P (kit (program A lasso robust tcg) (noiseFloor A bC2 obs))
      (rowsOf A (clearObs bC2 obs)) n = .ok out := h1.symm
  have e2 : ColdV.standProcedure P (kit (program A lasso robust tcg) (noiseFloor A bC2 obs))
      (rowsOf A (clearObs bC2 obs) ++ rowsOf A ys) n' = .ok out' := by
    rw [hk, ← hrows]
    exact h2.symm
  exact ColdV.standProcedure_prefix hc hn e1 e2

/-- The hypotheses are met by a series with a confirmed break and four more scenes. -/
example : ∃ out out', ColdNum.cold Toy.zP Toy.zE false (Toy.obs 24) 15 = .standard (.ok out) ∧
    ColdNum.cold Toy.zP Toy.zE false (Toy.obs 24 ++ Toy.more) 15 = .standard (.ok out') ∧
    (∀ b ∈ reflective, noiseFloor Toy.zA false (Toy.obs 24) b =
      noiseFloor Toy.zA false (Toy.obs 24 ++ Toy.more) b) ∧
    out.recs.map (fun (r : ColdNum.Rec Int (Fin 7)) => r.changeProb) = [100, 0] := by
  obtain ⟨out, h1, h2⟩ := Toy.summary_some Toy.run24
  obtain ⟨out', h3, _⟩ := Toy.summary_some Toy.run28
  refine ⟨out, out', h1, h3, Toy.floor28, ?_⟩
  have := congrArg (fun p => p.1.map (fun l => l.counts.getD 2 0)) h2
  rw [List.map_map] at this
  exact this.symm

/-- C70 is false without the hypothesis: the noise floor is the median variogram of the whole series, so
later scenes with larger differences can make a confirmed break disappear and lower a change magnitude
from 32767 to 0. -/
theorem C70_later_scenes_false : ∃ (P : Cold.Params) (E : Env Int (Fin 7)) (obs more : List Scene)
    (out out' : ColdNum.Output Int (Fin 7)), 1 ≤ P.conse ∧
    ColdNum.cold P E false obs 15 = .standard (.ok out) ∧
    ColdNum.cold P E false (obs ++ more) 15 = .standard (.ok out') ∧
    (∃ r ∈ out.recs, r.changeProb = 100 ∧ r.tBreak = 561 ∧ ∀ r' ∈ out'.recs, r'.tBreak ≠ 561) ∧
    out.cm.out[4]? = some 32767 ∧ out'.cm.out[4]? = some 0 := by
  obtain ⟨out, h1, h2⟩ := Toy.summary_some Toy.run24
  obtain ⟨out', h3, h4⟩ := Toy.summary_some Toy.run49
  injection h2 with h2 h2c
  injection h4 with h4 h4c
  have hsplit : Toy.obs 49 = Toy.obs 24 ++ (List.range 25).map (fun k => Toy.scene (24 + k)) := by
    decide +kernel
  refine ⟨Toy.zP, Toy.zE, Toy.obs 24, _, out, out', by decide, h1, hsplit ▸ h3, ?_, ?_, ?_⟩
  · cases hrec : out.recs with
    | nil => rw [hrec] at h2; cases h2
    | cons a tl =>
      rw [hrec, List.map_cons] at h2
      injection h2 with ha _
      have hp := congrArg (fun l => l.counts.getD 2 0) ha
      have hb := congrArg (fun l => l.dates.getD 2 0) ha
      refine ⟨a, List.mem_cons_self .., hp.symm, hb.symm, ?_⟩
      intro r' hr'
      have hm : Toy.line r' ∈ out'.recs.map Toy.line := List.mem_map_of_mem hr'
      rw [← h4, List.mem_singleton] at hm
      have he := congrArg (fun l => l.dates.getD 2 0) hm
      intro h561
      have : r'.tBreak = 0 := he
      omega
  · rw [← h2c]; rfl
  · rw [← h4c]; rfl

/-! ### C71 -/

/-- C71.  Blue and thermal values take no part in detection: if two series agree in everything but the
blue and thermal values, and these are accepted in the same scenes, then `cold` treats them the same way,
and when it reaches detection the results agree in everything but the numbers of the blue and thermal
bands: dates, observation counts, categories, probabilities, the coefficients, RMSE and magnitudes of the
other bands, and all change magnitudes. -/
theorem C71_blue_thermal {P : Cold.Params} {A : Fl F} {lasso robust : List (List F) → List F → List F} {tcg : F}
    {bC2 : Bool} {obs obs' : List Scene} {nCm : Nat} (hc : 1 ≤ P.conse)
    (hs : Cold.Spec.CmSized P (obs.map (·.date)) nCm) (h : List.Forall₂ (AgreeBut bC2) obs obs') :
    let run := fun l => ColdNum.cold P (program A lasso robust tcg) bC2 l nCm
    (run obs = .rejected ↔ run obs' = .rejected) ∧ (run obs = .empty ↔ run obs' = .empty) ∧
    (run obs = .fallback ↔ run obs' = .fallback) ∧
    ∀ res, run obs = .standard res → ∃ out out', res = .ok out ∧ run obs' = .standard (.ok out') ∧
      out'.recs.map view = out.recs.map view ∧ out'.cm = out.cm ∧ out'.overflow = out.overflow := by
  have hdates : obs.map (·.date) = obs'.map (·.date) := by
    clear hs
    induction h with
    | nil => rfl
    | cons h1 _ ih => simp [h1.date, ih]
  intro run
  rcases cold_agree (P := P) (A := A) (lasso := lasso) (robust := robust) (tcg := tcg) (nCm := nCm) h with
    ⟨e, e'⟩ | ⟨e, e'⟩ | ⟨e, e'⟩ | ⟨e, e'⟩
  · simp only [run, e, e']
    refine ⟨by simp, by simp, by simp, nofun⟩
  · simp only [run, e, e']
    refine ⟨by simp, by simp, by simp, nofun⟩
  · simp only [run, e, e']
    refine ⟨by simp, by simp, by simp, nofun⟩
  · obtain ⟨out, ho⟩ := cold_ok hc hs e
    obtain ⟨out', ho'⟩ := cold_ok hc (hdates ▸ hs) e'
    rw [ho] at e
    rw [ho'] at e'
    refine ⟨by simp [run, e, e'], by simp [run, e, e'], by simp [run, e, e'], ?_⟩
    intro res hres
    simp only [run, e] at hres
    injection hres with hres
    obtain ⟨o1, q1, q2, q3, q4, _⟩ := run_five hc (rows_sorted A (cold_standard e).2.1 (cold_standard e).2.2) ho
    obtain ⟨o2, p1, p2, p3, p4, _⟩ := run_five hc (rows_sorted A (cold_standard e').2.1 (cold_standard e').2.2) ho'
    rw [← rows_agree A h, q1] at p1
    injection p1 with p1
    subst p1
    exact ⟨out, out', hres.symm, e', by rw [← p2, ← q2], by rw [← p3, ← q3], by rw [← p4, ← q4]⟩

/-- Two series with different blue and thermal values and a break. -/
example : List.Forall₂ (AgreeBut false) (Toy.obs 24) (Toy.obs' 24) ∧ Toy.obs 24 ≠ Toy.obs' 24 ∧
    ∃ out, ColdNum.cold Toy.zP Toy.zE false (Toy.obs 24) 15 = .standard (.ok out) ∧ out.recs.length = 2 := by
  refine ⟨?_, by decide, ?_⟩
  · unfold Toy.obs Toy.obs'
    rw [List.forall₂_map_left_iff, List.forall₂_map_right_iff, List.forall₂_same]
    intro k hk
    have hk := List.mem_range.1 hk
    refine ⟨rfl, rfl, rfl, rfl, rfl, rfl, rfl, ⟨fun _ => ?_, fun _ => ?_⟩, ⟨fun _ => ?_, fun _ => ?_⟩⟩
    · simp only [Toy.scene', BlueOk]; omega
    · simp only [Toy.scene, BlueOk]; omega
    · simp only [Toy.scene', ThermalOk]; omega
    · simp only [Toy.scene, ThermalOk]; omega
  · obtain ⟨out, h1, h2⟩ := Toy.summary_some Toy.run24
    refine ⟨out, h1, ?_⟩
    have := congrArg (fun p => p.1.length) h2
    simp only [List.length_map] at this
    exact this.symm

/-! ### C72 -/

theorem coefCount_cases {c : Int} (h : c = 4 ∨ c = 6 ∨ c = 8 ∨ c = 14 ∨ c = 24) : Order (coefCount c) := by
  rcases h with rfl | rfl | rfl | rfl | rfl <;> simp [Order, coefCount]

/-- C72, one fit.  In exact arithmetic, with any solver: the eight stored coefficients describe the curve
that the solver found, the ones beyond the requested number are zero, and the RMSE is the root of the sum
of squared residuals of that curve over the number of observations less the number of coefficients. -/
theorem C72_fit (E : Env ℝ (Fin 7)) (hA : E.A = exact) (n : Int) (hn : n = 4 ∨ n = 6 ∨ n = 8)
    (dates : List Int) (ys : List ℝ) :
    let s := E.lasso (dates.map (fun (t : Int) => regressors n (t : ℝ))) ys
    let f := fitBand E n dates ys
    f.coefs.length = 8 ∧ (∀ j : Nat, n ≤ j → f.coefs.getD j 0 = 0) ∧
    (∀ t : ℝ, storedCurve f.coefs t = solverCurve n s t) ∧
    f.dif = List.zipWith (fun y (t : Int) => y - solverCurve n s (t : ℝ)) ys dates ∧
    f.rmse = Real.sqrt ((f.dif.map (fun e => e ^ 2)).sum) / Real.sqrt (dates.length - n) :=
  fitBand_exact E hA n hn dates ys

/-- C72.  The same for every band of every record that `cold` returns. -/
theorem C72_record_curve {P : Cold.Params} {E : Env ℝ (Fin 7)} (hA : E.A = exact) {bC2 : Bool}
    {obs : List Scene} {nCm : Nat} (hc : 1 ≤ P.conse) (hs : Cold.Spec.CmSized P (obs.map (·.date)) nCm)
    {out : ColdNum.Output ℝ (Fin 7)} (h : ColdNum.cold P E bC2 obs nCm = .standard (.ok out))
    (r : ColdNum.Rec ℝ (Fin 7)) (hr : r ∈ out.recs) (b : Fin 7) :
    let n := coefCount r.category
    let s := E.lasso (r.fitted.map (fun o => regressors n (o.date : ℝ))) (r.fitted.map (fun o => o.y b))
    ∃ m, r.model = some m ∧ (n = 4 ∨ n = 6 ∨ n = 8) ∧ (m b).coefs.length = 8 ∧
      (∀ j : Nat, n ≤ j → (m b).coefs.getD j 0 = 0) ∧
      (∀ t : ℝ, storedCurve (m b).coefs t = solverCurve n s t) ∧
      (m b).rmse = Real.sqrt ((r.fitted.map (fun o => (o.y b - storedCurve (m b).coefs (o.date : ℝ)) ^ 2)).sum) /
        Real.sqrt (r.fitted.length - n) := by
  intro n s
  have hn := coefCount_cases (fitted_own hc hs h r hr).2.2.2
  have hdata := data_of hc h r hr
  obtain ⟨q1, q2, q3, q4, q5⟩ := C72_fit E hA (coefCount r.category) hn (r.fitted.map (·.date))
    (r.fitted.map (fun o => o.y b))
  rw [List.map_map] at q3 q4
  refine ⟨_, hdata.model, hn, q1, q2, q3, ?_⟩
  show (fitBand E (coefCount r.category) (r.fitted.map (·.date)) (r.fitted.map (fun o => o.y b))).rmse = _
  rw [q5, q4, List.length_map]
  congr 2
  rw [List.zipWith_map, List.zipWith_self, List.map_map]
  congr 1
  apply List.map_congr_left
  intro o _
  simp only [Function.comp_apply]
  congr 2
  exact (q3 _).symm

/-- C72.  The Python prediction: `predict_ref` with the number of coefficients it is given (4, 6 or 8 of
them) evaluates the stored curve; with another number than requested it raises an error. -/
theorem C72_predict (c : List ℝ) (t : Int) (n : Nat) (hn : n = 4 ∨ n = 6 ∨ n = 8) :
    predictRef exact c (t : ℝ) n = if c.length = n then some (storedCurve c (t : ℝ)) else none := by
  split
  · rename_i hl
    rw [predictRef_exact c t n hn hl, predict_exact _ c t (by omega)]
    intro j hj
    rw [List.getD_eq_getElem?_getD, List.getElem?_eq_none (by omega)]
    rfl
  · rename_i hl
    unfold predictRef coefficientMatrix
    rw [if_neg]
    rw [List.length_map, List.length_range]
    exact fun h => hl h.symm

/-- C72.  Predicting from the eight coefficients of a record gives the solver's curve. -/
theorem C72_predict_record (E : Env ℝ (Fin 7)) (hA : E.A = exact) (n : Int) (hn : n = 4 ∨ n = 6 ∨ n = 8)
    (dates : List Int) (ys : List ℝ) (t : Int) :
    predictRef exact (fitBand E n dates ys).coefs (t : ℝ) 8 =
      some (solverCurve n (E.lasso (dates.map (fun (t : Int) => regressors n (t : ℝ))) ys) (t : ℝ)) := by
  obtain ⟨q1, _, q3, _⟩ := C72_fit E hA n hn dates ys
  rw [C72_predict _ _ _ (by omega), if_pos q1, q3]

/-- A record in exact arithmetic, with 25 observations. -/
example : Toy.rE.A = exact ∧ 1 ≤ Toy.rP.conse ∧ Cold.Spec.CmSized Toy.rP (Toy.robs.map (·.date)) 0 ∧
    ∃ out, ColdNum.cold Toy.rP Toy.rE false Toy.robs 0 = .standard (.ok out) ∧
      ∃ r ∈ out.recs, r.category = 24 ∧ r.fitted.length = 25 :=
  ⟨rfl, by decide, nofun, Toy.real_record⟩

/-! ### C73 -/

/-- C73.  Every entry of the change-magnitude array is the mark for "none", or lies between 0 and 32767. -/
theorem C73_cm_range {P : Cold.Params} {E : Env ℝ (Fin 7)} (hA : E.A = exact) {bC2 : Bool}
    {obs : List Scene} {nCm : Nat} (hc : 1 ≤ P.conse) (hs : Cold.Spec.CmSized P (obs.map (·.date)) nCm)
    {out : ColdNum.Output ℝ (Fin 7)} (h : ColdNum.cold P E bC2 obs nCm = .standard (.ok out))
    (k : Nat) (hk : k < nCm) :
    ∃ v, out.cm.out[k]? = some v ∧ (v = -9999 ∨ (0 ≤ v ∧ v ≤ 32767)) := by
  obtain ⟨ω, hω⟩ := cold_core P E bC2 obs nCm
  rw [h] at hω
  have hcm := (C21_change_magnitudes hc hs hω).1
  have hlog : ColdV.LogFrom (kit E (noiseFloor E.A bC2 obs)) out.cm :=
    ColdV.standProcedure_offered hc (cold_standard h).1.symm
  rcases hcm.2.2 k hk with ⟨h1, _⟩ | ⟨p, hp, _, h1, _⟩
  · exact ⟨_, h1, Or.inl rfl⟩
  · exact ⟨_, h1, Or.inr (offered_range E hA _ (hlog p hp))⟩

theorem difs_exact {E : Env ℝ (Fin 7)} (hA : E.A = exact) {c df : Int} (hc : Order c) (hdf : Order df) (hle : c ≤ df)
    (obs : List (ColdV.Row (Fin 7 → ℝ))) (x : ColdV.Row (Fin 7 → ℝ)) (b : Fin 7) :
    difs E df (fitAll E c obs) x b = x.y b - solverCurve c
      (E.lasso (obs.map (fun o => regressors c (o.date : ℝ))) (obs.map (fun o => o.y b))) (x.date : ℝ) := by
  obtain ⟨_, q2, q3, _⟩ := C72_fit E hA c hc (obs.map (·.date)) (obs.map (fun o => o.y b))
  rw [List.map_map] at q3
  unfold difs fitAll bandOf
  rw [hA, predict_exact df _ _ hdf (fun j hj => q2 j (le_trans hle hj))]
  show x.y b - _ = _
  congr 1
  exact q3 _

/-- The differences of a window column in exact arithmetic: observed value less the value of the curve
that the solver found for the observations behind it. -/
theorem dif_exact {E : Env ℝ (Fin 7)} (hA : E.A = exact) {rmin : Fin 7 → ℝ} {series : List (ColdV.Row (Fin 7 → ℝ))}
    {t0 : Int} {x : ColdV.Sc (Fin 7 → ℝ) ℝ (List ℝ) (Fin 7 → ℝ)} (h : Judged (kit E rmin) series t0 x) :
    x.row ∈ series ∧ ∃ (n : Int) (obs : List (ColdV.Row (Fin 7 → ℝ))), (n = 4 ∨ n = 6 ∨ n = 8) ∧
      obs.Sublist series ∧ 12 ≤ obs.length ∧ (∀ o ∈ obs, t0 ≤ o.date ∧ o.date < x.row.date) ∧
      ∀ b, x.dif b = x.row.y b - solverCurve n
        (E.lasso (obs.map (fun o => regressors n (o.date : ℝ))) (obs.map (fun o => o.y b))) (x.row.date : ℝ) := by
  obtain ⟨h1, c, obs, hc, h2, h12, h3, h4⟩ := h
  refine ⟨h1, c, obs, hc, h2, h12, h3, fun b => ?_⟩
  rcases h4 with h4 | ⟨df, hdf, hle, h4⟩
  · have e : x.dif = difs E c (fitAll E c obs) x.row := by rw [h4]; rfl
    rw [e]; exact difs_exact hA hc hc le_rfl _ _ _
  · have e : x.dif = difs E df (fitAll E c obs) x.row := by rw [h4]; rfl
    rw [e]; exact difs_exact hA hc hdf hle _ _ _

/-- C73.  The magnitude of a break: for every band, half of the window's differences between observed and
predicted value are not above it and half not below, the predictions coming from the curve the solver
found for at least twelve earlier observations of the record.  Without a window it is zero. -/
theorem C73_magnitude {P : Cold.Params} {E : Env ℝ (Fin 7)} (hA : E.A = exact) {bC2 : Bool}
    {obs : List Scene} {nCm : Nat} (hc : 1 ≤ P.conse)
    {out : ColdNum.Output ℝ (Fin 7)} (h : ColdNum.cold P E bC2 obs nCm = .standard (.ok out))
    (r : ColdNum.Rec ℝ (Fin 7)) (hr : r ∈ out.recs) (h14 : r.category ≠ 14) :
    ∃ g, r.magn = some g ∧ ∀ b,
      (r.window = [] → g b = 0) ∧ (r.window ≠ [] → Middle (r.window.map (fun x => x.dif b)) (g b)) ∧
      ∀ x ∈ r.window, x.row ∈ rowsOf exact (clearObs bC2 obs) ∧
        ∃ (n : Int) (earlier : List (ColdV.Row (Fin 7 → ℝ))), (n = 4 ∨ n = 6 ∨ n = 8) ∧
          earlier.Sublist (rowsOf exact (clearObs bC2 obs)) ∧ 12 ≤ earlier.length ∧
          (∀ o ∈ earlier, r.tStart ≤ o.date ∧ o.date < x.row.date) ∧
          x.dif b = x.row.y b - solverCurve n (E.lasso (earlier.map (fun o => regressors n (o.date : ℝ)))
            (earlier.map (fun o => o.y b))) (x.row.date : ℝ) := by
  obtain ⟨q1, q2⟩ := (data_of hc h r hr).other h14
  refine ⟨_, q1, fun b => ⟨?_, ?_, ?_⟩⟩
  · intro hw
    simp only [hw, List.isEmpty_nil, if_true]
    show E.A.zero = 0
    rw [hA, zero_exact]
  · intro hw
    rw [if_neg (by simpa using hw)]
    show Middle _ (median E.A ((r.window.map (·.dif)).map (fun d => d b)))
    rw [hA, List.map_map]
    exact median_middle _ (by simpa using hw)
  · intro x hx
    obtain ⟨p1, n, e, p2, p3, p12, p4, p5⟩ := dif_exact hA (q2 x hx)
    rw [hA] at p1 p3
    exact ⟨p1, n, e, p2, p3, p12, p4, p5 b⟩

/-- C73, the start-of-series segment: the same with the sign reversed, the predictions coming from the curve
the solver found for at least twelve later observations. -/
theorem C73_magnitude_first {P : Cold.Params} {E : Env ℝ (Fin 7)} (hA : E.A = exact) {bC2 : Bool}
    {obs : List Scene} {nCm : Nat} (hc : 1 ≤ P.conse)
    {out : ColdNum.Output ℝ (Fin 7)} (h : ColdNum.cold P E bC2 obs nCm = .standard (.ok out))
    (r : ColdNum.Rec ℝ (Fin 7)) (hr : r ∈ out.recs) (h14 : r.category = 14) :
    ∃ g, r.magn = some g ∧ ∀ b,
      (r.window ≠ [] → Middle (r.window.map (fun x => -x.dif b)) (g b)) ∧
      ∀ x ∈ r.window, x.row ∈ rowsOf exact (clearObs bC2 obs) ∧
        ∃ later : List (ColdV.Row (Fin 7 → ℝ)), later.Sublist (rowsOf exact (clearObs bC2 obs)) ∧
          12 ≤ later.length ∧ (∀ o ∈ later, x.row.date < o.date) ∧
          -x.dif b = solverCurve 4 (E.lasso (later.map (fun o => regressors 4 (o.date : ℝ)))
            (later.map (fun o => o.y b))) (x.row.date : ℝ) - x.row.y b := by
  obtain ⟨q1, q2⟩ := (data_of hc h r hr).first h14
  refine ⟨_, q1, fun b => ⟨?_, ?_⟩⟩
  · intro hw
    show Middle _ (E.A.neg (median E.A ((r.window.map (·.dif)).map (fun d => d b))))
    rw [hA, List.map_map]
    have hm := ColdNum.Middle.neg (median_middle (r.window.map (fun x => x.dif b)) (by simpa using hw))
    rw [List.map_map] at hm
    exact hm
  · intro x hx
    obtain ⟨p1, e, p3, p12, p4, p5⟩ := q2 x hx
    rw [hA] at p1 p3
    refine ⟨p1, e, p3, p12, p4, ?_⟩
    have : x.dif b = x.row.y b - solverCurve 4 (E.lasso (e.map (fun o => regressors 4 (o.date : ℝ)))
            (e.map (fun o => o.y b))) (x.row.date : ℝ) := by
      have e' : x.dif = difs E 4 (fitAll E 4 e) x.row := by rw [p5]; rfl
      rw [e']
      exact difs_exact hA (Or.inl rfl) (Or.inl rfl) le_rfl _ _ _
    rw [this]
    ring

/-- C73.  The mean angle between successive columns is between 0 and 180 degrees, and the weight derived
from it decreases from 1 (up to 45 degrees) to 0 (from 90 degrees on). -/
theorem C73_angle_weight (vs : List (List ℝ)) :
    let weight := fun x => angleDecaying exact x (exact.lit 45 1) (exact.lit 90 1)
    0 ≤ meanAngle exact vs ∧ meanAngle exact vs ≤ 180 ∧
    (∀ x, 0 ≤ weight x ∧ weight x ≤ 1) ∧ (∀ x y, x ≤ y → weight y ≤ weight x) ∧
    (∀ x, x ≤ 45 → weight x = 1) ∧ ∀ x, 90 ≤ x → weight x = 0 := by
  intro weight
  refine ⟨(meanAngle_range vs).1, (meanAngle_range vs).2, decay_range, fun x y h => decay_antitone h, ?_, ?_⟩
  · intro x hx
    simp only [weight, decay_eq]
    split_ifs <;> linarith
  · intro x hx
    simp only [weight, decay_eq]
    split_ifs <;> linarith

/-- C73.  The yardstick of the change test, once a model is complete: the RMSE of the `3 * category`
residuals whose dates are nearest in the year to the new observation. -/
theorem C73_nearest_rmse (category : Nat) (dates : List Int) (u : Int) (dif : List ℝ) :
    ∃ sel : List Nat, sel.Nodup ∧ (∀ i ∈ sel, i < dates.length) ∧
      sel.length = min (3 * category) dates.length ∧
      (∀ i ∈ sel, ∀ j, j < dates.length → j ∉ sel →
        yearDistance (dates.getD i 0) u ≤ yearDistance (dates.getD j 0) u) ∧
      nearRmse exact category dates u dif =
        Real.sqrt ((sel.map (fun i => (dif.getD i 0) ^ 2)).sum) / Real.sqrt (2 * category) := by
  obtain ⟨h1, h2, h3, h4⟩ := near_selects dates u (3 * category)
  refine ⟨_, h1, h2, h3, h4, ?_⟩
  unfold nearRmse
  dsimp only
  rw [norm_exact, show (3 * (category : Int)).toNat = 3 * category by omega, List.map_map]
  show _ / Real.sqrt (((3 * (category : ℤ) - category : ℤ)) : ℝ) = _
  have e : (((3 * (category : ℤ) - category : ℤ)) : ℝ) = 2 * (category : ℝ) := by push_cast; ring
  rw [e]
  simp only [zero_exact]
  rfl

/-- Two dates one year apart are nearer to each other, in the year, than two dates half a year apart. -/
example : yearDistance 366 1 < yearDistance 183 1 := by
  rw [← dYr_exact, ← dYr_exact]
  have e : exact.lit 36525 100 = 365.25 := by rw [lit_exact]; norm_num
  have r1 : exact.round (365 / 365.25 : ℝ) = 1 := by
    show (if 0 ≤ (365 / 365.25 : ℝ) then ((⌊(365 / 365.25 : ℝ) + 1 / 2⌋ : ℤ) : ℝ) else _) = 1
    rw [if_pos (by norm_num)]
    have : ⌊(365 / 365.25 : ℝ) + 1 / 2⌋ = 1 := by rw [Int.floor_eq_iff]; norm_num
    rw [this]; norm_num
  have r2 : exact.round (182 / 365.25 : ℝ) = 0 := by
    show (if 0 ≤ (182 / 365.25 : ℝ) then ((⌊(182 / 365.25 : ℝ) + 1 / 2⌋ : ℤ) : ℝ) else _) = 0
    rw [if_pos (by norm_num)]
    have : ⌊(182 / 365.25 : ℝ) + 1 / 2⌋ = 0 := by rw [Int.floor_eq_iff]; norm_num
    rw [this]; norm_num
  unfold dYr
  dsimp only
  rw [e, ofInt_exact, ofInt_exact, div_exact, div_exact,
    show ((366 - 1 : ℤ) : ℝ) = 365 by norm_num, show ((183 - 1 : ℤ) : ℝ) = 182 by norm_num, r1, r2]
  show |1 * 365.25 - 365| < |0 * 365.25 - (182 : ℝ)|
  norm_num

end Pycold
