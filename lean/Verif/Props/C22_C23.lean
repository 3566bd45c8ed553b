import Verif.Proof.Fallback2
import Verif.Proof.Obcold3
/-!
# C22 (fallback fit), C23 (object-based reconstruction)
-/
namespace Pycold

namespace Fallback

open Pycold.Fallback.Spec Pycold.Spec Pycold.Misc.Spec

/-! ## C22 -/

theorem ofCold_eq (bC2 : Bool) (scenes : List Scene) (hq : ∀ o ∈ scenes, KnownQa o.qa) :
    ofCold bC2 scenes =
      if 100 * qaCount scenes 3 > 300 * (qaCount scenes 0 + qaCount scenes 1) + 3 then .ok (snowBranch bC2 scenes)
      else clearBranch bC2 scenes (scenes.map (idRange bC2)) := by
  have hok : (preprocessing bC2 scenes).status = .success := (preLoop_status bC2 scenes {}).1.mpr hq
  obtain ⟨h1, h2⟩ := preLoop_success bC2 scenes {} hok
  have h1' : (preprocessing bC2 scenes).idr = scenes.map (idRange bC2) := h1
  have h2' : snowy (preprocessing bC2 scenes).sums =
      decide (100 * qaCount scenes 3 > 300 * (qaCount scenes 0 + qaCount scenes 1) + 3) := by
    unfold snowy preprocessing
    rw [h2]
    simp
  unfold ofCold
  simp only [h1', h2', inefficientobs]
  by_cases h : 100 * qaCount scenes 3 > 300 * (qaCount scenes 0 + qaCount scenes 1) + 3
  · simp [h]
  · simp [h]

/-- C22 (a).  Persistent snow, `cold`'s fallback (snow makes up more than 75 % of snow, clear and water
scenes): with fewer than 12 scenes flagged snow, clear or water there is no result; otherwise there is
one record (category 54, no break, dates and number of observations of those scenes), and a band is
fitted to exactly the (date, value) pairs of those scenes that are in range, provided that every earlier
band is in range in every one of those scenes.

Partial: without the proviso the claim is false (`C22_snow_mispaired`). -/
theorem C22_snow_partial (bC2 : Bool) (scenes : List Scene) (hq : ∀ o ∈ scenes, KnownQa o.qa)
    (hs : 100 * qaCount scenes 3 > 300 * (qaCount scenes 0 + qaCount scenes 1) + 3) :
    ((snowScenes scenes).length < 12 ∧ ofCold bC2 scenes = .ok none) ∨
    (12 ≤ (snowScenes scenes).length ∧ ∃ r, ofCold bC2 scenes = .ok (some r) ∧
      r.category = 54 ∧ r.tBreak = 0 ∧ r.changeProb = 0 ∧ r.numObs = (snowScenes scenes).length ∧
      (snowScenes scenes).getLast?.map (·.date) = some r.tEnd ∧ r.bands.length = 7 ∧
      ∀ (k : Nat) (f : Scene → Int), (fields bC2)[k]? = some f →
        (∀ (j : Nat) (g : Scene → Int), j < k → (fields bC2)[j]? = some g →
          ∀ o ∈ snowScenes scenes, InRange j (g o)) →
        r.bands[k]? = some (snowBand k f (snowScenes scenes))) := by
  rw [ofCold_eq bC2 scenes hq, if_pos hs]
  rcases snowBranch_ok bC2 scenes with ⟨h1, h2⟩ | ⟨h1, r, h2, h3⟩
  · left; exact ⟨h1, by rw [h2]⟩
  · right; exact ⟨h1, r, by rw [h2], h3⟩

/-- A snowy series: 13 scenes, blue of the first one is saturated. -/
def snowWitness : List Scene :=
  (List.range 13).map (fun i : Nat =>
    ⟨100 + i, if i = 0 then 10000 else 50, 1000 + i, 60, 60, 60, 60, 2900, 3⟩)

/-- Non-vacuity of C22 (a), and what it says about the first two bands of `snowWitness`. -/
example : (∀ o ∈ snowWitness, KnownQa o.qa) ∧
    100 * qaCount snowWitness 3 > 300 * (qaCount snowWitness 0 + qaCount snowWitness 1) + 3 ∧
    12 ≤ (snowScenes snowWitness).length := by decide +kernel

/-- C22, refuted for snow: one blue value out of range, and every green value is fitted to the date of
the following scene; the reported start is not the date of the first scene. -/
theorem C22_snow_mispaired : ∃ r, ofCold false snowWitness = .ok (some r) ∧ r.tStart = 101 ∧
    ∃ ps, r.bands[1]? = some (.fit ps) ∧ (101, some 1000) ∈ ps ∧
      ∀ p ∈ ps.take 12, ¬ Occurred snowWitness (fun o => o.g) p := by
  have h : ofCold false snowWitness = .ok (snowBranch false snowWitness) := by
    rw [ofCold_eq false snowWitness (by decide +kernel), if_pos (by decide +kernel)]
  have hw : ∃ r, snowBranch false snowWitness = some r ∧ r.tStart = 101 ∧
      r.bands[1]? = some (.fit ((List.range 13).map (fun i : Nat =>
        (if i = 12 then 112 else 101 + (i : Int), some (1000 + (i : Int)))))) := by
    have : ((snowBranch false snowWitness).map (fun r => (r.tStart, r.bands[1]?))) =
        some (101, some (.fit ((List.range 13).map (fun i : Nat =>
        (if i = 12 then 112 else 101 + (i : Int), some (1000 + (i : Int))))))) := by decide +kernel
    obtain ⟨r, h1, h2⟩ := Option.map_eq_some_iff.mp this
    simp only [Prod.mk.injEq] at h2
    exact ⟨r, h1, h2⟩
  obtain ⟨r, h1, h2, h3⟩ := hw
  refine ⟨r, by rw [h, h1], h2, _, h3, by decide +kernel, ?_⟩
  simp only [Occurred]
  decide +kernel

/-- C22 (b).  The fallback for few clear scenes, exactly.  `l` are the first usable scenes of each date,
whatever their QA code.  `m` of them have a green value below the median plus 400.  With fewer than 12 there
is no result.  Otherwise blue, red, near infrared and both short-wave bands are fitted to the (date, value)
pairs of the first `m` scenes of `l`, but green is fitted to the `m` smallest green values in ascending
order, and of the thermal band only the first value was ever written.

Partial: the blue, red, NIR and SWIR pairs occurred in the input (`C22_clear_occurred_partial`), green and
thermal did not (`C22_clear_green_mispaired`, `C22_thermal_unassigned`). -/
theorem C22_clear_exact_partial (bC2 : Bool) (scenes : List Scene) (hd : DatesInOrder scenes)
    (hq : ∀ o ∈ scenes, KnownQa o.qa)
    (hs : ¬ 100 * qaCount scenes 3 > 300 * (qaCount scenes 0 + qaCount scenes 1) + 3) :
    ∃ l, FirstUsable bC2 scenes l ∧
      ((l = [] ∧ ofCold bC2 scenes = .ok none) ∨
       ∃ (med : ℚ) (gs : List Int), MedianOf (l.map (fun o => (o.g : ℚ))) med ∧ gs.Perm (l.map (·.g)) ∧
        gs.Pairwise (· ≤ ·) ∧
        ((l.countP (fun o => decide ((o.g : ℚ) < med + 400)) < 12 ∧ ofCold bC2 scenes = .ok none) ∨
         ∃ m, m = l.countP (fun o => decide ((o.g : ℚ) < med + 400)) ∧ 12 ≤ m ∧ m ≤ l.length ∧
           ∃ r th, ofCold bC2 scenes = .ok (some r) ∧
            r.category = 44 ∧ r.tBreak = 0 ∧ r.changeProb = 0 ∧ r.numObs = m ∧
            (l.take m).head?.map (·.date) = some r.tStart ∧ (l.take m).getLast?.map (·.date) = some r.tEnd ∧
            r.bands =
              [.fit ((l.take m).map (fun o => (o.date, some o.b))),
               .fit (((l.take m).map (·.date)).zip ((gs.take m).map some)),
               .fit ((l.take m).map (fun o => (o.date, some o.r))),
               .fit ((l.take m).map (fun o => (o.date, some o.n))),
               .fit ((l.take m).map (fun o => (o.date, some o.s1))),
               .fit ((l.take m).map (fun o => (o.date, some o.s2))),
               .fit (((l.take m).zipIdx).map (fun p => (p.1.date, if p.2 = 0 then th else none)))])) := by
  rw [ofCold_eq bC2 scenes hq, if_neg hs]
  obtain ⟨l, h1, h2⟩ := clearBranch_ok bC2 scenes hd
  refine ⟨l, h1, ?_⟩
  rcases h2 with h2 | ⟨med, gs, g1, g2, g3, g4⟩
  · exact Or.inl h2
  · refine Or.inr ⟨med, gs, g1, g2, g3, ?_⟩
    rcases g4 with g4 | ⟨m, k1, k2, k3, r, k4⟩
    · exact Or.inl g4
    · exact Or.inr ⟨m, k1, k2, k3, r, _, k4⟩

/-- C22 (c).  In the same branch every (date, value) pair that blue, red, near infrared and the short-wave
bands are fitted to occurred in the input.  Partial: not so for green and thermal. -/
theorem C22_clear_occurred_partial (bC2 : Bool) (scenes : List Scene) (hd : DatesInOrder scenes)
    (hq : ∀ o ∈ scenes, KnownQa o.qa)
    (hs : ¬ 100 * qaCount scenes 3 > 300 * (qaCount scenes 0 + qaCount scenes 1) + 3)
    (r : Rec) (hr : ofCold bC2 scenes = .ok (some r)) :
    ∀ k ∈ [0, 2, 3, 4, 5], ∃ f ps, (fields bC2)[k]? = some f ∧ r.bands[k]? = some (.fit ps) ∧
      ps.length = r.numObs ∧ ∀ p ∈ ps, Occurred scenes f p := by
  obtain ⟨l, h1, h2⟩ := C22_clear_exact_partial bC2 scenes hd hq hs
  rcases h2 with ⟨_, h2⟩ | ⟨med, gs, g1, g2, g3, ⟨_, g4⟩ | ⟨m, k1, k2, k3, r', th, k4, k5, k6, k7, k8, k9, k10, k11⟩⟩
  · rw [hr] at h2; cases h2
  · rw [hr] at g4; cases g4
  · rw [hr] at k4
    have : r = r' := by simpa using k4
    subst this
    have hlen : (l.take m).length = m := by simp; omega
    have hsub : ∀ o ∈ l.take m, o ∈ scenes := by
      intro o ho
      obtain ⟨i, hi, _⟩ := (h1.mem o).mp (List.take_subset _ _ ho)
      exact List.mem_of_getElem? hi
    have key : ∀ f : Scene → Int, ∀ p ∈ (l.take m).map (fun o => (o.date, some (f o))), Occurred scenes f p := by
      intro f p hp
      obtain ⟨o, ho, rfl⟩ := List.mem_map.mp hp
      exact ⟨o, hsub o ho, rfl⟩
    intro k hk
    simp only [List.mem_cons, List.not_mem_nil, or_false] at hk
    rcases hk with rfl | rfl | rfl | rfl | rfl <;>
      exact ⟨_, _, rfl, by rw [k11]; rfl, by rw [List.length_map, hlen, k8], key _⟩

/-- C22 (d).  In the same branch, whatever the input, every value the thermal band is fitted to, except the
first, was never assigned: the thermal coefficients and RMSE are computed from indeterminate memory. -/
theorem C22_thermal_unassigned (bC2 : Bool) (scenes : List Scene) (hd : DatesInOrder scenes)
    (hq : ∀ o ∈ scenes, KnownQa o.qa)
    (hs : ¬ 100 * qaCount scenes 3 > 300 * (qaCount scenes 0 + qaCount scenes 1) + 3)
    (r : Rec) (hr : ofCold bC2 scenes = .ok (some r)) :
    ∃ ps, r.bands[6]? = some (.fit ps) ∧ 12 ≤ ps.length ∧ ∀ p ∈ ps.tail, p.2 = none := by
  obtain ⟨l, h1, h2⟩ := C22_clear_exact_partial bC2 scenes hd hq hs
  rcases h2 with ⟨_, h2⟩ | ⟨med, gs, g1, g2, g3, ⟨_, g4⟩ | ⟨m, k1, k2, k3, r', th, k4, k5, k6, k7, k8, k9, k10, k11⟩⟩
  · rw [hr] at h2; cases h2
  · rw [hr] at g4; cases g4
  · rw [hr] at k4
    have : r = r' := by simpa using k4
    subst this
    refine ⟨_, by rw [k11]; rfl, by simp; omega, ?_⟩
    intro p hp
    rw [← List.map_tail] at hp
    obtain ⟨q, hq, rfl⟩ := List.mem_map.mp hp
    have : 0 < q.2 := by
      cases hl : l.take m with
      | nil => rw [hl] at hq; simp at hq
      | cons a as =>
        rw [hl, List.zipIdx_cons, List.tail_cons] at hq
        obtain ⟨i, hi⟩ := List.getElem?_of_mem hq
        rw [List.getElem?_zipIdx] at hi
        obtain ⟨x, _, hx⟩ := Option.map_eq_some_iff.mp hi
        rw [← hx]; simp
    simp only
    rw [if_neg (by omega)]

/-- The fallback never fails: no read outside the arrays, the sort succeeds. -/
theorem C22_total (bC2 : Bool) (scenes : List Scene) (hd : DatesInOrder scenes)
    (hq : ∀ o ∈ scenes, KnownQa o.qa) :
    ∃ res, ofCold bC2 scenes = .ok res ∧ ∀ r, res = some r →
      12 ≤ r.numObs ∧ r.tBreak = 0 ∧ r.changeProb = 0 ∧ (r.category = 54 ∨ r.category = 44) := by
  by_cases hs : 100 * qaCount scenes 3 > 300 * (qaCount scenes 0 + qaCount scenes 1) + 3
  · rcases C22_snow_partial bC2 scenes hq hs with ⟨_, h⟩ | ⟨h0, r, h1, h2, h3, h4, h5, _⟩
    · exact ⟨none, h, by simp⟩
    · refine ⟨some r, h1, ?_⟩
      rintro r' ⟨⟩
      exact ⟨by rw [h5]; omega, h3, h4, Or.inl h2⟩
  · obtain ⟨l, h1, h2⟩ := C22_clear_exact_partial bC2 scenes hd hq hs
    rcases h2 with ⟨_, h2⟩ | ⟨med, gs, g1, g2, g3, ⟨_, g4⟩ | ⟨m, k1, k2, k3, r', th, k4, k5, k6, k7, k8, k9, k10, k11⟩⟩
    · exact ⟨none, h2, by simp⟩
    · exact ⟨none, g4, by simp⟩
    · refine ⟨some r', k4, ?_⟩
      rintro r ⟨⟩
      exact ⟨by rw [k8]; omega, k6, k7, Or.inr k5⟩

/-- Few clear scenes: 13 cloudy ones, the first of them bright. -/
def cloudWitness : List Scene :=
  (List.range 13).map (fun i : Nat =>
    ⟨100 + i, 50, if i = 0 then 5000 else 1000 - i, 60, 60, 60, 60, 2900 + i, 4⟩)

/-- Non-vacuity of C22 (b)–(d). -/
example : DatesInOrder cloudWitness ∧ (∀ o ∈ cloudWitness, KnownQa o.qa) ∧
    ¬ 100 * qaCount cloudWitness 3 > 300 * (qaCount cloudWitness 0 + qaCount cloudWitness 1) + 3 := by
  unfold DatesInOrder
  decide +kernel

theorem cloudWitness_result : ∃ r, ofCold false cloudWitness = .ok (some r) ∧
    r.bands[0]? = some (.fit ((List.range 12).map (fun i : Nat => (100 + (i : Int), some 50)))) ∧
    r.bands[1]? = some (.fit ((List.range 12).map (fun i : Nat => (100 + (i : Int), some (988 + (i : Int)))))) := by
  have h : ofCold false cloudWitness = clearBranch false cloudWitness (cloudWitness.map (idRange false)) := by
    rw [ofCold_eq false cloudWitness (by decide +kernel), if_neg (by decide +kernel)]
  rw [h]
  have : ((clearBranch false cloudWitness (cloudWitness.map (idRange false))).toOption.bind id).map
      (fun r => (r.bands[0]?, r.bands[1]?)) =
      some (some (.fit ((List.range 12).map (fun i : Nat => (100 + (i : Int), some 50)))),
        some (.fit ((List.range 12).map (fun i : Nat => (100 + (i : Int), some (988 + (i : Int))))))) := by
    decide +kernel
  obtain ⟨r, h1, h2⟩ := Option.map_eq_some_iff.mp this
  simp only [Prod.mk.injEq] at h2
  refine ⟨r, ?_, h2⟩
  cases hc : clearBranch false cloudWitness (cloudWitness.map (idRange false)) with
  | error e => rw [hc] at h1; simp [Except.toOption] at h1
  | ok o => rw [hc] at h1; simp [Except.toOption] at h1; rw [h1]

/-- C22, refuted for few clear scenes: no green value but one is fitted to its own date, and every scene
of this input, cloudy throughout, takes part except the last, although it is the first one whose green
value is far above the median. -/
theorem C22_clear_green_mispaired : ∃ r ps qs, ofCold false cloudWitness = .ok (some r) ∧
    r.bands[1]? = some (.fit ps) ∧ (∀ p ∈ ps, p ≠ (106, some 994) → ¬ Occurred cloudWitness (fun o => o.g) p) ∧
    ps.length = 12 ∧ r.bands[0]? = some (.fit qs) ∧ (100, some 50) ∈ qs ∧ ∀ p ∈ qs, p.1 ≠ 112 := by
  obtain ⟨r, h1, h2, h3⟩ := cloudWitness_result
  refine ⟨r, _, _, h1, h3, ?_, by simp, h2, by decide +kernel, by decide +kernel⟩
  simp only [Occurred]
  decide +kernel

end Fallback

namespace Obcold

open Pycold.Obcold.Spec Pycold.Spec

/-! ## C23 -/

variable {R M : Type}

/-- C23 (a).  A successful call.  With the series of clear observations and the accepted break dates, the
records are exactly the segments these breaks produce (`Follows`), except that the last one reports no break;
or, when there are fewer than 24 clear scenes or no segment at all, there is the single record of the
fallback fit. -/
theorem C23_segments (E : List ClrObs → Env R M) (garbage : Bool) (conse : Nat) (bC2 : Bool)
    (scenes : List Scene) (breaks : List Int) (out : Out R M)
    (h : reconstruct E garbage conse bC2 scenes breaks = .ok out) :
    ∃ clear acc, ClearSeries bC2 scenes clear ∧ Accepts breaks acc ∧
      ((∃ rs recs, out = .segments recs ∧ 24 ≤ qaCount scenes 0 + qaCount scenes 1 ∧
          Follows (E clear) conse clear none acc rs ∧ LastClosed rs recs) ∨
       (∃ r, out = .fallback r ∧ (qaCount scenes 0 + qaCount scenes 1 < 24 ∨
          Follows (E clear) conse clear none acc []))) := by
  have hfb : ∀ {o : Out R M}, viaFallback garbage bC2 scenes (scenes.map (idRange bC2)) = .ok o →
      ∃ r, o = .fallback r := by
    intro o ho
    unfold viaFallback at ho
    split at ho
    · rename_i r _; exact ⟨r, by cases ho; rfl⟩
    · cases ho
    · cases ho
  have hne : scenes ≠ [] ∧ breaks ≠ [] := by
    constructor <;> intro e <;> subst e <;> simp [reconstruct] at h
  have hd : DatesInOrder scenes := by
    rw [← dateCheckFails_false_iff]
    by_contra hc
    rw [Bool.not_eq_false] at hc
    unfold reconstruct at h
    rw [if_neg (by simp [hne]), if_pos hc] at h
    cases h
  have hq : ∀ o ∈ scenes, KnownQa o.qa := by
    rw [← (preLoop_status bC2 scenes {}).1]
    by_contra hc
    unfold reconstruct at h
    rw [if_neg (by simp [hne]), if_neg (by simp [(dateCheckFails_false_iff scenes).mpr hd])] at h
    simp only at h
    rw [if_pos (show (preprocessing bC2 scenes).status ≠ .success from hc)] at h
    cases h
  obtain ⟨clear, acc, g1, g2, g3⟩ := reconstruct_ok (E := E) (garbage := garbage) (conse := conse)
    (bC2 := bC2) hne.1 hne.2 hd hq
  refine ⟨clear, acc, g1, g2, ?_⟩
  rw [h] at g3
  rcases g3 with ⟨k1, k2⟩ | ⟨k1, ⟨rs, k2, k3⟩ | ⟨k2, _⟩ | ⟨k2, _⟩⟩
  · obtain ⟨r, hr⟩ := hfb k2.symm
    exact Or.inr ⟨r, hr, Or.inl k1⟩
  · by_cases hrs : rs = []
    · subst hrs
      rw [if_pos rfl] at k3
      obtain ⟨r, hr⟩ := hfb k3.symm
      exact Or.inr ⟨r, hr, Or.inr k2⟩
    · rw [if_neg hrs] at k3
      refine Or.inl ⟨rs, closeLast rs, by cases k3; rfl, k1, k2, closeLast_spec hrs⟩
  · cases k2
  · cases k2

/-- C23 (b).  The records of a successful reconstruction: at most one per accepted break plus one; accepted
breaks are supplied, positive and at least 365.25 days apart; every record is fitted to at least 6 clear
observations, whose first and last dates are `t_start` and `t_end`; records are in chronological order and do
not overlap; every record but the last reports a break with probability 100 on the day of a clear
observation, after its own observations and not after those of the next; the last reports none.
`num_obs` is one more than the number of observations fitted. -/
theorem C23_records (E : List ClrObs → Env R M) (garbage : Bool) (conse : Nat) (bC2 : Bool)
    (scenes : List Scene) (breaks : List Int) (recs : List (Rec R M))
    (h : reconstruct E garbage conse bC2 scenes breaks = .ok (.segments recs)) :
    ∃ clear acc, ClearSeries bC2 scenes clear ∧ Accepts breaks acc ∧ recs ≠ [] ∧
      recs.length ≤ acc.length + 1 ∧
      (∀ r ∈ recs, SegOk (E clear) clear r ∧ r.tStart < r.tEnd) ∧
      recs.Pairwise (fun a b => a.tEnd < a.tBreak ∧ a.tBreak ≤ b.tStart ∧ a.changeProb = 100 ∧
        a.tBreak ∈ clear.map (·.date)) ∧
      (∀ r, recs.getLast? = some r → r.tBreak = 0 ∧ r.changeProb = 0 ∧ r.mag = none) := by
  obtain ⟨clear, acc, h1, h2, h3⟩ := C23_segments E garbage conse bC2 scenes breaks _ h
  rcases h3 with ⟨rs, recs', g1, g2, g3, front, r, e1, e2⟩ | ⟨r, g1, _⟩
  · cases g1
    refine ⟨clear, acc, h1, h2, by rw [e2]; simp, ?_, ?_, ?_, ?_⟩
    · have := follows_length g3
      rw [e1] at this; rw [e2]; simpa using this
    · intro x hx
      have hok := (follows_order h1.asc g3).1
      rw [e2] at hx
      rw [e1] at hok
      rcases List.mem_append.mp hx with hx | hx
      · have := (hok x (List.mem_append_left _ hx)).1
        exact ⟨this, seg_le h1.asc this⟩
      · simp only [List.mem_singleton] at hx
        have := (hok r (by simp)).1
        subst hx
        exact ⟨⟨this.sub, this.six, this.start, this.stop, this.num, this.cat, this.body⟩,
          show r.tStart < r.tEnd from seg_le h1.asc this⟩
    · have hp := (follows_order h1.asc g3).2
      rw [e1, List.pairwise_append] at hp
      rw [e2, List.pairwise_append]
      refine ⟨hp.1, by simp, ?_⟩
      intro a ha b hb
      simp only [List.mem_singleton] at hb
      subst hb
      exact hp.2.2 a ha r (by simp)
    · intro x hx
      rw [e2, List.getLast?_append] at hx
      simp at hx
      subst hx
      exact ⟨rfl, rfl, rfl⟩
  · cases g1

/-- C23 (c).  Every outcome.  A call with an empty series or no break date, with dates out of order or an
unknown QA code fails.  Otherwise no read leaves the arrays; a variable that was never assigned is used
only when all clear observations are at least 9999999 days away from an accepted break (for instance when
there are none), and the record buffer can only be exceeded with 40 or more accepted breaks. -/
theorem C23_outcomes (E : List ClrObs → Env R M) (garbage : Bool) (conse : Nat) (bC2 : Bool)
    (scenes : List Scene) (breaks : List Int) :
    ((scenes = [] ∨ breaks = [] ∨ ¬ DatesInOrder scenes ∨ ¬ ∀ o ∈ scenes, KnownQa o.qa) ∧
      reconstruct E garbage conse bC2 scenes breaks = .error .fail) ∨
    (∃ out, reconstruct E garbage conse bC2 scenes breaks = .ok out) ∨
    (reconstruct E garbage conse bC2 scenes breaks = .error .fail ∧
      Fallback.inefficientobs garbage bC2 scenes (scenes.map (idRange bC2)) = .ok none) ∨
    (∃ clear acc, ClearSeries bC2 scenes clear ∧ Accepts breaks acc ∧
      ((reconstruct E garbage conse bC2 scenes breaks = .error .uninit ∧
          ∃ b ∈ acc, ∀ o ∈ clear, (9999999 : Int) ≤ (o.date - b).natAbs) ∨
       (reconstruct E garbage conse bC2 scenes breaks = .error .overrun ∧ 40 ≤ acc.length))) := by
  by_cases h1 : scenes = []
  · left; exact ⟨Or.inl h1, by simp [reconstruct, h1]⟩
  by_cases h2 : breaks = []
  · left; exact ⟨Or.inr (Or.inl h2), by simp [reconstruct, h2]⟩
  by_cases hd : DatesInOrder scenes
  · by_cases hq : ∀ o ∈ scenes, KnownQa o.qa
    · right
      have hfb : (∃ o : Out R M, viaFallback garbage bC2 scenes (scenes.map (idRange bC2)) = .ok o) ∨
          (viaFallback (R := R) (M := M) garbage bC2 scenes (scenes.map (idRange bC2)) = .error .fail ∧
            Fallback.inefficientobs garbage bC2 scenes (scenes.map (idRange bC2)) = .ok none) := by
        have : ∃ res, Fallback.inefficientobs garbage bC2 scenes (scenes.map (idRange bC2)) = .ok res := by
          unfold Fallback.inefficientobs
          cases garbage with
          | true => exact ⟨_, rfl⟩
          | false =>
            obtain ⟨l, _, k⟩ := Fallback.clearBranch_ok bC2 scenes hd
            rcases k with ⟨_, k⟩ | ⟨_, _, _, _, _, ⟨_, k⟩ | ⟨_, _, _, _, r, k, _⟩⟩
            · exact ⟨_, k⟩
            · exact ⟨_, k⟩
            · exact ⟨_, k⟩
        obtain ⟨res, hres⟩ := this
        unfold viaFallback
        rw [hres]
        cases res with
        | none => right; exact ⟨rfl, rfl⟩
        | some r => left; exact ⟨_, rfl⟩
      obtain ⟨clear, acc, g1, g2, g3⟩ := reconstruct_ok (E := E) (garbage := garbage) (conse := conse)
        (bC2 := bC2) h1 h2 hd hq
      rcases g3 with ⟨_, k2⟩ | ⟨_, ⟨rs, _, k3⟩ | ⟨k2, k3⟩ | ⟨k2, k3⟩⟩
      · rw [k2]
        rcases hfb with ⟨o, ho⟩ | ⟨ho, hr⟩
        · left; exact ⟨o, ho⟩
        · right; left; exact ⟨ho, hr⟩
      · rw [k3]
        by_cases hrs : rs = []
        · rw [if_pos hrs]
          rcases hfb with ⟨o, ho⟩ | ⟨ho, hr⟩
          · left; exact ⟨o, ho⟩
          · right; left; exact ⟨ho, hr⟩
        · rw [if_neg hrs]; left; exact ⟨_, rfl⟩
      · right; right; exact ⟨clear, acc, g1, g2, Or.inl ⟨k2, k3⟩⟩
      · right; right; exact ⟨clear, acc, g1, g2, Or.inr ⟨k2, k3⟩⟩
    · left
      refine ⟨Or.inr (Or.inr (Or.inr hq)), ?_⟩
      have hst : (preprocessing bC2 scenes).status ≠ .success := fun hc => hq ((preLoop_status bC2 scenes {}).1.mp hc)
      unfold reconstruct
      rw [if_neg (by simp [h1, h2]), if_neg (by simp [(dateCheckFails_false_iff scenes).mpr hd])]
      simp only
      rw [if_pos hst]
  · left
    refine ⟨Or.inr (Or.inr (Or.inl hd)), ?_⟩
    have hc : dateCheckFails scenes = true := by
      by_contra hc
      exact hd ((dateCheckFails_false_iff scenes).mp (by simpa using hc))
    unfold reconstruct
    rw [if_neg (by simp [h1, h2]), if_pos hc]

/-! ### Concrete cases -/

/-- An environment that flags nothing; a fit is the number of observations. -/
def toy : List ClrObs → Env Nat Nat := fun _ =>
  { mask := fun _ _ => false, outlier := fun _ _ => false, fit := fun l _ => l.length,
    magnitude := fun _ l => l.length }

/-- `n` clear scenes, 100 days apart, from day 100 on. -/
def series (n : Nat) : List Scene :=
  (List.range n).map (fun i : Nat => ⟨100 * (i + 1), 50, 60, 60, 60, 60, 60, 2900, 0⟩)

def view (x : Except Err (Out Nat Nat)) : Option (List (Int × Int × Int × Int × Int)) :=
  match x with
  | .ok (.segments recs) => some (recs.map (fun r => (r.tStart, r.tEnd, r.tBreak, r.numObs, r.changeProb)))
  | _ => none

theorem view_ok {x : Except Err (Out Nat Nat)} {l} (h : view x = some l) :
    ∃ recs, x = .ok (.segments recs) ∧
      recs.map (fun r => (r.tStart, r.tEnd, r.tBreak, r.numObs, r.changeProb)) = l := by
  unfold view at h
  split at h
  · exact ⟨_, rfl, by simpa using h⟩
  · cases h

/-- Non-vacuity of C23 (a)–(c): 30 scenes, five dates supplied out of order; 830 and 1000 are too close to
others, and 2900 is left with too few observations after it. -/
theorem C23_example : view (reconstruct toy false 6 false (series 30) [2190, 830, 811, 1000, 2900]) =
    some [(100, 700, 800, 8, 100), (800, 2100, 2200, 15, 100), (2200, 2800, 0, 8, 0)] := by decide +kernel

/-- C23, refuted in part: the break a user supplies is lost, and the observations after it take part in no
segment, when fewer than 6 clear observations follow it. -/
theorem C23_last_break_lost : ∃ recs, reconstruct toy false 6 false (series 24) [2000] = .ok (.segments recs) ∧
    recs.length = 1 ∧ ∀ r ∈ recs, r.tEnd = 1900 ∧ r.tBreak = 0 ∧ r.changeProb = 0 := by
  have h : view (reconstruct toy false 6 false (series 24) [2000]) = some [(100, 1900, 0, 20, 0)] := by
    decide +kernel
  obtain ⟨recs, h1, h2⟩ := view_ok h
  refine ⟨recs, h1, ?_, ?_⟩
  · have := congrArg List.length h2; simpa using this
  · intro r hr
    have : (r.tStart, r.tEnd, r.tBreak, r.numObs, r.changeProb) ∈ [((100 : Int), (1900 : Int), (0 : Int), (20 : Int), (0 : Int))] := by
      rw [← h2]; exact List.mem_map.mpr ⟨r, hr, rfl⟩
    simp only [List.mem_singleton, Prod.mk.injEq] at this
    exact ⟨this.2.1, this.2.2.1, this.2.2.2.2⟩

def outcome (x : Except Err (Out Nat Nat)) : Option (Err ⊕ Int) :=
  match x with
  | .ok (.fallback r) => some (.inr r.category)
  | .error e => some (.inl e)
  | _ => none

/-- C23, refuted in part: 24 clear scenes none of which is usable, and one break date: a variable that was
never assigned becomes an array index. -/
theorem C23_unassigned_index :
    outcome (reconstruct toy false 6 false
      ((List.range 24).map (fun i : Nat => ⟨100 * (i + 1), 50, 0, 60, 60, 60, 60, 2900, 0⟩)) [2000]) =
      some (.inl .uninit) := by decide +kernel

/-- C23, refuted in part: when the fallback is needed, which of its branches runs, and so the result,
depends on a variable that was never assigned. -/
theorem C23_fallback_undetermined :
    outcome (reconstruct toy true 6 false (series 20) [2000]) = some (.inr 54) ∧
    outcome (reconstruct toy false 6 false (series 20) [2000]) = some (.inr 44) := by decide +kernel

/-- A series long enough for 41 segments: 6 scenes every 366 days. -/
def longSeries : List Scene :=
  (List.range 246).map (fun i : Nat =>
    ⟨366 * ((i / 6 : Nat) + 1) + 20 * (i % 6 : Nat), 50, 60, 60, 60, 60, 60, 2900, 0⟩)

/-- C23, refuted in part: 40 breaks that are all accepted produce 41 segments, and the last is written
beyond the buffer of 40 records. -/
theorem C23_overrun :
    outcome (reconstruct toy false 6 false longSeries ((List.range 40).map (fun i : Nat => 366 * ((i : Int) + 2)))) =
      some (.inl .overrun) := by decide +kernel

end Obcold

end Pycold
