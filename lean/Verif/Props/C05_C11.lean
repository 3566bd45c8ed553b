import Mathlib.Data.List.Perm.Subperm
import Verif.Proof.ColdOverrun
import Verif.Props.C01_C04
/-!
# C05–C11, C21, C48: the COLD detection loop

`cold P N ω bC2 obs nCm` is the model of the C entry point `cold`: `P` are the parameters, `N` the
floating-point comparisons and thresholds, `ω` the answers of all floating-point computations (tests,
fits, masks) and `obs` the scenes.  All theorems hold for every `N` and `ω`, i.e. whatever the
numerical code computes; where a linear order (no NaN) is needed this is the hypothesis `Ordered N`.
The vocabulary is in `Verif/Spec/Cold.lean`.
-/
namespace Pycold

open Spec Cold Cold.Spec

variable {V W : Type}

/-- The number of clear observations of a series. -/
abbrev clearCount (bC2 : Bool) (obs : List Scene) : Nat := (clearObs bC2 obs).length

/-- The summary theorem, applied to the scenes given to `cold`. -/
theorem cold_outcome {P : Params} {N : Num V W} {ω : Oracle V W} {bC2 : Bool} {obs : List Scene}
    {nCm : Nat} {r : Except Err (Output V W)} (hc : 1 ≤ P.conse)
    (hs : CmSized P (obs.map (·.date)) nCm)
    (hrun : cold P N ω bC2 obs nCm = .standard r) :
    ∃ out closed last, r = .ok out ∧
      Outcome P N ((clearObs bC2 obs).map (·.date)) nCm out closed last ∧
      (∀ d ∈ (clearObs bC2 obs).map (·.date), ∃ o ∈ obs, ClearUsable bC2 o ∧ o.date = d) ∧
      ((clearObs bC2 obs).map (·.date)).Pairwise (· < ·) := by
  unfold cold at hrun
  split at hrun
  · cases hrun
  · split at hrun
    · cases hrun
    · rename_i hdf
      simp only at hrun
      split at hrun
      · cases hrun
      · rename_i hst
        split at hrun
        · cases hrun
        · injection hrun with hr
          have hok : (preprocessing bC2 obs).status = .success := by simpa using hst
          have hord : DatesInOrder obs := by
            by_cases h : DatesInOrder obs
            · exact h
            · exact absurd ((C03_date_order obs).mpr h) hdf
          have hpw : ((clearObs bC2 obs).map (·.date)).Pairwise (· < ·) := by
            rw [List.pairwise_map]; exact C04_strictly_increasing bC2 obs hok hord
          have hmem : ∀ d ∈ (clearObs bC2 obs).map (·.date), ∃ o ∈ obs, ClearUsable bC2 o ∧ o.date = d := by
            intro d hd
            obtain ⟨c, hcm, rfl⟩ := List.mem_map.mp hd
            obtain ⟨i, o, ho, hu, rfl, _⟩ := (C04_membership bC2 obs hok hord c).mp hcm
            exact ⟨o, List.mem_of_getElem? ho, hu, rfl⟩
          have hs' : CmSized P ((clearObs bC2 obs).map (·.date)) nCm := by
            intro hb
            obtain ⟨h1, h2⟩ := hs hb
            refine ⟨h1, fun d hd => ?_⟩
            obtain ⟨o, ho, _, rfl⟩ := hmem d hd
            exact h2 _ (List.mem_map.mpr ⟨o, ho, rfl⟩)
          obtain ⟨out, closed, last, h1, h2⟩ := standProcedure_ok N hc hs' ω hpw
          exact ⟨out, closed, last, by rw [← hr, h1], h2, hmem, hpw⟩

/-- C05.  Whenever `cold` enters the standard procedure it finishes (the model's loop bound is never
exhausted), after exactly `n - conse - 11` iterations (0 when that is negative). -/
theorem C05_terminates {P : Params} {N : Num V W} {ω : Oracle V W} {bC2 : Bool} {obs : List Scene}
    {nCm : Nat} {r : Except Err (Output V W)} (hc : 1 ≤ P.conse)
    (hs : CmSized P (obs.map (·.date)) nCm) (hrun : cold P N ω bC2 obs nCm = .standard r) :
    ∃ out, r = .ok out ∧ out.iterations = clearCount bC2 obs - P.conse - 11 := by
  obtain ⟨out, closed, last, h1, h2, _⟩ := cold_outcome hc hs hrun
  exact ⟨out, h1, by simpa using h2.iters⟩

/-- C06.  No execution of the standard procedure reads an observation outside the remaining series,
reads an unassigned variable, uses residuals that no fit produced, or writes a change magnitude
outside its array: none of the error outcomes of the model is reachable. -/
theorem C06_no_invalid_access {P : Params} {N : Num V W} {ω : Oracle V W} {bC2 : Bool}
    {obs : List Scene} {nCm : Nat} (hc : 1 ≤ P.conse)
    (hs : CmSized P (obs.map (·.date)) nCm) (e : Err) :
    cold P N ω bC2 obs nCm ≠ .standard (.error e) := by
  intro hrun
  obtain ⟨out, _, _, h1, _⟩ := cold_outcome hc hs hrun
  cases h1

/-- C07.  Segments are in order and disjoint: within a segment the dates are ordered, and a segment
starts no earlier than the break (and after the end) of every earlier segment; breaks strictly
increase. -/
theorem C07_segments_ordered {P : Params} {N : Num V W} {ω : Oracle V W} {bC2 : Bool}
    {obs : List Scene} {nCm : Nat} {out : Output V W} (hc : 1 ≤ P.conse)
    (hs : CmSized P (obs.map (·.date)) nCm)
    (hrun : cold P N ω bC2 obs nCm = .standard (.ok out)) :
    (∀ r ∈ out.recs, r.tStart ≤ r.tEnd ∧ (r.tBreak ≠ 0 → r.tEnd < r.tBreak)) ∧
    out.recs.Pairwise (fun a b => a.tEnd < a.tBreak ∧ a.tBreak ≤ b.tStart ∧
      (b.tBreak ≠ 0 → a.tBreak < b.tBreak)) := by
  obtain ⟨out', closed, last, h1, h2, _⟩ := cold_outcome hc hs hrun
  injection h1 with h1; subst h1
  have hfin : ∀ r ∈ last, r.tStart ≤ r.tEnd ∧ (r.tBreak ≠ 0 → r.tEnd < r.tBreak) := by
    intro r hr
    have h := h2.lastOk r hr
    refine ⟨Int.le_of_lt h.startLt, fun hb => ?_⟩
    rcases h.kind with ⟨_, _, h0, _⟩ | ⟨_, _, _, j, hj1, hj2, _, hj3, hj4⟩
    · exact absurd h0 hb
    · by_cases hj : j = P.conse
      · exact absurd (hj3 hj).1 hb
      · exact (hj4 (by omega)).2.1
  have hall : ∀ r ∈ closed ++ last, r.tStart ≤ r.tEnd ∧ (r.tBreak ≠ 0 → r.tEnd < r.tBreak) := by
    intro r hr
    rcases List.mem_append.mp hr with hr | hr
    · exact ⟨(h2.closedOk r hr).startLe, fun _ => (h2.closedOk r hr).endLt⟩
    · exact hfin r hr
  rw [h2.recs]
  refine ⟨hall, ?_⟩
  have hcl : ∀ a b, a ∈ closed ++ last → b ∈ closed ++ last → a.tBreak ≤ b.tStart →
      (a ∈ closed) → a.tEnd < a.tBreak ∧ a.tBreak ≤ b.tStart ∧ (b.tBreak ≠ 0 → a.tBreak < b.tBreak) := by
    intro a b ha hb hab hac
    refine ⟨(h2.closedOk a hac).endLt, hab, fun hb0 => ?_⟩
    have := hall b hb
    have := this.2 hb0
    omega
  rw [List.pairwise_append] at *
  have ho := h2.ordered
  rw [List.pairwise_append] at ho
  refine ⟨?_, ?_, ?_⟩
  · exact ho.1.imp_of_mem fun ha hb hab => hcl _ _ (by simp [ha]) (by simp [hb]) hab ha
  · have := h2.one
    match last, this with
    | [], _ => simp
    | [x], _ => simp
  · intro a ha b hb
    exact hcl a b (by simp [ha]) (by simp [hb]) (ho.2.2 a ha b hb) ha

/-- C07, consequence: a day lies in at most one segment. -/
theorem C07_disjoint {P : Params} {N : Num V W} {ω : Oracle V W} {bC2 : Bool}
    {obs : List Scene} {nCm : Nat} {out : Output V W} (hc : 1 ≤ P.conse)
    (hs : CmSized P (obs.map (·.date)) nCm)
    (hrun : cold P N ω bC2 obs nCm = .standard (.ok out)) (d : Int) (i j : Nat) (a b : Rec V W)
    (ha : out.recs[i]? = some a) (hb : out.recs[j]? = some b)
    (hda : a.tStart ≤ d ∧ d ≤ a.tEnd) (hdb : b.tStart ≤ d ∧ d ≤ b.tEnd) : i = j := by
  have h := (C07_segments_ordered hc hs hrun).2
  rw [List.pairwise_iff_getElem] at h
  obtain ⟨hi, rfl⟩ := List.getElem?_eq_some_iff.mp ha
  obtain ⟨hj, rfl⟩ := List.getElem?_eq_some_iff.mp hb
  rcases Nat.lt_trichotomy i j with hlt | heq | hgt
  · have := h i j hi hj hlt; omega
  · exact heq
  · have := h j i hj hi hgt; omega

/-- C08.  Every start, end and non-zero break date is the date of a usable clear scene. -/
theorem C08_dates_are_observations {P : Params} {N : Num V W} {ω : Oracle V W} {bC2 : Bool}
    {obs : List Scene} {nCm : Nat} {out : Output V W} (hc : 1 ≤ P.conse)
    (hs : CmSized P (obs.map (·.date)) nCm)
    (hrun : cold P N ω bC2 obs nCm = .standard (.ok out)) (r : Rec V W) (hr : r ∈ out.recs)
    (d : Int) (hd : d = r.tStart ∨ d = r.tEnd ∨ (d = r.tBreak ∧ r.tBreak ≠ 0)) :
    ∃ o ∈ obs, ClearUsable bC2 o ∧ o.date = d := by
  obtain ⟨out', closed, last, h1, h2, h3, _⟩ := cold_outcome hc hs hrun
  injection h1 with h1; subst h1
  apply h3
  rw [h2.recs] at hr
  rcases List.mem_append.mp hr with hr | hr
  · have h := h2.closedOk r hr
    rcases hd with rfl | rfl | ⟨rfl, _⟩
    · exact h.memStart
    · exact h.memEnd
    · exact h.memBreak
  · have h := h2.lastOk r hr
    rcases hd with rfl | rfl | ⟨rfl, hb⟩
    · exact h.memStart
    · exact h.memEnd
    · rcases h.kind with ⟨_, _, h0, _⟩ | ⟨_, _, _, j, hj1, hj2, _, hj3, hj4⟩
      · exact absurd h0 hb
      · by_cases hj : j = P.conse
        · exact absurd (hj3 hj).1 hb
        · exact (hj4 (by omega)).1

theorem normalCat_cases (l : Int) : normalCat l = 4 ∨ normalCat l = 6 ∨ normalCat l = 8 := by
  simp only [normalCat]; split <;> (try split) <;> simp

theorem prob_lt_100 {c j : Int} (h1 : 1 ≤ j) (h2 : j ≤ c) :
    0 ≤ ((c - j) * 100).tdiv c ∧ ((c - j) * 100).tdiv c < 100 := by
  have hn : 0 ≤ (c - j) * 100 := Int.mul_nonneg (by omega) (by omega)
  rw [Int.tdiv_eq_ediv_of_nonneg hn]
  refine ⟨Int.ediv_nonneg hn (by omega), ?_⟩
  apply Int.ediv_lt_of_lt_mul (by omega)
  omega

/-- C09.  Categories are 4, 6, 8, 14 or 24; 14 only for the first segment and 24 only for the last;
`change_prob` is in 0..100; every segment but the last has `change_prob` 100 and a non-zero break;
and `change_prob` is 100 exactly for the segments closed by a confirmed break. -/
theorem C09_category_and_probability {P : Params} {N : Num V W} {ω : Oracle V W} {bC2 : Bool}
    {obs : List Scene} {nCm : Nat} {out : Output V W} (hc : 1 ≤ P.conse)
    (hs : CmSized P (obs.map (·.date)) nCm)
    (hrun : cold P N ω bC2 obs nCm = .standard (.ok out)) :
    (∀ r ∈ out.recs, (r.category = 4 ∨ r.category = 6 ∨ r.category = 8 ∨ r.category = 14 ∨
      r.category = 24) ∧ 0 ≤ r.changeProb ∧ r.changeProb ≤ 100) ∧
    (∀ (k : Nat) (r : Rec V W), out.recs[k]? = some r → r.category = 14 → k = 0) ∧
    (∀ (k : Nat) (r : Rec V W), out.recs[k]? = some r → r.category = 24 → k + 1 = out.recs.length) ∧
    (∀ (k : Nat) (r : Rec V W), out.recs[k]? = some r → k + 1 < out.recs.length →
      r.changeProb = 100 ∧ r.tBreak ∈ (clearObs bC2 obs).map (·.date)) ∧
    (Ordered N → ∀ r ∈ out.recs, r.changeProb = 100 → Confirmed N r.window ∧
      min 6 P.conse ≤ r.window.length ∧ r.tEnd < r.tBreak) := by
  obtain ⟨out', closed, last, h1, h2, h3, _⟩ := cold_outcome hc hs hrun
  injection h1 with h1; subst h1
  have hclosedCat : ∀ r ∈ closed, (r.category = 4 ∨ r.category = 6 ∨ r.category = 8 ∨
      r.category = 14) := by
    intro r hr
    rcases (h2.closedOk r hr).kind with ⟨h, _⟩ | ⟨_, h, _⟩
    · simp [h]
    · rcases normalCat_cases r.fitted.length with hn | hn | hn <;> simp [h, hn]
  have hlastCat : ∀ r ∈ last, (r.category = 4 ∨ r.category = 6 ∨ r.category = 8 ∨
      r.category = 24) ∧ 0 ≤ r.changeProb ∧ r.changeProb < 100 := by
    intro r hr
    rcases (h2.lastOk r hr).kind with ⟨h, _, _, h', _⟩ | ⟨_, h, _, j, hj1, hj2, hp, _⟩
    · simp [h, h']
    · have := prob_lt_100 (c := (P.conse : Int)) (j := (j : Int)) (by omega) (by omega)
      rw [← hp] at this
      refine ⟨?_, this⟩
      rcases normalCat_cases r.fitted.length with hn | hn | hn <;> simp [h, hn]
  rw [h2.recs]
  have hone := h2.one
  refine ⟨?_, ?_, ?_, ?_, ?_⟩
  · intro r hr
    rcases List.mem_append.mp hr with hr | hr
    · have := (h2.closedOk r hr).prob
      rcases hclosedCat r hr with h | h | h | h <;> simp [h, this]
    · obtain ⟨h, hp⟩ := hlastCat r hr
      rcases h with h | h | h | h <;> (simp [h]; omega)
  · intro k r hk hcat
    by_cases hkc : k < closed.length
    · rw [List.getElem?_append_left hkc] at hk
      cases k with
      | zero => rfl
      | succ k =>
        exfalso
        apply h2.tail14 r _ hcat
        rw [List.mem_iff_getElem?]
        exact ⟨k, by rw [List.getElem?_tail]; exact hk⟩
    · rw [List.getElem?_append_right (by omega)] at hk
      have := (hlastCat r (List.mem_of_getElem? hk)).1
      omega
  · intro k r hk hcat
    by_cases hkc : k < closed.length
    · rw [List.getElem?_append_left hkc] at hk
      have := hclosedCat r (List.mem_of_getElem? hk)
      omega
    · rw [List.getElem?_append_right (by omega)] at hk
      have := (List.getElem?_eq_some_iff.mp hk).1
      simp only [List.length_append]; omega
  · intro k r hk hlt
    simp only [List.length_append] at hlt
    rw [List.getElem?_append_left (by omega)] at hk
    have := h2.closedOk r (List.mem_of_getElem? hk)
    exact ⟨this.prob, this.memBreak⟩
  · intro hN r hr hp
    rcases List.mem_append.mp hr with hr | hr
    · have h := h2.closedOk r hr
      refine ⟨(isBreak_iff hN _).mp h.brk, ?_, h.endLt⟩
      rcases h.kind with ⟨_, _, _, h', _⟩ | ⟨_, _, _, _, h', _⟩ <;> omega
    · have := hlastCat r hr; omega

/-- C09, the last segment.  If monitoring reached the end of the series, the reported probability is
the share of trailing observations (out of `conse`) that all exceed the threshold in a consistent
direction, and the break date is the first of them. -/
theorem C09_last_probability {P : Params} {N : Num V W} {ω : Oracle V W} {bC2 : Bool}
    {obs : List Scene} {nCm : Nat} {out : Output V W} (hc : 1 ≤ P.conse) (hN : Ordered N)
    (hs : CmSized P (obs.map (·.date)) nCm)
    (hrun : cold P N ω bC2 obs nCm = .standard (.ok out)) (r : Rec V W) (hr : r ∈ out.recs)
    (hp : r.changeProb ≠ 100) :
    r.changeProb = (r.window.length * 100 : Int) / P.conse ∧
    (r.window = [] → r.tBreak = 0) ∧
    (r.window ≠ [] → Confirmed N r.window ∧ (r.window.map Score.date).head? = some r.tBreak ∧
      (r.window.map Score.date).Sublist ((clearObs bC2 obs).map (·.date)) ∧ r.tEnd < r.tBreak) := by
  obtain ⟨out', closed, last, h1, h2, h3, _⟩ := cold_outcome hc hs hrun
  injection h1 with h1; subst h1
  rw [h2.recs] at hr
  rcases List.mem_append.mp hr with hr | hr
  · exact absurd (h2.closedOk r hr).prob hp
  · rcases (h2.lastOk r hr).kind with ⟨_, _, hb, hp0, hw⟩ | ⟨_, _, _, j, hj1, hj2, hpr, hj3, hj4⟩
    · refine ⟨?_, fun _ => hb, fun h => absurd hw h⟩
      rw [hp0, hw]; simp
    · have hnn : (0 : Int) ≤ ((P.conse : Int) - j) * 100 := Int.mul_nonneg (by omega) (by omega)
      rw [Int.tdiv_eq_ediv_of_nonneg hnn] at hpr
      by_cases hj : j = P.conse
      · obtain ⟨hb, hw⟩ := hj3 hj
        refine ⟨?_, fun _ => hb, fun h => absurd hw h⟩
        rw [hpr, hw, hj]; simp
      · obtain ⟨g1, g2, g3, g4, g5, g6⟩ := hj4 (by omega)
        refine ⟨?_, ?_, fun _ => ⟨g6 hN, g5, g4, g2⟩⟩
        · rw [hpr, g3]; congr 2; omega
        · intro hw; rw [hw] at g5; simp at g5

/-- C10.  `num_obs` is the number of observations given to the fit of the segment's model — except
for start-of-series segments (category 14), which always report one observation too many.  The
fitted observations are usable clear observations inside the segment. -/
theorem C10_num_obs {P : Params} {N : Num V W} {ω : Oracle V W} {bC2 : Bool}
    {obs : List Scene} {nCm : Nat} {out : Output V W} (hc : 1 ≤ P.conse)
    (hs : CmSized P (obs.map (·.date)) nCm)
    (hrun : cold P N ω bC2 obs nCm = .standard (.ok out)) (r : Rec V W) (hr : r ∈ out.recs) :
    (r.category ≠ 14 → r.numObs = r.fitted.length) ∧
    (r.category = 14 → r.numObs = r.fitted.length + 1) ∧
    (r.fitted.Sublist ((clearObs bC2 obs).map (·.date))) ∧
    (∀ d ∈ r.fitted, r.tStart ≤ d ∧ d ≤ r.tEnd) ∧
    6 ≤ r.fitted.length ∧ (r.category < 10 → 12 ≤ r.fitted.length ∧
      (r.category = 4 ↔ r.fitted.length < 18) ∧
      (r.category = 6 ↔ 18 ≤ r.fitted.length ∧ r.fitted.length < 24) ∧
      (r.category = 8 ↔ 24 ≤ r.fitted.length)) := by
  obtain ⟨out', closed, last, h1, h2, h3, _⟩ := cold_outcome hc hs hrun
  injection h1 with h1; subst h1
  rw [h2.recs] at hr
  have hcat : ∀ l : Int, (normalCat l = 4 ↔ l < 18) ∧ (normalCat l = 6 ↔ 18 ≤ l ∧ l < 24) ∧
      (normalCat l = 8 ↔ 24 ≤ l) := by
    intro l; simp only [normalCat]; split
    · refine ⟨?_, ?_, ?_⟩ <;> constructor <;> intro h <;> omega
    · split
      · refine ⟨?_, ?_, ?_⟩ <;> constructor <;> intro h <;> omega
      · refine ⟨?_, ?_, ?_⟩ <;> constructor <;> intro h <;> omega
  have hc14 := normalCat_cases r.fitted.length
  obtain ⟨hc4, hc6, hc8⟩ := hcat r.fitted.length
  rcases List.mem_append.mp hr with hr | hr
  · have h := h2.closedOk r hr
    refine ⟨?_, ?_, h.sub, h.inside, ?_, ?_⟩
    all_goals rcases h.kind with ⟨k1, k2, k3, _⟩ | ⟨k1, k2, k3, _⟩
    all_goals omega
  · have h := h2.lastOk r hr
    have hn := h.numObs
    refine ⟨fun _ => hn, ?_, h.sub, h.inside, ?_, ?_⟩
    all_goals rcases h.kind with ⟨k1, k2, _⟩ | ⟨k1, k2, _⟩
    all_goals omega

theorem flatten_sublist_of_ordered {P : Params} {N : Num V W} {dates : List Int}
    (hp : dates.Pairwise (· < ·)) (closed : List (Rec V W))
    (hcl : ∀ r ∈ closed, ClosedI P N dates r)
    (ho : closed.Pairwise (fun a b => a.tBreak ≤ b.tStart)) :
    (closed.flatMap (·.fitted)).Pairwise (· < ·) ∧ ∀ x ∈ closed.flatMap (·.fitted), x ∈ dates := by
  induction closed with
  | nil => simp
  | cons r rs ih =>
    obtain ⟨h1, h2⟩ := ih (fun x hx => hcl x (by simp [hx])) (List.pairwise_cons.mp ho).2
    have hr := hcl r (by simp)
    simp only [List.flatMap_cons]
    refine ⟨?_, ?_⟩
    · rw [List.pairwise_append]
      refine ⟨hp.sublist hr.sub, h1, ?_⟩
      intro a ha b hb
      obtain ⟨q, hq, hb⟩ := List.mem_flatMap.mp hb
      have h3 := (List.pairwise_cons.mp ho).1 q hq
      have h4 := (hcl q (by simp [hq])).inside b hb
      have h5 := hr.inside a ha
      have h6 := hr.endLt
      omega
    · intro x hx
      rcases List.mem_append.mp hx with hx | hx
      · exact hr.sub.subset hx
      · exact h2 x hx

theorem length_le_of_pairwise_mem {l dates : List Int} (h1 : l.Pairwise (· < ·))
    (h2 : ∀ x ∈ l, x ∈ dates) : l.length ≤ dates.length := by
  have hnd : l.Nodup := h1.imp (fun {a b} h => by omega)
  exact (List.subperm_of_subset hnd h2).length_le

theorem closed_count_obs {P : Params} {N : Num V W} {dates : List Int}
    (hp : dates.Pairwise (· < ·)) (closed : List (Rec V W))
    (hcl : ∀ r ∈ closed, ClosedI P N dates r)
    (ho : closed.Pairwise (fun a b => a.tBreak ≤ b.tStart))
    (h14 : ∀ r ∈ closed.tail, r.category ≠ 14) : 12 * closed.length ≤ dates.length + 6 := by
  obtain ⟨h1, h2⟩ := flatten_sublist_of_ordered hp closed hcl ho
  have h3 := length_le_of_pairwise_mem h1 h2
  have h12 : ∀ (l : List (Rec V W)), (∀ r ∈ l, 12 ≤ r.fitted.length) →
      12 * l.length ≤ (l.flatMap (·.fitted)).length := by
    intro l
    induction l with
    | nil => simp
    | cons r rs ih =>
      intro h
      have := ih (fun x hx => h x (by simp [hx]))
      have := h r (by simp)
      simp only [List.flatMap_cons, List.length_append, List.length_cons]
      omega
  match closed with
  | [] => simp
  | r :: rs =>
    have := h12 rs (fun x hx => by
      rcases (hcl x (by simp [hx])).kind with ⟨h, _⟩ | ⟨h, _⟩
      · exact absurd h (h14 x (by simpa using hx))
      · exact h)
    have h6 : 6 ≤ r.fitted.length := by
      rcases (hcl r (by simp)).kind with ⟨_, h, _⟩ | ⟨h, _⟩ <;> omega
    simp only [List.flatMap_cons, List.length_append] at h3
    simp only [List.length_cons]
    omega

theorem closed_count_span {P : Params} {N : Num V W} {dates : List Int} (lo hi : Int)
    (hb : ∀ d ∈ dates, lo ≤ d ∧ d ≤ hi) (closed : List (Rec V W))
    (hcl : ∀ r ∈ closed, ClosedI P N dates r)
    (ho : closed.Pairwise (fun a b => a.tBreak ≤ b.tStart))
    (h14 : ∀ r ∈ closed.tail, r.category ≠ 14) (hne : closed ≠ []) :
    lo + 367 * ((closed.length : Int) - 1) < hi := by
  have gen : ∀ (l : List (Rec V W)) (t : Int), (∀ r ∈ l, ClosedI P N dates r) →
      l.Pairwise (fun a b => a.tBreak ≤ b.tStart) → (∀ r ∈ l, r.category ≠ 14) →
      (∀ r ∈ l, t ≤ r.tStart) → t ≤ hi → t + 367 * (l.length : Int) ≤ hi := by
    intro l
    induction l with
    | nil => intro t _ _ _ _ h; simpa using h
    | cons r rs ih =>
      intro t h1 h2 h3 h4 _
      have hr := h1 r (by simp)
      have hk : 1461 ≤ 4 * (r.tEnd - r.tStart) := by
        rcases hr.kind with ⟨h, _⟩ | ⟨_, _, _, h, _⟩
        · exact absurd h (h3 r (by simp))
        · exact h
      have := ih r.tBreak (fun x hx => h1 x (by simp [hx])) (List.pairwise_cons.mp h2).2
        (fun x hx => h3 x (by simp [hx])) (List.pairwise_cons.mp h2).1
        (hb _ hr.memBreak).2
      have := h4 r (by simp)
      have := hr.endLt
      simp only [List.length_cons]
      push_cast
      omega
  match closed, hne with
  | r :: rs, _ =>
    have hr := hcl r (by simp)
    have := gen rs r.tBreak (fun x hx => hcl x (by simp [hx])) (List.pairwise_cons.mp ho).2
      (fun x hx => h14 x (by simpa using hx)) (List.pairwise_cons.mp ho).1 (hb _ hr.memBreak).2
    have := (hb _ hr.memStart).1
    have := hr.startLe
    have := hr.endLt
    simp only [List.length_cons]
    push_cast
    omega

/-- C11 (partial: a bound on the series is needed, see `C11_overrun`).  The caller's buffer of 40
records suffices, and it is never reallocated, when the clear observations span at most 39 * 367 days
(a little over 39 years) or number fewer than 474. -/
theorem C11_buffer_partial {P : Params} {N : Num V W} {ω : Oracle V W} {bC2 : Bool}
    {obs : List Scene} {nCm : Nat} {out : Output V W} (hc : 1 ≤ P.conse)
    (hs : CmSized P (obs.map (·.date)) nCm)
    (hrun : cold P N ω bC2 obs nCm = .standard (.ok out))
    (hbound : (∃ lo, ∀ o ∈ obs, ClearUsable bC2 o → lo ≤ o.date ∧ o.date ≤ lo + 39 * 367) ∨
      clearCount bC2 obs < 474) :
    out.overflow = false ∧ out.recs.length ≤ 40 := by
  obtain ⟨out', closed, last, h1, h2, h3, h4⟩ := cold_outcome hc hs hrun
  injection h1 with h1; subst h1
  have ho : closed.Pairwise (fun a b => a.tBreak ≤ b.tStart) :=
    (List.pairwise_append.mp h2.ordered).1
  have hlt : closed.length < 40 := by
    rcases hbound with ⟨lo, hb⟩ | hb
    · by_cases hne : closed = []
      · simp [hne]
      · have := closed_count_span lo (lo + 39 * 367) (fun d hd => by
          obtain ⟨o, ho, hu, rfl⟩ := h3 d hd; exact hb o ho hu) closed h2.closedOk ho h2.tail14 hne
        omega
    · have := closed_count_obs h4 closed h2.closedOk ho h2.tail14
      simp only [List.length_map] at this
      simp only [clearCount] at hb
      omega
  have hone := h2.one
  rw [h2.ovf, h2.recs]
  simp only [List.length_append, decide_eq_false_iff_not]
  omega

/-- C11 is false without a bound on the series: for every `m` there is a series of clear monthly
observations for which the run produces at least `m` records, and from 40 closed segments on the
procedure reallocates the record buffer it was handed (which the caller allocated as 40 records of a
numpy array), so the caller's pointer is no longer the one written to. -/
theorem C11_overrun (m : Nat) : ∃ (P : Params) (N : Num Nat Unit) (ω : Oracle Nat Unit)
    (obs : List Scene) (out : Output Nat Unit), Ordered N ∧
    cold P N ω false obs 0 = .standard (.ok out) ∧ m ≤ out.recs.length ∧
    (40 ≤ m → out.overflow = true) := by
  obtain ⟨out, h1, h2, h3⟩ := wRun (13 * m + 24) (by omega)
  refine ⟨wP, wN, wω, wObs (13 * m + 24), out, wN_ordered, ?_, by omega, fun h => h3 (by omega)⟩
  rw [cold_wObs _ _ _ _ _ (by omega), h1]

/-- C21.  The change-magnitude arrays: every slot is either untouched (-9999) or holds the largest
value offered for a date of that slot, at most 32767, with the date it was offered for; the slot of a
date is `(date - starting_date) / interval`; and every date used is that of a usable clear scene. -/
theorem C21_change_magnitudes {P : Params} {N : Num V W} {ω : Oracle V W} {bC2 : Bool}
    {obs : List Scene} {nCm : Nat} {out : Output V W} (hc : 1 ≤ P.conse)
    (hs : CmSized P (obs.map (·.date)) nCm)
    (hrun : cold P N ω bC2 obs nCm = .standard (.ok out)) :
    CmHolds P nCm out.cm ∧ ∀ p ∈ out.cm.log, ∃ o ∈ obs, ClearUsable bC2 o ∧ o.date = p.1 := by
  obtain ⟨out', closed, last, h1, h2, h3, h4⟩ := cold_outcome hc hs hrun
  injection h1 with h1; subst h1
  exact ⟨h2.cm.holds, fun p hp => h3 _ (h2.cm.mem p hp)⟩

/-- C21.  The arrays that `cold_detect` allocates by default are large enough, for any interval of at
least one day and any starting date not after the first scene. -/
theorem C21_python_sizing (P : Params) (obs : List Scene) (last : Scene) (hlast : obs.getLast? = some last)
    (hd : DatesInOrder obs) (hi : 1 ≤ P.interval)
    (hstart : ∀ first, obs.head? = some first → P.startingDate ≤ first.date) :
    CmSized P (obs.map (·.date)) (pyNCm last.date P.startingDate P.interval) := by
  intro _
  refine ⟨by omega, ?_⟩
  intro d hdm
  obtain ⟨o, ho, rfl⟩ := List.mem_map.mp hdm
  have hlo : P.startingDate ≤ o.date := by
    cases obs with
    | nil => simp at ho
    | cons x xs =>
      have := hstart x rfl
      rcases List.mem_cons.mp ho with rfl | h
      · exact this
      · have := (List.pairwise_cons.mp hd).1 o h; omega
  have hhi : o.date ≤ last.date := by
    obtain ⟨init, rfl⟩ := List.getLast?_eq_some_iff.mp hlast
    rcases List.mem_append.mp ho with h | h
    · exact (List.pairwise_append.mp hd).2.2 o h last (by simp)
    · simp at h; subst h; omega
  refine ⟨hlo, ?_⟩
  have h1 : (o.date - P.startingDate) / P.interval ≤ (last.date - P.startingDate) / P.interval :=
    Int.ediv_le_ediv (by omega) (by omega)
  have h2 : (last.date - P.startingDate) / P.interval ≤
      -((-(last.date - P.startingDate + 1)) / P.interval) := by
    have e1 := Int.mul_ediv_add_emod (last.date - P.startingDate) P.interval
    have e2 := Int.mul_ediv_add_emod (-(last.date - P.startingDate + 1)) P.interval
    have e3 := Int.emod_nonneg (last.date - P.startingDate) (b := P.interval) (by omega)
    have e4 := Int.emod_nonneg (-(last.date - P.startingDate + 1)) (b := P.interval) (by omega)
    generalize (last.date - P.startingDate) / P.interval = a at *
    generalize (-(last.date - P.startingDate + 1)) / P.interval = b at *
    have e5 : P.interval * (a + b) < 0 := by rw [Int.mul_add]; omega
    have e6 : a + b < 0 := by
      by_cases hab : a + b < 0
      · exact hab
      · have := Int.mul_nonneg (a := P.interval) (b := a + b) (by omega) (by omega); omega
    omega
  have h3 : 0 ≤ (last.date - P.startingDate) / P.interval := Int.ediv_nonneg (by omega) (by omega)
  simp only [pyNCm]
  omega

/-- C48.  A break is confirmed exactly when every observation of the window exceeds the threshold and
the mean angle of their z-score vectors is below the limit (for a linear order of magnitudes). -/
theorem C48_break_test {N : Num V W} (hN : Ordered N) (sc : List (Score V W)) :
    isBreak N sc = true ↔
      (∀ x ∈ sc, N.lt N.tcg x.mag = true) ∧ N.lt (N.angle (sc.map Score.vec)) N.nsign = true :=
  isBreak_iff hN sc

/-- C48, on whole runs.  The window on which a segment was closed consists of the `conse` clear
observations that start at the reported break date (category 4, 6, 8), and they all pass the test. -/
theorem C48_breaks_confirmed {P : Params} {N : Num V W} {ω : Oracle V W} {bC2 : Bool}
    {obs : List Scene} {nCm : Nat} {out : Output V W} (hc : 1 ≤ P.conse) (hN : Ordered N)
    (hs : CmSized P (obs.map (·.date)) nCm)
    (hrun : cold P N ω bC2 obs nCm = .standard (.ok out)) (r : Rec V W) (hr : r ∈ out.recs)
    (hp : r.changeProb = 100) :
    Confirmed N r.window ∧
    (r.category ≠ 14 → r.window.length = P.conse ∧
      (r.window.map Score.date).Sublist ((clearObs bC2 obs).map (·.date)) ∧
      (r.window.map Score.date).head? = some r.tBreak) ∧
    (r.category = 14 → min 6 P.conse ≤ r.window.length ∧ r.window.length ≤ P.conse ∧
      (r.window.map Score.date).Pairwise (· > ·) ∧
      (r.window.map Score.date).head? = some r.tEnd) := by
  obtain ⟨out', closed, last, h1, h2, h3, h4⟩ := cold_outcome hc hs hrun
  injection h1 with h1; subst h1
  rw [h2.recs] at hr
  rcases List.mem_append.mp hr with hr | hr
  · have h := h2.closedOk r hr
    refine ⟨(isBreak_iff hN _).mp h.brk, ?_, ?_⟩
    · intro hcat
      rcases h.kind with ⟨k, _⟩ | ⟨_, _, _, _, k1, k2, k3⟩
      · exact absurd k hcat
      · exact ⟨k1, k2, k3⟩
    · intro hcat
      rcases h.kind with ⟨_, _, _, ⟨k1, k1'⟩, k2, k3, _⟩ | ⟨_, k, _⟩
      · exact ⟨k1, k1', k2, k3⟩
      · exact absurd (k.symm.trans hcat) (normalCat_ne _)
  · exfalso
    rcases (h2.lastOk r hr).kind with ⟨_, _, _, h', _⟩ | ⟨_, _, _, j, hj1, hj2, hpr, _⟩
    · omega
    · have := prob_lt_100 (c := (P.conse : Int)) (j := (j : Int)) (by omega) (by omega)
      omega

/-! ### Concrete runs

45 monthly scenes; initialisation is unstable until the model has moved 8 observations, the look-back
then meets a break at once, one observation is removed as noise during initialisation and one as an
outlier while monitoring, a break is confirmed, and the rest of the series is too short for a model.
So the run has a start-of-series segment (14), a full segment (8) and an end-of-series segment (24),
and it fills change-magnitude slots. -/

/-- The reported fields of a record, the number of observations it was fitted to and the dates of the
window that closed it. -/
structure Row where
  dates : Int × Int × Int
  obsCatProb : Int × Int × Int
  fitted : Nat
  window : List Int
deriving DecidableEq

/-- Records, overflow flag, number of iterations, change magnitudes and their dates. -/
def runSummary (r : Top Nat Unit) :
    Option (List Row × Bool × Nat × List Int × List Int) :=
  match r with
  | .standard (.ok o) =>
    some (o.recs.map fun (r : Rec Nat Unit) =>
      ⟨(r.tStart, r.tEnd, r.tBreak), (r.numObs, r.category, r.changeProb), r.fitted.length,
        r.window.map Score.date⟩, o.overflow, o.iterations, o.cm.out, o.cm.date)
  | _ => none

def xP : Params :=
  { conse := 2, gapExceeds := fun d => decide (d > 400), bOutputCM := true, startingDate := 1,
    interval := 120 }

def xω : Oracle Nat Unit :=
  { mask := fun it k => decide (it = 9 ∧ k = 3), unstable := fun it => decide (it < 8),
    lbScore := fun _ _ _ => (50, ()),
    score := fun it _ => (if 24 ≤ it ∧ it ≤ 25 then 100 else if it = 20 then 40 else 3, ()),
    skip := fun x => x / 3, cmLb := fun _ k => 200 + k, cmMon := fun it => 40000 - 100 * it,
    endMask := fun k => decide (k = 1) }

theorem x_run : runSummary (cold xP wN xω false (wObs 45) 13) =
    some ([⟨(1, 187, 218), (8, 14, 100), 7, [187, 156]⟩,
           ⟨(218, 1117, 1148), (29, 8, 100), 29, [1148, 1179]⟩,
           ⟨(1148, 1365, 0), (7, 24, 0), 7, []⟩], false, 32,
      [-9999, 206, -9999, -9999, -9999, 32767, 32767, 32767, 32767, 32767, -9999, -9999, -9999],
      [-9999, -2628, -9999, -9999, -9999, -2225, -2101, -1977, -1884, -1760, -9999, -9999, -9999]) := by
  decide +kernel

/-- The array size hypothesis of C05–C21 holds for this run, with the size Python computes. -/
example : pyNCm 1365 1 120 = 13 ∧ CmSized xP ((wObs 45).map (·.date)) 13 := by
  refine ⟨by decide, fun _ => ⟨by decide, ?_⟩⟩
  decide +kernel

/-- The hypotheses of C05–C21 and C48 are met by this run. -/
example : ∃ out, cold xP wN xω false (wObs 45) 13 = .standard (.ok out) ∧ out.recs.length = 3 ∧
    Ordered wN := by
  have h := x_run
  generalize cold xP wN xω false (wObs 45) 13 = r at *
  cases r with
  | standard e =>
    cases e with
    | ok o =>
      refine ⟨o, rfl, ?_, wN_ordered⟩
      simp only [runSummary, Option.some.injEq, Prod.mk.injEq] at h
      have := congrArg List.length h.1
      simpa using this
    | error => cases h
  | _ => cases h

/-- C10 is false for the start-of-series segment: it reports 8 observations although 7 were fitted. -/
theorem C10_first_segment_overcounts : ∃ (P : Params) (N : Num Nat Unit) (ω : Oracle Nat Unit)
    (obs : List Scene) (nCm : Nat) (out : Output Nat Unit) (r : Rec Nat Unit), Ordered N ∧ 1 ≤ P.conse ∧
    cold P N ω false obs nCm = .standard (.ok out) ∧ r ∈ out.recs ∧ r.numObs = 8 ∧ r.fitted.length = 7 := by
  have h := x_run
  refine ⟨xP, wN, xω, wObs 45, 13, ?_⟩
  generalize cold xP wN xω false (wObs 45) 13 = r at *
  cases r with
  | standard e =>
    cases e with
    | ok o =>
      simp only [runSummary, Option.some.injEq, Prod.mk.injEq] at h
      have h1 := h.1
      cases hr : o.recs with
      | nil => rw [hr] at h1; cases h1
      | cons r rs =>
        rw [hr] at h1
        simp only [List.map_cons, List.cons.injEq, Row.mk.injEq, Prod.mk.injEq] at h1
        exact ⟨o, r, wN_ordered, by decide, rfl, by rw [hr]; exact List.mem_cons_self, h1.1.2.1.1, h1.1.2.2.1⟩
    | error => cases h
  | _ => cases h

/-- C21's size condition is needed: with a starting date after the scenes the same run writes before
the start of the change-magnitude arrays. -/
theorem C21_late_start_out_of_bounds :
    cold { xP with startingDate := 2000 } wN xω false (wObs 45) 13 = .standard (.error .oob) := by
  rw [cold_wObs _ _ _ _ _ (by decide)]
  have : (match standProcedure { xP with startingDate := 2000 } wN xω (wDates 45) 13 with
      | .error .oob => true | _ => false) = true := by decide +kernel
  split at this
  · rename_i h; rw [h]
  · cases this

end Pycold
