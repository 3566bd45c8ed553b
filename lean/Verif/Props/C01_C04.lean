import Verif.Proof.Preprocess
/-!
# C01–C04: observation screening

The vocabulary is in `Verif/Spec/Preprocess.lean`.
-/
namespace Pycold

open Spec

/-- C01.  When screening succeeds, `id_range` flags exactly the usable scenes, position by position,
and the five totals are the QA counts (water is also clear). -/
theorem C01_screening (bC2 : Bool) (obs : List Scene)
    (hok : (preprocessing bC2 obs).status = .success) :
    (preprocessing bC2 obs).idr.length = obs.length ∧
    (∀ (i : Nat) (o : Scene), obs[i]? = some o →
      ∃ v, (preprocessing bC2 obs).idr[i]? = some v ∧ (v = true ↔ Usable bC2 o)) ∧
    (preprocessing bC2 obs).sums.clear = qaCount obs 0 + qaCount obs 1 ∧
    (preprocessing bC2 obs).sums.water = qaCount obs 1 ∧
    (preprocessing bC2 obs).sums.shadow = qaCount obs 2 ∧
    (preprocessing bC2 obs).sums.snow = qaCount obs 3 ∧
    (preprocessing bC2 obs).sums.cloud = qaCount obs 4 := by
  have h := preLoop_success bC2 obs {} hok
  refine ⟨by simp [preprocessing, h.1], ?_, ?_⟩
  · intro i o ho
    refine ⟨idRange bC2 o, ?_, idRange_iff bC2 o⟩
    simp [preprocessing, h.1, ho]
  · have h2 := h.2
    simp only [preprocessing, h2, qaCount]
    simp

/-- Non-vacuity of C01: a series with every QA class, a valid and an invalid scene. -/
example : (preprocessing false
    [⟨1, 500, 500, 500, 500, 500, 500, 2900, 0⟩, ⟨2, -200, 1, 1, 1, 1, 1, 0, 1⟩,
     ⟨3, 1, 1, 1, 1, 1, 1, 0, 2⟩, ⟨4, 1, 1, 1, 1, 1, 1, 0, 3⟩, ⟨5, 1, 1, 1, 1, 1, 1, 0, 4⟩,
     ⟨6, 1, 1, 1, 1, 1, 1, 0, 255⟩]) =
    ⟨.success, [true, false, true, true, true, false], ⟨2, 1, 1, 1, 1⟩⟩ := by decide

/-- C02.  Screening fails iff some scene, anywhere, carries an unknown QA code; otherwise it
succeeds. -/
theorem C02_unknown_qa (bC2 : Bool) (obs : List Scene) :
    ((preprocessing bC2 obs).status = .failure ↔ ∃ o ∈ obs, ¬ KnownQa o.qa) ∧
    ((preprocessing bC2 obs).status = .success ↔ ∀ o ∈ obs, KnownQa o.qa) := by
  have h := preLoop_status bC2 obs {}
  simp only [preprocessing]
  constructor
  · rw [h.2]
  · rw [h.1]

/-- Non-vacuity of C02: unknown code 7 in the middle of otherwise good data. -/
example : (preprocessing true
    [⟨1, 5, 5, 5, 5, 5, 5, 0, 0⟩, ⟨2, 5, 5, 5, 5, 5, 5, 0, 7⟩, ⟨3, 5, 5, 5, 5, 5, 5, 0, 1⟩]).status
      = .failure := by decide

/-- C03.  COLD's neighbour check raises its error iff some two scenes, at any distance, are in
descending date order. -/
theorem C03_date_order (obs : List Scene) :
    dateCheckFails obs = true ↔ ¬ DatesInOrder obs := by
  rw [← dateCheckFails_false_iff]; simp

/-- The same in terms of an explicit inversion. -/
theorem C03_inversion (obs : List Scene) :
    dateCheckFails obs = true ↔
      ∃ (i j : Nat) (x y : Scene), i < j ∧ obs[i]? = some x ∧ obs[j]? = some y ∧ x.date > y.date := by
  rw [C03_date_order, DatesInOrder, List.pairwise_iff_getElem]
  constructor
  · intro h
    simp only [Classical.not_forall] at h
    obtain ⟨i, j, hi, hj, hij, h⟩ := h
    exact ⟨i, j, obs[i], obs[j], hij, by simp [hi], by simp [hj], by omega⟩
  · rintro ⟨i, j, x, y, hij, hi, hj, hgt⟩ h
    obtain ⟨hi', rfl⟩ := List.getElem?_eq_some_iff.mp hi
    obtain ⟨hj', rfl⟩ := List.getElem?_eq_some_iff.mp hj
    have := h i j hi' hj' hij
    omega

/-- Non-vacuity of C03: an inversion at distance 2 is caught; duplicates are not refused. -/
example : dateCheckFails [⟨5, 0, 0, 0, 0, 0, 0, 0, 0⟩, ⟨7, 0, 0, 0, 0, 0, 0, 0, 0⟩,
    ⟨4, 0, 0, 0, 0, 0, 0, 0, 0⟩] = true ∧
    dateCheckFails [⟨5, 0, 0, 0, 0, 0, 0, 0, 0⟩, ⟨5, 0, 0, 0, 0, 0, 0, 0, 0⟩] = false := by decide

/-- C04 (a).  For a series in date order whose QA codes are known, the clear observations have
strictly increasing dates. -/
theorem C04_strictly_increasing (bC2 : Bool) (obs : List Scene)
    (hok : (preprocessing bC2 obs).status = .success) (hd : DatesInOrder obs) :
    (clearObs bC2 obs).Pairwise (fun x y => x.date < y.date) := by
  rw [clearObs_eq_spec bC2 obs hok]
  exact dedup_strict _ _ hd

/-- C04 (b).  A clear observation is present iff it comes from a usable clear scene that is the first
usable clear scene of its date; it carries that scene's own band values. -/
theorem C04_membership (bC2 : Bool) (obs : List Scene)
    (hok : (preprocessing bC2 obs).status = .success) (hd : DatesInOrder obs) (c : ClrObs) :
    c ∈ clearObs bC2 obs ↔
      ∃ (i : Nat) (o : Scene), obs[i]? = some o ∧ ClearUsable bC2 o ∧ c = toClr bC2 o ∧
        ∀ (j : Nat) (p : Scene), j < i → obs[j]? = some p → ClearUsable bC2 p → p.date ≠ o.date := by
  rw [clearObs_eq_spec bC2 obs hok]
  exact dedup_mem bC2 obs hd c

/-- C04 (c).  Every date with a usable clear scene is represented. -/
theorem C04_complete (bC2 : Bool) (obs : List Scene)
    (hok : (preprocessing bC2 obs).status = .success) (o : Scene)
    (ho : o ∈ obs) (hu : ClearUsable bC2 o) : ∃ c ∈ clearObs bC2 obs, c.date = o.date := by
  rw [clearObs_eq_spec bC2 obs hok]
  exact dedup_complete bC2 obs o ho hu

/-- Non-vacuity of C04: cloudy, invalid and duplicate-date scenes are dropped. -/
example : clearObs false
    [⟨1, 5, 5, 5, 5, 5, 5, 2900, 0⟩, ⟨1, 6, 6, 6, 6, 6, 6, 2900, 0⟩, ⟨2, 5, 5, 5, 5, 5, 5, 2900, 4⟩,
     ⟨3, 5, 0, 5, 5, 5, 5, 2900, 0⟩, ⟨4, 7, 7, 7, 7, 7, 7, 2900, 1⟩] =
    [⟨1, [5, 5, 5, 5, 5, 5, 1680]⟩, ⟨4, [7, 7, 7, 7, 7, 7, 1680]⟩] := by decide

/-- A side finding on C01/C04: for non-Collection-2 data a missing thermal value (0) is accepted as
usable but stored as -27320, far outside the range that screening enforces for present values. -/
theorem C04_missing_thermal_stored_out_of_range :
    ∃ o : Scene, ClearUsable false o ∧ (toClr false o).bands[6]? = some (-27320) :=
  ⟨⟨1, 5, 5, 5, 5, 5, 5, 0, 0⟩, by simp [ClearUsable, Usable], by simp [toClr]⟩

end Pycold
