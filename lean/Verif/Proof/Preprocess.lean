import Verif.Model.Preprocess
import Verif.Spec.Preprocess
/-! Helper lemmas for C01–C04. -/
namespace Pycold
open Spec

theorem idRange_iff (bC2 : Bool) (o : Scene) : idRange bC2 o = true ↔ Usable bC2 o := by
  unfold idRange Usable thermalTmp FILL_VALUE
  simp only [Bool.and_eq_true, decide_eq_true_eq]
  cases bC2 <;> by_cases h : o.t = 0 <;> simp only [h] <;> grind

theorem countQa_none (s : Sums) (q : Int) : countQa s q = none ↔ ¬ KnownQa q := by
  unfold countQa KnownQa
  simp only [CFMASK_CLEAR, CFMASK_WATER, CFMASK_SHADOW, CFMASK_SNOW, CFMASK_CLOUD, FILL_VALUE]
  grind

theorem preLoop_status (bC2 : Bool) (obs : List Scene) (s : Sums) :
    ((preLoop bC2 obs s).status = .success ↔ ∀ o ∈ obs, KnownQa o.qa) ∧
    ((preLoop bC2 obs s).status = .failure ↔ ∃ o ∈ obs, ¬ KnownQa o.qa) := by
  induction obs generalizing s with
  | nil => simp [preLoop]
  | cons o os ih =>
    unfold preLoop
    cases h : countQa s o.qa with
    | none =>
      have := (countQa_none s o.qa).mp h
      simp [this]
    | some s' =>
      have hk : KnownQa o.qa := by
        apply Classical.byContradiction
        intro hn
        rw [(countQa_none s o.qa).mpr hn] at h
        cases h
      have := ih s'
      simp [this, hk]

theorem countQa_some (s s' : Sums) (q : Int) (h : countQa s q = some s') :
    s' = ⟨s.clear + (if q == 0 then 1 else 0) + (if q == 1 then 1 else 0),
      s.water + (if q == 1 then 1 else 0), s.shadow + (if q == 2 then 1 else 0),
      s.snow + (if q == 3 then 1 else 0), s.cloud + (if q == 4 then 1 else 0)⟩ := by
  unfold countQa at h
  simp only [CFMASK_CLEAR, CFMASK_WATER, CFMASK_SHADOW, CFMASK_SNOW, CFMASK_CLOUD, FILL_VALUE] at h
  cases s; cases s'
  simp only [Sums.mk.injEq]
  grind

theorem preLoop_success (bC2 : Bool) (obs : List Scene) (s : Sums)
    (hok : (preLoop bC2 obs s).status = .success) :
    (preLoop bC2 obs s).idr = obs.map (idRange bC2) ∧
    (preLoop bC2 obs s).sums =
      ⟨s.clear + qaCount obs 0 + qaCount obs 1, s.water + qaCount obs 1,
       s.shadow + qaCount obs 2, s.snow + qaCount obs 3, s.cloud + qaCount obs 4⟩ := by
  induction obs generalizing s with
  | nil => simp [preLoop, qaCount]
  | cons o os ih =>
    unfold preLoop at hok ⊢
    cases h : countQa s o.qa with
    | none => simp [h] at hok
    | some s' =>
      simp only [h] at hok ⊢
      have := ih s' hok
      refine ⟨by simp [this.1], ?_⟩
      rw [this.2]
      rw [countQa_some _ _ _ h]
      simp only [qaCount, List.countP_cons, Sums.mk.injEq]
      refine ⟨?_, ?_, ?_, ?_, ?_⟩ <;> (repeat' split) <;> omega

theorem dateCheckFails_false_iff (obs : List Scene) :
    dateCheckFails obs = false ↔ DatesInOrder obs := by
  unfold DatesInOrder
  fun_induction dateCheckFails obs with
  | case1 => simp
  | case2 => simp
  | case3 x y rest ih =>
    simp only [Bool.or_eq_false_iff, decide_eq_false_iff_not]
    rw [ih, List.pairwise_cons (a := x)]
    constructor
    · rintro ⟨h1, h2⟩
      refine ⟨?_, h2⟩
      intro a ha
      rcases List.mem_cons.mp ha with rfl | ha
      · omega
      · have := (List.pairwise_cons.mp h2).1 a ha
        omega
    · rintro ⟨h1, h2⟩
      exact ⟨by have := h1 y (by simp); omega, h2⟩

/-- Bool form of `ClearUsable`. -/
def clrFlag (bC2 : Bool) (o : Scene) : Bool := decide (o.qa < 2) && idRange bC2 o

theorem clrFlag_iff (bC2 : Bool) (o : Scene) : clrFlag bC2 o = true ↔ ClearUsable bC2 o := by
  simp [clrFlag, ClearUsable, idRange_iff]

/-- Recursive reference form of the extraction. -/
def dedup (bC2 : Bool) : Option Int → List Scene → List ClrObs
  | _, [] => []
  | last, o :: os =>
    if clrFlag bC2 o then
      if some o.date = last then dedup bC2 last os
      else toClr bC2 o :: dedup bC2 (some o.date) os
    else dedup bC2 last os

theorem clrBands_eq (bC2 : Bool) (o : Scene) : (⟨o.date, clrBands bC2 o⟩ : ClrObs) = toClr bC2 o := by
  simp [clrBands, toClr]

theorem clrLoop_eq (bC2 : Bool) (obs : List Scene) (acc : List ClrObs) :
    clrLoop bC2 obs (obs.map (idRange bC2)) acc =
      acc ++ dedup bC2 (acc.getLast?.map (·.date)) obs := by
  induction obs generalizing acc with
  | nil => simp [clrLoop, dedup]
  | cons o os ih =>
    simp only [List.map_cons, clrLoop, dedup, clrStep]
    rw [show (decide (o.qa < 2) && idRange bC2 o) = clrFlag bC2 o from rfl]
    by_cases hc : clrFlag bC2 o = true
    · simp only [hc, if_true]
      by_cases hl : some o.date = acc.getLast?.map (·.date)
      · have hpos : acc.length > 0 := by
          cases acc with
          | nil => simp at hl
          | cons a l => simp
        rw [if_pos (by simp [hpos, hl]), if_pos hl]
        exact ih acc
      · rw [if_neg (by simp [hl]), if_neg hl]
        rw [ih]
        simp [clrBands_eq, toClr]
    · simp only [hc]
      exact ih acc

theorem clearObs_eq_spec (bC2 : Bool) (obs : List Scene)
    (hok : (preprocessing bC2 obs).status = .success) :
    clearObs bC2 obs = dedup bC2 none obs := by
  unfold clearObs
  have := (preLoop_success bC2 obs {} hok).1
  unfold preprocessing
  rw [this, clrLoop_eq]
  simp

theorem dedup_dates_mem (bC2 : Bool) (last : Option Int) (obs : List Scene) (c : ClrObs)
    (hc : c ∈ dedup bC2 last obs) : ∃ o ∈ obs, c.date = o.date := by
  induction obs generalizing last with
  | nil => simp [dedup] at hc
  | cons o os ih =>
    unfold dedup at hc
    split at hc
    · split at hc
      · obtain ⟨p, hp, h⟩ := ih _ hc
        exact ⟨p, by simp [hp], h⟩
      · rcases List.mem_cons.mp hc with rfl | hc
        · exact ⟨o, by simp, rfl⟩
        · obtain ⟨p, hp, h⟩ := ih _ hc
          exact ⟨p, by simp [hp], h⟩
    · obtain ⟨p, hp, h⟩ := ih _ hc
      exact ⟨p, by simp [hp], h⟩

theorem dedup_ne_last (bC2 : Bool) (d : Int) (obs : List Scene)
    (hd : DatesInOrder obs) (hge : ∀ o ∈ obs, d ≤ o.date) (c : ClrObs)
    (hc : c ∈ dedup bC2 (some d) obs) : d < c.date := by
  induction obs with
  | nil => simp [dedup] at hc
  | cons o os ih =>
    have hd' := List.pairwise_cons.mp hd
    unfold dedup at hc
    by_cases h1 : clrFlag bC2 o = true
    · rw [if_pos h1] at hc
      by_cases h2 : some o.date = some d
      · rw [if_pos h2] at hc
        exact ih hd'.2 (fun p hp => hge p (by simp [hp])) hc
      · rw [if_neg h2] at hc
        have ho := hge o (by simp)
        have hne : o.date ≠ d := fun e => h2 (by rw [e])
        rcases List.mem_cons.mp hc with rfl | hc
        · show d < o.date
          omega
        · obtain ⟨p, hp, he⟩ := dedup_dates_mem _ _ _ _ hc
          have := hd'.1 p hp
          omega
    · rw [if_neg h1] at hc
      exact ih hd'.2 (fun p hp => hge p (by simp [hp])) hc

theorem dedup_strict (bC2 : Bool) (obs : List Scene) (hd : DatesInOrder obs)
    (last : Option Int := none) :
    (dedup bC2 last obs).Pairwise (fun x y => x.date < y.date) := by
  induction obs generalizing last with
  | nil => simp [dedup]
  | cons o os ih =>
    have hd' := List.pairwise_cons.mp hd
    unfold dedup
    split
    · split
      · exact ih hd'.2 last
      · rw [List.pairwise_cons]
        refine ⟨?_, ih hd'.2 _⟩
        intro c hc
        exact dedup_ne_last bC2 o.date os hd'.2 hd'.1 c hc
    · exact ih hd'.2 last

theorem dedup_mem_aux (bC2 : Bool) (last : Option Int) (obs : List Scene)
    (hd : DatesInOrder obs) (hge : ∀ d, last = some d → ∀ o ∈ obs, d ≤ o.date) (c : ClrObs) :
    c ∈ dedup bC2 last obs ↔
      ∃ (i : Nat) (o : Scene), obs[i]? = some o ∧ ClearUsable bC2 o ∧ c = toClr bC2 o ∧ last ≠ some o.date ∧
        ∀ (j : Nat) (p : Scene), j < i → obs[j]? = some p → ClearUsable bC2 p → p.date ≠ o.date := by
  induction obs generalizing last with
  | nil => simp [dedup]
  | cons o os ih =>
    have hd' := List.pairwise_cons.mp hd
    unfold dedup
    by_cases h1 : clrFlag bC2 o = true
    · have hcu := (clrFlag_iff bC2 o).mp h1
      rw [if_pos h1]
      by_cases h2 : some o.date = last
      · rw [if_pos h2, ih last hd'.2 (fun d hdd p hp => hge d hdd p (by simp [hp]))]
        constructor
        · rintro ⟨i, p, hp, hcup, hc, hl, hall⟩
          refine ⟨i + 1, p, by simpa using hp, hcup, hc, hl, ?_⟩
          intro j q hj hq hcq
          cases j with
          | zero =>
            simp at hq; subst hq
            intro e; apply hl; rw [← h2, e]
          | succ j => exact hall j q (by omega) (by simpa using hq) hcq
        · rintro ⟨i, p, hp, hcup, hc, hl, hall⟩
          cases i with
          | zero =>
            simp at hp; subst hp
            exact absurd h2.symm hl
          | succ i =>
            refine ⟨i, p, by simpa using hp, hcup, hc, hl, ?_⟩
            intro j q hj hq hcq
            exact hall (j + 1) q (by omega) (by simpa using hq) hcq
      · rw [if_neg h2, List.mem_cons,
          ih (some o.date) hd'.2 (fun d hdd p hp => by cases hdd; exact hd'.1 p hp)]
        constructor
        · rintro (rfl | ⟨i, p, hp, hcup, hc, hl, hall⟩)
          · exact ⟨0, o, by simp, hcu, rfl, fun e => h2 e.symm, by intro j p hj; omega⟩
          · refine ⟨i + 1, p, by simpa using hp, hcup, hc, ?_, ?_⟩
            · intro e
              have hpm : p ∈ os := List.mem_of_getElem? hp
              have a1 := hge p.date e o (by simp)
              have a2 := hd'.1 p hpm
              apply hl; congr 1; omega
            · intro j q hj hq hcq
              cases j with
              | zero =>
                simp at hq; subst hq
                intro e; apply hl; rw [e]
              | succ j => exact hall j q (by omega) (by simpa using hq) hcq
        · rintro ⟨i, p, hp, hcup, hc, hl, hall⟩
          cases i with
          | zero => simp at hp; subst hp; exact Or.inl hc
          | succ i =>
            refine Or.inr ⟨i, p, by simpa using hp, hcup, hc, ?_, ?_⟩
            · intro e
              have e' : o.date = p.date := by simpa using e
              exact hall 0 o (by omega) (by simp) hcu e'
            · intro j q hj hq hcq
              exact hall (j + 1) q (by omega) (by simpa using hq) hcq
    · rw [if_neg h1, ih last hd'.2 (fun d hdd p hp => hge d hdd p (by simp [hp]))]
      have hncu : ¬ ClearUsable bC2 o := fun h => h1 ((clrFlag_iff bC2 o).mpr h)
      constructor
      · rintro ⟨i, p, hp, hcup, hc, hl, hall⟩
        refine ⟨i + 1, p, by simpa using hp, hcup, hc, hl, ?_⟩
        intro j q hj hq hcq
        cases j with
        | zero => simp at hq; subst hq; exact absurd hcq hncu
        | succ j => exact hall j q (by omega) (by simpa using hq) hcq
      · rintro ⟨i, p, hp, hcup, hc, hl, hall⟩
        cases i with
        | zero => simp at hp; subst hp; exact absurd hcup hncu
        | succ i =>
          refine ⟨i, p, by simpa using hp, hcup, hc, hl, ?_⟩
          intro j q hj hq hcq
          exact hall (j + 1) q (by omega) (by simpa using hq) hcq

theorem dedup_mem (bC2 : Bool) (obs : List Scene) (hd : DatesInOrder obs) (c : ClrObs) :
    c ∈ dedup bC2 none obs ↔
      ∃ (i : Nat) (o : Scene), obs[i]? = some o ∧ ClearUsable bC2 o ∧ c = toClr bC2 o ∧
        ∀ (j : Nat) (p : Scene), j < i → obs[j]? = some p → ClearUsable bC2 p → p.date ≠ o.date := by
  rw [dedup_mem_aux bC2 none obs hd (by simp)]
  simp

theorem dedup_complete_aux (bC2 : Bool) (last : Option Int) (obs : List Scene) (o : Scene)
    (ho : o ∈ obs) (hu : ClearUsable bC2 o) :
    last = some o.date ∨ ∃ c ∈ dedup bC2 last obs, c.date = o.date := by
  induction obs generalizing last with
  | nil => simp at ho
  | cons p os ih =>
    unfold dedup
    rcases List.mem_cons.mp ho with rfl | ho
    · rw [if_pos ((clrFlag_iff bC2 o).mpr hu)]
      by_cases h2 : some o.date = last
      · exact Or.inl h2.symm
      · rw [if_neg h2]
        exact Or.inr ⟨toClr bC2 o, by simp, rfl⟩
    · split
      · split
        · exact ih last ho
        · rcases ih (some p.date) ho with h | ⟨c, hc, he⟩
          · have h' : p.date = o.date := by simpa using h
            exact Or.inr ⟨toClr bC2 p, by simp, by simpa [toClr] using h'⟩
          · exact Or.inr ⟨c, by simp [hc], he⟩
      · exact ih last ho

theorem dedup_complete (bC2 : Bool) (obs : List Scene) (o : Scene)
    (ho : o ∈ obs) (hu : ClearUsable bC2 o) : ∃ c ∈ dedup bC2 none obs, c.date = o.date := by
  rcases dedup_complete_aux bC2 none obs o ho hu with h | h
  · cases h
  · exact h

end Pycold
