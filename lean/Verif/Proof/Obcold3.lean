import Verif.Proof.Obcold2
import Verif.Proof.Preprocess
/-! The clear observations of the reconstruction, and the procedure as a whole. -/
namespace Pycold.Obcold

open Pycold.Spec

/-- Reference form of the extraction 5502–5536: screened with `bC2`, thermal value as without. -/
def pick (bC2 : Bool) : Option Int → List Scene → List ClrObs
  | _, [] => []
  | last, o :: os =>
    if clrFlag bC2 o then
      if some o.date = last then pick bC2 last os
      else toClr false o :: pick bC2 (some o.date) os
    else pick bC2 last os

theorem clrLoop_pick (bC2 : Bool) (obs : List Scene) (acc : List ClrObs) :
    clrLoop false obs (obs.map (idRange bC2)) acc =
      acc ++ pick bC2 (acc.getLast?.map (·.date)) obs := by
  induction obs generalizing acc with
  | nil => simp [clrLoop, pick]
  | cons o os ih =>
    simp only [List.map_cons, clrLoop, pick, clrStep]
    rw [show (decide (o.qa < 2) && idRange bC2 o) = clrFlag bC2 o from rfl]
    by_cases hc : clrFlag bC2 o = true
    · simp only [hc, if_true]
      by_cases hl : some o.date = acc.getLast?.map (·.date)
      · have hpos : acc.length > 0 := by
          cases acc with
          | nil => simp at hl
          | cons a l => simp
        rw [if_pos (by simp [hpos, hl]), if_pos hl]
        exact ih acc
      · rw [if_neg (by simp [hl]), if_neg hl]
        rw [ih]
        simp [clrBands_eq, toClr]
    · simp only [hc]
      exact ih acc

theorem pick_dates_mem (bC2 : Bool) (last : Option Int) (obs : List Scene) (c : ClrObs)
    (hc : c ∈ pick bC2 last obs) : ∃ o ∈ obs, c.date = o.date := by
  induction obs generalizing last with
  | nil => simp [pick] at hc
  | cons o os ih =>
    unfold pick at hc
    split at hc
    · split at hc
      · obtain ⟨p, hp, h⟩ := ih _ hc
        exact ⟨p, by simp [hp], h⟩
      · rcases List.mem_cons.mp hc with rfl | hc
        · exact ⟨o, by simp, rfl⟩
        · obtain ⟨p, hp, h⟩ := ih _ hc
          exact ⟨p, by simp [hp], h⟩
    · obtain ⟨p, hp, h⟩ := ih _ hc
      exact ⟨p, by simp [hp], h⟩

theorem pick_ne_last (bC2 : Bool) (d : Int) (obs : List Scene)
    (hd : DatesInOrder obs) (hge : ∀ o ∈ obs, d ≤ o.date) (c : ClrObs)
    (hc : c ∈ pick bC2 (some d) obs) : d < c.date := by
  induction obs with
  | nil => simp [pick] at hc
  | cons o os ih =>
    have hd' := List.pairwise_cons.mp hd
    unfold pick at hc
    by_cases h1 : clrFlag bC2 o = true
    · rw [if_pos h1] at hc
      by_cases h2 : some o.date = some d
      · rw [if_pos h2] at hc
        exact ih hd'.2 (fun p hp => hge p (by simp [hp])) hc
      · rw [if_neg h2] at hc
        have ho := hge o (by simp)
        have hne : o.date ≠ d := fun e => h2 (by rw [e])
        rcases List.mem_cons.mp hc with rfl | hc
        · show d < o.date
          omega
        · obtain ⟨p, hp, he⟩ := pick_dates_mem _ _ _ _ hc
          have := hd'.1 p hp
          omega
    · rw [if_neg h1] at hc
      exact ih hd'.2 (fun p hp => hge p (by simp [hp])) hc

theorem pick_strict (bC2 : Bool) (obs : List Scene) (hd : DatesInOrder obs)
    (last : Option Int := none) :
    (pick bC2 last obs).Pairwise (fun x y => x.date < y.date) := by
  induction obs generalizing last with
  | nil => simp [pick]
  | cons o os ih =>
    have hd' := List.pairwise_cons.mp hd
    unfold pick
    split
    · split
      · exact ih hd'.2 last
      · rw [List.pairwise_cons]
        refine ⟨?_, ih hd'.2 _⟩
        intro c hc
        exact pick_ne_last bC2 o.date os hd'.2 hd'.1 c hc
    · exact ih hd'.2 last

theorem pick_mem_aux (bC2 : Bool) (last : Option Int) (obs : List Scene)
    (hd : DatesInOrder obs) (hge : ∀ d, last = some d → ∀ o ∈ obs, d ≤ o.date) (c : ClrObs) :
    c ∈ pick bC2 last obs ↔
      ∃ (i : Nat) (o : Scene), obs[i]? = some o ∧ ClearUsable bC2 o ∧ c = toClr false o ∧ last ≠ some o.date ∧
        ∀ (j : Nat) (p : Scene), j < i → obs[j]? = some p → ClearUsable bC2 p → p.date ≠ o.date := by
  induction obs generalizing last with
  | nil => simp [pick]
  | cons o os ih =>
    have hd' := List.pairwise_cons.mp hd
    unfold pick
    by_cases h1 : clrFlag bC2 o = true
    · have hcu := (clrFlag_iff bC2 o).mp h1
      rw [if_pos h1]
      by_cases h2 : some o.date = last
      · rw [if_pos h2, ih last hd'.2 (fun d hdd p hp => hge d hdd p (by simp [hp]))]
        constructor
        · rintro ⟨i, p, hp, hcup, hc, hl, hall⟩
          refine ⟨i + 1, p, by simpa using hp, hcup, hc, hl, ?_⟩
          intro j q hj hq hcq
          cases j with
          | zero =>
            simp at hq; subst hq
            intro e; apply hl; rw [← h2, e]
          | succ j => exact hall j q (by omega) (by simpa using hq) hcq
        · rintro ⟨i, p, hp, hcup, hc, hl, hall⟩
          cases i with
          | zero =>
            simp at hp; subst hp
            exact absurd h2.symm hl
          | succ i =>
            refine ⟨i, p, by simpa using hp, hcup, hc, hl, ?_⟩
            intro j q hj hq hcq
            exact hall (j + 1) q (by omega) (by simpa using hq) hcq
      · rw [if_neg h2, List.mem_cons,
          ih (some o.date) hd'.2 (fun d hdd p hp => by cases hdd; exact hd'.1 p hp)]
        constructor
        · rintro (rfl | ⟨i, p, hp, hcup, hc, hl, hall⟩)
          · exact ⟨0, o, by simp, hcu, rfl, fun e => h2 e.symm, by intro j p hj; omega⟩
          · refine ⟨i + 1, p, by simpa using hp, hcup, hc, ?_, ?_⟩
            · intro e
              have hpm : p ∈ os := List.mem_of_getElem? hp
              have a1 := hge p.date e o (by simp)
              have a2 := hd'.1 p hpm
              apply hl; congr 1; omega
            · intro j q hj hq hcq
              cases j with
              | zero =>
                simp at hq; subst hq
                intro e; apply hl; rw [e]
              | succ j => exact hall j q (by omega) (by simpa using hq) hcq
        · rintro ⟨i, p, hp, hcup, hc, hl, hall⟩
          cases i with
          | zero => simp at hp; subst hp; exact Or.inl hc
          | succ i =>
            refine Or.inr ⟨i, p, by simpa using hp, hcup, hc, ?_, ?_⟩
            · intro e
              have e' : o.date = p.date := by simpa using e
              exact hall 0 o (by omega) (by simp) hcu e'
            · intro j q hj hq hcq
              exact hall (j + 1) q (by omega) (by simpa using hq) hcq
    · rw [if_neg h1, ih last hd'.2 (fun d hdd p hp => hge d hdd p (by simp [hp]))]
      have hncu : ¬ ClearUsable bC2 o := fun h => h1 ((clrFlag_iff bC2 o).mpr h)
      constructor
      · rintro ⟨i, p, hp, hcup, hc, hl, hall⟩
        refine ⟨i + 1, p, by simpa using hp, hcup, hc, hl, ?_⟩
        intro j q hj hq hcq
        cases j with
        | zero => simp at hq; subst hq; exact absurd hcq hncu
        | succ j => exact hall j q (by omega) (by simpa using hq) hcq
      · rintro ⟨i, p, hp, hcup, hc, hl, hall⟩
        cases i with
        | zero => simp at hp; subst hp; exact absurd hcup hncu
        | succ i =>
          refine ⟨i, p, by simpa using hp, hcup, hc, hl, ?_⟩
          intro j q hj hq hcq
          exact hall (j + 1) q (by omega) (by simpa using hq) hcq

theorem pick_mem (bC2 : Bool) (obs : List Scene) (hd : DatesInOrder obs) (c : ClrObs) :
    c ∈ pick bC2 none obs ↔
      ∃ (i : Nat) (o : Scene), obs[i]? = some o ∧ ClearUsable bC2 o ∧ c = toClr false o ∧
        ∀ (j : Nat) (p : Scene), j < i → obs[j]? = some p → ClearUsable bC2 p → p.date ≠ o.date := by
  rw [pick_mem_aux bC2 none obs hd (by simp)]
  simp


section
open Pycold.Obcold.Spec

variable {R M : Type}

theorem clear_ok (bC2 : Bool) (scenes : List Scene) (hok : (preprocessing bC2 scenes).status = .success)
    (hd : DatesInOrder scenes) :
    ClearSeries bC2 scenes (clrLoop false scenes (preprocessing bC2 scenes).idr []) := by
  have h1 := (preLoop_success bC2 scenes {} hok).1
  have h2 : clrLoop false scenes (preprocessing bC2 scenes).idr [] = pick bC2 none scenes := by
    unfold preprocessing
    rw [h1, clrLoop_pick]; simp
  rw [h2]
  exact ⟨pick_strict bC2 scenes hd, fun c => pick_mem bC2 scenes hd c⟩

theorem clear_unique {bC2 : Bool} {scenes : List Scene} {a b : List ClrObs} (ha : ClearSeries bC2 scenes a)
    (hb : ClearSeries bC2 scenes b) : a = b := by
  have hm : ∀ c, c ∈ a ↔ c ∈ b := fun c => (ha.mem c).trans (hb.mem c).symm
  have key : ∀ (l m : List ClrObs), Asc l → Asc m → (∀ c, c ∈ l ↔ c ∈ m) → l = m := by
    intro l
    induction l with
    | nil =>
      intro m _ _ h
      cases m with
      | nil => rfl
      | cons y ys => have := (h y).mpr (by simp); simp at this
    | cons x xs ih =>
      intro m hl hm h
      cases m with
      | nil => have := (h x).mp (by simp); simp at this
      | cons y ys =>
        have hl' := List.pairwise_cons.mp hl
        have hm' := List.pairwise_cons.mp hm
        have hxy : x = y := by
          rcases List.mem_cons.mp ((h x).mp (by simp)) with e | e
          · exact e
          · rcases List.mem_cons.mp ((h y).mpr (by simp)) with e' | e'
            · exact e'.symm
            · have := hm'.1 x e; have := hl'.1 y e'; omega
        subst hxy
        rw [ih ys hl'.2 hm'.2 ?_]
        intro c
        have hc := h c
        simp only [List.mem_cons] at hc
        constructor
        · intro hcx
          rcases hc.mp (Or.inr hcx) with e | e
          · subst e; have := hl'.1 c hcx; omega
          · exact e
        · intro hcy
          rcases hc.mpr (Or.inr hcy) with e | e
          · subst e; have := hm'.1 c hcy; omega
          · exact e
  exact key a b ha.asc hb.asc hm

/-- What the procedure does once the input has been checked. -/
theorem reconstruct_ok {E : List ClrObs → Env R M} {garbage : Bool} {conse : Nat} {bC2 : Bool}
    {scenes : List Scene} {breaks : List Int} (h1 : scenes ≠ []) (h2 : breaks ≠ []) (hd : DatesInOrder scenes)
    (hq : ∀ o ∈ scenes, KnownQa o.qa) :
    ∃ clear acc, ClearSeries bC2 scenes clear ∧ Accepts breaks acc ∧
      ((qaCount scenes 0 + qaCount scenes 1 < 24 ∧ reconstruct E garbage conse bC2 scenes breaks =
          viaFallback garbage bC2 scenes (scenes.map (idRange bC2))) ∨
       (24 ≤ qaCount scenes 0 + qaCount scenes 1 ∧
        ((∃ rs, Follows (E clear) conse clear none acc rs ∧ reconstruct E garbage conse bC2 scenes breaks =
            if rs = [] then viaFallback garbage bC2 scenes (scenes.map (idRange bC2))
            else .ok (.segments (closeLast rs))) ∨
         (reconstruct E garbage conse bC2 scenes breaks = .error .uninit ∧
            ∃ b ∈ acc, ∀ o ∈ clear, (9999999 : Int) ≤ (o.date - b).natAbs) ∨
         (reconstruct E garbage conse bC2 scenes breaks = .error .overrun ∧ Cold.NUM_FC ≤ acc.length)))) := by
  have hok : (preprocessing bC2 scenes).status = .success := (preLoop_status bC2 scenes {}).1.mpr hq
  have hcl := clear_ok bC2 scenes hok hd
  obtain ⟨hidr, hsum⟩ := preLoop_success bC2 scenes {} hok
  obtain ⟨ds, hds, hsort, hperm⟩ := sortDates_ok breaks h2
  have hacc := accepts hsort hperm
  have hdc : dateCheckFails scenes = false := (dateCheckFails_false_iff scenes).mpr hd
  refine ⟨_, _, hcl, hacc, ?_⟩
  have hclear : (preprocessing bC2 scenes).sums.clear = qaCount scenes 0 + qaCount scenes 1 := by
    show (preLoop bC2 scenes {}).sums.clear = _
    rw [hsum]; simp
  have hidr' : (preprocessing bC2 scenes).idr = scenes.map (idRange bC2) := hidr
  have hstart : reconstruct E garbage conse bC2 scenes breaks =
      if qaCount scenes 0 + qaCount scenes 1 < 24 then
        viaFallback garbage bC2 scenes (scenes.map (idRange bC2))
      else
        (segments (E (clrLoop false scenes (preprocessing bC2 scenes).idr [])) conse (acceptBreaks 0 ds)
          ⟨clrLoop false scenes (preprocessing bC2 scenes).idr [], 0, []⟩).bind fun s =>
            if s.recs = [] then viaFallback garbage bC2 scenes (scenes.map (idRange bC2))
            else .ok (.segments (closeLast s.recs)) := by
    unfold reconstruct
    rw [if_neg (by simp [h1, h2]), if_neg (by simp [hdc])]
    simp only [hok, hclear, hds, bind, Except.bind, hidr']
    simp
  rw [hstart]
  by_cases h24 : qaCount scenes 0 + qaCount scenes 1 < 24
  · left; exact ⟨h24, by rw [if_pos h24]⟩
  · right
    refine ⟨by omega, ?_⟩
    rw [if_neg h24]
    have hI : Inv (R := R) (M := M) (clrLoop false scenes (preprocessing bC2 scenes).idr []) (acceptBreaks 0 ds)
        (acceptBreaks 0 ds) ⟨clrLoop false scenes (preprocessing bC2 scenes).idr [], 0, []⟩ :=
      ⟨List.Sublist.refl _, fun o ho hn => absurd ho hn, Or.inl ⟨rfl, rfl, rfl⟩, by simp⟩
    rcases segments_ok (E := E (clrLoop false scenes (preprocessing bC2 scenes).idr [])) (conse := conse)
        hcl.asc (acceptBreaks 0 ds) _ (hacc.apart.imp (fun {a b} h => by omega)) hI with
      ⟨s', rs, g1, g2, g3⟩ | ⟨g1, b, g2, g3⟩ | ⟨g1, g2⟩
    · left
      refine ⟨rs, g3, ?_⟩
      rw [g1]
      simp only [List.nil_append] at g2
      simp only [Except.bind, g2]
    · right; left; exact ⟨by rw [g1]; rfl, b, g2, g3⟩
    · right; right; exact ⟨by rw [g1]; rfl, g2⟩

theorem follows_length {E : Env R M} {conse : Nat} {clear : List ClrObs} {lo : Option Int} {bs : List Int}
    {rs : List (Rec R M)} (h : Follows E conse clear lo bs rs) : rs.length ≤ bs.length + 1 := by
  induction h with
  | rest _ => simp
  | last _ => simp
  | skip _ _ _ ih => simp only [List.length_cons]; omega
  | brk _ _ _ ih => simp only [List.length_cons]; omega

theorem seg_mem {E : Env R M} {clear : List ClrObs} {r : Rec R M} (h : SegOk E clear r) :
    (∃ o ∈ r.fitted, o.date = r.tStart) ∧ (∃ o ∈ r.fitted, o.date = r.tEnd) := by
  constructor
  · obtain ⟨o, ho, he⟩ := Option.map_eq_some_iff.mp h.start
    exact ⟨o, List.mem_of_head? ho, he⟩
  · obtain ⟨o, ho, he⟩ := Option.map_eq_some_iff.mp h.stop
    exact ⟨o, List.mem_of_getLast? ho, he⟩

theorem seg_le {E : Env R M} {clear : List ClrObs} (hasc : Asc clear) {r : Rec R M} (h : SegOk E clear r) :
    r.tStart < r.tEnd := by
  have ha : Asc r.fitted := hasc.sublist h.sub
  have h6 := h.six
  obtain ⟨o, ho, he⟩ := Option.map_eq_some_iff.mp h.start
  obtain ⟨p, hp, he'⟩ := Option.map_eq_some_iff.mp h.stop
  rw [List.head?_eq_getElem?] at ho
  rw [List.getLast?_eq_getElem?] at hp
  have := asc_get ha ho hp (by omega)
  rw [← he, ← he']; exact this

theorem mem_span {clear : List ClrObs} {lo hi : Option Int} {o : ClrObs} (h : o ∈ span clear lo hi) :
    o ∈ clear ∧ (∀ l, lo = some l → l ≤ o.date) ∧ (∀ u, hi = some u → o.date < u) := by
  simp only [span, List.mem_filter, Bool.and_eq_true] at h
  refine ⟨h.1, ?_, ?_⟩
  · rintro l rfl; simpa using h.2.1
  · rintro u rfl; simpa using h.2.2

/-- Order of the segments. -/
theorem follows_order {E : Env R M} {conse : Nat} {clear : List ClrObs} (hasc : Asc clear) {lo : Option Int}
    {bs : List Int} {rs : List (Rec R M)} (h : Follows E conse clear lo bs rs) :
    (∀ r ∈ rs, SegOk E clear r ∧ (∀ l, lo = some l → l ≤ r.tStart)) ∧
    rs.Pairwise (fun a b => a.tEnd < a.tBreak ∧ a.tBreak ≤ b.tStart ∧ a.changeProb = 100 ∧
      a.tBreak ∈ clear.map (·.date)) := by
  induction h with
  | rest _ => simp
  | @last lo r h =>
    refine ⟨?_, by simp⟩
    intro x hx
    simp only [List.mem_singleton] at hx
    subst hx
    refine ⟨h.ok, fun l hl => ?_⟩
    obtain ⟨⟨o, ho, he⟩, _⟩ := seg_mem h.ok
    rw [h.fit] at ho
    rw [← he]; exact (mem_span ho).2.1 l hl
  | skip _ _ _ ih => exact ih
  | @brk lo b bs d r rs hn hc _ ih =>
    obtain ⟨⟨o, ho, he⟩, ⟨p, hp, hpe⟩⟩ := seg_mem hc.ok
    rw [hc.fit] at ho hp
    have ho' := mem_span ((usable_sublist _ _).subset ho)
    have hp' := mem_span ((usable_sublist _ _).subset hp)
    have hs : ∀ l, lo = some l → l ≤ r.tStart := fun l hl => by rw [← he]; exact ho'.2.1 l hl
    have hlt := seg_le hasc hc.ok
    have hend : r.tEnd < d := by rw [← hpe]; exact hp'.2.2 d rfl
    refine ⟨?_, ?_⟩
    · intro x hx
      rcases List.mem_cons.mp hx with rfl | hx
      · exact ⟨hc.ok, hs⟩
      · obtain ⟨i1, i2⟩ := ih.1 x hx
        refine ⟨i1, fun l hl => ?_⟩
        have := i2 d rfl
        have := hs l hl
        omega
    · refine List.pairwise_cons.mpr ⟨?_, ih.2⟩
      intro x hx
      obtain ⟨i1, i2⟩ := ih.1 x hx
      rw [hc.brk]
      exact ⟨hend, i2 d rfl, hc.prob, hn.1⟩

end

end Pycold.Obcold
