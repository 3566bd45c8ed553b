import Verif.Proof.SccdSeq
/-!
# S-CCD: sequences of calls, continued
-/
namespace Pycold.Sccd
open Spec
variable {V F R M : Type}

/-- The first call never ends in mode 5. -/
theorem from_void (E : Env V F R M) {p q : Pack F R M} (h : Promise E.conse p) (hc : 0 < E.conse)
    (hc8 : E.conse ≤ 8) (model : Option (Model F)) (hmod : p.mode ≠ 0 → model = p.model)
    (scenes : List Scene) (hq : ∀ o ∈ scenes, KnownQa o.qa)
    (e : (sccd E { p with model := model } scenes >>= packOut) = .ok q) (hq5 : q.mode = 5) :
    p.mode ≠ 0 := by
  intro h0
  have hm := h.modes
  have hst : stored p.mode model p.queue = .ok (pending p) := by
    simp [stored, h0, isQueueMode, isMonitorMode, pending]
  rw [sccd_eq E { p with model := model } scenes hm hq hst] at e
  simp only at e
  obtain ⟨ys, hys, hsub⟩ := append_prefix (fresh E.bC2 (snowBranch E p.mode scenes) scenes) (pending p)
  rw [hys] at e
  by_cases hb : snowBranch E p.mode scenes = true
  · obtain ⟨out, eo, hr, hrm, hrn, hcase⟩ := snow_cases (E.num p.minRmse) h model hmod (.inl h0) ys
    simp only [hb, if_true, eo, bind, Except.bind] at e
    have := (packOut_fields e).1
    simp only at this
    rcases hcase with ⟨e4, _⟩ | ⟨e3, _⟩ <;> omega
  · have hns : p.mode ≠ 3 ∧ p.mode ≠ 4 := by omega
    have hb' : snowBranch E p.mode scenes = false := by simpa using hb
    simp only [hb', Bool.false_eq_true, if_false] at e
    by_cases hl : (pending p ++ ys).length > (pending p).length
    · simp only [hl, if_true] at e
      have g := given_false h hc8 hns model hmod ys
      generalize (if (p.recs.isEmpty && decide (p.mode = 0)) = true then E.variogram (pending p ++ ys) else p.minRmse) = rm at e
      rcases standard_cases (E.num rm) p.queue hc g with
        ⟨out, s, s0, eo, e0, eL, inv, run, hdr, hsh, res⟩ | ⟨eo, _⟩
      · simp only [eo, bind, Except.bind] at e
        have hm' := (packOut_fields e).1
        simp only at hm'
        obtain ⟨s0', e0', _, _, _, _, _, c0, _⟩ := initSt_inv g
        rw [e0] at e0'
        cases e0'
        rcases (res.five (by omega)).2.2 with h' | h'
        · rw [run.zero h0, c0] at h'; simp at h'
        · omega
      · simp only [eo, bind, Except.bind] at e
        cases e
    · simp only [hl, if_false, bind, Except.bind] at e
      have := (packOut_fields e).1
      simp only at this
      omega

theorem start_settled (E : Env V F R M) (m0 : M) : Settled E.conse E.num (start m0 : Pack F R M) := by
  constructor <;> simp [start]

theorem History.settled {E : Env V F R M} {ok : Pack F R M → Prop} (hc : 0 < E.conse) (hc8 : E.conse ≤ 8)
    {p : Pack F R M} {all : List Obs} (h : History E ok p all) : Settled E.conse E.num p := by
  induction h with
  | void m0 => exact start_settled E m0
  | detect m0 z scenes q e _ =>
    obtain ⟨_, hq, ec⟩ := detect_call E e
    have hP : Promise E.conse (start m0 : Pack F R M) := start_promise E.conse m0
    exact settled_call E hP hc hc8 (some z) (by simp [start]) scenes hq (start_settled E m0) ec
      (from_void E hP hc hc8 (some z) (by simp [start]) scenes hq ec)
  | update p q all scenes hp e _ ih =>
    have hP := hp.promise hc hc8
    obtain ⟨_, hq, ec⟩ := update_call E hP e
    exact settled_call E hP hc hc8 p.model (fun _ => rfl) scenes hq ih ec
      (from_void E hP hc hc8 p.model (fun _ => rfl) scenes hq ec)
  | identify p q all a d _ e _ ih =>
    rcases identify_keeps e with rfl | ⟨h1, rfl⟩
    · exact ih
    · exact ⟨ih.queue, ih.tail, by simp, by simp⟩

theorem History.voidNone {E : Env V F R M} {ok : Pack F R M → Prop} (hc : 0 < E.conse) (hc8 : E.conse ≤ 8)
    {p : Pack F R M} {all : List Obs} (h : History E ok p all) : p.mode = 0 → p.removed = [] := by
  have key : ∀ (p q : Pack F R M) (model : Option (Model F)) (scenes : List Scene), Promise E.conse p →
      (p.mode ≠ 0 → model = p.model) → (∀ o ∈ scenes, KnownQa o.qa) → p.mode = 0 → p.removed = [] →
      (sccd E { p with model := model } scenes >>= packOut) = .ok q → q.mode = 0 → q.removed = [] := by
    intro p q model scenes hP hmod hq h0 hr ec hq0
    have hf := void_call E hP hc hc8 model hmod scenes hq h0 ec hq0
    have hst : stored p.mode model p.queue = .ok (pending p) := by
      simp [stored, h0, isQueueMode, isMonitorMode, pending]
    rw [sccd_eq E { p with model := model } scenes hP.modes hq hst] at ec
    have hpn : pending p = [] := by simp [pending, h0]
    simp only [hf, hpn] at ec
    simp only [append] at ec
    by_cases hb : snowBranch E p.mode scenes = true
    · obtain ⟨out, eo, _, _, _, hcase⟩ := snow_cases (E.num p.minRmse) hP model hmod (.inl h0) []
      rw [hpn] at eo
      simp only [hb, if_true, List.append_nil] at ec eo
      simp only [eo, bind, Except.bind] at ec
      have := (packOut_fields ec).1
      simp only at this
      rcases hcase with ⟨e4, _⟩ | ⟨e3, _⟩ <;> omega
    · have hb' : snowBranch E p.mode scenes = false := by simpa using hb
      simp only [hb', Bool.false_eq_true, if_false, bind, Except.bind] at ec
      simp only [gt_iff_lt, Nat.lt_irrefl, if_false] at ec
      rw [packOut_same hP model hmod] at ec
      cases ec; exact hr
  induction h with
  | void m0 => intro _; rfl
  | detect m0 z scenes q e _ =>
    intro h0
    obtain ⟨_, hq, ec⟩ := detect_call E e
    exact key (start m0) q (some z) scenes (start_promise E.conse m0) (by simp [start]) hq rfl rfl ec h0
  | update p q all scenes hp e _ ih =>
    intro h0
    have hP := hp.promise hc hc8
    obtain ⟨_, hq, ec⟩ := update_call E hP e
    have hp0 : p.mode = 0 := by
      rcases call_cases E hP hc hc8 p.model (fun _ => rfl) scenes hq with ⟨q', e', _, hnz, _⟩ | ⟨e', _⟩
      · rw [ec] at e'; cases e'
        by_cases hpm : p.mode = 0
        · exact hpm
        · exact absurd h0 (hnz hpm)
      · rw [ec] at e'; simp at e'
    exact key p q p.model scenes hP (fun _ => rfl) hq hp0 (ih hp0) ec h0
  | identify p q all a d _ e _ ih =>
    intro h0
    rcases identify_keeps e with rfl | ⟨h1, rfl⟩
    · exact ih h0
    · simp at h0

theorem start_ledger (m0 : M) : Ledger (start m0 : Pack F R M) [] := by
  refine ⟨?_, ?_, ?_, ?_, ?_, ?_, ?_, ?_, ?_⟩ <;>
    simp [start, holds, flat, monitored, pending, RecsOk, Chrono]

theorem identify_ledger {a : Ask F} {p q : Pack F R M} {d : Int} {all : List Obs} (L : Ledger p all)
    (e : identify a p = .ok (q, d)) : Ledger q all := by
  rcases identify_keeps e with rfl | ⟨h1, rfl⟩
  · exact L
  · have hmon : monitored { p with mode := 11 } = monitored p := by simp [monitored, h1]
    have hpen : pending { p with mode := 11 } = pending p := by simp [pending, h1]
    have hh : holds { p with mode := 11 } = holds p := by simp only [holds, hmon, hpen]
    exact
      { sub := by rw [hh]; exact L.sub
        perm := by rw [hh]; exact L.perm
        recs := L.recs
        chrono := by rw [hmon, hpen]; exact L.chrono
        year := L.year
        model := fun _ => L.model (.inl h1)
        void := by simp
        snow := by simp
        snowModel := by simp }

theorem History.ledger {E : Env V F R M} {ok : Pack F R M → Prop} (hc : 0 < E.conse) (hc8 : E.conse ≤ 8)
    (hok : ∀ q, ok q → q.queue.length < 240 ∧ (q.mode = 1 ∨ q.mode = 11 → E.conse = 8))
    {p : Pack F R M} {all : List Obs} (h : History E ok p all) (hasc : Asc all) (hcod : Codable all)
    (hlen : all.length ≤ 32767) : Ledger p all := by
  induction h with
  | void m0 => exact start_ledger m0
  | detect m0 z scenes q e hq' =>
    obtain ⟨_, hq, ec⟩ := detect_call E e
    have := ledger_call E (start_promise E.conse m0) hc hc8 (some z) (by simp [start]) scenes hq
      (start_ledger m0) (by simp [start]) hasc hcod hlen ec (hok q hq').2 (hok q hq').1
    exact this
  | update p q all scenes hp e hq' ih =>
    have hP := hp.promise hc hc8
    obtain ⟨_, hq, ec⟩ := update_call E hP e
    have L := ih (hasc.sublist (List.sublist_append_left _ _)) (hcod.sublist (List.sublist_append_left _ _))
      (by simp only [List.length_append] at hlen; omega)
    exact ledger_call E hP hc hc8 p.model (fun _ => rfl) scenes hq L (hp.voidNone hc hc8) hasc hcod hlen ec
      (hok q hq').2 (hok q hq').1
  | identify p q all a d _ e _ ih => exact identify_ledger (ih hasc hcod hlen) e

/-- A call that brings nothing changes nothing. -/
theorem nothing_call (E : Env V F R M) {p : Pack F R M} (h : Promise E.conse p) (S : Settled E.conse E.num p)
    (hN : ∀ rm f, (E.num rm).narrow ((E.num rm).narrow f) = (E.num rm).narrow f)
    (hsn : E.snowPct 0 0 = false) (scenes : List Scene) (hq : ∀ o ∈ scenes, KnownQa o.qa)
    (hnone : append (pending p) (fresh E.bC2 (snowBranch E p.mode scenes) scenes) = pending p) :
    (sccd E p scenes >>= packOut) = .ok p := by
  rw [sccd_eq E p scenes h.modes hq (stored_ok h)]
  simp only [hnone]
  by_cases hb : snowBranch E p.mode scenes = true
  · have hs : p.mode = 0 ∨ p.mode = 3 ∨ p.mode = 4 := by
      simp only [snowBranch] at hb
      by_cases h0 : p.mode = 0
      · exact .inl h0
      · simp [h0] at hb
        exact .inr hb
    have h0 : p.mode ≠ 0 := by
      intro h0
      have hpn : pending p = [] := by simp [pending, h0]
      have hf : fresh E.bC2 true scenes = [] := by
        rw [hb, hpn] at hnone
        cases hx : fresh E.bC2 true scenes with
        | nil => rfl
        | cons x xs => rw [hx] at hnone; exact absurd hnone (append_ne_nil _ _ (.inr (by simp)))
      have hf' : ∀ o ∈ scenes, ¬ (o.qa = 3 ∨ o.qa < 2) := by
        intro o ho hw
        have : toObs o ∈ fresh E.bC2 true scenes :=
          List.mem_map_of_mem (List.mem_filter.mpr ⟨ho, by simp [Wanted, hw]⟩)
        rw [hf] at this
        simp at this
      have hc3 : qaCount scenes 3 = 0 := by
        rw [qaCount, List.countP_eq_zero]
        intro o ho; have := hf' o ho; simp; omega
      have hc0 : qaCount scenes 0 = 0 := by
        rw [qaCount, List.countP_eq_zero]
        intro o ho; have := hf' o ho; simp; omega
      have hc1 : qaCount scenes 1 = 0 := by
        rw [qaCount, List.countP_eq_zero]
        intro o ho; have := hf' o ho; simp; omega
      simp [snowBranch, h0, hc3, hc0, hc1, hsn] at hb
    simp only [hb, if_true]
    have hr := h.snow (by rcases hs with e | e | e <;> simp_all)
    obtain ⟨mode, recs, rm, mod, queue, rem⟩ := p
    simp only at *
    rcases hs with e | e | e
    · exact absurd e h0
    · subst e
      obtain ⟨⟨m, em, hm8⟩, hqe⟩ := h.monitor (by simp)
      simp only at em hqe
      subst em hqe
      obtain ⟨s1, s2, s3, s4, f, s5⟩ := S.snowModel rfl m rfl
      have hfx : Fixed m.obs := (S.tail m rfl).1
      have hp : pending (F := F) (R := R) (M := M) ⟨3, recs, rm, some m, [], rem⟩ = m.obs.map decode := by
        simp [pending]
      have hl : (m.obs.map decode).length = 8 := by simp [hm8]
      rw [hp]
      unfold snow
      simp only [show ¬ (3 = 4 ∨ 3 = 0) by decide, if_false, hl, show ¬ (8 < NCONSE) by decide,
        show 8 - NCONSE = 0 by decide, List.take_zero, List.drop_zero, List.append_nil,
        fixed_id hfx, snowFilters, bind, Except.bind, packOut]
      have e1 : (E.num rm).narrow m.filt = m.filt := by rw [s5, hN]
      have e2 : toShort (m.numObs + ((8 : Nat) : Int) - ((NCONSE : Nat) : Int)) = m.numObs := by
        rw [show m.numObs + ((8 : Nat) : Int) - ((NCONSE : Nat) : Int) = m.numObs by simp only [NCONSE]; omega, s4]
      simp only [e1, e2, hr]
      obtain ⟨m1, m2, m3, m4, m5, m6, m7, m8, m9⟩ := m
      simp only at s1 s2 s3
      subst s1 s2 s3
      rfl
    · subst e
      have hmn := h.queue (by simp)
      simp only at hmn
      subst hmn
      have hl : queue.length < 18 := S.snowQueue rfl
      have hp : pending (F := F) (R := R) (M := M) ⟨4, recs, rm, none, queue, rem⟩ = queue.map decode := by
        simp [pending]
      rw [hp]
      unfold snow
      have hl' : (queue.map decode).length < MIN_OBS := by simpa [MIN_OBS] using hl
      rw [if_pos (by simp)]
      simp only [if_true, hl', bind, Except.bind, packOut, fixed_id S.queue, List.append_nil]
      rfl
  · have hb' : snowBranch E p.mode scenes = false := by simpa using hb
    simp only [hb', Bool.false_eq_true, if_false, gt_iff_lt, Nat.lt_irrefl, bind, Except.bind]
    exact packOut_same h p.model (fun _ => rfl)

theorem fresh_append (bC2 snow : Bool) (a b : List Scene) :
    fresh bC2 snow (a ++ b) = fresh bC2 snow a ++ fresh bC2 snow b := by
  simp [fresh]

/-- In monitor mode a call is `sccd_standard` on the stored tail and the new observations. -/
theorem monitor_call (E : Env V F R M) {p : Pack F R M} (h : Promise E.conse p) (hm : p.mode = 1 ∨ p.mode = 11)
    {m : Model F} (em : p.model = some m) (scenes : List Scene) (hq : ∀ o ∈ scenes, KnownQa o.qa)
    (hasc : Asc (pending p ++ fresh E.bC2 false scenes)) :
    (sccd E p scenes >>= packOut) =
      if fresh E.bC2 false scenes = [] then .ok p
      else (standard (E.num p.minRmse) E.conse p.mode (some m) p.recs [] (pending p ++ fresh E.bC2 false scenes)
        >>= fun r => packOut ⟨r.mode, r.recs, p.minRmse, r.model, r.queue, p.removed ++ r.removed⟩) := by
  have hb : snowBranch E p.mode scenes = false := by
    rcases hm with e | e <;> simp [snowBranch, e]
  have hqe : p.queue = [] := (h.monitor (by rcases hm with e | e <;> simp [e])).2
  rw [sccd_eq E p scenes h.modes hq (stored_ok h)]
  simp only [hb, append_asc _ _ hasc]
  have h0 : (p.recs.isEmpty && decide (p.mode = 0)) = false := by
    rcases hm with e | e <;> simp [e]
  simp only [h0, Bool.false_eq_true, if_false]
  by_cases hf : fresh E.bC2 false scenes = []
  · simp only [hf, if_true, List.append_nil, gt_iff_lt, Nat.lt_irrefl, if_false, bind, Except.bind]
    exact packOut_same h p.model (fun _ => rfl)
  · have hl : (pending p ++ fresh E.bC2 false scenes).length > (pending p).length := by
      have := List.length_pos_iff.mpr hf
      simp only [List.length_append]; omega
    simp only [hl, if_true, hf, if_false, em, hqe]
    cases standard (E.num p.minRmse) E.conse p.mode (some m) p.recs [] (pending p ++ fresh E.bC2 false scenes) <;> rfl

end Pycold.Sccd
