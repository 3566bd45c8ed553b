import Verif.Proof.SccdCall
import Verif.Proof.Preprocess
/-!
# S-CCD: whole calls on packs
-/
namespace Pycold.Sccd
open Spec
variable {V F R M : Type}

theorem accepted_eq (bC2 snow : Bool) : ∀ scenes : List Scene,
    accepted snow scenes (scenes.map (idRange bC2)) = fresh bC2 snow scenes
  | [] => rfl
  | o :: os => by
    have ih := accepted_eq bC2 snow os
    have hw : (if snow = true then decide (o.qa = CFMASK_SNOW) || decide (o.qa < 2)
        else decide (o.qa < 2) && idRange bC2 o) = decide (Wanted bC2 snow o) := by
      cases snow
      · have := idRange_iff bC2 o
        simp only [Wanted, ClearUsable, Bool.false_eq_true, if_false]
        by_cases h : idRange bC2 o = true
        · simp [h, this.mp h]
        · have h' : ¬ Usable bC2 o := fun hu => h (this.mpr hu)
          simp [h, h']
      · have e : (decide (o.qa = CFMASK_SNOW)) = decide (o.qa = 3) := rfl
        rw [e, Bool.eq_iff_iff]
        simp [Wanted]
    simp only [List.map_cons, accepted, hw, fresh, List.filter_cons]
    simp only [fresh] at ih
    by_cases hd : Wanted bC2 snow o
    · simp [hd, ih]
    · simp [hd, ih]

theorem pre_facts (bC2 : Bool) (scenes : List Scene) (h : ∀ o ∈ scenes, KnownQa o.qa) :
    (preprocessing bC2 scenes).status = .success ∧
    (preprocessing bC2 scenes).idr = scenes.map (idRange bC2) ∧
    (preprocessing bC2 scenes).sums.clear = qaCount scenes 0 + qaCount scenes 1 ∧
    (preprocessing bC2 scenes).sums.snow = qaCount scenes 3 := by
  have hs : (preprocessing bC2 scenes).status = .success := (preLoop_status bC2 scenes {}).1.mpr h
  have h' := preLoop_success bC2 scenes {} hs
  refine ⟨hs, h'.1, ?_, ?_⟩
  · have h2 := h'.2
    simp only [preprocessing, h2, qaCount]
    simp
  · have h2 := h'.2
    simp only [preprocessing, h2, qaCount]
    simp

theorem append_prefix : ∀ (xs acc : List Obs), ∃ ys, append acc xs = acc ++ ys ∧ ys.Sublist xs
  | [], acc => ⟨[], by simp [append], List.Sublist.refl _⟩
  | o :: os, acc => by
    unfold append
    split
    · obtain ⟨ys, e, h⟩ := append_prefix os acc
      exact ⟨ys, e, h.cons _⟩
    · obtain ⟨ys, e, h⟩ := append_prefix os (acc ++ [o])
      exact ⟨o :: ys, by rw [e]; simp, h.cons_cons _⟩

theorem append_asc : ∀ (xs acc : List Obs), Asc (acc ++ xs) → append acc xs = acc ++ xs
  | [], acc, _ => by simp [append]
  | o :: os, acc, h => by
    unfold append
    have hne : (decide (acc.length > 0) && decide (some o.date = acc.getLast?.map (·.date))) = false := by
      cases hq : acc.getLast? with
      | none => simp
      | some a =>
        have hm : a ∈ acc := List.mem_of_getLast? hq
        have := asc_split h a hm o (by simp)
        simp
        intro _
        omega
    rw [hne]
    simp only [Bool.false_eq_true, if_false]
    rw [append_asc os (acc ++ [o]) (by simpa using h)]
    simp

theorem sccd_eq (E : Env V F R M) (p : Pack F R M) (scenes : List Scene)
    (hm : p.mode ∈ [0, 1, 3, 4, 5, 11, 12]) (hq : ∀ o ∈ scenes, KnownQa o.qa) {old : List Obs}
    (ho : stored p.mode p.model p.queue = .ok old) :
    sccd E p scenes =
      let obs := append old (fresh E.bC2 (snowBranch E p.mode scenes) scenes)
      if snowBranch E p.mode scenes then do
        let r ← snow (E.num p.minRmse) p.mode p.model p.recs p.queue obs
        .ok ⟨r.mode, r.recs, p.minRmse, r.model, r.queue, p.removed ++ r.removed⟩
      else if obs.length > old.length then do
        let rm := if p.recs.isEmpty && p.mode = 0 then E.variogram obs else p.minRmse
        let r ← standard (E.num rm) E.conse p.mode p.model p.recs p.queue obs
        .ok ⟨r.mode, r.recs, rm, r.model, r.queue, p.removed ++ r.removed⟩
      else .ok p := by
  have hv : validModes.contains p.mode = true := by
    simp only [List.mem_cons, List.not_mem_nil, or_false] at hm
    rcases hm with h | h | h | h | h | h | h <;> simp [validModes, h]
  obtain ⟨f1, f2, f3, f4⟩ := pre_facts E.bC2 scenes hq
  have hsb : (if p.mode = 0 then E.snowPct (preprocessing E.bC2 scenes).sums.snow
      (preprocessing E.bC2 scenes).sums.clear else (decide (p.mode = 4) || decide (p.mode = 3))) =
      snowBranch E p.mode scenes := by
    simp only [snowBranch, f3, f4]
    split
    · rfl
    · rw [Bool.or_comm]
  unfold sccd
  simp only [hv, f1, ho, bind, Except.bind, f2, hsb, accepted_eq, Bool.not_true, Bool.false_eq_true,
    if_false, ne_eq, not_true_eq_false]

/-- The observations stored in a pack that keeps its promise can be loaded. -/
theorem stored_ok {conse : Nat} {p : Pack F R M} (h : Promise conse p) :
    stored p.mode p.model p.queue = .ok (pending p) := by
  have hm := h.modes
  simp only [List.mem_cons, List.not_mem_nil, or_false] at hm
  rcases hm with e | e | e | e | e | e | e
  · simp [stored, pending, e, isQueueMode, isMonitorMode]
  · obtain ⟨⟨m, hm, _⟩, _⟩ := h.monitor (by simp [e])
    simp [stored, pending, e, isQueueMode, isMonitorMode, hm]
  · obtain ⟨⟨m, hm, _⟩, _⟩ := h.monitor (by simp [e])
    simp [stored, pending, e, isQueueMode, isMonitorMode, hm]
  · simp [stored, pending, e, isQueueMode, isMonitorMode]
  · simp [stored, pending, e, isQueueMode, isMonitorMode]
  · obtain ⟨⟨m, hm, _⟩, _⟩ := h.monitor (by simp [e])
    simp [stored, pending, e, isQueueMode, isMonitorMode, hm]
  · simp [stored, pending, e, isQueueMode, isMonitorMode]

theorem storeQueue_len {obs q : List Obs} {pb : Nat} (h : storeQueue obs pb = .ok q) :
    q.length ≤ 240 ∧ ∀ c, c ≤ 240 → c + pb ≤ obs.length → c ≤ q.length := by
  unfold storeQueue at h
  by_cases hg : obs.length - pb > MAX_QUEUE
  · simp only [hg, if_true] at h
    replace h := Except.ok.inj h
    have hM : MAX_QUEUE = 240 := rfl
    have hL := congrArg List.length h
    simp only [List.length_map, List.length_take, List.length_drop] at hL
    exact ⟨by omega, fun c h1 h2 => by omega⟩
  · simp only [hg, if_false] at h
    replace h := Except.ok.inj h
    have hM : MAX_QUEUE = 240 := rfl
    have hL := congrArg List.length h
    simp only [List.length_map, List.length_take, List.length_drop] at hL
    exact ⟨by omega, fun c h1 h2 => by omega⟩

theorem storeQueue_exact {obs q : List Obs} {pb : Nat} (h : storeQueue obs pb = .ok q)
    (hl : q.length < 240) : q = (obs.drop pb).map encode := by
  unfold storeQueue at h
  by_cases hg : obs.length - pb > MAX_QUEUE
  · simp only [hg, if_true] at h
    replace h := Except.ok.inj h
    have hM : MAX_QUEUE = 240 := rfl
    have hL := congrArg List.length h
    simp only [List.length_map, List.length_take, List.length_drop] at hL
    omega
  · simp only [hg, if_false] at h
    cases h; rfl

/-- The contract of `sccd_standard` without any assumption on the data. -/
theorem given_false {conse : Nat} {p : Pack F R M} (h : Promise conse p) (hc : conse ≤ 8)
    (hns : p.mode ≠ 3 ∧ p.mode ≠ 4) (model : Option (Model F))
    (hmod : p.mode ≠ 0 → model = p.model) (ys : List Obs) :
    Given False conse p.mode model p.recs (pending p ++ ys) where
  modes := by
    have := h.modes
    simp only [List.mem_cons, List.not_mem_nil, or_false] at this ⊢
    omega
  mon := by
    intro h1
    have hm := h.modes
    simp only [List.mem_cons, List.not_mem_nil, or_false] at hm
    have hm' : p.mode = 1 ∨ p.mode = 11 := by omega
    obtain ⟨⟨m, e, hm8⟩, _⟩ := h.monitor (by rcases hm' with e | e <;> simp [e])
    refine ⟨m, by rw [hmod (by omega), e], ?_, False.elim⟩
    have : (pending p).length = 8 := by
      rcases hm' with e' | e' <;> simp [pending, e', e, hm8]
    simp; omega
  five := by
    intro h5
    obtain ⟨⟨m, e, hm8⟩, hl, _⟩ := h.both h5
    refine ⟨⟨m, by rw [hmod (by omega), e], hm8⟩, ?_⟩
    simp [pending, h5]; omega
  recsOk := False.elim
  asc := False.elim
  chrono := False.elim
  year := False.elim

theorem length_pending_mon {conse : Nat} {p : Pack F R M} (h : Promise conse p)
    (hm : p.mode = 1 ∨ p.mode = 11 ∨ p.mode = 3) : (pending p).length = 8 := by
  obtain ⟨⟨m, e, hm8⟩, _⟩ := h.monitor (by rcases hm with e | e | e <;> simp [e])
  rcases hm with e' | e' | e' <;> simp [pending, e', e, hm8]

/-- Snow branch of a call. -/
theorem snow_cases (N : Num V F R) {conse : Nat} {p : Pack F R M} (h : Promise conse p)
    (model : Option (Model F)) (hmod : p.mode ≠ 0 → model = p.model)
    (hs : p.mode = 0 ∨ p.mode = 3 ∨ p.mode = 4) (ys : List Obs) :
    ∃ out, snow N p.mode model p.recs p.queue (pending p ++ ys) = .ok out ∧
      out.recs = p.recs ∧ out.removed = [] ∧ p.recs = [] ∧
      ((out.mode = 4 ∧ out.queue = (pending p ++ ys).map encode ∧ (pending p ++ ys).length < 18 ∧
          p.mode ≠ 3 ∧ out.model = model) ∨
       (out.mode = 3 ∧ out.queue = p.queue ∧ ∃ m, out.model = some m ∧ m.obs.length = 8 ∧
          m.obs = ((pending p ++ ys).drop ((pending p ++ ys).length - 8)).map encode ∧
          m.normCm = NA_VALUE ∧ m.cmAngle = NA_VALUE ∧ m.conseLast = 0 ∧
          ((p.mode ≠ 3 ∧ 18 ≤ (pending p ++ ys).length ∧ m.pre = [] ∧
              m.numObs = toShort (pending p ++ ys).length ∧
              m.filt = N.narrow (N.snowFit (pending p ++ ys)) ∧
              (∃ a, (pending p ++ ys).head? = some a ∧ m.tStart = toShort (a.date - LAUNCH)) ∧
              m.seg = (pending p ++ ys).take ((pending p ++ ys).length - 8)) ∨
           (p.mode = 3 ∧ ∃ m0, p.model = some m0 ∧ m.pre = m0.pre ∧ m.tStart = m0.tStart ∧
              m.filt = N.narrow (snowFilters N m0.filt
                ((pending p ++ ys).take ((pending p ++ ys).length - 8)) (pending p ++ ys).tail) ∧
              m.numObs = toShort (m0.numObs + ys.length) ∧
              m.seg = m0.seg ++ (pending p ++ ys).take ((pending p ++ ys).length - 8))))) := by
  have hr : p.recs = [] := by
    rcases hs with e | e | e
    · exact (h.void e).1
    · exact h.snow (by simp [e])
    · exact h.snow (by simp [e])
  unfold snow
  by_cases h3 : p.mode = 3
  · obtain ⟨⟨m, e, hm8⟩, _⟩ := h.monitor (by simp [h3])
    have hlen := length_pending_mon h (.inr (.inr h3))
    have hm : model = some m := by rw [hmod (by omega), e]
    have hl8 : ¬ ((pending p ++ ys).length < NCONSE) := by simp [NCONSE]; omega
    simp only [h3, show ¬ (3 = 4 ∨ 3 = 0) by decide, if_false, hm, hl8]
    refine ⟨_, rfl, rfl, rfl, hr, .inr ⟨rfl, rfl, _, rfl, ?_, rfl, rfl, rfl, rfl,
      .inr ⟨trivial, m, e, rfl, rfl, rfl, ?_, rfl⟩⟩⟩
    · simp [NCONSE]; omega
    · have : ((m.numObs : Int) + ((pending p ++ ys).length : Int) - (NCONSE : Int)) = m.numObs + ys.length := by
        simp only [List.length_append, hlen, NCONSE]
        omega
      simp only [this]
  · have h40 : p.mode = 4 ∨ p.mode = 0 := by omega
    simp only [h40, if_true]
    by_cases hl : (pending p ++ ys).length < MIN_OBS
    · simp only [hl, if_true]
      exact ⟨_, rfl, rfl, rfl, hr, .inl ⟨rfl, rfl, hl, h3, rfl⟩⟩
    · simp only [hl, if_false]
      have hM : MIN_OBS = 18 := rfl
      cases hq : pending p ++ ys with
      | nil => simp [hq, hM] at hl
      | cons o os =>
        rw [hq] at hl
        refine ⟨_, rfl, rfl, rfl, hr, .inr ⟨rfl, rfl, _, rfl, ?_, rfl, rfl, rfl, rfl,
          .inl ⟨h3, by omega, rfl, by with_reducible rfl, rfl, ⟨o, rfl, by with_reducible rfl⟩, rfl⟩⟩⟩
        simp only [List.length_map, List.length_drop, NCONSE]
        omega

theorem packOut_mon {p : Pack F R M} (h : p.mode % 10 = 1 ∨ p.mode = 3) :
    packOut p = .ok { p with queue := [] } := by simp [packOut, h]

theorem packOut_que {p : Pack F R M} (h : p.mode = 12 ∨ p.mode = 4) :
    packOut p = .ok { p with model := none } := by
  rcases h with h | h <;> simp [packOut, h]

theorem packOut_five {p : Pack F R M} (h : p.mode = 5) : packOut p = .ok p := by simp [packOut, h]

theorem packOut_void {p : Pack F R M} (h : p.mode = 0) :
    packOut p = .ok { p with recs := [], model := none, queue := [] } := by simp [packOut, h]

theorem pending_que {p : Pack F R M} (h : p.mode = 4 ∨ p.mode = 2 ∨ p.mode = 12 ∨ p.mode = 5) :
    pending p = p.queue.map decode := by simp [pending, h]

theorem pending_mon {p : Pack F R M} (h : p.mode = 1 ∨ p.mode = 11 ∨ p.mode = 3) {m : Model F}
    (hm : p.model = some m) : pending p = m.obs.map decode := by
  rcases h with e | e | e <;> simp [pending, e, hm]

theorem monitored_mon {p : Pack F R M} (h : p.mode = 1 ∨ p.mode = 11 ∨ p.mode = 3) {m : Model F}
    (hm : p.model = some m) : monitored p = m.pre ++ m.seg := by
  rcases h with e | e | e <;> simp [monitored, e, hm]

theorem monitored_que {p : Pack F R M} (h : ¬ (p.mode = 1 ∨ p.mode = 11 ∨ p.mode = 3)) :
    monitored p = [] := by simp [monitored, h]

/-- Packing a pack that keeps its promise changes nothing. -/
theorem packOut_same {conse : Nat} {p : Pack F R M} (h : Promise conse p) (model : Option (Model F))
    (hmod : p.mode ≠ 0 → model = p.model) : packOut { p with model := model } = .ok p := by
  have hm := h.modes
  simp only [List.mem_cons, List.not_mem_nil, or_false] at hm
  have h1 := h.void
  have h2 := h.monitor
  have h3 := h.queue
  obtain ⟨mode, recs, rm, mod, queue, rem⟩ := p
  simp only at *
  rcases hm with rfl | rfl | rfl | rfl | rfl | rfl | rfl
  · obtain ⟨rfl, rfl, rfl⟩ := h1 rfl
    simp [packOut]
  · obtain ⟨_, rfl⟩ := h2 (by simp)
    obtain rfl := hmod (by simp)
    simp [packOut]
  · obtain ⟨_, rfl⟩ := h2 (by simp)
    obtain rfl := hmod (by simp)
    simp [packOut]
  · obtain rfl := h3 (by simp)
    simp [packOut]
  · obtain rfl := hmod (by simp)
    simp [packOut]
  · obtain ⟨_, rfl⟩ := h2 (by simp)
    obtain rfl := hmod (by simp)
    simp [packOut]
  · obtain rfl := h3 (by simp)
    simp [packOut]

/-- One call (`_sccd_update`, or `_sccd_detect` for the void pack) on a pack that keeps its promise:
either it returns such a pack, or it hits the negative index of the opening record. -/
theorem call_cases (E : Env V F R M) {p : Pack F R M} (h : Promise E.conse p) (hc : 0 < E.conse)
    (hc8 : E.conse ≤ 8) (model : Option (Model F)) (hmod : p.mode ≠ 0 → model = p.model)
    (scenes : List Scene) (hq : ∀ o ∈ scenes, KnownQa o.qa) :
    (∃ q, (sccd E { p with model := model } scenes >>= packOut) = .ok q ∧ Promise E.conse q ∧
      (p.mode ≠ 0 → q.mode ≠ 0) ∧ p.recs <+: q.recs) ∨
    ((sccd E { p with model := model } scenes >>= packOut) = .error .oob ∧ 6 < E.conse ∧
      p.recs = [] ∧ (p.mode = 0 ∨ p.mode = 12)) := by
  have hm := h.modes
  have hst : stored p.mode model p.queue = .ok (pending p) := by
    have := stored_ok h
    by_cases h0 : p.mode = 0
    · simp [stored, h0, isQueueMode, isMonitorMode, pending]
    · rw [hmod h0]; exact this
  rw [sccd_eq E { p with model := model } scenes hm hq hst]
  simp only
  obtain ⟨ys, hys, hsub⟩ := append_prefix (fresh E.bC2 (snowBranch E p.mode scenes) scenes) (pending p)
  rw [hys]
  by_cases hb : snowBranch E p.mode scenes = true
  · have hs : p.mode = 0 ∨ p.mode = 3 ∨ p.mode = 4 := by
      simp only [snowBranch] at hb
      by_cases h0 : p.mode = 0
      · exact .inl h0
      · simp [h0] at hb
        exact .inr hb
    obtain ⟨out, eo, hr, hrm, hrn, hcase⟩ := snow_cases (E.num p.minRmse) h model hmod hs ys
    simp only [hb, if_true, eo, bind, Except.bind]
    left
    rcases hcase with ⟨e4, hqq, hl, _⟩ | ⟨e3, hqq, m, hmm, hm8, _⟩
    · rw [packOut_que (by simp [e4])]
      refine ⟨_, rfl, ?_, by simp [e4], by simp [hr]⟩
      exact ⟨by simp [e4], by simp [e4], by simp [e4], by simp, by simp [e4], by simp [e4], by simp [hr, hrn], by
        simp only [hqq, List.length_map]; omega⟩
    · rw [packOut_mon (by simp [e3])]
      refine ⟨_, rfl, ?_, by simp [e3], by simp [hr]⟩
      exact ⟨by simp [e3], by simp [e3], by simp [hmm, hm8], by simp [e3], by simp [e3], by simp [e3], by simp [hr, hrn], by simp⟩
  · have hns : p.mode ≠ 3 ∧ p.mode ≠ 4 := by
      constructor <;> intro e <;> simp [snowBranch, e] at hb
    have hb' : snowBranch E p.mode scenes = false := by simpa using hb
    simp only [hb', Bool.false_eq_true, if_false]
    by_cases hl : (pending p ++ ys).length > (pending p).length
    · simp only [hl, if_true]
      have g := given_false h hc8 hns model hmod ys
      generalize (if (p.recs.isEmpty && decide (p.mode = 0)) = true then E.variogram (pending p ++ ys) else p.minRmse) = rm
      rcases standard_cases (E.num rm) p.queue hc g with
        ⟨out, s, s0, eo, e0, eL, inv, run, hdr, hsh, res⟩ | ⟨eo, h6, hr, h1⟩
      · left
        obtain ⟨s0', e0', _, o0', _, r0', m0', c0', _, p0'⟩ := initSt_inv g
        rw [e0] at e0'
        cases e0'
        have hgr : p.recs <+: s.recs := by rw [← r0']; exact run.grow
        have hpi : s.prevBreak ≤ s.i := by
          cases ht : s.train with
          | true => exact inv.tprev ht
          | false => exact Nat.le_trans (inv.nprev ht) (inv.nstart ht)
        have hpl : s.prevBreak < s.obs.length := by
          by_cases hle : (pending p ++ ys).length ≤ E.conse
          · rw [hsh hle, p0', o0']; omega
          · have := congrArg List.length hdr
            simp only [List.length_drop] at this
            omega
        simp only [eo, bind, Except.bind]
        have hmo := res.modes
        simp only [List.mem_cons, List.not_mem_nil, or_false] at hmo
        have h2 : out.mode ≠ 2 := by
          intro e2
          have := res.from2 e2
          simp only [List.mem_cons, List.not_mem_nil, or_false] at hm
          omega
        have hql : out.mode % 10 ≠ 1 → out.queue.length ≤ 240 := by
          intro hx
          exact (storeQueue_len (res.que hx).2.2).1
        rcases hmo with e | e | e | e | e
        · obtain ⟨_, _, _, _, f, m, _, hm1, hm8, _⟩ := res.mon (by simp [e])
          rw [packOut_mon (by simp [e])]
          refine ⟨_, rfl, ?_, by simp [e], by simpa [res.recs] using hgr⟩
          exact ⟨by simp [e], by simp [e], by simp [hm1, hm8], by simp [e], by simp [e], by simp [e], by simp [e], by simp⟩
        · obtain ⟨_, _, _, _, f, m, _, hm1, hm8, _⟩ := res.mon (by simp [e])
          rw [packOut_mon (by simp [e])]
          refine ⟨_, rfl, ?_, by simp [e], by simpa [res.recs] using hgr⟩
          exact ⟨by simp [e], by simp [e], by simp [hm1, hm8], by simp [e], by simp [e], by simp [e], by simp [e], by simp⟩
        · exact absurd e h2
        · rw [packOut_que (by simp [e])]
          refine ⟨_, rfl, ?_, by simp [e], by simpa [res.recs] using hgr⟩
          refine ⟨by simp [e], by simp [e], by simp [e], by simp, by simp [e], ?_, by simp [e], hql (by simp [e])⟩
          intro _ hq0
          obtain ⟨_, _, hsq⟩ := res.que (by simp [e])
          rw [if_neg (by simp [e])] at hsq
          have h1 := (storeQueue_len hsq).2 1 (by omega) (by omega)
          simp only at hq0
          rw [hq0] at h1
          simp at h1
        · obtain ⟨⟨m, hmm, hm8⟩, hcl, hcs⟩ := res.five e
          obtain ⟨hmod', _, hsq⟩ := res.que (by simp [e])
          rw [packOut_five (by simp [e])]
          refine ⟨_, rfl, ?_, by simp [e], by simpa [res.recs] using hgr⟩
          refine ⟨by simp [e], by simp [e], by simp [e], by simp [e], ?_, by simp [e], by simp [e], hql (by simp [e])⟩
          intro _
          refine ⟨⟨m, by simp [hmod', hmm], hm8⟩, ?_, ?_⟩
          · refine (storeQueue_len hsq).2 E.conse (by omega) ?_
            split
            · omega
            · rename_i hno
              have hch : s.changed = true := by
                rcases hcs with h' | h'
                · exact h'
                · cases hq' : s.changed with
                  | true => rfl
                  | false => exact absurd ⟨h', hq', e⟩ hno
              have hgt : ¬ ((pending p ++ ys).length ≤ E.conse) := by
                intro hle
                rw [hsh hle, c0'] at hch
                simp at hch
              have := congrArg List.length hdr
              simp only [List.length_drop] at this
              omega
          · simp only [res.recs]
            rcases hcs with h' | h'
            · have := (run.chg c0' h').2
              intro e'
              rw [e'] at this
              simp at this
            · have := (h.both h').2.2
              intro e'
              rw [e', List.prefix_nil] at hgr
              exact this hgr
      · right
        simp only [eo, bind, Except.bind]
        refine ⟨by simp, h6, hr, ?_⟩
        simp only [List.mem_cons, List.not_mem_nil, or_false] at hm
        have : p.mode ≠ 5 := fun e => (h.both e).2.2 hr
        omega
    · left
      simp only [hl, if_false, bind, Except.bind]
      simp only [List.mem_cons, List.not_mem_nil, or_false] at hm
      have key : ∀ q : Pack F R M, q.mode = p.mode → q.recs = p.recs → q.queue = p.queue →
          q.model = p.model → Promise E.conse q := by
        intro q e1 e2 e3 e4
        exact ⟨by rw [e1]; exact h.modes, by rw [e1, e2, e3, e4]; exact h.void,
          by rw [e1, e3, e4]; exact h.monitor, by rw [e1, e4]; exact h.queue,
          by rw [e1, e2, e3, e4]; exact h.both, by rw [e1, e3]; exact h.waiting,
          by rw [e1, e2]; exact h.snow, by rw [e3]; exact h.cap⟩
      rcases hm with e | e | e | e | e | e | e
      · rw [packOut_void (by simpa using e)]
        exact ⟨_, rfl, key _ rfl (by simp [(h.void e).1]) (by simp [(h.void e).2.2])
          (by simp [(h.void e).2.1]), by simp, by simp [(h.void e).1]⟩
      · rw [packOut_mon (.inl (by simp [e]))]
        exact ⟨_, rfl, key _ rfl rfl (by simp [(h.monitor (by simp [e])).2]) (hmod (by omega)),
          by simp, List.prefix_rfl⟩
      · exact absurd e hns.1
      · exact absurd e hns.2
      · rw [packOut_five (by simpa using e)]
        exact ⟨_, rfl, key _ rfl rfl rfl (hmod (by omega)), by simp [e], List.prefix_rfl⟩
      · rw [packOut_mon (.inl (by simp [e]))]
        exact ⟨_, rfl, key _ rfl rfl (by simp [(h.monitor (by simp [e])).2]) (hmod (by omega)),
          by simp, List.prefix_rfl⟩
      · rw [packOut_que (.inl (by simpa using e))]
        exact ⟨_, rfl, key _ rfl rfl rfl (by simp [h.queue (by simp [e])]), by simp, List.prefix_rfl⟩

end Pycold.Sccd
