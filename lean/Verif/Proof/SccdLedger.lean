import Verif.Proof.SccdPack
/-!
# S-CCD: no observation is lost from call to call
-/
namespace Pycold.Sccd
open Spec
variable {V F R M : Type}

theorem toShort_id {x : Int} (h1 : -32768 ≤ x) (h2 : x ≤ 32767) : toShort x = x := by
  unfold toShort
  rw [Int.bmod_def]
  split <;> omega

theorem map_toShort_id {l : List Int} (h : ∀ v ∈ l, -32768 ≤ v ∧ v ≤ 32767) : l.map toShort = l := by
  conv => rhs; rw [← List.map_id l]
  apply List.map_congr_left
  intro v hv
  exact toShort_id (h v hv).1 (h v hv).2

theorem decode_encode {l : List Obs} (h : Codable l) : (l.map encode).map decode = l := by
  rw [List.map_map]
  conv => rhs; rw [← List.map_id l]
  apply List.map_congr_left
  intro o ho
  obtain ⟨⟨h1, h2⟩, h3⟩ := h o ho
  have e1 : toShort (o.date - LAUNCH) = o.date - LAUNCH := toShort_id h1 h2
  simp only [Function.comp, decode, encode, e1, map_toShort_id h3, id]
  cases o
  simp

theorem Codable.sublist {a b : List Obs} (h : a.Sublist b) (hb : Codable b) : Codable a :=
  fun o ho => hb o (h.subset ho)

theorem Chrono.extend {rest ys : List Obs} (h : ∀ o ∈ rest, ∀ y ∈ ys, o.date < y.date) :
    ∀ {rs : List (Rec R)}, Chrono rest rs → (rs ≠ [] → rest ≠ []) → Chrono (rest ++ ys) rs
  | [], _, _ => trivial
  | r :: rs, ⟨h1, h2, h3⟩, hne => by
    have hr : rest ≠ [] := hne (by simp)
    refine ⟨h1, ?_, Chrono.extend h h3 (fun _ => hr)⟩
    intro o ho
    rw [← List.append_assoc] at ho
    rcases List.mem_append.mp ho with ho | ho
    · exact h2 o ho
    · obtain ⟨a, ha⟩ := List.exists_mem_of_ne_nil _ hr
      have := h2 a (List.mem_append_right _ ha)
      have := h a ha o ho
      omega

theorem openPart_eq {p : Pack F R M} (hm : p.mode ∈ [0, 1, 3, 4, 5, 11, 12]) (h3 : p.mode ≠ 3)
    (model : Option (Model F)) (hmod : p.mode ≠ 0 → model = p.model) :
    openPart p.mode model = monitored p := by
  simp only [List.mem_cons, List.not_mem_nil, or_false] at hm
  rcases hm with e | e | e | e | e | e | e
  · simp [openPart, monitored, e]
  · rw [hmod (by omega)]; simp [openPart, monitored, e]; cases p.model <;> rfl
  · exact absurd e h3
  · simp [openPart, monitored, e]
  · simp [openPart, monitored, e]
  · rw [hmod (by omega)]; simp [openPart, monitored, e]; cases p.model <;> rfl
  · simp [openPart, monitored, e]

theorem tail8_full {obs : List Obs} {i : Nat} (h : i + 8 = obs.length) :
    tail8 8 obs i = (obs.drop i).map encode := by
  have h1 : (obs.drop i).take 8 = obs.drop i := List.take_of_length_le (by simp; omega)
  have h2 : NCONSE = 8 := rfl
  unfold tail8
  rw [h1, h2, Nat.sub_self, List.replicate_zero, List.append_nil]
  exact List.take_of_length_le (by simp; omega)

/-- What the result of `sccd_standard` holds is what it was given minus the noise. -/
theorem holds_out (N : Num V F R) {conse mode0 : Nat} {model : Option (Model F)} {recs : List (Rec R)}
    {obs queue0 : List Obs} (g : Given True conse mode0 model recs obs) {s s0 : St F R} {out : Out F R}
    (h5 : mode0 = 5 → recs ≠ [])
    (e0 : initSt mode0 model recs obs = .ok s0)
    (inv : Inv True (flat recs ++ openPart mode0 model) obs s) (run : Run conse mode0 s0 s)
    (res : Result N conse mode0 queue0 obs s out) (h2 : out.mode ≠ 2)
    (h8 : out.mode = 1 ∨ out.mode = 11 → conse = 8)
    (hcod : Codable (flat recs ++ openPart mode0 model ++ obs))
    (hlen : (flat recs ++ openPart mode0 model ++ obs).length ≤ 32767)
    {q : Pack F R M} (qm : q.mode = out.mode) (qr : q.recs = out.recs)
    (qmod : out.mode % 10 = 1 → q.model = out.model)
    (qq : out.mode % 10 ≠ 1 → q.queue = out.queue) (hq240 : q.queue.length < 240) :
    holds q = flat recs ++ openPart mode0 model ++ s.obs ∧
    Chrono (monitored q ++ pending q) q.recs ∧
    (q.mode = 1 ∨ q.mode = 11 → ∀ m, q.model = some m →
      SegOk m.seg (723742 + m.tStart) m.numObs ∧ Year m.seg) := by
  obtain ⟨s0', e0', _, o0, _, r0, m0, c0, t0, p0⟩ := initSt_inv g
  rw [e0] at e0'
  cases e0'
  have hmo := res.modes
  simp only [List.mem_cons, List.not_mem_nil, or_false] at hmo
  have hcs : Codable (flat recs ++ openPart mode0 model ++ s.obs) :=
    hcod.sublist ((List.Sublist.refl _).append inv.sub)
  by_cases hmon : out.mode % 10 = 1
  · have hmon' : out.mode = 1 ∨ out.mode = 11 := by omega
    have hc8 := h8 hmon'
    obtain ⟨ht, hl, _, _, f, m, hf, hom, hm8, _, hts, hno, hpre, hseg, hobs⟩ := res.mon hmon
    have hso := inv.tseg ht trivial
    have hpos : s.numObs > 0 := by have := hso.count; have := hso.long; omega
    have hob := hobs hpos
    rw [hc8] at hob hl
    rw [tail8_full hl] at hob
    have hpend : pending q = s.obs.drop s.i := by
      have hd : Codable (s.obs.drop s.i) := hcs.sublist
        ((List.drop_sublist _ _).trans (List.sublist_append_right _ _))
      have : q.model = some m := (qmod hmon).trans hom
      rcases hmon' with e | e <;>
        simp only [pending, qm, e, this, hob] <;> simpa using decode_encode hd
    have hmd : monitored q = s.pre ++ s.seg := by
      have : q.model = some m := (qmod hmon).trans hom
      rcases hmon' with e | e <;> simp [monitored, qm, e, this, hpre, hseg]
    have htH := inv.tH ht
    refine ⟨?_, ?_, ?_⟩
    · rw [holds, hpend, hmd, qr, res.recs, ← htH, List.append_assoc, List.take_append_drop]
    · rw [hpend, hmd, qr, res.recs]
      exact inv.chronoT trivial ht
    · intro _ m' hm'
      have : m' = m := by
        have h1 : q.model = some m := (qmod hmon).trans hom
        rw [h1] at hm'
        exact (Option.some.inj hm').symm
      subst this
      have hsubl : s.seg.Sublist (flat recs ++ openPart mode0 model ++ obs) := by
        have h1 : s.seg.Sublist (flat recs ++ openPart mode0 model ++ s.obs.take s.i) := by
          rw [htH]
          exact (List.sublist_append_right _ _).trans (List.sublist_append_right _ _)
        exact h1.trans ((List.Sublist.refl _).append ((List.take_sublist _ _).trans inv.sub))
      have hts' : 723742 + m'.tStart = s.tStart := by
        have hfirst := hso.first
        cases hsg : s.seg with
        | nil => rw [hsg] at hfirst; simp at hfirst
        | cons a as =>
          rw [hsg] at hfirst hsubl
          simp at hfirst
          obtain ⟨⟨b1, b2⟩, _⟩ := hcod a (hsubl.subset (by simp))
          rw [hts, toShort_id (by simp only [LAUNCH]; omega) (by simp only [LAUNCH]; omega)]
          simp only [LAUNCH]
          omega
      have hno' : m'.numObs = s.numObs := by
        have h1 := hso.count
        have h2 := hsubl.length_le
        rw [hno, toShort_id (by omega) (by omega)]
      rw [hseg, hts', hno']
      exact ⟨hso, inv.tyear ht trivial⟩
  · obtain ⟨hmodq, htr, hsq⟩ := res.que hmon
    have hq := qq hmon
    rw [hq] at hq240
    have hex := storeQueue_exact hsq hq240
    have hmd : monitored q = [] := by
      have : ¬ (q.mode = 1 ∨ q.mode = 11 ∨ q.mode = 3) := by rw [qm]; omega
      simp [monitored, this]
    have hpend : pending q = s.obs.drop
        (if mode0 = 5 ∧ s.changed = false ∧ out.mode = 5 then 0 else s.prevBreak) := by
      have h1 : q.mode = 4 ∨ q.mode = 2 ∨ q.mode = 12 ∨ q.mode = 5 := by rw [qm]; omega
      simp only [pending, h1, if_true, hq, hex]
      exact decode_encode (hcs.sublist
        ((List.drop_sublist _ _).trans (List.sublist_append_right _ _)))
    have hlast : (q.mode = 1 ∨ q.mode = 11 → ∀ m, q.model = some m →
        SegOk m.seg (723742 + m.tStart) m.numObs ∧ Year m.seg) := by
      intro h1; rw [qm] at h1; omega
    by_cases hpb : mode0 = 5 ∧ s.changed = false ∧ out.mode = 5
    · rw [if_pos hpb, List.drop_zero] at hpend
      have hrec : s.recs = recs := by
        have := (run.keep (hpb.2.1.trans c0.symm) (by omega) c0).2.2
        rw [r0] at this
        exact this (h5 hpb.1)
      have ho : openPart mode0 model = [] := by simp [openPart, hpb.1]
      refine ⟨?_, ?_, hlast⟩
      · rw [holds, hmd, hpend, qr, res.recs, hrec, ho]
      · rw [hmd, hpend, qr, res.recs, hrec, List.nil_append]
        have := g.chrono trivial
        rw [ho, List.nil_append] at this
        exact this.mono (fun o ho => inv.sub.subset ho)
    · rw [if_neg hpb] at hpend
      cases ht : s.train with
      | false =>
        have hnH := inv.nH ht
        refine ⟨?_, ?_, hlast⟩
        · rw [holds, hmd, hpend, qr, res.recs, ← hnH, List.append_nil, List.append_assoc _ _ (s.obs.drop _),
            List.take_append_drop]
        · rw [hmd, hpend, qr, res.recs, List.nil_append]
          exact inv.chronoN trivial ht
      | true =>
        have hrne : s.recs ≠ [] ∧ (s.changed = true ∨ mode0 = 5) := by
          have hchne : s.changed = true → s.recs ≠ [] := by
            intro hch e'
            have := (run.chg c0 hch).2
            rw [e'] at this
            simp at this
          have hmm := g.modes
          simp only [List.mem_cons, List.not_mem_nil, or_false] at hmm
          have h5' : mode0 = 5 → s.recs ≠ [] := by
            intro e5 e'
            have := run.grow
            rw [e', r0, List.prefix_nil] at this
            exact h5 e5 this
          cases hch : s.changed with
          | true => exact ⟨hchne hch, .inl rfl⟩
          | false =>
            by_cases e5 : mode0 = 5
            · exact ⟨h5' e5, .inr e5⟩
            · exfalso
              by_cases o5 : out.mode = 5
              · have := (res.five o5).2.2
                rw [hch] at this
                simp at this
                exact e5 this
              · have := htr o5
                rw [ht, hch] at this
                simp at this
                obtain ⟨n0, n2, n12⟩ := this
                have hmc : mode0 = 1 ∨ mode0 = 11 := by omega
                have hk := run.keep (hch.trans c0.symm) n0 c0
                have : s.train = true := ht
                -- in a monitoring mode an unchanged pixel stays in monitoring
                exact res.stay (by omega) hch hmon
        rcases inv.tB ht trivial hrne.1 with hB | ⟨hB, A, hA, hHA⟩
        · refine ⟨?_, ?_, hlast⟩
          · rw [holds, hmd, hpend, qr, res.recs, ← hB, List.append_nil,
              List.append_assoc _ _ (s.obs.drop _), List.take_append_drop]
          · rw [hmd, hpend, qr, res.recs, List.nil_append]
            refine (inv.chronoT trivial ht).mono ?_
            intro o ho
            have htH := inv.tH ht
            rw [← hB] at htH
            have hp := inv.tprev ht
            have h1 : s.obs.take s.i = s.obs.take s.prevBreak ++ (s.pre ++ s.seg) := by
              rw [List.append_assoc (flat recs ++ openPart mode0 model)] at htH
              exact List.append_cancel_left htH
            have h2 : s.obs = s.obs.take s.prevBreak ++ ((s.pre ++ s.seg) ++ s.obs.drop s.i) := by
              conv => lhs; rw [← List.take_append_drop s.i s.obs, h1]
              simp
            have h3 : s.obs.drop s.prevBreak = (s.pre ++ s.seg) ++ s.obs.drop s.i := by
              have h4 : s.obs.take s.prevBreak ++ s.obs.drop s.prevBreak =
                  s.obs.take s.prevBreak ++ ((s.pre ++ s.seg) ++ s.obs.drop s.i) := by
                rw [← h2, List.take_append_drop]
              exact List.append_cancel_left h4
            rw [h3] at ho
            exact ho
        · exfalso
          rcases hrne.2 with h' | h'
          · rw [hB] at h'; simp at h'
          · have ho : openPart mode0 model = [] := by simp [openPart, h']
            obtain ⟨t, ht'⟩ := run.grow
            rw [r0] at ht'
            rw [← ht', flat_append, ho, List.append_nil] at hHA
            have := congrArg List.length hHA
            simp at this
            exact hA this.2

/-- One call keeps the ledger, with the batch's observations added. -/
theorem ledger_call (E : Env V F R M) {p q : Pack F R M} {all : List Obs} (h : Promise E.conse p)
    (hc : 0 < E.conse) (hc8 : E.conse ≤ 8) (model : Option (Model F))
    (hmod : p.mode ≠ 0 → model = p.model) (scenes : List Scene) (hq : ∀ o ∈ scenes, KnownQa o.qa)
    (L : Ledger p all) (hrm : p.mode = 0 → p.removed = [])
    (hasc : Asc (all ++ fresh E.bC2 (snowBranch E p.mode scenes) scenes))
    (hcod : Codable (all ++ fresh E.bC2 (snowBranch E p.mode scenes) scenes))
    (hlen : (all ++ fresh E.bC2 (snowBranch E p.mode scenes) scenes).length ≤ 32767)
    (e : (sccd E { p with model := model } scenes >>= packOut) = .ok q)
    (h8 : q.mode = 1 ∨ q.mode = 11 → E.conse = 8) (hq240 : q.queue.length < 240) :
    Ledger q (all ++ fresh E.bC2 (snowBranch E p.mode scenes) scenes) := by
  have hm := h.modes
  have hst : stored p.mode model p.queue = .ok (pending p) := by
    have := stored_ok h
    by_cases h0 : p.mode = 0
    · simp [stored, h0, isQueueMode, isMonitorMode, pending]
    · rw [hmod h0]; exact this
  rw [sccd_eq E { p with model := model } scenes hm hq hst] at e
  simp only at e
  generalize hys : fresh E.bC2 (snowBranch E p.mode scenes) scenes = ys at *
  have hholds : (holds p ++ ys).Sublist (all ++ ys) := L.sub.append (List.Sublist.refl _)
  have hpasc : Asc (pending p ++ ys) := hasc.sublist
    (((List.sublist_append_right _ _).append (List.Sublist.refl _)).trans hholds)
  rw [append_asc ys (pending p) hpasc] at e
  by_cases hb : snowBranch E p.mode scenes = true
  · have hs : p.mode = 0 ∨ p.mode = 3 ∨ p.mode = 4 := by
      simp only [snowBranch] at hb
      by_cases h0 : p.mode = 0
      · exact .inl h0
      · simp [h0] at hb
        exact .inr hb
    obtain ⟨out, eo, hr, hro, hrn, hcase⟩ := snow_cases (E.num p.minRmse) h model hmod hs ys
    have hall : holds p = all ∧ p.removed = [] := by
      rcases hs with e0 | e3
      · have ha := L.void e0
        have := L.sub
        rw [ha] at this ⊢
        exact ⟨List.sublist_nil.mp this, hrm e0⟩
      · exact L.snow e3
    have hma : monitored p ++ pending p = all := by
      have := hall.1
      rw [holds, hrn] at this
      simpa [flat] using this
    simp only [hb, if_true, eo, bind, Except.bind] at e
    have hcp : Codable (pending p ++ ys) := hcod.sublist
      (((List.sublist_append_right _ _).append (List.Sublist.refl _)).trans hholds)
    rcases hcase with ⟨e4, hqq, hl, hn3, _⟩ | ⟨e3, hqq, m, hmm, hm8, hmo, _, _, _, hcase⟩
    · rw [packOut_que (by simp [e4])] at e
      cases e
      have hmp : monitored p = [] := by
        rcases hs with e' | e' | e'
        · simp [monitored, e']
        · exact absurd e' hn3
        · simp [monitored, e']
      rw [hmp, List.nil_append] at hma
      have hh : holds (F := F) (R := R) (M := M) { mode := out.mode, recs := out.recs, minRmse := p.minRmse, model := none, queue := out.queue, removed := p.removed ++ out.removed } = all ++ ys := by
        rw [holds, monitored_que (by simp [e4]), pending_que (by simp [e4])]
        simp only [hr, hrn, hqq, hma]
        exact decode_encode (hma ▸ hcp)
      exact
        { sub := by rw [hh]; exact List.Sublist.refl _
          perm := by rw [hh]; simp [hall.2, hro]
          recs := by simp only [hr, hrn]; exact ⟨by simp, by simp⟩
          chrono := by simp only [hr, hrn]; trivial
          year := by simp [hr, hrn]
          model := by simp [e4]
          void := by simp [e4]
          snow := fun _ => ⟨hh, by simp [hall.2, hro]⟩
          snowModel := by simp [e4] }
    · rw [packOut_mon (by simp [e3])] at e
      cases e
      have hpend : pending (F := F) (R := R) (M := M) { mode := out.mode, recs := out.recs, minRmse := p.minRmse, model := out.model, queue := [], removed := p.removed ++ out.removed } = (pending p ++ ys).drop ((pending p ++ ys).length - 8) := by
        rw [pending_mon (by simp [e3]) hmm, hmo]
        exact decode_encode (hcp.sublist (List.drop_sublist _ _))
      have hmond : monitored (F := F) (R := R) (M := M) { mode := out.mode, recs := out.recs, minRmse := p.minRmse, model := out.model, queue := [], removed := p.removed ++ out.removed } = monitored p ++ (pending p ++ ys).take ((pending p ++ ys).length - 8) := by
        rcases hcase with ⟨hn3, _, hpre, _, _, _, hseg⟩ | ⟨e', m0, hm0, hpre, _, _, _, hseg⟩
        · have hmp : monitored p = [] := by
            rcases hs with e' | e' | e'
            · simp [monitored, e']
            · exact absurd e' hn3
            · simp [monitored, e']
          rw [hmp]
          simp [monitored, e3, hmm, hpre, hseg]
        · simp [monitored, e3, hmm, hpre, hseg, e', hm0]
      have hh : holds (F := F) (R := R) (M := M) { mode := out.mode, recs := out.recs, minRmse := p.minRmse, model := out.model, queue := [], removed := p.removed ++ out.removed } = all ++ ys := by
        rw [holds, hpend, hmond, List.append_assoc, List.append_assoc, List.take_append_drop, ← List.append_assoc (monitored p), hma]
        simp [hr, hrn, flat]
      refine
        { sub := by rw [hh]; exact List.Sublist.refl _
          perm := by rw [hh]; simp [hall.2, hro]
          recs := by simp only [hr, hrn]; exact ⟨by simp, by simp⟩
          chrono := by simp only [hr, hrn]; trivial
          year := by simp [hr, hrn]
          model := by simp [e3]
          void := by simp [e3]
          snow := fun _ => ⟨hh, by simp [hall.2, hro]⟩
          snowModel := ?_ }
      intro _ m' hm'
      simp only [hmm] at hm'
      cases hm'
      rcases hcase with ⟨hn3, hl18, _, hno, _, ⟨a, ha, hts⟩, _⟩ | ⟨e', m0, hm0, _, hts, _, hno, _⟩
      · have hmp : monitored p = [] := by
          rcases hs with e' | e' | e'
          · simp [monitored, e']
          · exact absurd e' hn3
          · simp [monitored, e']
        rw [hmp, List.nil_append] at hma
        rw [hma] at hno ha
        refine ⟨by rw [hno, toShort_id (by omega) (by omega)], ?_⟩
        rw [ha, hts]
        have ham : a ∈ all ++ ys := List.mem_of_head? ha
        obtain ⟨⟨b1, b2⟩, _⟩ := hcod a ham
        rw [toShort_id (by simp only [LAUNCH]; omega) (by simp only [LAUNCH]; omega)]
        simp only [LAUNCH, Option.map_some]
        congr 1
        omega
      · obtain ⟨hn0, hf0⟩ := L.snowModel e' m0 hm0
        refine ⟨?_, ?_⟩
        · rw [hno, hn0]
          simp only [List.length_append] at hlen ⊢
          rw [toShort_id (by omega) (by omega)]
          omega
        · rw [hts, ← hf0]
          cases hq' : all with
          | nil => rw [hq'] at hf0; simp at hf0
          | cons a as => simp
  · have hns : p.mode ≠ 3 ∧ p.mode ≠ 4 := by
      constructor <;> intro e' <;> simp [snowBranch, e'] at hb
    have hb' : snowBranch E p.mode scenes = false := by simpa using hb
    simp only [hb', Bool.false_eq_true, if_false] at e
    have hop := openPart_eq hm hns.1 model hmod
    have hHp : flat p.recs ++ openPart p.mode model ++ (pending p ++ ys) = holds p ++ ys := by
      rw [hop, holds]; simp
    by_cases hl : (pending p ++ ys).length > (pending p).length
    · simp only [hl, if_true] at e
      have g : Given True E.conse p.mode model p.recs (pending p ++ ys) := by
        have g0 := given_false h hc8 hns model hmod ys
        refine ⟨g0.modes, ?_, g0.five, fun _ => L.recs, ?_, ?_, fun _ => L.year⟩
        · intro h1
          obtain ⟨m, hm1, hm2, _⟩ := g0.mon h1
          refine ⟨m, hm1, hm2, fun _ => ?_⟩
          have hm' : p.mode = 1 ∨ p.mode = 11 := by
            simp only [List.mem_cons, List.not_mem_nil, or_false] at hm
            omega
          exact L.model hm' m (by rw [← hmod (by omega), hm1])
        · intro _
          rw [hHp]
          exact hasc.sublist hholds
        · intro _
          rw [hop, ← List.append_assoc]
          refine L.chrono.extend ?_ ?_
          · intro o ho y hy
            refine asc_split hasc o (L.sub.subset ?_) y hy
            rw [holds, List.append_assoc]
            exact List.mem_append_right _ ho
          · intro hrne hnil
            have hpn : pending p = [] := (List.append_eq_nil_iff.mp hnil).2
            simp only [List.mem_cons, List.not_mem_nil, or_false] at hm
            rcases hm with e' | e' | e' | e' | e' | e' | e'
            · exact hrne (h.void e').1
            · have := length_pending_mon h (by omega); rw [hpn] at this; simp at this
            · exact hns.1 e'
            · exact hns.2 e'
            · have := (h.both e').2.1
              have hq0 : p.queue = [] := by simpa [pending, e'] using hpn
              rw [hq0] at this
              simp at this
              omega
            · have := length_pending_mon h (by omega); rw [hpn] at this; simp at this
            · have hq0 : p.queue = [] := by simpa [pending, e'] using hpn
              exact h.waiting e' hq0
      generalize (if (p.recs.isEmpty && decide (p.mode = 0)) = true then E.variogram (pending p ++ ys) else p.minRmse) = rm at e
      rcases standard_cases (E.num rm) p.queue hc g with
        ⟨out, s, s0, eo, e0, eL, inv, run, hdr, hsh, res⟩ | ⟨eo, _⟩
      rotate_left
      · simp [eo, bind, Except.bind] at e
      simp only [eo, bind, Except.bind] at e
      have h2 : out.mode ≠ 2 := by
        intro e2
        have := res.from2 e2
        simp only [List.mem_cons, List.not_mem_nil, or_false] at hm
        omega
      have hmo := res.modes
      simp only [List.mem_cons, List.not_mem_nil, or_false] at hmo
      have key : q.mode = out.mode → q.recs = out.recs → (out.mode % 10 = 1 → q.model = out.model) →
          (out.mode % 10 ≠ 1 → q.queue = out.queue) → q.removed = p.removed ++ out.removed →
          Ledger q (all ++ ys) := by
        intro qm qr qmod qq qrem
        obtain ⟨k1, k2, k3⟩ := holds_out (E.num rm) g (fun e5 => (h.both e5).2.2) e0 inv run res h2
          (by rw [← qm]; exact h8) (by rw [hHp]; exact hcod.sublist hholds)
          (by rw [hHp]; exact Nat.le_trans hholds.length_le hlen) qm qr qmod qq hq240
        have hin := inv.sub
        exact
          { sub := by
              rw [k1]
              refine List.Sublist.trans ?_ hholds
              rw [← hHp]
              exact (List.Sublist.refl _).append hin
            perm := by
              rw [k1, qrem, res.removed]
              have p1 : (all ++ ys).Perm (p.removed ++ holds p ++ ys) := L.perm.append_right ys
              refine p1.trans ?_
              rw [List.append_assoc, ← hHp, List.append_assoc p.removed]
              refine List.Perm.append_left _ ?_
              refine ((inv.perm).append_left _).trans ?_
              rw [← List.append_assoc, ← List.append_assoc s.removed]
              exact List.perm_append_comm.append_right _
            recs := by rw [qr, res.recs]; exact inv.recsOk trivial
            chrono := k2
            year := by rw [qr, res.recs]; exact inv.yearR trivial
            model := k3
            void := by rw [qm]; omega
            snow := by rw [qm]; omega
            snowModel := by rw [qm]; omega }
      rcases hmo with e' | e' | e' | e' | e'
      · rw [packOut_mon (by simp [e'])] at e
        cases e
        exact key rfl rfl (fun _ => rfl) (by simp [e']) rfl
      · rw [packOut_mon (by simp [e'])] at e
        cases e
        exact key rfl rfl (fun _ => rfl) (by simp [e']) rfl
      · exact absurd e' h2
      · rw [packOut_que (by simp [e'])] at e
        cases e
        exact key rfl rfl (by simp [e']) (fun _ => rfl) rfl
      · rw [packOut_five (by simp [e'])] at e
        cases e
        exact key rfl rfl (fun _ => rfl) (fun _ => rfl) rfl
    · have hy0 : ys = [] := by
        cases ys with
        | nil => rfl
        | cons y ys => simp at hl
      have : q = p := by
        simp only [hl, if_false, bind, Except.bind] at e
        rw [packOut_same h model hmod] at e
        cases e; rfl
      rw [hy0, List.append_nil, this]
      exact L

end Pycold.Sccd
