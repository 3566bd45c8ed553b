import Verif.Proof.SccdBatch
/-!
# S-CCD: what is stored, and what `sccd_identify` reads from it
-/
namespace Pycold.Sccd
open Spec
variable {V F R M : Type}

theorem tail8_eq {conse : Nat} (hc8 : conse ≤ 8) {obs X : List Obs} {i : Nat}
    (h : obs.drop i = X.drop (X.length - conse)) :
    tail8 conse obs i = (X.drop (X.length - conse)).map encode ++ List.replicate (8 - conse) padObs := by
  unfold tail8
  have hN : NCONSE = 8 := rfl
  have hl : (X.drop (X.length - conse)).length ≤ conse := by simp only [List.length_drop]; omega
  rw [h, List.take_of_length_le hl, hN]
  exact List.take_of_length_le (by simp only [List.length_append, List.length_map, List.length_replicate]; omega)

/-- A call that ends in monitor mode stores the newest `conse` observations, padded to 8. -/
theorem mon_out (E : Env V F R M) {p q : Pack F R M} (h : Promise E.conse p) (hc : 0 < E.conse)
    (hc8 : E.conse ≤ 8) (model : Option (Model F)) (hmod : p.mode ≠ 0 → model = p.model)
    (scenes : List Scene) (hq : ∀ o ∈ scenes, KnownQa o.qa)
    (e : (sccd E { p with model := model } scenes >>= packOut) = .ok q) (hm1 : q.mode = 1 ∨ q.mode = 11)
    (X : List Obs) (hX : X = append (pending p) (fresh E.bC2 (snowBranch E p.mode scenes) scenes)) :
    (X = pending p ∧ q = p) ∨
    ∃ m f n, q.model = some m ∧ E.conse ≤ X.length ∧
      ((m.obs = (X.drop (X.length - E.conse)).map encode ++ List.replicate (8 - E.conse) padObs ∧
        m.conseLast = leadCount (E.num q.minRmse)
          (((X.drop (X.length - E.conse)).reverse).map ((E.num q.minRmse).endMag f n))) ∨
       (m.obs = List.replicate 8 padObs ∧ m.conseLast = 0)) ∧
      Strength (E.num q.minRmse) f n (X.drop (X.length - E.conse)).reverse m := by
  have hm := h.modes
  have hst : stored p.mode model p.queue = .ok (pending p) := by
    have := stored_ok h
    by_cases h0 : p.mode = 0
    · simp [stored, h0, isQueueMode, isMonitorMode, pending]
    · rw [hmod h0]; exact this
  rw [sccd_eq E { p with model := model } scenes hm hq hst] at e
  simp only at e
  obtain ⟨ys, hys, hsub⟩ := append_prefix (fresh E.bC2 (snowBranch E p.mode scenes) scenes) (pending p)
  rw [← hX] at e hys
  by_cases hb : snowBranch E p.mode scenes = true
  · have hs : p.mode = 0 ∨ p.mode = 3 ∨ p.mode = 4 := by
      simp only [snowBranch] at hb
      by_cases h0 : p.mode = 0
      · exact .inl h0
      · simp [h0] at hb
        exact .inr hb
    obtain ⟨out, eo, hr, hrm, hrn, hcase⟩ := snow_cases (E.num p.minRmse) h model hmod hs ys
    rw [← hys] at eo
    simp only [hb, if_true, eo, bind, Except.bind] at e
    have := (packOut_fields e).1
    simp only at this
    rcases hcase with ⟨e4, _⟩ | ⟨e3, _⟩ <;> omega
  · have hns : p.mode ≠ 3 ∧ p.mode ≠ 4 := by
      constructor <;> intro e <;> simp [snowBranch, e] at hb
    have hb' : snowBranch E p.mode scenes = false := by simpa using hb
    simp only [hb', Bool.false_eq_true, if_false] at e
    by_cases hl : X.length > (pending p).length
    · simp only [hl, if_true] at e
      have g := given_false h hc8 hns model hmod ys
      rw [← hys] at g
      generalize (if (p.recs.isEmpty && decide (p.mode = 0)) = true then E.variogram X else p.minRmse) = rm at e
      rcases standard_cases (E.num rm) p.queue hc g with
        ⟨out, s, s0, eo, e0, eL, inv, run, hdr, hsh, res⟩ | ⟨eo, _⟩
      · simp only [eo, bind, Except.bind] at e
        have hmo := (packOut_fields e).1
        have hmr := (packOut_fields e).2.1
        simp only at hmo hmr
        have h1 : out.mode % 10 = 1 := by omega
        rw [packOut_mon (by simp only; omega)] at e
        obtain ⟨ht, hi, _⟩ := res.mon h1
        obtain ⟨f, m, hf, hmm, hcase⟩ := res.last h1
        refine .inr ⟨m, f, s.numObs, ?_, ?_, ?_⟩
        · cases e; exact hmm
        · have := congrArg List.length hdr
          simp only [List.length_drop] at this
          by_cases hle : X.length ≤ E.conse
          · have := hsh hle
            obtain ⟨s0', e0', _, o0, i0, _⟩ := initSt_inv g
            rw [e0] at e0'
            cases e0'
            rw [this, o0, i0] at hi
            omega
          · omega
        · rw [hmr]
          have hd : s.obs.drop (s.obs.length - E.conse) = X.drop (X.length - E.conse) := by
            rw [← hdr]; congr 1; omega
          rw [← tail8_eq hc8 hdr, ← hd]
          exact hcase
      · simp only [eo, bind, Except.bind] at e
        cases e
    · simp only [hl, if_false, bind, Except.bind] at e
      rw [packOut_same h model hmod] at e
      cases e
      refine .inl ⟨?_, rfl⟩
      rw [hys] at hl ⊢
      cases ys with
      | nil => simp
      | cons y ys => simp at hl

/-- A call that ends in a standard queue mode queues the newest `conse` observations last. -/
theorem queue_out (E : Env V F R M) {p q : Pack F R M} (h : Promise E.conse p) (hc : 0 < E.conse)
    (hc8 : E.conse ≤ 8) (model : Option (Model F)) (hmod : p.mode ≠ 0 → model = p.model)
    (scenes : List Scene) (hq : ∀ o ∈ scenes, KnownQa o.qa)
    (e : (sccd E { p with model := model } scenes >>= packOut) = .ok q) (hm1 : q.mode = 12 ∨ q.mode = 5)
    (h240 : q.queue.length < 240)
    (X : List Obs) (hX : X = append (pending p) (fresh E.bC2 (snowBranch E p.mode scenes) scenes)) :
    (X = pending p ∧ q = p) ∨ ∃ Y, q.queue = (Y ++ X.drop (X.length - E.conse)).map encode := by
  have hm := h.modes
  have hst : stored p.mode model p.queue = .ok (pending p) := by
    have := stored_ok h
    by_cases h0 : p.mode = 0
    · simp [stored, h0, isQueueMode, isMonitorMode, pending]
    · rw [hmod h0]; exact this
  rw [sccd_eq E { p with model := model } scenes hm hq hst] at e
  simp only at e
  obtain ⟨ys, hys, hsub⟩ := append_prefix (fresh E.bC2 (snowBranch E p.mode scenes) scenes) (pending p)
  rw [← hX] at e hys
  by_cases hb : snowBranch E p.mode scenes = true
  · have hs : p.mode = 0 ∨ p.mode = 3 ∨ p.mode = 4 := by
      simp only [snowBranch] at hb
      by_cases h0 : p.mode = 0
      · exact .inl h0
      · simp [h0] at hb
        exact .inr hb
    obtain ⟨out, eo, hr, hrm, hrn, hcase⟩ := snow_cases (E.num p.minRmse) h model hmod hs ys
    rw [← hys] at eo
    simp only [hb, if_true, eo, bind, Except.bind] at e
    have := (packOut_fields e).1
    simp only at this
    rcases hcase with ⟨e4, _⟩ | ⟨e3, _⟩ <;> omega
  · have hns : p.mode ≠ 3 ∧ p.mode ≠ 4 := by
      constructor <;> intro e <;> simp [snowBranch, e] at hb
    have hb' : snowBranch E p.mode scenes = false := by simpa using hb
    simp only [hb', Bool.false_eq_true, if_false] at e
    by_cases hl : X.length > (pending p).length
    · simp only [hl, if_true] at e
      have g := given_false h hc8 hns model hmod ys
      rw [← hys] at g
      generalize (if (p.recs.isEmpty && decide (p.mode = 0)) = true then E.variogram X else p.minRmse) = rm at e
      rcases standard_cases (E.num rm) p.queue hc g with
        ⟨out, s, s0, eo, e0, eL, inv, run, hdr, hsh, res⟩ | ⟨eo, _⟩
      · simp only [eo, bind, Except.bind] at e
        have hmo := (packOut_fields e).1
        simp only at hmo
        have h1 : out.mode % 10 ≠ 1 := by omega
        have hqq : q.queue = out.queue := by
          rcases hm1 with h' | h'
          · rw [packOut_que (by simp only; omega)] at e; cases e; rfl
          · rw [packOut_five (by simp only; omega)] at e; cases e; rfl
        obtain ⟨_, _, hsq⟩ := res.que h1
        have hpi : s.prevBreak ≤ s.i := by
          cases ht : s.train with
          | true => exact inv.tprev ht
          | false => exact Nat.le_trans (inv.nprev ht) (inv.nstart ht)
        have hex := storeQueue_exact hsq (by rw [← hqq]; exact h240)
        generalize hpb : (if p.mode = 5 ∧ s.changed = false ∧ out.mode = 5 then 0 else s.prevBreak) = pb at hex
        have hpl : pb ≤ s.i := by rw [← hpb]; split <;> omega
        refine .inr ⟨(s.obs.take s.i).drop pb, ?_⟩
        rw [hqq, hex, ← hdr]
        congr 1
        conv => lhs; rw [← List.take_append_drop s.i s.obs]
        have hil := congrArg List.length hdr
        simp only [List.length_drop] at hil
        rw [List.drop_append_of_le_length (by simp only [List.length_take]; omega)]
      · simp only [eo, bind, Except.bind] at e
        cases e
    · simp only [hl, if_false, bind, Except.bind] at e
      rw [packOut_same h model hmod] at e
      cases e
      refine .inl ⟨?_, rfl⟩
      rw [hys] at hl ⊢
      cases ys with
      | nil => simp
      | cons y ys => simp at hl

theorem leadCount_split (N : Num V F R) (g : Obs → V) : ∀ (l : List Obs), ∃ A B, l = A ++ B ∧
    B.length = leadCount N (l.reverse.map g) ∧ (∀ x ∈ B, N.le (g x) N.gate = false) ∧
    ∀ x ∈ A.getLast?, N.le (g x) N.gate = true := by
  have key : ∀ l : List Obs, ∃ A B, l = B ++ A ∧ B.length = leadCount N (l.map g) ∧
      (∀ x ∈ B, N.le (g x) N.gate = false) ∧ ∀ x ∈ A.head?, N.le (g x) N.gate = true := by
    intro l
    induction l with
    | nil => exact ⟨[], [], by simp [leadCount]⟩
    | cons o os ih =>
      obtain ⟨A, B, e1, e2, e3, e4⟩ := ih
      simp only [List.map_cons, leadCount]
      by_cases hg : N.le (g o) N.gate = true
      · exact ⟨o :: os, [], by simp [hg]⟩
      · refine ⟨A, o :: B, by simp [e1], by simp [hg, e2], ?_, e4⟩
        intro x hx
        rcases List.mem_cons.mp hx with rfl | h'
        · simpa using hg
        · exact e3 x h'
  intro l
  obtain ⟨A, B, e1, e2, e3, e4⟩ := key l.reverse
  refine ⟨A.reverse, B.reverse, ?_, by simpa using e2, by simpa using e3, ?_⟩
  · have := congrArg List.reverse e1
    simpa using this
  · simpa using e4

theorem step_break (N : Num V F R) {conse mode0 : Nat} {G : Prop} {H0 X : List Obs} {s s' : St F R}
    (hc : 0 < conse) (inv : Inv G H0 X s) (h2 : s.i + conse + 1 ≤ s.obs.length)
    (h : step N conse mode0 s = .ok s') (hf : s.changed = true → AtBreak s.model s.recs) :
    s'.changed = true → AtBreak s'.model s'.recs := by
  have d := step_delta N hc inv h2 h
  cases ht : s.train with
  | false =>
    rcases d.act with ⟨hch, hm, _, hr⟩ | ⟨c, _⟩
    · intro hc'
      have hA := hf (hch ▸ hc')
      have hne : s.recs ≠ [] := by
        obtain ⟨_, r, _, _, hr, _⟩ := hA
        intro e; rw [e] at hr; simp at hr
      rw [hm, hr hne]
      exact hA
    · rw [ht] at c; simp at c
  | true =>
    unfold step at h
    rw [if_pos ht] at h
    unfold step2 at h
    cases hff : s.filt with
    | none => simp [hff] at h
    | some f =>
      simp only [hff, bind, Except.bind] at h
      rw [chk_ok (by omega), rd_ok (show s.i < s.obs.length by omega), rd_ok (show s.i + 1 < s.obs.length by omega)] at h
      simp only at h
      by_cases hx : isChange N f s.numObs ((s.obs.drop s.i).take conse) = true
      · simp only [hx, if_true] at h
        cases h
        intro _
        have hi : s.i < s.obs.length := by omega
        refine ⟨_, _, encode s.obs[s.i], rfl, by simp; rfl, ?_, rfl⟩
        simp only [snapshot, tail8]
        have hN : NCONSE = 7 + 1 := rfl
        cases conse with
        | zero => omega
        | succ c => rw [List.drop_eq_getElem_cons hi, List.take_succ_cons, List.map_cons, List.cons_append, hN, List.take_succ_cons, List.head?_cons]
      · simp only [hx, Bool.false_eq_true, if_false] at h
        by_cases hv : N.lt N.tmax (N.mag f s.numObs s.obs[s.i]) = true
        · simp only [hv, if_true] at h
          cases h; exact hf
        · simp only [hv, Bool.false_eq_true, if_false] at h
          cases h; exact hf

theorem loop_break (N : Num V F R) {conse mode0 : Nat} {G : Prop} {H0 X : List Obs} (hc : 0 < conse) :
    ∀ (k : Nat) (s s' : St F R), Inv G H0 X s → loop N conse mode0 k s = .ok s' →
      (s.changed = true → AtBreak s.model s.recs) → s'.changed = true → AtBreak s'.model s'.recs
  | 0, s, s', inv, e, hf => by
    unfold loop at e
    split at e
    · cases e
    · cases e; exact hf
  | k + 1, s, s', inv, e, hf => by
    unfold loop at e
    by_cases hg : s.i + conse + 1 ≤ s.obs.length
    · rw [if_pos hg] at e
      rcases step_inv N (mode0 := mode0) hc inv hg with ⟨s1, e1, inv1, _⟩ | ⟨e1, _⟩
      · simp only [e1, bind, Except.bind] at e
        exact loop_break N hc k s1 s' inv1 e (step_break N hc inv hg e1 hf)
      · simp [e1, bind, Except.bind] at e
    · rw [if_neg hg] at e
      cases e; exact hf

/-- The model kept in mode 5 is that of the last confirmed change. -/
theorem break_call (E : Env V F R M) {p q : Pack F R M} (h : Promise E.conse p) (hc : 0 < E.conse)
    (hc8 : E.conse ≤ 8) (model : Option (Model F)) (hmod : p.mode ≠ 0 → model = p.model)
    (scenes : List Scene) (hq : ∀ o ∈ scenes, KnownQa o.qa) (S : p.mode = 5 → AtBreak p.model p.recs)
    (S2 : p.mode = 5 → ∃ m, p.model = some m ∧ m.conseLast = E.conse)
    (e : (sccd E { p with model := model } scenes >>= packOut) = .ok q) (hq5 : q.mode = 5) :
    AtBreak q.model q.recs ∧ ∃ m, q.model = some m ∧ m.conseLast = E.conse := by
  have hm := h.modes
  have hst : stored p.mode model p.queue = .ok (pending p) := by
    have := stored_ok h
    by_cases h0 : p.mode = 0
    · simp [stored, h0, isQueueMode, isMonitorMode, pending]
    · rw [hmod h0]; exact this
  rw [sccd_eq E { p with model := model } scenes hm hq hst] at e
  simp only at e
  obtain ⟨ys, hys, hsub⟩ := append_prefix (fresh E.bC2 (snowBranch E p.mode scenes) scenes) (pending p)
  rw [hys] at e
  by_cases hb : snowBranch E p.mode scenes = true
  · have hs : p.mode = 0 ∨ p.mode = 3 ∨ p.mode = 4 := by
      simp only [snowBranch] at hb
      by_cases h0 : p.mode = 0
      · exact .inl h0
      · simp [h0] at hb
        exact .inr hb
    obtain ⟨out, eo, hr, hrm, hrn, hcase⟩ := snow_cases (E.num p.minRmse) h model hmod hs ys
    simp only [hb, if_true, eo, bind, Except.bind] at e
    have := (packOut_fields e).1
    simp only at this
    rcases hcase with ⟨e4, _⟩ | ⟨e3, _⟩ <;> omega
  · have hns : p.mode ≠ 3 ∧ p.mode ≠ 4 := by
      constructor <;> intro e <;> simp [snowBranch, e] at hb
    have hb' : snowBranch E p.mode scenes = false := by simpa using hb
    simp only [hb', Bool.false_eq_true, if_false] at e
    by_cases hl : (pending p ++ ys).length > (pending p).length
    · simp only [hl, if_true] at e
      have g := given_false h hc8 hns model hmod ys
      generalize (if (p.recs.isEmpty && decide (p.mode = 0)) = true then E.variogram (pending p ++ ys) else p.minRmse) = rm at e
      rcases standard_cases (E.num rm) p.queue hc g with
        ⟨out, s, s0, eo, e0, eL, inv, run, hdr, hsh, res⟩ | ⟨eo, _⟩
      · simp only [eo, bind, Except.bind] at e
        obtain ⟨s0', e0', inv0, o0, i0, r0, m0, c0, t0, p0⟩ := initSt_inv g
        rw [e0] at e0'
        cases e0'
        have hmo := (packOut_fields e).1
        simp only at hmo
        rw [packOut_five (by simp only; omega)] at e
        have h5 := res.five (by omega)
        obtain ⟨hom, _, _⟩ := res.que (by omega)
        have key : AtBreak s.model s.recs ∧ ∃ m, s.model = some m ∧ m.conseLast = E.conse := by
          cases hch : s.changed with
          | true =>
            refine ⟨loop_break (E.num rm) hc _ s0 s inv0 eL (by rw [c0]; simp) hch, ?_⟩
            obtain ⟨⟨m, k1, _, k2⟩, _⟩ := run.chg c0 hch
            exact ⟨m, k1, k2⟩
          | false =>
            have hp5 : p.mode = 5 := by
              rcases h5.2.2 with h' | h'
              · rw [hch] at h'; simp at h'
              · exact h'
            obtain ⟨k1, _, k2⟩ := run.keep (by rw [hch, c0]) (by omega) c0
            have hrn : s0.recs ≠ [] := by rw [r0]; exact (h.both hp5).2.2
            rw [k1, k2 hrn, m0, r0, hmod (by omega)]
            exact ⟨S hp5, S2 hp5⟩
        cases e
        simp only [hom, res.recs]
        exact key
      · simp only [eo, bind, Except.bind] at e
        cases e
    · simp only [hl, if_false, bind, Except.bind] at e
      rw [packOut_same h model hmod] at e
      cases e
      exact ⟨S hq5, S2 hq5⟩

theorem History.atBreak {E : Env V F R M} {ok : Pack F R M → Prop} (hc : 0 < E.conse) (hc8 : E.conse ≤ 8)
    {p : Pack F R M} {all : List Obs} (h : History E ok p all) :
    p.mode = 5 → AtBreak p.model p.recs ∧ ∃ m, p.model = some m ∧ m.conseLast = E.conse := by
  induction h with
  | void m0 => simp
  | detect m0 z scenes q e _ =>
    intro h5
    obtain ⟨_, hq, ec⟩ := detect_call E e
    exact break_call E (start_promise E.conse m0) hc hc8 (some z) (by simp [start]) scenes hq
      (by simp [start]) (by simp [start]) ec h5
  | update p q all scenes hp e _ ih =>
    intro h5
    have hP := hp.promise hc hc8
    obtain ⟨_, hq, ec⟩ := update_call E hP e
    exact break_call E hP hc hc8 p.model (fun _ => rfl) scenes hq (fun h => (ih h).1) (fun h => (ih h).2) ec h5
  | identify p q all a d _ e _ ih =>
    intro h5
    rcases identify_keeps e with rfl | ⟨h1, rfl⟩
    · exact ih h5
    · simp at h5

theorem phantom_pad : decode padObs = phantom := by decide

/-- With fewer than 8 consecutive observations every monitor pack carries phantom observations. -/
theorem History.phantoms {E : Env V F R M} {ok : Pack F R M → Prop} (hc : 0 < E.conse) (hc8 : E.conse < 8)
    {p : Pack F R M} {all : List Obs} (h : History E ok p all) :
    p.mode = 1 ∨ p.mode = 11 → phantom ∈ pending p := by
  have key : ∀ (p q : Pack F R M) (model : Option (Model F)) (scenes : List Scene), Promise E.conse p →
      (p.mode ≠ 0 → model = p.model) → (∀ o ∈ scenes, KnownQa o.qa) →
      (p.mode = 1 ∨ p.mode = 11 → phantom ∈ pending p) →
      (sccd E { p with model := model } scenes >>= packOut) = .ok q → q.mode = 1 ∨ q.mode = 11 →
      phantom ∈ pending q := by
    intro p q model scenes hP hmod hq ih ec hm
    rcases mon_out E hP hc (by omega) model hmod scenes hq ec hm _ rfl with ⟨_, rfl⟩ | ⟨m, f, n, hm1, _, hcase, _⟩
    · exact ih hm
    · rw [pending_mon (by omega) hm1, ← phantom_pad]
      refine List.mem_map_of_mem ?_
      rcases hcase with ⟨ho, _⟩ | ⟨ho, _⟩
      · rw [ho]
        refine List.mem_append_right _ (List.mem_replicate.mpr ⟨by omega, rfl⟩)
      · rw [ho]; simp
  induction h with
  | void m0 => simp
  | detect m0 z scenes q e _ =>
    obtain ⟨_, hq, ec⟩ := detect_call E e
    exact key (start m0) q (some z) scenes (start_promise E.conse m0) (by simp [start]) hq (by simp [start]) ec
  | update p q all scenes hp e _ ih =>
    have hP := hp.promise hc (by omega)
    obtain ⟨_, hq, ec⟩ := update_call E hP e
    exact key p q p.model scenes hP (fun _ => rfl) hq ih ec
  | identify p q all a d _ e _ ih =>
    rcases identify_keeps e with rfl | ⟨h1, rfl⟩
    · exact ih
    · intro _
      have := ih (.inl h1)
      simpa [pending, h1] using this

/-- Within a year of data nothing is ever trained. -/
theorem loop_short (N : Num V F R) {conse mode0 : Nat} : ∀ (k : Nat) (s : St F R), s.train = false →
    s.iStart ≤ s.i → (∀ a ∈ s.obs, ∀ b ∈ s.obs, yearOrMore (b.date - a.date) = false) →
    s.obs.length - s.i - conse ≤ k →
    loop N conse mode0 k s = .ok { s with i := s.i + (s.obs.length - s.i - conse) }
  | 0, s, ht, hs, hy, hk => by
    unfold loop
    rw [if_neg (by omega), show s.obs.length - s.i - conse = 0 by omega]
    rfl
  | k + 1, s, ht, hs, hy, hk => by
    unfold loop
    by_cases hg : s.i + conse + 1 ≤ s.obs.length
    · rw [if_pos hg]
      have h1 : s.iStart < s.obs.length := by omega
      have h2 : s.i < s.obs.length := by omega
      have hst : step N conse mode0 s = .ok { s with i := s.i + 1 } := by
        unfold step trainStep
        simp only [ht, Bool.false_eq_true, if_false, rd_ok h1, rd_ok h2, bind, Except.bind,
          hy _ (List.getElem_mem h1) _ (List.getElem_mem h2), Bool.and_false, Bool.not_false, if_true]
      have ih := loop_short N (conse := conse) (mode0 := mode0) k { s with i := s.i + 1 } ht (by simp only; omega) hy (by simp only; omega)
      simp only [hst, bind, Except.bind, ih]
      rw [show s.i + 1 + (s.obs.length - (s.i + 1) - conse) = s.i + (s.obs.length - s.i - conse) by omega]
    · rw [if_neg hg, show s.obs.length - s.i - conse = 0 by omega]
      rfl

/-- A pixel in snow queue mode has queued something, if a pixel without snow is never a snow pixel. -/
theorem History.snowQueued {E : Env V F R M} {ok : Pack F R M → Prop} (hc : 0 < E.conse) (hc8 : E.conse ≤ 8)
    (hsn : ∀ n, E.snowPct 0 n = false) {p : Pack F R M} {all : List Obs} (h : History E ok p all) :
    p.mode = 4 → p.queue ≠ [] := by
  have key : ∀ (p q : Pack F R M) (model : Option (Model F)) (scenes : List Scene), Promise E.conse p →
      (p.mode ≠ 0 → model = p.model) → (∀ o ∈ scenes, KnownQa o.qa) → (p.mode = 4 → p.queue ≠ []) →
      (sccd E { p with model := model } scenes >>= packOut) = .ok q → q.mode = 4 → q.queue ≠ [] := by
    intro p q model scenes h hmod hq ih e h4
    have hm := h.modes
    have hst : stored p.mode model p.queue = .ok (pending p) := by
      have := stored_ok h
      by_cases h0 : p.mode = 0
      · simp [stored, h0, isQueueMode, isMonitorMode, pending]
      · rw [hmod h0]; exact this
    rw [sccd_eq E { p with model := model } scenes hm hq hst] at e
    simp only at e
    have hne := append_ne_nil (fresh E.bC2 (snowBranch E p.mode scenes) scenes) (pending p)
    obtain ⟨ys, hys, hsub⟩ := append_prefix (fresh E.bC2 (snowBranch E p.mode scenes) scenes) (pending p)
    rw [hys] at e hne
    by_cases hb : snowBranch E p.mode scenes = true
    · have hs : p.mode = 0 ∨ p.mode = 3 ∨ p.mode = 4 := by
        simp only [snowBranch] at hb
        by_cases h0 : p.mode = 0
        · exact .inl h0
        · simp [h0] at hb
          exact .inr hb
      obtain ⟨out, eo, hr, hrm, hrn, hcase⟩ := snow_cases (E.num p.minRmse) h model hmod hs ys
      simp only [hb, if_true, eo, bind, Except.bind] at e
      have hmo := (packOut_fields e).1
      simp only at hmo
      rcases hcase with ⟨e4, hqq, _, h3, _⟩ | ⟨e3, _⟩
      · rw [packOut_que (by simp only; omega)] at e
        have : q.queue = out.queue := by cases e; rfl
        rw [this, hqq]
        simp only [ne_eq, List.map_eq_nil_iff]
        apply hne
        rcases hs with e0 | e3 | e4
        · right
          have hsn' : Spec.qaCount scenes 3 ≠ 0 := by
            intro h0
            simp [snowBranch, e0, h0, hsn] at hb
          have : 0 < Spec.qaCount scenes 3 := by omega
          obtain ⟨o, ho, hoq⟩ := List.countP_pos_iff.mp this
          intro hf
          rw [hb] at hf
          simp only [fresh, List.map_eq_nil_iff, List.filter_eq_nil_iff, decide_eq_true_eq] at hf
          refine hf o ho ?_
          simp only [Wanted, if_true]
          left; simpa using hoq
        · exact absurd e3 h3
        · left
          rw [pending_que (by omega)]
          simpa using ih e4
      · omega
    · have hns : p.mode ≠ 3 ∧ p.mode ≠ 4 := by
        constructor <;> intro e <;> simp [snowBranch, e] at hb
      have hb' : snowBranch E p.mode scenes = false := by simpa using hb
      simp only [hb', Bool.false_eq_true, if_false] at e
      by_cases hl : (pending p ++ ys).length > (pending p).length
      · simp only [hl, if_true] at e
        have g := given_false h hc8 hns model hmod ys
        generalize (if (p.recs.isEmpty && decide (p.mode = 0)) = true then E.variogram (pending p ++ ys) else p.minRmse) = rm at e
        rcases standard_cases (E.num rm) p.queue hc g with
          ⟨out, s, s0, eo, _, _, _, _, _, _, res⟩ | ⟨eo, _⟩
        · simp only [eo, bind, Except.bind] at e
          have hmo := (packOut_fields e).1
          have := res.modes
          simp only [List.mem_cons, List.not_mem_nil, or_false] at this hmo
          omega
        · simp only [eo, bind, Except.bind] at e
          cases e
      · simp only [hl, if_false, bind, Except.bind] at e
        rw [packOut_same h model hmod] at e
        cases e
        exact absurd h4 hns.2
  induction h with
  | void m0 => simp
  | detect m0 z scenes q e _ =>
    obtain ⟨_, hq, ec⟩ := detect_call E e
    exact key (start m0) q (some z) scenes (start_promise E.conse m0) (by simp [start]) hq (by simp [start]) ec
  | update p q all scenes hp e _ ih =>
    have hP := hp.promise hc (by omega)
    obtain ⟨_, hq, ec⟩ := update_call E hP e
    exact key p q p.model scenes hP (fun _ => rfl) hq ih ec
  | identify p q all a d _ e _ ih =>
    rcases identify_keeps e with rfl | ⟨h1, rfl⟩
    · exact ih
    · simp

end Pycold.Sccd
