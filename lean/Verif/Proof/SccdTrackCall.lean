import Verif.Proof.SccdTrack
import Verif.Proof.SccdSeq2
/-!
# S-CCD: where the numbers of a pack come from, call by call
-/
namespace Pycold.Sccd
open Spec
variable {V F R M : Type}

/-- What a call in a standard mode may assume, from the ledger. -/
theorem given_true (E : Env V F R M) {p : Pack F R M} {all : List Obs} (h : Promise E.conse p)
    (hc : 0 < E.conse) (hc8 : E.conse ≤ 8) (hns : p.mode ≠ 3 ∧ p.mode ≠ 4) (model : Option (Model F))
    (hmod : p.mode ≠ 0 → model = p.model) (L : Ledger p all) (ys : List Obs) (hasc : Asc (all ++ ys)) :
    Given True E.conse p.mode model p.recs (pending p ++ ys) := by
  have hm := h.modes
  have hop := openPart_eq hm hns.1 model hmod
  have hHp : flat p.recs ++ openPart p.mode model ++ (pending p ++ ys) = holds p ++ ys := by
    rw [hop, holds]; simp
  have hholds : (holds p ++ ys).Sublist (all ++ ys) := L.sub.append (List.Sublist.refl _)
  have g0 := given_false h hc8 hns model hmod ys
  refine ⟨g0.modes, ?_, g0.five, fun _ => L.recs, ?_, ?_, fun _ => L.year⟩
  · intro h1
    obtain ⟨m, hm1, hm2, _⟩ := g0.mon h1
    refine ⟨m, hm1, hm2, fun _ => ?_⟩
    have hm' : p.mode = 1 ∨ p.mode = 11 := by
      simp only [List.mem_cons, List.not_mem_nil, or_false] at hm
      omega
    exact L.model hm' m (by rw [← hmod (by omega), hm1])
  · intro _
    rw [hHp]
    exact hasc.sublist hholds
  · intro _
    rw [hop, ← List.append_assoc]
    refine L.chrono.extend ?_ ?_
    · intro o ho y hy
      refine asc_split hasc o (L.sub.subset ?_) y hy
      rw [holds, List.append_assoc]
      exact List.mem_append_right _ ho
    · intro hrne hnil
      have hpn : pending p = [] := (List.append_eq_nil_iff.mp hnil).2
      simp only [List.mem_cons, List.not_mem_nil, or_false] at hm
      rcases hm with e' | e' | e' | e' | e' | e' | e'
      · exact hrne (h.void e').1
      · have := length_pending_mon h (by omega); rw [hpn] at this; simp at this
      · exact hns.1 e'
      · exact hns.2 e'
      · have hb := (h.both e').2.1
        have hq0 : p.queue = [] := by simpa [pending, e'] using hpn
        rw [hq0] at hb
        simp at hb
        omega
      · have := length_pending_mon h (by omega); rw [hpn] at this; simp at this
      · have hq0 : p.queue = [] := by simpa [pending, e'] using hpn
        exact h.waiting e' hq0

/-- Every record of a pack has the numbers of its own observations, and so has a monitored model. -/
structure Accounts (N : Num V F R) (conse : Nat) (all : List Obs) (p : Pack F R M) : Prop where
  head : ∀ r ∈ p.recs.head?, (∃ prior f, ClosedBy N conse all prior r f) ∨ OpenedBy N conse all r
  tail : ∀ r ∈ p.recs.tail, ∃ prior f, ClosedBy N conse all prior r f
  model : p.mode = 1 ∨ p.mode = 11 → ∀ m, p.model = some m →
    ∃ prior nx, (pending p).head? = some nx ∧ FilterOf N prior m.seg nx m.filt

theorem Accounts.mono {N : Num V F R} {conse : Nat} {all all' : List Obs} {p : Pack F R M}
    (hs : all.Sublist all') (h : Accounts N conse all p) : Accounts N conse all' p := by
  refine ⟨fun r hr => ?_, fun r hr => ?_, h.model⟩
  · rcases h.head r hr with ⟨prior, f, h⟩ | h
    · exact .inl ⟨prior, f, h.mono hs⟩
    · exact .inr (h.mono hs)
  · obtain ⟨prior, f, h⟩ := h.tail r hr
    exact ⟨prior, f, h.mono hs⟩

theorem init_numbers (N : Num V F R) (all : List Obs) {conse mode0 : Nat} {model : Option (Model F)} {recs : List (Rec R)}
    {obs : List Obs} {s0 : St F R} (e : initSt mode0 model recs obs = .ok s0)
    (hm : mode0 % 10 = 1 → ∀ m, model = some m → ∃ prior nx, obs.head? = some nx ∧ FilterOf N prior m.seg nx m.filt) :
    ∃ prior0, Numbers N conse all prior0 recs s0 ∧ (mode0 % 10 ≠ 1 → prior0 = none) := by
  unfold initSt at e
  by_cases h1 : mode0 % 10 = 1
  · simp only [h1, if_true] at e
    cases hmo : model with
    | none => simp [hmo] at e
    | some m =>
      obtain ⟨prior, nx, h2, h3⟩ := hm h1 m hmo
      simp only [hmo] at e
      cases e
      refine ⟨prior, ⟨[], [], prior, by simp, .inl rfl, rfl, by simp, fun _ => ⟨nx, m.filt, ?_, rfl, h3⟩⟩,
        fun h => absurd h1 h⟩
      simp only
      rw [← List.head?_eq_getElem?]; exact h2
  · simp only [h1, if_false] at e
    cases e
    exact ⟨none, ⟨[], [], none, by simp, .inl rfl, rfl, fun _ => rfl, by simp⟩, fun _ => rfl⟩

theorem numbers_recs {N : Num V F R} {conse : Nat} {all : List Obs} {prior0 : Option F} {recs0 : List (Rec R)} {s : St F R}
    (h : Numbers N conse all prior0 recs0 s)
    (h1 : ∀ r ∈ recs0.head?, (∃ prior f, ClosedBy N conse all prior r f) ∨ OpenedBy N conse all r)
    (h2 : ∀ r ∈ recs0.tail, ∃ prior f, ClosedBy N conse all prior r f) :
    (∀ r ∈ s.recs.head?, (∃ prior f, ClosedBy N conse all prior r f) ∨ OpenedBy N conse all r) ∧
    ∀ r ∈ s.recs.tail, ∃ prior f, ClosedBy N conse all prior r f := by
  obtain ⟨op, new, last, hrec, hop, hch, _, _⟩ := h
  have hnew := hch.mem
  cases hr0 : recs0 with
  | cons a as =>
    rw [hr0] at h1 h2
    have : op = [] := by
      rcases hop with h | ⟨h, _⟩
      · exact h
      · rw [hr0] at h; cases h
    rw [hrec, hr0, this]
    refine ⟨by simpa using h1, ?_⟩
    intro r hr
    simp only [List.append_nil, List.cons_append, List.tail_cons, List.mem_append] at hr
    rcases hr with hr | hr
    · exact h2 r hr
    · exact hnew r hr
  | nil =>
    rw [hrec, hr0]
    rcases hop with h | ⟨_, r, h, ho⟩
    · subst h
      simp only [List.nil_append]
      exact ⟨fun r hr => .inl (hnew r (List.mem_of_mem_head? hr)), fun r hr => hnew r (List.mem_of_mem_tail hr)⟩
    · subst h
      simp only [List.nil_append, List.cons_append, List.head?_cons, List.tail_cons]
      exact ⟨fun x hx => by cases hx; exact .inr ho, hnew⟩

theorem accounts_call (E : Env V F R M) (hN : ∀ rm, Erases (E.num rm))
    (hnar : ∀ rm f, (E.num rm).narrow f = f) {p q : Pack F R M} {all : List Obs} (h : Promise E.conse p)
    (hc : 0 < E.conse) (hc8 : E.conse ≤ 8) (model : Option (Model F))
    (hmod : p.mode ≠ 0 → model = p.model) (scenes : List Scene) (hq : ∀ o ∈ scenes, KnownQa o.qa)
    (L : Ledger p all) (A : Accounts (E.num p.minRmse) E.conse all p)
    (hasc : Asc (all ++ fresh E.bC2 (snowBranch E p.mode scenes) scenes))
    (hcod : Codable (all ++ fresh E.bC2 (snowBranch E p.mode scenes) scenes))
    (e : (sccd E { p with model := model } scenes >>= packOut) = .ok q)
    (h8 : q.mode = 1 ∨ q.mode = 11 → E.conse = 8) :
    Accounts (E.num q.minRmse) E.conse (all ++ fresh E.bC2 (snowBranch E p.mode scenes) scenes) q := by
  have hm := h.modes
  have hst : stored p.mode model p.queue = .ok (pending p) := by
    have := stored_ok h
    by_cases h0 : p.mode = 0
    · simp [stored, h0, isQueueMode, isMonitorMode, pending]
    · rw [hmod h0]; exact this
  rw [sccd_eq E { p with model := model } scenes hm hq hst] at e
  simp only at e
  generalize hys : fresh E.bC2 (snowBranch E p.mode scenes) scenes = ys at *
  have hholds : (holds p ++ ys).Sublist (all ++ ys) := L.sub.append (List.Sublist.refl _)
  have hpasc : Asc (pending p ++ ys) := hasc.sublist
    (((List.sublist_append_right _ _).append (List.Sublist.refl _)).trans hholds)
  rw [append_asc ys (pending p) hpasc] at e
  by_cases hb : snowBranch E p.mode scenes = true
  · have hs : p.mode = 0 ∨ p.mode = 3 ∨ p.mode = 4 := by
      simp only [snowBranch] at hb
      by_cases h0 : p.mode = 0
      · exact .inl h0
      · simp [h0] at hb
        exact .inr hb
    obtain ⟨out, eo, hr, hro, hrn, hcase⟩ := snow_cases (E.num p.minRmse) h model hmod hs ys
    simp only [hb, if_true, eo, bind, Except.bind] at e
    have : q.recs = [] ∧ (q.mode = 3 ∨ q.mode = 4) := by
      rcases hcase with ⟨e4, _⟩ | ⟨e3, _⟩
      · rw [packOut_que (by simp only; omega)] at e; cases e; exact ⟨by simp only [hr, hrn], .inr e4⟩
      · rw [packOut_mon (by simp only; omega)] at e; cases e; exact ⟨by simp only [hr, hrn], .inl e3⟩
    exact ⟨by simp [this.1], by simp [this.1], by omega⟩
  · have hns : p.mode ≠ 3 ∧ p.mode ≠ 4 := by
      constructor <;> intro e' <;> simp [snowBranch, e'] at hb
    have hb' : snowBranch E p.mode scenes = false := by simpa using hb
    simp only [hb', Bool.false_eq_true, if_false] at e
    have hop := openPart_eq hm hns.1 model hmod
    have hHp : flat p.recs ++ openPart p.mode model ++ (pending p ++ ys) = holds p ++ ys := by
      rw [hop, holds]; simp
    by_cases hl : (pending p ++ ys).length > (pending p).length
    · simp only [hl, if_true] at e
      have g := given_true E h hc hc8 hns model hmod L ys hasc
      have hrm : p.mode ≠ 0 → (if (p.recs.isEmpty && decide (p.mode = 0)) = true then
          E.variogram (pending p ++ ys) else p.minRmse) = p.minRmse := by
        intro h0; simp [h0]
      generalize (if (p.recs.isEmpty && decide (p.mode = 0)) = true then E.variogram (pending p ++ ys) else p.minRmse) = rm at e hrm
      rcases standard_cases (E.num rm) p.queue hc g with
        ⟨out, s, s0, eo, e0, eL, inv, run, hdr, hsh, res⟩ | ⟨eo, _⟩
      rotate_left
      · simp [eo, bind, Except.bind] at e
      simp only [eo, bind, Except.bind] at e
      obtain ⟨s0', e0', inv0, o0, i0, r0, m0, c0, t0, p0⟩ := initSt_inv g
      rw [e0] at e0'
      cases e0'
      have hA : Accounts (E.num rm) E.conse (all ++ ys) p := by
        by_cases h0 : p.mode = 0
        · have := (h.void h0).1
          exact ⟨by simp [this], by simp [this], by omega⟩
        · rw [hrm h0]; exact A.mono (List.sublist_append_left _ _)
      obtain ⟨prior0, hn0, _⟩ := init_numbers (E.num rm) (all ++ ys) (conse := E.conse) e0 (by
        intro h1 m hmm
        have hm' : p.mode = 1 ∨ p.mode = 11 := by
          simp only [List.mem_cons, List.not_mem_nil, or_false] at hm
          omega
        obtain ⟨prior, nx, k1, k2⟩ := hA.model hm' m (by rw [← hmod (by omega), hmm])
        refine ⟨prior, nx, ?_, k2⟩
        cases hpp : pending p with
        | nil => rw [hpp] at k1; simp at k1
        | cons x xs => rw [hpp] at k1; simpa using k1)
      have hn := loop_numbers (hN rm) hc trivial (by rw [hHp]; exact hholds) _ s0 s inv0 hn0 eL
      have hrecs := numbers_recs hn hA.head hA.tail
      have h2 : out.mode ≠ 2 := by
        intro e2
        have := res.from2 e2
        simp only [List.mem_cons, List.not_mem_nil, or_false] at hm
        omega
      have hmo := res.modes
      simp only [List.mem_cons, List.not_mem_nil, or_false] at hmo
      have key : q.mode = out.mode → q.recs = out.recs → q.minRmse = rm →
          (out.mode % 10 = 1 → q.model = out.model) → Accounts (E.num q.minRmse) E.conse (all ++ ys) q := by
        intro qm qr qrm qmod
        rw [qrm]
        refine ⟨by rw [qr, res.recs]; exact hrecs.1, by rw [qr, res.recs]; exact hrecs.2, ?_⟩
        intro hq1 m hqm
        have hmon : out.mode % 10 = 1 := by rw [qm] at hq1; omega
        have hc8' := h8 hq1
        obtain ⟨ht, hlen, _, _, f, m', hf, hom, hm8, hfil, hts, hno, hpre, hseg, hobs⟩ := res.mon hmon
        have hmm : m = m' := by
          have := (qmod hmon).trans hom
          rw [hqm] at this
          exact Option.some.inj this
        subst hmm
        obtain ⟨op, new, last, _, _, _, _, htn⟩ := hn
        obtain ⟨nx, f', hnx, hff, hfo⟩ := htn ht
        have hff' : f' = f := by rw [hf] at hff; exact (Option.some.inj hff).symm
        subst hff'
        have hso := inv.tseg ht trivial
        have hpos : s.numObs > 0 := by have := hso.count; have := hso.long; omega
        have hob := hobs hpos
        rw [hc8'] at hob hlen
        rw [tail8_full hlen] at hob
        have hcs : Codable (s.obs.drop s.i) := by
          have h1 : Codable (flat p.recs ++ openPart p.mode model ++ (pending p ++ ys)) := by
            rw [hHp]; exact hcod.sublist hholds
          exact h1.sublist (((List.drop_sublist _ _).trans inv.sub).trans (List.sublist_append_right _ _))
        refine ⟨last, nx, ?_, ?_⟩
        · rw [pending_mon (by omega) hqm, hob, decode_encode hcs, List.head?_drop]
          exact hnx
        · rw [hfil, hseg, hnar]; exact hfo
      rcases hmo with e' | e' | e' | e' | e'
      · rw [packOut_mon (by simp [e'])] at e
        cases e
        exact key rfl rfl rfl (fun _ => rfl)
      · rw [packOut_mon (by simp [e'])] at e
        cases e
        exact key rfl rfl rfl (fun _ => rfl)
      · exact absurd e' h2
      · rw [packOut_que (by simp [e'])] at e
        cases e
        exact key rfl rfl rfl (by simp [e'])
      · rw [packOut_five (by simp [e'])] at e
        cases e
        exact key rfl rfl rfl (fun _ => rfl)
    · have : q = p := by
        simp only [hl, if_false, bind, Except.bind] at e
        rw [packOut_same h model hmod] at e
        cases e; rfl
      rw [this]
      exact A.mono (List.sublist_append_left _ _)

theorem start_accounts (N : Num V F R) (conse : Nat) (m0 : M) : Accounts N conse [] (start m0 : Pack F R M) := by
  refine ⟨?_, ?_, ?_⟩ <;> simp [start]

theorem identify_accounts {N : Num V F R} {conse : Nat} {all : List Obs} {a : Ask F} {p q : Pack F R M} {d : Int}
    (A : Accounts N conse all p) (e : identify a p = .ok (q, d)) : Accounts N conse all q := by
  rcases identify_keeps e with rfl | ⟨h1, rfl⟩
  · exact A
  · have hpen : pending { p with mode := 11 } = pending p := by simp [pending, h1]
    exact ⟨A.head, A.tail, fun _ => by rw [hpen]; exact A.model (.inl h1)⟩

theorem History.accounts {E : Env V F R M} {ok : Pack F R M → Prop} (hN : ∀ rm, Erases (E.num rm))
    (hnar : ∀ rm f, (E.num rm).narrow f = f) (hc : 0 < E.conse) (hc8 : E.conse ≤ 8)
    (hok : ∀ q, ok q → q.queue.length < 240 ∧ (q.mode = 1 ∨ q.mode = 11 → E.conse = 8))
    {p : Pack F R M} {all : List Obs} (h : History E ok p all) (hasc : Asc all) (hcod : Codable all)
    (hlen : all.length ≤ 32767) : Accounts (E.num p.minRmse) E.conse all p := by
  induction h with
  | void m0 => exact start_accounts _ _ m0
  | detect m0 z scenes q e hq' =>
    obtain ⟨_, hq, ec⟩ := detect_call E e
    exact accounts_call E hN hnar (start_promise E.conse m0) hc hc8 (some z) (by simp [start]) scenes hq
      (start_ledger m0) (start_accounts _ _ m0) hasc hcod ec (hok q hq').2
  | update p q all scenes hp e hq' ih =>
    have hP := hp.promise hc hc8
    obtain ⟨_, hq, ec⟩ := update_call E hP e
    have a1 := hasc.sublist (List.sublist_append_left _ _)
    have a2 := hcod.sublist (List.sublist_append_left all _)
    have a3 : all.length ≤ 32767 := by simp only [List.length_append] at hlen; omega
    exact accounts_call E hN hnar hP hc hc8 p.model (fun _ => rfl) scenes hq (hp.ledger hc hc8 hok a1 a2 a3)
      (ih a1 a2 a3) hasc hcod ec (hok q hq').2
  | identify p q all a d _ e _ ih =>
    have := identify_accounts (ih hasc hcod hlen) e
    have hr : q.minRmse = p.minRmse := by
      rcases identify_keeps e with rfl | ⟨_, rfl⟩ <;> rfl
    rw [hr]; exact this

/-- The numbers of a first call. -/
theorem first_numbers (E : Env V F R M) (hN : ∀ rm, Erases (E.num rm)) {q : Pack F R M} (m0 : M)
    (hc : 0 < E.conse) (model : Option (Model F)) (scenes : List Scene)
    (hq : ∀ o ∈ scenes, KnownQa o.qa) (hasc : Asc (fresh E.bC2 (snowBranch E 0 scenes) scenes))
    (e : (sccd E { (start m0 : Pack F R M) with model := model } scenes >>= packOut) = .ok q) :
    ∃ op rest last, q.recs = op ++ rest ∧ (op = [] ∨ ∃ r, op = [r] ∧ OpenedBy (E.num q.minRmse) E.conse (fresh E.bC2 (snowBranch E 0 scenes) scenes) r) ∧
      ClosedChain (E.num q.minRmse) E.conse (fresh E.bC2 (snowBranch E 0 scenes) scenes) none rest last ∧
      (q.mode = 1 → ∃ m nx f, q.model = some m ∧ m.filt = (E.num q.minRmse).narrow f ∧
        nx ∈ ((fresh E.bC2 (snowBranch E 0 scenes) scenes).drop
          ((fresh E.bC2 (snowBranch E 0 scenes) scenes).length - E.conse)).head? ∧
        (m.seg ++ [nx]).Sublist (fresh E.bC2 (snowBranch E 0 scenes) scenes) ∧
        FilterOf (E.num q.minRmse) last m.seg nx f) := by
  have h : Promise E.conse (start m0 : Pack F R M) := start_promise E.conse m0
  rw [sccd_eq E { (start m0 : Pack F R M) with model := model } scenes h.modes hq (old := []) rfl] at e
  simp only at e
  have h0 : (start m0 : Pack F R M).mode = 0 := rfl
  have hrec0 : (start m0 : Pack F R M).recs = [] := rfl
  rw [h0] at e
  have hX : append [] (fresh E.bC2 (snowBranch E 0 scenes) scenes) = fresh E.bC2 (snowBranch E 0 scenes) scenes :=
    append_asc _ [] (by simpa using hasc)
  rw [hX] at e
  generalize hXe : fresh E.bC2 (snowBranch E 0 scenes) scenes = X at *
  have hempty : ∀ {q : Pack F R M}, q.recs = [] → q.mode ≠ 1 →
      ∃ op rest last, q.recs = op ++ rest ∧ (op = [] ∨ ∃ r, op = [r] ∧ OpenedBy (E.num q.minRmse) E.conse X r) ∧
      ClosedChain (E.num q.minRmse) E.conse X none rest last ∧
      (q.mode = 1 → ∃ m nx f, q.model = some m ∧ m.filt = (E.num q.minRmse).narrow f ∧
        nx ∈ (X.drop (X.length - E.conse)).head? ∧ (m.seg ++ [nx]).Sublist X ∧ FilterOf (E.num q.minRmse) last m.seg nx f) := by
    intro q hq hm
    exact ⟨[], [], none, by simpa using hq, .inl rfl, rfl, fun h => absurd h hm⟩
  by_cases hb : snowBranch E 0 scenes = true
  · obtain ⟨out, eo, hr, hrm, hrn, hcase⟩ := snow_cases (E.num (start m0 : Pack F R M).minRmse) h model (by simp [start]) (.inl h0) X
    have hp0 : pending (start m0 : Pack F R M) = [] := rfl
    rw [hp0, h0, List.nil_append] at eo
    simp only [hb, if_true, eo, bind, Except.bind] at e
    rcases hcase with ⟨e4, _⟩ | ⟨e3, _⟩
    · rw [packOut_que (by simp only; omega)] at e; cases e
      exact hempty (by simp only [hr, hrec0]) (by simp only; omega)
    · rw [packOut_mon (by simp only; omega)] at e; cases e
      exact hempty (by simp only [hr, hrec0]) (by simp only; omega)
  · have hb' : snowBranch E 0 scenes = false := by simpa using hb
    simp only [hb', Bool.false_eq_true, if_false] at e
    by_cases hl : X.length > ([] : List Obs).length
    · rw [if_pos hl] at e
      have g : Given True E.conse 0 model (start m0 : Pack F R M).recs X :=
        { modes := by simp
          mon := by simp
          five := by simp
          recsOk := fun _ => by simp [hrec0, RecsOk]
          asc := fun _ => by simpa [hrec0, flat, openPart] using hasc
          chrono := fun _ => by simp [hrec0, Chrono]
          year := fun _ => by simp [hrec0] }
      generalize (if ((start m0 : Pack F R M).recs.isEmpty && decide True) = true then E.variogram X else (start m0 : Pack F R M).minRmse) = rm at e
      rcases standard_cases (E.num rm) (start m0 : Pack F R M).queue hc g with
        ⟨out, s, s0, eo, e0, eL, inv, run, hdr, hsh, res⟩ | ⟨eo, _⟩
      · simp only [eo, bind, Except.bind] at e
        obtain ⟨s0', e0', inv0, o0, i0, r0, _, c0, t0, p0⟩ := initSt_inv g
        rw [e0] at e0'
        cases e0'
        obtain ⟨prior0, hn0, hp0⟩ := init_numbers (E.num rm) X (conse := E.conse) e0 (by simp)
        have hp0' := hp0 (by simp)
        subst hp0'
        obtain ⟨op, new, last, k1, k2, k3, k4, k5⟩ := loop_numbers (hN rm) hc trivial (by rw [hrec0]; simp [flat, openPart]) _ s0 s inv0 hn0 eL
        rw [hrec0, List.nil_append] at k1
        have hk2 : op = [] ∨ ∃ r, op = [r] ∧ OpenedBy (E.num rm) E.conse X r := by
          rcases k2 with h | ⟨_, h⟩
          · exact .inl h
          · exact .inr h
        have hmo := res.modes
        have hm2 := res.from2
        simp only [List.mem_cons, List.not_mem_nil, or_false] at hmo
        have hmr := (packOut_fields e).2.1
        simp only at hmr
        have key : q.recs = out.recs → q.mode = out.mode → (out.mode % 10 = 1 → q.model = out.model) →
            ∃ op rest last, q.recs = op ++ rest ∧
            (op = [] ∨ ∃ r, op = [r] ∧ OpenedBy (E.num q.minRmse) E.conse X r) ∧
            ClosedChain (E.num q.minRmse) E.conse X none rest last ∧
            (q.mode = 1 → ∃ m nx f, q.model = some m ∧ m.filt = (E.num q.minRmse).narrow f ∧
              nx ∈ (X.drop (X.length - E.conse)).head? ∧ (m.seg ++ [nx]).Sublist X ∧ FilterOf (E.num q.minRmse) last m.seg nx f) := by
          intro qr qm qmod
          rw [hmr]
          refine ⟨op, new, last, by rw [qr, res.recs, k1], hk2, k3, ?_⟩
          intro h1
          have hmon : out.mode % 10 = 1 := by rw [← qm, h1]
          obtain ⟨ht, hlen, _, _, f, m', hf, hom, hm8, hfil, _, _, hpre, hseg, _⟩ := res.mon hmon
          obtain ⟨nx, f', hnx, hff, hfo⟩ := k5 ht
          have hff' : f' = f := by rw [hf] at hff; exact (Option.some.inj hff).symm
          subst hff'
          refine ⟨m', nx, f', (qmod hmon).trans hom, hfil, ?_, ?_, by rw [hseg]; exact hfo⟩
          · rw [← hdr, List.head?_drop]
            exact hnx
          · rw [hseg]
            have h1 : s.seg.Sublist (s.obs.take s.i) := by
              have := inv.tH ht
              rw [hrec0] at this
              simp only [flat, openPart, List.flatMap_nil, List.nil_append, List.append_nil] at this
              have h2 : s.obs.take s.i = s.recs.flatMap (fun r => r.lead ++ r.span) ++ (s.pre ++ s.seg) := by
                simpa using this
              rw [h2]
              exact (List.sublist_append_right _ _).trans (List.sublist_append_right _ _)
            have h3 : [nx].Sublist (s.obs.drop s.i) := by
              rw [List.singleton_sublist]
              apply List.mem_of_mem_head?
              rw [List.head?_drop]
              exact hnx
            have := h1.append h3
            rw [List.take_append_drop] at this
            exact this.trans inv.sub
        by_cases h1 : out.mode % 10 = 1
        · rw [packOut_mon (by simp only; omega)] at e; cases e
          exact key rfl rfl (fun _ => rfl)
        · by_cases h5 : out.mode = 5
          · rw [packOut_five (by simp only; omega)] at e; cases e
            exact key rfl rfl (fun _ => rfl)
          · rw [packOut_que (by simp only; omega)] at e; cases e
            exact key rfl rfl (fun h => absurd h h1)
      · simp only [eo, bind, Except.bind] at e
        cases e
    · rw [if_neg hl] at e
      simp only [bind, Except.bind] at e
      have hps := packOut_same h model (by simp [start])
      rw [h0] at hps
      rw [hps] at e
      cases e
      exact hempty rfl (by simp [start])

end Pycold.Sccd
