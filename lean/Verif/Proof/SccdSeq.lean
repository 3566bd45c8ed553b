import Verif.Proof.SccdResume
/-!
# S-CCD: sequences of calls
-/
namespace Pycold.Sccd
open Spec
variable {V F R M : Type}

theorem sccd_known (E : Env V F R M) {p q : Pack F R M} {scenes : List Scene} (h : sccd E p scenes = .ok q) :
    ∀ o ∈ scenes, KnownQa o.qa := by
  unfold sccd at h
  by_cases hv : validModes.contains p.mode = true
  · simp only [hv, Bool.not_true, Bool.false_eq_true, if_false] at h
    by_cases hs : (preprocessing E.bC2 scenes).status = .success
    · exact (preLoop_status E.bC2 scenes {}).1.mp hs
    · simp [hs] at h
  · have hv' : validModes.contains p.mode = false := by simpa using hv
    simp only [hv', Bool.not_false, if_true] at h
    cases h

theorem Promise.modelArg {conse : Nat} {p : Pack F R M} (h : Promise conse p) :
    (if p.mode % 10 = 1 ∨ p.mode = 3 ∨ p.mode % 10 = 5 then p.model else none) = p.model := by
  have hm := h.modes
  simp only [List.mem_cons, List.not_mem_nil, or_false] at hm
  rcases hm with e | e | e | e | e | e | e
  · simp [e, (h.void e).2.1]
  · simp [e]
  · simp [e]
  · simp [e, h.queue (by simp [e])]
  · simp [e]
  · simp [e]
  · simp [e, h.queue (by simp [e])]

theorem update_eq (E : Env V F R M) {conse : Nat} {p : Pack F R M} (h : Promise conse p) {scenes : List Scene}
    (hne : scenes ≠ []) : update E p scenes = (sccd E p scenes >>= packOut) := by
  have hm := h.modes
  simp only [List.mem_cons, List.not_mem_nil, or_false] at hm
  unfold update
  rw [if_neg (by omega), if_neg hne, h.modelArg]

theorem update_call (E : Env V F R M) {conse : Nat} {p q : Pack F R M} (h : Promise conse p) {scenes : List Scene}
    (e : update E p scenes = .ok q) :
    scenes ≠ [] ∧ (∀ o ∈ scenes, KnownQa o.qa) ∧
      (sccd E { p with model := p.model } scenes >>= packOut) = .ok q := by
  have hne : scenes ≠ [] := by
    intro hn
    unfold update at e
    rw [hn] at e
    simp at e
  rw [update_eq E h hne] at e
  refine ⟨hne, ?_, e⟩
  cases hs : sccd E p scenes with
  | error x => simp [hs, bind, Except.bind] at e
  | ok r => exact sccd_known E hs

/-- The pack before any data. -/
def start (m0 : M) : Pack F R M := ⟨0, [], m0, none, [], []⟩

theorem start_promise (conse : Nat) (m0 : M) : Promise conse (start m0 : Pack F R M) := by
  constructor <;> simp [start]

theorem detect_call (E : Env V F R M) {m0 : M} {z : Model F} {q : Pack F R M} {scenes : List Scene}
    (e : detect E m0 z scenes = .ok q) :
    E.conse ≤ 8 ∧ (∀ o ∈ scenes, KnownQa o.qa) ∧
      (sccd E { (start m0 : Pack F R M) with model := some z } scenes >>= packOut) = .ok q := by
  unfold detect at e
  by_cases hc : E.conse > NCONSE
  · simp [hc] at e
  have hN : NCONSE = 8 := rfl
  simp only [hc, if_false] at e
  cases hh : scenes.head? with
  | none => simp [hh] at e
  | some a =>
    cases hl : scenes.getLast? with
    | none => simp [hh, hl] at e
    | some b =>
      simp only [hh, hl] at e
      by_cases hd : 4 * (b.date - a.date) < 1461
      · simp [hd] at e
      simp only [hd, if_false] at e
      refine ⟨by omega, ?_, e⟩
      cases hs : sccd E ⟨0, [], m0, some z, [], []⟩ scenes with
      | error x => simp [hs, bind, Except.bind] at e
      | ok r => exact sccd_known E hs

theorem identify_keeps {a : Ask F} {p q : Pack F R M} {d : Int} (e : identify a p = .ok (q, d)) :
    q = p ∨ (p.mode = 1 ∧ q = { p with mode := 11 }) := by
  unfold identify at e
  by_cases hm : p.mode = 3 ∨ p.mode = 4 ∨ p.mode / 10 = 1
  · simp only [hm, if_true] at e
    cases e; exact .inl rfl
  simp only [hm, if_false] at e
  cases hmod : p.model with
  | none => simp [hmod] at e
  | some m =>
    simp only [hmod] at e
    by_cases hg : (decide (m.conseLast ≥ a.distConse) && a.strong m.normCm && a.aligned m.cmAngle) = true
    · simp only [hg, if_true] at e
      by_cases h6 : m.conseLast > 6
      · simp [h6] at e
      simp only [h6, if_false] at e
      by_cases hgr : a.greening m = true
      · simp only [hgr, if_true] at e
        cases e; exact .inl rfl
      simp only [hgr, Bool.false_eq_true, if_false] at e
      cases ho : m.obs[(6 - m.conseLast).toNat]? with
      | none => simp [ho] at e
      | some o =>
        simp only [ho] at e
        by_cases ht : (a.transform && decide (p.mode = 1)) = true
        · simp only [ht, if_true] at e
          cases e
          simp only [Bool.and_eq_true, decide_eq_true_eq] at ht
          exact .inr ⟨ht.2, by simp [ht.2, hmod]⟩
        · simp only [ht, Bool.false_eq_true, if_false] at e
          cases e
          exact .inl (by simp [← hmod])
    · simp only [hg, Bool.false_eq_true, if_false] at e
      cases e; exact .inl rfl

theorem identify_promise {conse : Nat} {a : Ask F} {p q : Pack F R M} {d : Int} (h : Promise conse p)
    (e : identify a p = .ok (q, d)) : Promise conse q := by
  rcases identify_keeps e with rfl | ⟨h1, rfl⟩
  · exact h
  · have := h.monitor (by simp [h1])
    exact ⟨by simp, by simp, fun _ => this, by simp, by simp, by simp, by simp, h.cap⟩

theorem History.promise {E : Env V F R M} {ok : Pack F R M → Prop} (hc : 0 < E.conse) (hc8 : E.conse ≤ 8)
    {p : Pack F R M} {all : List Obs} (h : History E ok p all) : Promise E.conse p := by
  induction h with
  | void m0 => exact start_promise _ m0
  | detect m0 z scenes q e _ =>
    obtain ⟨_, hq, ec⟩ := detect_call E e
    rcases call_cases E (start_promise E.conse m0) hc hc8 (some z) (by simp [start]) scenes hq with
      ⟨q', e', hp, _⟩ | ⟨e', _⟩
    · rw [ec] at e'; cases e'; exact hp
    · rw [ec] at e'; simp at e'
  | update p q all scenes _ e _ ih =>
    obtain ⟨_, hq, ec⟩ := update_call E ih e
    rcases call_cases E ih hc hc8 p.model (fun _ => rfl) scenes hq with ⟨q', e', hp, _⟩ | ⟨e', _⟩
    · rw [ec] at e'; cases e'; exact hp
    · rw [ec] at e'; simp at e'
  | identify p q all a d _ e _ ih => exact identify_promise ih e

theorem append_ne_nil : ∀ (xs acc : List Obs), acc ≠ [] ∨ xs ≠ [] → append acc xs ≠ []
  | [], acc, h => by simpa [append] using h
  | o :: os, acc, _ => by
    unfold append
    split
    · rename_i hg
      simp only [Bool.and_eq_true, decide_eq_true_eq] at hg
      exact append_ne_nil os acc (.inl (by intro h; simp [h] at hg))
    · exact append_ne_nil os _ (.inl (by simp))

/-- A call leaves the void pack void only if it brought nothing. -/
theorem void_call (E : Env V F R M) {p q : Pack F R M} (h : Promise E.conse p) (hc : 0 < E.conse)
    (hc8 : E.conse ≤ 8) (model : Option (Model F)) (hmod : p.mode ≠ 0 → model = p.model)
    (scenes : List Scene) (hq : ∀ o ∈ scenes, KnownQa o.qa) (h0 : p.mode = 0)
    (e : (sccd E { p with model := model } scenes >>= packOut) = .ok q) (hq0 : q.mode = 0) :
    fresh E.bC2 (snowBranch E p.mode scenes) scenes = [] := by
  have hm := h.modes
  have hst : stored p.mode model p.queue = .ok (pending p) := by
    simp [stored, h0, isQueueMode, isMonitorMode, pending]
  have hpn : pending p = [] := by simp [pending, h0]
  rw [sccd_eq E { p with model := model } scenes hm hq hst] at e
  simp only [hpn] at e
  obtain ⟨ys, hys, hsub⟩ := append_prefix (fresh E.bC2 (snowBranch E p.mode scenes) scenes) []
  have hne := append_ne_nil (fresh E.bC2 (snowBranch E p.mode scenes) scenes) []
  rw [hys] at e hne
  by_cases hb : snowBranch E p.mode scenes = true
  · obtain ⟨out, eo, hr, hrm, hrn, hcase⟩ := snow_cases (E.num p.minRmse) h model hmod (.inl h0) ys
    rw [hpn] at eo
    simp only [hb, if_true, eo, bind, Except.bind] at e
    exfalso
    rcases hcase with ⟨e4, _⟩ | ⟨e3, _⟩
    · rw [packOut_que (by simp [e4])] at e
      cases e; simp [e4] at hq0
    · rw [packOut_mon (by simp [e3])] at e
      cases e; simp [e3] at hq0
  · have hns : p.mode ≠ 3 ∧ p.mode ≠ 4 := by omega
    have hb' : snowBranch E p.mode scenes = false := by simpa using hb
    simp only [hb', Bool.false_eq_true, if_false] at e hne ⊢
    by_cases hl : ([] ++ ys).length > ([] : List Obs).length
    · exfalso
      simp only [hl, if_true] at e
      have g := given_false h hc8 hns model hmod ys
      rw [hpn] at g
      generalize (if (p.recs.isEmpty && decide (p.mode = 0)) = true then E.variogram ([] ++ ys) else p.minRmse) = rm at e
      rcases standard_cases (E.num rm) p.queue hc g with
        ⟨out, s, s0, eo, e0, eL, inv, run, hdr, hsh, res⟩ | ⟨eo, _⟩
      · simp only [eo, bind, Except.bind] at e
        have hmo := res.modes
        simp only [List.mem_cons, List.not_mem_nil, or_false] at hmo
        have : out.mode = 0 := by
          unfold packOut at e
          simp only at e
          split at e
          · cases e; exact hq0
          split at e
          · cases e; exact hq0
          split at e
          · cases e; exact hq0
          split at e
          · cases e; exact hq0
          · cases e
        omega
      · simp only [eo, bind, Except.bind] at e
        cases e
    · cases hfr : fresh E.bC2 false scenes with
      | nil => rfl
      | cons x xs =>
        rw [hfr] at hne
        have := hne (.inr (by simp))
        cases ys with
        | nil => simp at this
        | cons y ys => simp at hl

theorem History.void_nil {E : Env V F R M} {ok : Pack F R M → Prop} (hc : 0 < E.conse) (hc8 : E.conse ≤ 8)
    {p : Pack F R M} {all : List Obs} (h : History E ok p all) : p.mode = 0 → all = [] := by
  induction h with
  | void m0 => intro _; rfl
  | detect m0 z scenes q e _ =>
    intro h0
    obtain ⟨_, hq, ec⟩ := detect_call E e
    exact void_call E (start_promise E.conse m0) hc hc8 (some z) (by simp [start]) scenes hq rfl ec h0
  | update p q all scenes hp e _ ih =>
    intro h0
    have hP := hp.promise hc hc8
    obtain ⟨_, hq, ec⟩ := update_call E hP e
    have hp0 : p.mode = 0 := by
      rcases call_cases E hP hc hc8 p.model (fun _ => rfl) scenes hq with ⟨q', e', _, hnz, _⟩ | ⟨e', _⟩
      · rw [ec] at e'; cases e'
        by_cases hpm : p.mode = 0
        · exact hpm
        · exact absurd h0 (hnz hpm)
      · rw [ec] at e'; simp at e'
    rw [ih hp0, void_call E hP hc hc8 p.model (fun _ => rfl) scenes hq hp0 ec h0]
    rfl
  | identify p q all a d _ e _ ih =>
    intro h0
    rcases identify_keeps e with rfl | ⟨h1, rfl⟩
    · exact ih h0
    · simp at h0

theorem toShort_idem (x : Int) : toShort (toShort x) = toShort x := by
  unfold toShort; exact Int.bmod_bmod

theorem encode_fixed (o : Obs) : encode (decode (encode o)) = encode o := by
  unfold encode decode
  simp only [List.map_map, Obs.mk.injEq]
  constructor
  · rw [show toShort (o.date - LAUNCH) + LAUNCH - LAUNCH = toShort (o.date - LAUNCH) by omega, toShort_idem]
  · apply List.map_congr_left
    intro v _
    exact toShort_idem v

theorem padObs_fixed : encode (decode padObs) = padObs := by decide

/-- Stored in 16 bits. -/
def Fixed (l : List Obs) : Prop := ∀ o ∈ l, encode (decode o) = o

theorem fixed_map (l : List Obs) : Fixed (l.map encode) := by
  intro o ho
  obtain ⟨x, _, rfl⟩ := List.mem_map.mp ho
  exact encode_fixed x

theorem fixed_pad (n : Nat) : Fixed (List.replicate n padObs) := by
  intro o ho
  rw [List.eq_of_mem_replicate ho]
  exact padObs_fixed

theorem fixed_tail8 (conse : Nat) (obs : List Obs) (i : Nat) : Fixed (tail8 conse obs i) := by
  intro o ho
  have := List.mem_of_mem_take ho
  rcases List.mem_append.mp this with h | h
  · exact fixed_map _ o h
  · exact fixed_pad _ o h

theorem fixed_id {l : List Obs} (h : Fixed l) : (l.map decode).map encode = l := by
  rw [List.map_map]
  conv => rhs; rw [← List.map_id l]
  exact List.map_congr_left (fun o ho => h o ho)

/-- What a stored model satisfies. -/
def Kept (conse : Nat) (m : Model F) : Prop := Fixed m.obs ∧ 0 ≤ m.conseLast ∧ m.conseLast ≤ conse

theorem leadCount_le (N : Num V F R) : ∀ l : List V, leadCount N l ≤ l.length
  | [] => Nat.le_refl _
  | v :: vs => by
    unfold leadCount
    split
    · omega
    · have := leadCount_le N vs
      simp; omega

theorem step_fixed (N : Num V F R) {conse mode0 : Nat} {G : Prop} {H0 X : List Obs} {s s' : St F R}
    (hc : 0 < conse) (inv : Inv G H0 X s) (h2 : s.i + conse + 1 ≤ s.obs.length)
    (h : step N conse mode0 s = .ok s') (hf : ∀ m, s.model = some m → Kept conse m) :
    ∀ m, s'.model = some m → Kept conse m := by
  have d := step_delta N hc inv h2 h
  cases ht : s.train with
  | false =>
    rcases d.act with ⟨_, hm, _⟩ | ⟨c, _⟩
    · rw [hm]; exact hf
    · rw [ht] at c; simp at c
  | true =>
    unfold step at h
    rw [if_pos ht] at h
    unfold step2 at h
    cases hff : s.filt with
    | none => simp [hff] at h
    | some f =>
      simp only [hff, bind, Except.bind] at h
      rw [chk_ok (by omega), rd_ok (show s.i < s.obs.length by omega), rd_ok (show s.i + 1 < s.obs.length by omega)] at h
      simp only at h
      by_cases hx : isChange N f s.numObs ((s.obs.drop s.i).take conse) = true
      · simp only [hx, if_true] at h
        cases h
        intro m hm
        cases hm
        exact ⟨fixed_tail8 _ _ _, by simp [snapshot], by simp [snapshot]⟩
      · simp only [hx, Bool.false_eq_true, if_false] at h
        by_cases hv : N.lt N.tmax (N.mag f s.numObs s.obs[s.i]) = true
        · simp only [hv, if_true] at h
          cases h; exact hf
        · simp only [hv, Bool.false_eq_true, if_false] at h
          cases h; exact hf

theorem loop_fixed (N : Num V F R) {conse mode0 : Nat} {G : Prop} {H0 X : List Obs} (hc : 0 < conse) :
    ∀ (k : Nat) (s s' : St F R), Inv G H0 X s → loop N conse mode0 k s = .ok s' →
      (∀ m, s.model = some m → Kept conse m) → ∀ m, s'.model = some m → Kept conse m
  | 0, s, s', inv, e, hf => by
    unfold loop at e
    split at e
    · cases e
    · cases e; exact hf
  | k + 1, s, s', inv, e, hf => by
    unfold loop at e
    by_cases hg : s.i + conse + 1 ≤ s.obs.length
    · rw [if_pos hg] at e
      rcases step_inv N (mode0 := mode0) hc inv hg with ⟨s1, e1, inv1, _⟩ | ⟨e1, _⟩
      · simp only [e1, bind, Except.bind] at e
        exact loop_fixed N hc k s1 s' inv1 e (step_fixed N hc inv hg e1 hf)
      · simp [e1, bind, Except.bind] at e
    · rw [if_neg hg] at e
      cases e; exact hf

theorem storeModel_fixed (N : Num V F R) {conse mode : Nat} {s : St F R} {f : F} {r : Nat × Model F}
    (e : storeModel N conse mode s f = .ok r) : Kept conse r.2 := by
  unfold storeModel at e
  by_cases hl : s.obs.length < conse
  · simp [hl] at e
  simp only [hl, if_false, bind, Except.bind] at e
  cases hk : chk s.obs (s.i + min conse NCONSE - 1) with
  | error x => simp [hk] at e
  | ok _ =>
    simp only [hk] at e
    cases e
    refine ⟨?_, ?_, ?_⟩
    · simp only
      split
      · exact fixed_tail8 _ _ _
      · exact fixed_pad _
    · simp only
      split <;> omega
    · simp only
      split
      · refine Int.ofNat_le.mpr (Nat.le_trans (leadCount_le N _) ?_)
        simp; omega
      · omega

theorem storeQueue_fixed {obs q : List Obs} {pb : Nat} (h : storeQueue obs pb = .ok q) : Fixed q := by
  unfold storeQueue at h
  simp only at h
  split at h
  · replace h := Except.ok.inj h
    rw [← h]; exact fixed_map _
  · replace h := Except.ok.inj h
    rw [← h]; exact fixed_map _

theorem step3_fixed (N : Num V F R) {conse mode pb : Nat} {queue0 : List Obs} {s : St F R} {out : Out F R}
    (e : step3 N conse mode pb queue0 s = .ok out) (hq : Fixed queue0)
    (hf : ∀ m, s.model = some m → Kept conse m) :
    Fixed out.queue ∧ ∀ m, out.model = some m → Kept conse m := by
  unfold step3 at e
  by_cases h1 : mode % 10 = 1
  · simp only [h1, if_true, bind, Except.bind] at e
    cases hff : s.filt with
    | none => simp [hff] at e
    | some f =>
      simp only [hff] at e
      cases hs : storeModel N conse mode s f with
      | error x => simp [hs] at e
      | ok r =>
        simp only [hs] at e
        have hr := storeModel_fixed N hs
        by_cases h2 : r.1 % 10 = 2 ∨ r.1 % 10 = 5
        · simp only [h2, if_true] at e
          obtain ⟨q, hqq⟩ := storeQueue_ok s.obs pb
          simp only [hqq] at e
          cases e
          exact ⟨storeQueue_fixed hqq, fun m hm => by cases hm; exact hr⟩
        · simp only [h2, if_false] at e
          cases e
          exact ⟨hq, fun m hm => by cases hm; exact hr⟩
  · simp only [h1, if_false, bind, Except.bind] at e
    by_cases h2 : mode % 10 = 2 ∨ mode % 10 = 5
    · simp only [h2, if_true] at e
      obtain ⟨q, hqq⟩ := storeQueue_ok s.obs pb
      simp only [hqq] at e
      cases e
      exact ⟨storeQueue_fixed hqq, hf⟩
    · simp only [h2, if_false] at e
      cases e
      exact ⟨hq, hf⟩

theorem standard_fixed (N : Num V F R) {conse mode0 : Nat} {model : Option (Model F)} {recs : List (Rec R)}
    {queue0 obs : List Obs} {G : Prop} (hc : 0 < conse) (g : Given G conse mode0 model recs obs) {out : Out F R}
    (e : standard N conse mode0 model recs queue0 obs = .ok out) (hq : Fixed queue0)
    (hf : ∀ m, model = some m → Kept conse m) :
    Fixed out.queue ∧ ∀ m, out.model = some m → Kept conse m := by
  obtain ⟨s0, e0, inv0, _, _, _, m0, _⟩ := initSt_inv g
  unfold standard at e
  simp only [e0, bind, Except.bind] at e
  cases hL : loop N conse mode0 (obs.length + 1) s0 with
  | error x => simp [hL] at e
  | ok s =>
    simp only [hL] at e
    have hs := loop_fixed N hc _ s0 s inv0 hL (by rw [m0]; exact hf)
    cases hn : newMode conse mode0 s with
    | error x => simp [hn] at e
    | ok r =>
      simp only [hn] at e
      exact step3_fixed N e hq hs

theorem packOut_fields {p q : Pack F R M} (e : packOut p = .ok q) :
    q.mode = p.mode ∧ q.minRmse = p.minRmse ∧ (q.queue = p.queue ∨ q.queue = []) ∧
      (q.model = p.model ∨ q.model = none) := by
  unfold packOut at e
  split at e
  · cases e; simp
  split at e
  · cases e; simp
  split at e
  · cases e; simp
  split at e
  · cases e; simp
  · cases e

theorem settled_call (E : Env V F R M) {p q : Pack F R M} (h : Promise E.conse p) (hc : 0 < E.conse)
    (hc8 : E.conse ≤ 8) (model : Option (Model F)) (hmod : p.mode ≠ 0 → model = p.model)
    (scenes : List Scene) (hq : ∀ o ∈ scenes, KnownQa o.qa) (S : Settled E.conse E.num p)
    (e : (sccd E { p with model := model } scenes >>= packOut) = .ok q) (hq5 : q.mode = 5 → p.mode ≠ 0) :
    Settled E.conse E.num q := by
  have hm := h.modes
  have hst : stored p.mode model p.queue = .ok (pending p) := by
    have := stored_ok h
    by_cases h0 : p.mode = 0
    · simp [stored, h0, isQueueMode, isMonitorMode, pending]
    · rw [hmod h0]; exact this
  rw [sccd_eq E { p with model := model } scenes hm hq hst] at e
  simp only at e
  obtain ⟨ys, hys, hsub⟩ := append_prefix (fresh E.bC2 (snowBranch E p.mode scenes) scenes) (pending p)
  rw [hys] at e
  by_cases hb : snowBranch E p.mode scenes = true
  · have hs : p.mode = 0 ∨ p.mode = 3 ∨ p.mode = 4 := by
      simp only [snowBranch] at hb
      by_cases h0 : p.mode = 0
      · exact .inl h0
      · simp [h0] at hb
        exact .inr hb
    obtain ⟨out, eo, hr, hrm, hrn, hcase⟩ := snow_cases (E.num p.minRmse) h model hmod hs ys
    simp only [hb, if_true, eo, bind, Except.bind] at e
    rcases hcase with ⟨e4, hqq, hl, _⟩ | ⟨e3, hqq, m, hmm, hm8, hmo, n1, n2, n3, hcs⟩
    · rw [packOut_que (by simp [e4])] at e
      cases e
      refine ⟨?_, by simp, ?_, by simp [e4]⟩
      · simp only [hqq]; exact fixed_map _
      · intro _; simp only [hqq, List.length_map]; exact hl
    · rw [packOut_mon (by simp [e3])] at e
      cases e
      refine ⟨by simp, ?_, by simp [e3], ?_⟩
      · intro m' hm'
        simp only [hmm] at hm'
        cases hm'
        exact ⟨by rw [hmo]; exact fixed_map _, by omega, by omega⟩
      · intro _ m' hm'
        simp only [hmm] at hm'
        cases hm'
        refine ⟨n1, n2, n3, ?_, ?_⟩
        · rcases hcs with ⟨_, _, _, hno, _⟩ | ⟨_, m0, _, _, _, _, hno, _⟩
          · rw [hno, toShort_idem]
          · rw [hno, toShort_idem]
        · rcases hcs with ⟨_, _, _, _, hff, _⟩ | ⟨_, m0, _, _, _, hff, _⟩
          · exact ⟨_, hff⟩
          · exact ⟨_, hff⟩
  · have hns : p.mode ≠ 3 ∧ p.mode ≠ 4 := by
      constructor <;> intro e <;> simp [snowBranch, e] at hb
    have hb' : snowBranch E p.mode scenes = false := by simpa using hb
    simp only [hb', Bool.false_eq_true, if_false] at e
    by_cases hl : (pending p ++ ys).length > (pending p).length
    · simp only [hl, if_true] at e
      have g := given_false h hc8 hns model hmod ys
      generalize (if (p.recs.isEmpty && decide (p.mode = 0)) = true then E.variogram (pending p ++ ys) else p.minRmse) = rm at e
      rcases standard_cases (E.num rm) p.queue hc g with
        ⟨out, s, s0, eo, e0, eL, inv, run, hdr, hsh, res⟩ | ⟨eo, _⟩
      · simp only [eo, bind, Except.bind] at e
        have hmo := res.modes
        simp only [List.mem_cons, List.not_mem_nil, or_false] at hmo
        obtain ⟨q1, q2, q3, q4⟩ := packOut_fields e
        simp only at q1 q2 q3 q4
        by_cases h0 : p.mode = 0
        · -- the zeroed model of `_sccd_detect` never reaches the caller
          by_cases h1 : out.mode % 10 = 1
          · obtain ⟨_, _, hqq, _⟩ := res.mon h1
            have hf1 : ∀ m, out.model = some m → Kept E.conse m := by
              intro m hm
              unfold standard at eo
              simp only [e0, eL, bind, Except.bind] at eo
              cases hn : newMode E.conse p.mode s with
              | error x => simp [hn] at eo
              | ok r =>
                simp only [hn] at eo
                unfold step3 at eo
                have hr1 : r.1 % 10 = 1 := by
                  unfold newMode at hn
                  simp only [h0, if_true] at hn
                  cases hst' : s.train with
                  | true => simp only [hst', if_true] at hn; cases hn; rfl
                  | false =>
                    simp only [hst', Bool.false_eq_true, if_false] at hn
                    cases hn
                    simp only [show ¬ (12 % 10 = 1) by decide, if_false, bind, Except.bind] at eo
                    obtain ⟨q', hqq'⟩ := storeQueue_ok s.obs s.prevBreak
                    simp [hqq'] at eo
                    rw [← eo] at h1
                    simp at h1
                simp only [hr1, if_true, bind, Except.bind] at eo
                cases hff : s.filt with
                | none => simp [hff] at eo
                | some f =>
                  simp only [hff] at eo
                  cases hs : storeModel (E.num rm) E.conse r.1 s f with
                  | error x => simp [hs] at eo
                  | ok r2 =>
                    simp only [hs] at eo
                    have hfx := storeModel_fixed (E.num rm) hs
                    by_cases h2 : r2.1 % 10 = 2 ∨ r2.1 % 10 = 5
                    · simp only [h2, if_true] at eo
                      obtain ⟨q', hqq'⟩ := storeQueue_ok s.obs r.2
                      simp only [hqq'] at eo
                      cases eo
                      cases hm; exact hfx
                    · simp only [h2, if_false] at eo
                      cases eo
                      cases hm; exact hfx
            refine ⟨?_, ?_, by rw [q1]; omega, by rw [q1]; omega⟩
            · intro o ho
              rcases q3 with h' | h'
              · rw [h', hqq] at ho; exact S.queue o ho
              · rw [h'] at ho; simp at ho
            · intro m hm
              rcases q4 with h' | h'
              · rw [h'] at hm; exact hf1 m hm
              · rw [h'] at hm; simp at hm
          · have h5 : out.mode ≠ 5 := by
              intro h5
              exact hq5 (by rw [q1, h5]) h0
            have hmn : q.model = none := by
              have : out.mode = 2 ∨ out.mode = 12 := by omega
              unfold packOut at e
              rcases this with e' | e'
              · simp [e'] at e; rw [← e]
              · simp [e'] at e; rw [← e]
            obtain ⟨_, _, hsq⟩ := res.que h1
            refine ⟨?_, by simp [hmn], by rw [q1]; omega, by rw [q1]; omega⟩
            intro o ho
            rcases q3 with h' | h'
            · rw [h'] at ho; exact storeQueue_fixed hsq o ho
            · rw [h'] at ho; simp at ho
        · obtain ⟨f1, f2⟩ := standard_fixed (E.num rm) hc g eo S.queue
            (fun m hm => S.tail m (by rw [← hmod h0]; exact hm))
          refine ⟨?_, ?_, by rw [q1]; omega, by rw [q1]; omega⟩
          · intro o ho
            rcases q3 with h' | h'
            · rw [h'] at ho; exact f1 o ho
            · rw [h'] at ho; simp at ho
          · intro m hm
            rcases q4 with h' | h'
            · rw [h'] at hm; exact f2 m hm
            · rw [h'] at hm; simp at hm
      · simp [eo, bind, Except.bind] at e
    · simp only [hl, if_false, bind, Except.bind] at e
      rw [packOut_same h model hmod] at e
      cases e
      exact S

end Pycold.Sccd
