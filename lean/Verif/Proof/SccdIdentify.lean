import Mathlib.Data.List.GetD
import Mathlib.Data.List.Sort
import Verif.Spec.SccdIdentify
import Verif.Proof.SccdExact
import Verif.Proof.SccdMon
/-!
# What `sccd_identify` looks at
-/
namespace Pycold.Sccd
open Spec
variable {V F R M : Type}

/-- The model stored by a call that ends in monitor mode: as `mon_out`, with the filter, and the number of
observations behind it if the series is in order (`G`). -/
theorem mon_model (E : Env V F R M) {G : Prop} {p q : Pack F R M} (h : Promise E.conse p) (hc : 0 < E.conse)
    (hc8 : E.conse ≤ 8) (model : Option (Model F)) (hmod : p.mode ≠ 0 → model = p.model)
    (scenes : List Scene) (hq : ∀ o ∈ scenes, KnownQa o.qa)
    (e : (sccd E { p with model := model } scenes >>= packOut) = .ok q) (hm1 : q.mode = 1 ∨ q.mode = 11)
    (X : List Obs) (hX : X = append (pending p) (fresh E.bC2 (snowBranch E p.mode scenes) scenes))
    (hG : p.mode ≠ 3 ∧ p.mode ≠ 4 → Given G E.conse p.mode model p.recs X) :
    (X = pending p ∧ q = p) ∨
    ∃ m f, ∃ n : Int, q.model = some m ∧ E.conse ≤ X.length ∧ m.filt = (E.num q.minRmse).narrow f ∧
      (G → n = m.seg.length ∧ 18 ≤ m.seg.length) ∧
      (n > 0 → m.obs = (X.drop (X.length - E.conse)).map encode ++ List.replicate (8 - E.conse) padObs) ∧
      ((m.obs = (X.drop (X.length - E.conse)).map encode ++ List.replicate (8 - E.conse) padObs ∧
        m.conseLast = leadCount (E.num q.minRmse)
          (((X.drop (X.length - E.conse)).reverse).map ((E.num q.minRmse).endMag f n))) ∨
       (m.obs = List.replicate 8 padObs ∧ m.conseLast = 0)) ∧
      Strength (E.num q.minRmse) f n (X.drop (X.length - E.conse)).reverse m := by
  have hm := h.modes
  have hst : stored p.mode model p.queue = .ok (pending p) := by
    have := stored_ok h
    by_cases h0 : p.mode = 0
    · simp [stored, h0, isQueueMode, isMonitorMode, pending]
    · rw [hmod h0]; exact this
  rw [sccd_eq E { p with model := model } scenes hm hq hst] at e
  simp only at e
  obtain ⟨ys, hys, hsub⟩ := append_prefix (fresh E.bC2 (snowBranch E p.mode scenes) scenes) (pending p)
  rw [← hX] at e hys
  by_cases hb : snowBranch E p.mode scenes = true
  · have hs : p.mode = 0 ∨ p.mode = 3 ∨ p.mode = 4 := by
      simp only [snowBranch] at hb
      by_cases h0 : p.mode = 0
      · exact .inl h0
      · simp [h0] at hb
        exact .inr hb
    obtain ⟨out, eo, hr, hrm, hrn, hcase⟩ := snow_cases (E.num p.minRmse) h model hmod hs ys
    rw [← hys] at eo
    simp only [hb, if_true, eo, bind, Except.bind] at e
    have := (packOut_fields e).1
    simp only at this
    rcases hcase with ⟨e4, _⟩ | ⟨e3, _⟩ <;> omega
  · have hns : p.mode ≠ 3 ∧ p.mode ≠ 4 := by
      constructor <;> intro e <;> simp [snowBranch, e] at hb
    have hb' : snowBranch E p.mode scenes = false := by simpa using hb
    simp only [hb', Bool.false_eq_true, if_false] at e
    by_cases hl : X.length > (pending p).length
    · simp only [hl, if_true] at e
      have g := hG hns
      generalize (if (p.recs.isEmpty && decide (p.mode = 0)) = true then E.variogram X else p.minRmse) = rm at e
      rcases standard_cases (E.num rm) p.queue hc g with
        ⟨out, s, s0, eo, e0, eL, inv, run, hdr, hsh, res⟩ | ⟨eo, _⟩
      · simp only [eo, bind, Except.bind] at e
        have hmo := (packOut_fields e).1
        have hmr := (packOut_fields e).2.1
        simp only at hmo hmr
        have h1 : out.mode % 10 = 1 := by omega
        rw [packOut_mon (by simp only; omega)] at e
        obtain ⟨ht, hi, _, _, f', m', hf', hmm', _, hnar, _, _, _, hseg, hpos⟩ := res.mon h1
        obtain ⟨f, m, hf, hmm, hcase⟩ := res.last h1
        have ef : f' = f := by rw [hf] at hf'; exact (Option.some.inj hf').symm
        have em : m' = m := by rw [hmm] at hmm'; exact (Option.some.inj hmm').symm
        rw [ef, em] at hnar
        rw [em] at hseg hpos
        have hlen : E.conse ≤ X.length := by
          have := congrArg List.length hdr
          simp only [List.length_drop] at this
          by_cases hle : X.length ≤ E.conse
          · have := hsh hle
            obtain ⟨s0', e0', _, o0, i0, _⟩ := initSt_inv g
            rw [e0] at e0'
            cases e0'
            rw [this, o0, i0] at hi
            omega
          · omega
        refine .inr ⟨m, f, s.numObs, ?_, hlen, ?_, ?_, ?_, ?_⟩
        · cases e; exact hmm
        · rw [hmr]; exact hnar
        · intro hG'
          have := inv.tseg ht hG'
          rw [hseg]
          exact ⟨this.count, this.long⟩
        · intro hn
          rw [hpos hn, tail8_eq hc8 hdr]
        · rw [hmr]
          have hd : s.obs.drop (s.obs.length - E.conse) = X.drop (X.length - E.conse) := by
            rw [← hdr]; congr 1; omega
          rw [← tail8_eq hc8 hdr, ← hd]
          exact hcase
      · simp only [eo, bind, Except.bind] at e
        cases e
    · simp only [hl, if_false, bind, Except.bind] at e
      rw [packOut_same h model hmod] at e
      cases e
      refine .inl ⟨?_, rfl⟩
      rw [hys] at hl ⊢
      cases ys with
      | nil => simp
      | cons y ys => simp at hl

/-- Without Ledger: a series in order from a void pack. -/
theorem given_start (E : Env V F R M) (model : Option (Model F)) {X : List Obs} (hasc : Asc X) (m0 : M) :
    Given True E.conse (start m0 : Pack F R M).mode model (start m0 : Pack F R M).recs X where
  modes := by simp [start]
  mon := by simp [start]
  five := by simp [start]
  recsOk := fun _ => ⟨by simp [start], by simp [start]⟩
  asc := fun _ => by simpa [start, flat, openPart] using hasc
  chrono := fun _ => by simp [start, Chrono]
  year := by simp [start]

/-! ### The model kept with a confirmed change -/

/-- The model kept belongs to the change that closed the last record. -/
def Snap (E : Env V F R M) (model : Option (Model F)) (recs : List (Rec R)) : Prop :=
  ∃ m r rm f n win, model = some m ∧ recs.getLast? = some r ∧ win.length = E.conse ∧ Codable win ∧
    m.filt = (E.num rm).narrow f ∧ m.conseLast = E.conse ∧
    m.obs = win.map encode ++ List.replicate (8 - E.conse) padObs ∧
    win.head?.map (·.date) = some r.tBreak ∧
    r.body = (E.num rm).changeRec f n win ∧ isChange (E.num rm) f n win = true ∧
    m.normCm = (E.num rm).scale (minMag (E.num rm) (win.map ((E.num rm).mag f n))) ∧
    m.cmAngle = (E.num rm).scale ((E.num rm).angle f n win)

theorem step_snap (E : Env V F R M) (rm : M) {mode0 : Nat} {G : Prop} {H0 X : List Obs} {s s' : St F R}
    (hc : 0 < E.conse) (hc8 : E.conse ≤ 8) (hcod : Codable X)
    (inv : Inv G H0 X s) (h2 : s.i + E.conse + 1 ≤ s.obs.length)
    (h : step (E.num rm) E.conse mode0 s = .ok s') (hf : s.changed = true → Snap E s.model s.recs) :
    s'.changed = true → Snap E s'.model s'.recs := by
  have d := step_delta (E.num rm) hc inv h2 h
  cases ht : s.train with
  | false =>
    rcases d.act with ⟨hch, hm, _, hr⟩ | ⟨c, _⟩
    · intro hc'
      have hA := hf (hch ▸ hc')
      have hne : s.recs ≠ [] := by
        obtain ⟨_, r, _, _, _, _, _, hr, _⟩ := hA
        intro e; rw [e] at hr; simp at hr
      rw [hm, hr hne]
      exact hA
    · rw [ht] at c; simp at c
  | true =>
    unfold step at h
    rw [if_pos ht] at h
    unfold step2 at h
    cases hff : s.filt with
    | none => simp [hff] at h
    | some f =>
      simp only [hff, bind, Except.bind] at h
      rw [chk_ok (by omega), rd_ok (show s.i < s.obs.length by omega), rd_ok (show s.i + 1 < s.obs.length by omega)] at h
      simp only at h
      by_cases hx : isChange (E.num rm) f s.numObs ((s.obs.drop s.i).take E.conse) = true
      · simp only [hx, if_true] at h
        cases h
        intro _
        have hi : s.i < s.obs.length := by omega
        have hwl : ((s.obs.drop s.i).take E.conse).length = E.conse := by
          rw [List.length_take, List.length_drop]; omega
        refine ⟨_, _, rm, f, s.numObs, (s.obs.drop s.i).take E.conse, rfl, by simp; rfl, hwl, ?_, rfl, rfl, ?_, ?_,
          rfl, hx, rfl, rfl⟩
        · exact hcod.sublist (((List.take_sublist _ _).trans (List.drop_sublist _ _)).trans inv.sub)
        · simp only [snapshot, tail8]
          have hN : NCONSE = 8 := rfl
          rw [hN]
          refine List.take_of_length_le ?_
          rw [List.length_append, List.length_map, hwl, List.length_replicate]
          omega
        · cases hcc : E.conse with
          | zero => omega
          | succ c => rw [List.drop_eq_getElem_cons hi, List.take_succ_cons]; rfl
      · simp only [hx, Bool.false_eq_true, if_false] at h
        by_cases hv : (E.num rm).lt (E.num rm).tmax ((E.num rm).mag f s.numObs s.obs[s.i]) = true
        · simp only [hv, if_true] at h
          cases h; exact hf
        · simp only [hv, Bool.false_eq_true, if_false] at h
          cases h; exact hf

theorem loop_snap (E : Env V F R M) (rm : M) {mode0 : Nat} {G : Prop} {H0 X : List Obs} (hc : 0 < E.conse)
    (hc8 : E.conse ≤ 8) (hcod : Codable X) :
    ∀ (k : Nat) (s s' : St F R), Inv G H0 X s → loop (E.num rm) E.conse mode0 k s = .ok s' →
      (s.changed = true → Snap E s.model s.recs) → s'.changed = true → Snap E s'.model s'.recs
  | 0, s, s', inv, e, hf => by
    unfold loop at e
    split at e
    · cases e
    · cases e; exact hf
  | k + 1, s, s', inv, e, hf => by
    unfold loop at e
    by_cases hg : s.i + E.conse + 1 ≤ s.obs.length
    · rw [if_pos hg] at e
      rcases step_inv (E.num rm) (mode0 := mode0) hc inv hg with ⟨s1, e1, inv1, _⟩ | ⟨e1, _⟩
      · simp only [e1, bind, Except.bind] at e
        exact loop_snap E rm hc hc8 hcod k s1 s' inv1 e (step_snap E rm hc hc8 hcod inv hg e1 hf)
      · simp [e1, bind, Except.bind] at e
    · rw [if_neg hg] at e
      cases e; exact hf

theorem codable_decode {l : List Obs} (h : ∀ o ∈ l, encode (decode o) = o) : Codable (l.map decode) := by
  intro x hx
  obtain ⟨o, ho, rfl⟩ := List.mem_map.mp hx
  have e := h o ho
  have hd : toShort (o.date + LAUNCH - LAUNCH) = o.date := congrArg Obs.date e
  have hv : o.vals.map toShort = o.vals := congrArg Obs.vals e
  have hr : ∀ x : Int, toShort x = x → -32768 ≤ x ∧ x ≤ 32767 := by
    intro x hx
    unfold toShort at hx
    have h1 := Int.bmod_lt (x := x) (m := 65536) (by omega)
    have h2 := Int.le_bmod (x := x) (m := 65536) (by omega)
    omega
  have hL : LAUNCH = 723742 := rfl
  refine ⟨?_, fun v hvm => ?_⟩
  · have e3 : o.date + LAUNCH - LAUNCH = o.date := by omega
    rw [e3] at hd
    have := hr _ hd
    simp only [decode]
    omega
  · have hvm : v ∈ o.vals := hvm
    refine hr v ?_
    obtain ⟨i, hi, rfl⟩ := List.mem_iff_getElem.1 hvm
    have := congrArg (·[i]?) hv
    simpa [hi] using this

theorem codable_pending {conse : Nat} {N : M → Num V F R} {p : Pack F R M} (h : Settled conse N p) :
    Codable (pending p) := by
  unfold pending
  split
  · exact codable_decode h.queue
  · split
    · cases hm : p.model with
      | none => simp [Codable]
      | some m => exact codable_decode (h.tail m hm).1
    · simp [Codable]

/-- The model kept in mode 5 is that of the last confirmed change. -/
theorem snap_call (E : Env V F R M) {p q : Pack F R M} (h : Promise E.conse p)
    (hset : Settled E.conse E.num p) (hc : 0 < E.conse)
    (hc8 : E.conse ≤ 8) (model : Option (Model F)) (hmod : p.mode ≠ 0 → model = p.model)
    (scenes : List Scene) (hq : ∀ o ∈ scenes, KnownQa o.qa) (S : p.mode = 5 → Snap E p.model p.recs)
    (hcod : Codable (fresh E.bC2 (snowBranch E p.mode scenes) scenes))
    (e : (sccd E { p with model := model } scenes >>= packOut) = .ok q) (hq5 : q.mode = 5) :
    Snap E q.model q.recs := by
  have hm := h.modes
  have hst : stored p.mode model p.queue = .ok (pending p) := by
    have := stored_ok h
    by_cases h0 : p.mode = 0
    · simp [stored, h0, isQueueMode, isMonitorMode, pending]
    · rw [hmod h0]; exact this
  rw [sccd_eq E { p with model := model } scenes hm hq hst] at e
  simp only at e
  obtain ⟨ys, hys, hsub⟩ := append_prefix (fresh E.bC2 (snowBranch E p.mode scenes) scenes) (pending p)
  rw [hys] at e
  by_cases hb : snowBranch E p.mode scenes = true
  · have hs : p.mode = 0 ∨ p.mode = 3 ∨ p.mode = 4 := by
      simp only [snowBranch] at hb
      by_cases h0 : p.mode = 0
      · exact .inl h0
      · simp [h0] at hb
        exact .inr hb
    obtain ⟨out, eo, hr, hrm, hrn, hcase⟩ := snow_cases (E.num p.minRmse) h model hmod hs ys
    simp only [hb, if_true, eo, bind, Except.bind] at e
    have := (packOut_fields e).1
    simp only at this
    rcases hcase with ⟨e4, _⟩ | ⟨e3, _⟩ <;> omega
  · have hns : p.mode ≠ 3 ∧ p.mode ≠ 4 := by
      constructor <;> intro e <;> simp [snowBranch, e] at hb
    have hb' : snowBranch E p.mode scenes = false := by simpa using hb
    simp only [hb', Bool.false_eq_true, if_false] at e
    by_cases hl : (pending p ++ ys).length > (pending p).length
    · simp only [hl, if_true] at e
      have g := given_false h hc8 hns model hmod ys
      have hcX : Codable (pending p ++ ys) := by
        intro o ho
        rcases List.mem_append.mp ho with ho | ho
        · exact codable_pending hset o ho
        · exact hcod o (hsub.subset ho)
      generalize (if (p.recs.isEmpty && decide (p.mode = 0)) = true then E.variogram (pending p ++ ys) else p.minRmse) = rm at e
      rcases standard_cases (E.num rm) p.queue hc g with
        ⟨out, s, s0, eo, e0, eL, inv, run, hdr, hsh, res⟩ | ⟨eo, _⟩
      · simp only [eo, bind, Except.bind] at e
        obtain ⟨s0', e0', inv0, o0, i0, r0, m0, c0, t0, p0⟩ := initSt_inv g
        rw [e0] at e0'
        cases e0'
        have hmo := (packOut_fields e).1
        simp only at hmo
        rw [packOut_five (by simp only; omega)] at e
        have h5 := res.five (by omega)
        obtain ⟨hom, _, _⟩ := res.que (by omega)
        have key : Snap E s.model s.recs := by
          cases hch : s.changed with
          | true => exact loop_snap E rm hc hc8 hcX _ s0 s inv0 eL (by rw [c0]; simp) hch
          | false =>
            have hp5 : p.mode = 5 := by
              rcases h5.2.2 with h' | h'
              · rw [hch] at h'; simp at h'
              · exact h'
            obtain ⟨k1, _, k2⟩ := run.keep (by rw [hch, c0]) (by omega) c0
            have hrn : s0.recs ≠ [] := by rw [r0]; exact (h.both hp5).2.2
            rw [k1, k2 hrn, m0, r0, hmod (by omega)]
            exact S hp5
        cases e
        simp only [hom, res.recs]
        exact key
      · simp only [eo, bind, Except.bind] at e
        cases e
    · simp only [hl, if_false, bind, Except.bind] at e
      rw [packOut_same h model hmod] at e
      cases e
      exact S hq5

theorem History.snap {E : Env V F R M} {ok : Pack F R M → Prop} (hc : 0 < E.conse) (hc8 : E.conse ≤ 8)
    {p : Pack F R M} {all : List Obs} (h : History E ok p all) (hcod : Codable all) :
    p.mode = 5 → Snap E p.model p.recs := by
  induction h with
  | void m0 => simp
  | detect m0 z scenes q e _ =>
    intro h5
    obtain ⟨_, hq, ec⟩ := detect_call E e
    exact snap_call E (start_promise E.conse m0) ((History.void (E := E) (ok := fun _ => True) m0).settled hc hc8) hc hc8 (some z) (by simp [start]) scenes hq
      (by simp [start]) hcod ec h5
  | update p q all scenes hp e _ ih =>
    intro h5
    have hP := hp.promise hc hc8
    obtain ⟨_, hq, ec⟩ := update_call E hP e
    exact snap_call E hP (hp.settled hc hc8) hc hc8 p.model (fun _ => rfl) scenes hq
      (ih (fun o ho => hcod o (List.mem_append_left _ ho)))
      (fun o ho => hcod o (List.mem_append_right _ ho)) ec h5
  | identify p q all a d _ e _ ih =>
    intro h5
    rcases identify_keeps e with rfl | ⟨h1, rfl⟩
    · exact ih hcod h5
    · simp at h5

end Pycold.Sccd

namespace Pycold.SccdNum
open Pycold.ColdNum (Fl)
open Pycold.ColdNum.Spec (exact storedCurve)
open Pycold.SccdNum.Spec
open Pycold.Sccd (Obs Codable encode decode padObs leadCount)
variable {P : Type}

/-! ### Medians -/

theorem median_is (l : List ℝ) (hl : l ≠ []) : IsMedian l (ColdNum.median exact l) := by
  obtain ⟨hp, hs⟩ := ColdNum.sortOrder_spec l
  refine ⟨hl, (ColdNum.sortOrder exact l).map (fun k => l.getD k 0), ?_, hs, ?_⟩
  · refine (hp.map _).trans (List.Perm.of_eq ?_)
    apply List.ext_getElem
    · simp
    · intro i h1 h2
      simp [h2]
  · unfold ColdNum.median
    have e2 : exact.lit 2 1 = 2 := by rw [ColdNum.lit_exact]; norm_num
    simp only [e2, ColdNum.zero_exact]
    by_cases h : l.length % 2 = 0
    · rw [if_pos h, if_neg (by omega)]; rfl
    · rw [if_neg h, if_pos (by omega)]

theorem median_unique {l : List ℝ} {v w : ℝ} (h : IsMedian l v) (h' : IsMedian l w) : v = w := by
  obtain ⟨_, s, h1, h2, h3⟩ := h
  obtain ⟨_, s', g1, g2, g3⟩ := h'
  have : s = s' := (h1.trans g1.symm).eq_of_pairwise (fun _ _ _ _ => le_antisymm) h2 g2
  rw [h3, g3, this]

theorem greening_iff {t : ℝ} {coefs : Fin 6 → List ℝ} {run : List Obs} {md : Fin 6 → ℝ}
    (h : ∀ b, IsMedian (run.map (resid (coefs b) b)) (md b)) :
    Greening t coefs run ↔ md 2 < -t ∧ t < md 3 ∧ md 4 < -t := by
  constructor
  · rintro ⟨r, n, s, h1, h2, h3, h4⟩
    rw [← median_unique h1 (h 2), ← median_unique h2 (h 3), ← median_unique h3 (h 4)]
    exact h4
  · intro h4
    exact ⟨_, _, _, h 2, h 3, h 4, h4⟩

/-! ### Six coefficients -/

theorem getD_take {c : List ℝ} {k n : Nat} (h : k < n) : (c.take n).getD k 0 = c.getD k 0 := by
  rw [List.getD_eq_getElem?_getD, List.getD_eq_getElem?_getD, List.getElem?_take, if_pos h]

theorem predict_take (c : List ℝ) (t : Int) : ColdNum.predict exact 6 c t = storedCurve (c.take 6) (t : ℝ) := by
  rw [← predict_six (c := c.take 6) (by simp only [List.length_take]; omega) t]
  unfold ColdNum.predict
  simp only [ColdNum.zero_exact, getD_take (show 0 < 6 by omega), getD_take (show 1 < 6 by omega),
    getD_take (show 2 < 6 by omega), getD_take (show 3 < 6 by omega), getD_take (show 4 < 6 by omega),
    getD_take (show 5 < 6 by omega), show ¬ ((6 : Int) ≥ 8) by omega, if_false]

theorem ref_take (c : List ℝ) (t : Int) :
    (ColdNum.predictRef exact (sixCoefs exact c) (exact.ofInt t) 6).getD exact.zero =
      storedCurve (c.take 6) (t : ℝ) := by
  have hl : (sixCoefs exact c).length = 6 := by simp [sixCoefs]
  have := ColdNum.predictRef_exact (sixCoefs exact c) t 6 (.inr (.inl rfl)) hl
  rw [show exact.ofInt t = (t : ℝ) from rfl, this, Option.getD_some]
  show ColdNum.predict exact 6 _ t = _
  rw [predict_take]
  have hg : ∀ k, k < 6 → (sixCoefs exact c).getD k 0 = c.getD k 0 := by
    intro k hk
    rw [List.getD_eq_getElem?_getD]
    simp [sixCoefs, hk, ColdNum.zero_exact]
  have h6 : ∀ (d : List ℝ) k, 6 ≤ k → (d.take 6).getD k 0 = 0 := by
    intro d k hk
    rw [List.getD_eq_getElem?_getD, List.getElem?_take, if_neg (by omega)]; rfl
  unfold storedCurve
  simp only [getD_take (show 0 < 6 by omega), getD_take (show 1 < 6 by omega),
    getD_take (show 2 < 6 by omega), getD_take (show 3 < 6 by omega), getD_take (show 4 < 6 by omega),
    getD_take (show 5 < 6 by omega), hg 0 (by omega), hg 1 (by omega), hg 2 (by omega), hg 3 (by omega),
    hg 4 (by omega), hg 5 (by omega), h6 _ 6 (le_refl _), h6 _ 7 (by omega)]

/-- The six coefficients stored for each band. -/
def kept (f : Fin 6 → BandState ℝ P) : Fin 6 → List ℝ := fun b => (f b).cft.take 6

section
variable (lasso robust : List (List ℝ) → List ℝ → List ℝ) (tcg gate pred junk : ℝ)
  (valid : ℝ → ℝ → List ℝ → P → List ℝ × P × ℝ) (missing resetP narrowP : P → P) (zeroP : P)

local notation "EE" => program exact lasso robust tcg gate pred junk valid missing resetP narrowP zeroP

theorem difs_kept (f : Fin 6 → BandState ℝ P) (o : Obs) (b : Fin 6) :
    difs EE f o b = resid (kept f b) b o := by
  unfold difs
  show (value EE b o : ℝ) - ColdNum.predict exact 6 (f b).cft o.date = _
  rw [predict_take]
  rfl

theorem score_kept (rmin : Fin 6 → Int) (f : Fin 6 → BandState ℝ P) (n df : Int) (o : Obs) :
    (score EE rmin f n df o).1 = strength (kept f) (fun b => max (rmin b : ℝ) (noise EE f n df b)) o ∧
    (score EE rmin f n df o).2.1 = scaled (kept f) (fun b => max (rmin b : ℝ) (noise EE f n df b)) o := by
  have hs : score EE rmin f n df o = score EE rmin (fun b => { f b with cft := (f b).cft.take 6 }) n df o := by
    unfold score
    have : difs EE f o = difs EE (fun b => { f b with cft := (f b).cft.take 6 }) o := by
      funext b
      rw [difs_kept, difs_kept]
      unfold kept
      rw [List.take_take, Nat.min_self]
    rw [this]; rfl
  rw [hs]
  have := score_exact lasso robust tcg gate pred junk valid missing resetP narrowP zeroP rmin
    (fun b => { f b with cft := (f b).cft.take 6 }) n df o (fun b => by simp only [List.length_take]; omega)
  exact this

theorem scale_hundredfold {x : ℝ} (h : 0 ≤ x) : scale exact x = hundredfold x := by
  have e100 : exact.lit 100 1 = 100 := by rw [ColdNum.lit_exact]; norm_num
  have eM : exact.lit 32767 1 = 32767 := by rw [ColdNum.lit_exact]; norm_num
  unfold scale hundredfold
  simp only [e100, eM]
  show exact.trunc (if decide ((32767 : ℝ) < x * 100) = true then (32767 : ℝ) else x * 100) = _
  have hmin : (if decide ((32767 : ℝ) < x * 100) = true then (32767 : ℝ) else x * 100) = min (x * 100) 32767 := by
    by_cases hx : (32767 : ℝ) < x * 100
    · rw [if_pos (by simpa using hx), min_eq_right hx.le]
    · rw [if_neg (by simpa using hx), min_eq_left (not_lt.mp hx)]
  rw [hmin]
  show (if 0 ≤ min (x * 100) 32767 then ⌊min (x * 100) 32767⌋ else ⌈min (x * 100) 32767⌉) = _
  rw [if_pos]
  exact le_min (by positivity) (by norm_num)

theorem strength_nonneg (coefs : Fin 6 → List ℝ) (yard : Fin 6 → ℝ) (o : Obs) : 0 ≤ strength coefs yard o := by
  unfold strength
  apply List.sum_nonneg
  intro x hx
  obtain ⟨y, _, rfl⟩ := List.mem_map.mp hx
  exact sq_nonneg y

theorem smallest_least : ∀ (l : List ℝ), Sccd.smallest exact.lt (exact.lit 9999 1) l = least l := by
  have e : exact.lit 9999 1 = 9999 := by rw [ColdNum.lit_exact]; norm_num
  have key : ∀ (l : List ℝ) (a : ℝ), l.foldl (fun a v => if exact.lt v a = true then v else a) a = l.foldl min a := by
    intro l
    induction l with
    | nil => intro a; rfl
    | cons x xs ih =>
      intro a
      rw [List.foldl_cons, List.foldl_cons, ih]
      congr 1
      show (if decide (x < a) = true then x else a) = min a x
      by_cases h : x < a
      · rw [if_pos (by simpa using h), min_eq_right h.le]
      · rw [if_neg (by simpa using h), min_eq_left (not_lt.mp h)]
  intro l
  unfold Sccd.smallest least
  rw [e, key]

theorem least_nonneg {l : List ℝ} (h : ∀ x ∈ l, 0 ≤ x) : 0 ≤ least l := by
  have key : ∀ (l : List ℝ) (a : ℝ), 0 ≤ a → (∀ x ∈ l, 0 ≤ x) → 0 ≤ l.foldl min a := by
    intro l
    induction l with
    | nil => intro a ha _; exact ha
    | cons x xs ih =>
      intro a ha hl
      exact ih _ (le_min ha (hl x (by simp))) (fun y hy => hl y (by simp [hy]))
  exact key l _ (by norm_num) h

theorem least_reverse (l : List ℝ) : least l.reverse = least l := by
  unfold least
  exact (List.reverse_perm l).foldl_eq' (fun x _ y _ z => by rw [min_assoc, min_comm x y, ← min_assoc]) _

theorem meanTurn_nonneg {vs : List (List ℝ)} (h : 0 < vs.length) : 0 ≤ meanTurn vs := by
  unfold meanTurn
  refine div_nonneg (List.sum_nonneg ?_) ?_
  · intro x hx
    obtain ⟨i, hi, rfl⟩ := List.mem_iff_getElem.1 hx
    rw [List.getElem_zipWith]
    unfold degrees
    have hpi : (0 : ℝ) ≤ ColdNum.Spec.PI := by unfold ColdNum.Spec.PI; norm_num
    exact div_nonneg (mul_nonneg (Real.arccos_nonneg _) (by norm_num)) hpi
  · have : (1 : ℝ) ≤ vs.length := by exact_mod_cast h
    linarith

/-! ### The medians tested for greening -/

theorem cm_run (m : Sccd.Model (Fin 6 → BandState ℝ P)) (A run : List Obs) (hA : A.length + run.length = 6)
    (hcod : Codable run) (ho : m.obs = (A ++ run).map encode ++ List.replicate 2 padObs)
    (hl : m.conseLast = run.length) (hne : run ≠ []) (b : Fin 6) :
    IsMedian (run.map (resid (kept m.filt b) b)) (cmMedian EE m b) := by
  have e : cmMedian EE m b = ColdNum.median exact (run.map (resid (kept m.filt b) b)) := by
    unfold cmMedian
    show ColdNum.median exact _ = _
    congr 1
    have hn : m.conseLast.toNat = run.length := by rw [hl]; simp
    have hs : (6 - m.conseLast).toNat = A.length := by rw [hl]; omega
    rw [hn, hs]
    apply List.ext_getElem
    · simp
    · intro i h1 h2
      rw [List.length_map] at h2
      have hg : m.obs.getD (i + A.length) padObs = encode run[i] := by
        rw [List.getD_eq_getElem?_getD, ho, List.getElem?_append_left (by simp; omega), List.map_append,
          List.getElem?_append_right (by simp)]
        simp [h2]
      have hd : decode (encode run[i]) = run[i] := by
        have := Sccd.decode_encode (l := [run[i]]) (fun x hx => by
          simp at hx; subst hx; exact hcod _ (List.getElem_mem h2))
        simpa using this
      rw [List.getElem_map, List.getElem_map, List.getElem_range]
      dsimp only
      rw [hg]
      have e1 : (encode run[i]).date + Sccd.LAUNCH = run[i].date := congrArg Obs.date hd
      have e2' : (decode (encode run[i])).vals = run[i].vals := congrArg Obs.vals hd
      have e2 : (encode run[i]).vals = run[i].vals := e2'
      rw [e1, e2]
      unfold resid
      show ((run[i].vals.getD b 0 : Int) : ℝ) - (ColdNum.predictRef exact (sixCoefs exact (m.filt b).cft) (exact.ofInt run[i].date) 6).getD exact.zero = _
      rw [ref_take]
      rfl
  rw [e]
  exact median_is _ (by simpa using hne)

theorem ask_greening {m : Sccd.Model (Fin 6 → BandState ℝ P)} (A run : List Obs) (hA : A.length + run.length = 6)
    (hcod : Codable run) (ho : m.obs = (A ++ run).map encode ++ List.replicate 2 padObs)
    (hl : m.conseLast = run.length) (q : Params ℝ) :
    (ask EE q).greening m = true ↔ run ≠ [] ∧ Greening q.tSingle (kept m.filt) run := by
  by_cases hne : run = []
  · subst hne
    have : (ask EE q).greening m = false := by
      show (decide (0 < m.conseLast) && _) = false
      rw [hl]; simp
    simp [this]
  · have hmd := cm_run lasso robust tcg gate pred junk valid missing resetP narrowP zeroP m A run hA hcod ho hl hne
    rw [greening_iff hmd]
    have hpos : 0 < run.length := List.length_pos_iff.mpr hne
    show (decide (0 < m.conseLast) && (decide (cmMedian EE m 2 < -q.tSingle) && decide (q.tSingle < cmMedian EE m 3) &&
      decide (cmMedian EE m 4 < -q.tSingle))) = true ↔ _
    simp only [Bool.and_eq_true, decide_eq_true_eq]
    constructor
    · rintro ⟨_, ⟨h1, h2⟩, h3⟩
      exact ⟨hne, h1, h2, h3⟩
    · rintro ⟨_, h1, h2, h3⟩
      exact ⟨by omega, ⟨h1, h2⟩, h3⟩

end

end Pycold.SccdNum
