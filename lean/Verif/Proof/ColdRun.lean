import Verif.Proof.ColdLoop
/-! Monitoring, the loop as a whole, and the end of the series. -/
namespace Pycold.Cold

open Spec

variable {V W : Type}

theorem drop_take_eq_range {L : List Int} {i : Int} {c : Nat} (h0 : 0 ≤ i)
    (h1 : i + c ≤ L.length) :
    (L.drop i.toNat).take c = (List.range c).map (fun (k : Nat) => nth L (i + (k : Int))) := by
  apply List.ext_getElem
  · simp only [List.length_take, List.length_drop, List.length_map, List.length_range]; omega
  · intro k hk1 hk2
    simp only [List.length_map, List.length_range] at hk2
    simp only [List.getElem_take, List.getElem_drop, List.getElem_map, List.getElem_range]
    rw [nth_eq (by omega) (by omega)]
    congr 1
    omega

theorem drop_take_snoc {L : List Int} {i : Int} {c : Nat} (h0 : 0 ≤ i) (hc : 1 ≤ c)
    (h1 : i + c ≤ L.length) :
    (L.drop i.toNat).take (c - 1) ++ [nth L (i + ((c - 1 : Nat) : Int))] =
      (L.drop i.toNat).take c := by
  obtain ⟨d, rfl⟩ : ∃ d, c = d + 1 := ⟨c - 1, by omega⟩
  rw [drop_take_eq_range h0 (by omega), drop_take_eq_range h0 h1]
  simp [List.range_succ]

structure Refreshed (P : Params) (s : St V W) (ic : Int) (l : Nat) (cur : Rec V W)
    (sc : List (Score V W)) : Prop where
  ic : ic ≠ 0
  hcur : CurInv (live s.clrx s.end_) s.iStart l cur
  tEnd : cur.tEnd = nth (live s.clrx s.end_) (s.i - 1)
  le : (l : Int) ≤ s.i - s.iStart + 1
  ge : min 24 (s.i - s.iStart + 1) ≤ (l : Int)
  dates : sc.map Score.date = ((live s.clrx s.end_).drop s.i.toNat).take P.conse

theorem refresh_ok {P : Params} {N : Num V W} {dates : List Int} {nCm : Nat} (hc : 1 ≤ P.conse)
    (ω : Oracle V W) {s : St V W} (h : Base P N dates nCm s)
    (room : s.i ≤ s.end_ - P.conse) (span : 12 ≤ s.i - s.iStart + 1)
    (hst : s.iCount = some 0 ∨ TrainInv P N s) :
    ∃ ic pe l skip cur sc, refresh P ω s = .ok { s with
        iSpanSkip := skip, iCount := some ic, preEnd := some pe, idsOldLen := some ((l : Nat) : Int),
        cur := cur, scores := sc } ∧ Refreshed P s ic l cur sc := by
  unfold refresh
  have hs1 := h.start
  have hele := h.arr.ele
  have hll := h.arr.llen
  -- facts about a full fit on i_start-1 .. i-1
  have hgap := nth_gap h.arr.sorted (a := s.iStart - 1) (b := s.i - 1) (by omega) (by omega) (by omega)
  obtain ⟨l, hl⟩ : ∃ l : Nat, s.i - s.iStart + 1 = (l : Int) := ⟨(s.i - s.iStart + 1).toNat, by omega⟩
  have hslice : slice s.clrx (s.iStart - 1) (s.i - 1) =
      ((live s.clrx s.end_).drop (s.iStart - 1).toNat).take l := by
    rw [slice_live (e := s.end_) (by omega) (by omega), slice]
    congr 1; omega
  have hlen : (((live s.clrx s.end_).drop (s.iStart - 1).toNat).take l).length = l := by
    simp only [List.length_take, List.length_drop]; omega
  cases hic : s.iCount with
  | none =>
    rcases hst with hz | ht
    · rw [hic] at hz; cases hz
    · obtain ⟨c, hc1, _⟩ := ht.iCount; rw [hic] at hc1; cases hc1
  | some ic0 =>
    simp only []
    by_cases hfresh : ic0 = 0 ∨ s.i - s.iStart + 1 ≤ MAX_OBS
    · simp only [hfresh, if_true]
      rw [h.arr.rd (by omega) (by omega), h.arr.rd (by omega) (by omega), chk_ok (by omega) (by omega),
        chk_ok (by omega) (by omega)]
      simp only [bind, Except.bind, hl]
      refine ⟨_, s.i, l, _, _, _, rfl, ?_⟩
      refine ⟨by omega, ⟨hslice, by rw [hslice]; exact hlen, by omega, rfl, updateCft_eq _, rfl, rfl,
        rfl⟩, rfl, by omega, by omega, ?_⟩
      rw [drop_take_eq_range (by omega) (by omega), List.map_map]
      apply List.map_congr_left
      intro k hk
      simp only [List.mem_range] at hk
      simp only [Function.comp, scoreAt]
      exact getD_live (by omega) (by omega)
    · simp only [hfresh, if_false]
      simp only [not_or, MAX_OBS] at hfresh
      have ht : TrainInv P N s := by
        rcases hst with hz | ht
        · rw [hic] at hz; injection hz with hz; omega
        · exact ht
      obtain ⟨pe, hpe⟩ := ht.preEnd
      obtain ⟨l0, hl0, hcur, hl1, hl2⟩ := ht.cur
      have hsc : (s.scores.tail ++ [scoreAt ω s (P.conse - 1)]).map Score.date =
          ((live s.clrx s.end_).drop s.i.toNat).take P.conse := by
        rw [List.map_append, ht.sdates, ← drop_take_snoc (by omega) hc (by omega)]
        congr 1
        simp only [List.map_cons, List.map_nil, scoreAt]
        rw [getD_live (e := s.end_) (by omega) (by omega)]
      simp only [hpe]
      rw [h.arr.rd (by omega) (by omega), h.arr.rd (by omega) (by omega), chk_ok (by omega) (by omega)]
      simp only [bind, Except.bind]
      generalize hskip : (if s.iSpanSkip = 0 then s.i - s.iStart + 1 else s.iSpanSkip) = skip
      by_cases hrefit : s.i - pe ≥ 1 ∧ s.i - pe > ω.skip skip
      · simp only [hrefit, and_self, if_true]
        simp only [hl]
        have h0 : ¬ (l : Int) = 0 := by omega
        simp only [h0, if_false]
        rw [chk_ok (by omega) (by omega), chk_ok (by omega) (by omega)]
        simp only []
        have hnr : ¬ 3 * updateCft (l : Int) 3 4 6 8 8 > (l : Int) := by
          rw [updateCft_eq]; simp only [normalCat]; split <;> (try split) <;> omega
        simp only [hnr, if_false]
        refine ⟨_, _, l, _, _, _, rfl, ?_⟩
        refine ⟨by omega, ⟨hslice, by rw [hslice]; exact hlen, by omega, rfl, updateCft_eq _,
          hcur.tStart, hcur.tBreak, hcur.prob⟩, rfl, by omega, by omega, ?_⟩
        exact hsc
      · simp only [hrefit, if_false, hl0]
        have h0 : ¬ (l0 : Int) = 0 := by have := hcur.ge; omega
        simp only [h0, if_false]
        rw [chk_ok (by omega) (by omega), chk_ok (by omega) (by omega)]
        simp only []
        have hnr : ¬ 3 * s.cur.category > (l0 : Int) := by
          rw [hcur.cat]; simp only [normalCat]; split <;> (try split) <;> omega
        simp only [hnr, if_false]
        refine ⟨_, pe, l0, _, _, _, rfl, ?_⟩
        obtain ⟨c, hc1, hc2⟩ := ht.iCount
        rw [hic] at hc1; injection hc1 with hc1
        refine ⟨by omega, ⟨hcur.fitted, hcur.len, hcur.ge, hcur.numObs, hcur.cat,
          hcur.tStart, hcur.tBreak, hcur.prob⟩, rfl, by omega, by omega, ?_⟩
        exact hsc

/-! ### Monitoring -/

theorem tail_dates {L : List Int} {i : Int} {c : Nat} (h0 : 0 ≤ i) :
    ((L.drop i.toNat).take c).tail = (L.drop (i + 1).toNat).take (c - 1) := by
  rw [← List.drop_one, List.drop_take, List.drop_drop]
  congr 2; omega

theorem drop_eraseIdx_self {L : List Int} {i : Int} (h0 : 0 ≤ i) :
    (L.eraseIdx i.toNat).drop i.toNat = L.drop (i + 1).toNat := by
  apply List.ext_getElem?
  intro j
  simp only [List.getElem?_drop, List.getElem?_eraseIdx]
  have h1 : ¬ (i.toNat + j < i.toNat) := by omega
  have h2 : (i + 1).toNat + j = i.toNat + j + 1 := by omega
  simp only [h1, if_false, h2]

theorem CurInv.erase {L : List Int} {iStart i : Int} {l : Nat} {r : Rec V W}
    (h : CurInv L iStart l r) (h1 : 1 ≤ iStart) (h2 : (l : Int) ≤ i - iStart + 1) :
    CurInv (L.eraseIdx i.toNat) iStart l r where
  fitted := by
    rw [h.fitted]
    apply List.ext_getElem?
    intro j
    simp only [List.getElem?_take, List.getElem?_drop, List.getElem?_eraseIdx]
    by_cases hj : j < l
    · have : (iStart - 1).toNat + j < i.toNat := by omega
      simp only [hj, if_true, this]
    · simp only [hj, if_false]
  len := h.len
  ge := h.ge
  numObs := h.numObs
  cat := h.cat
  tStart := by
    have := h.ge
    rw [h.tStart, nth_eraseIdx (by omega) (by omega)]
    simp only [show iStart - 1 < i by omega, if_true]
  tBreak := h.tBreak
  prob := h.prob

theorem normalCat_ne (l : Int) : normalCat l ≠ 14 := by
  simp only [normalCat]; split <;> (try split) <;> omega

theorem monitorPhase_ok {P : Params} {N : Num V W} {dates : List Int} {nCm : Nat} (hc : 1 ≤ P.conse)
    (hs : CmSized P dates nCm) (ω : Oracle V W) {s : St V W} (h : Base P N dates nCm s)
    (room : s.i ≤ s.end_ - P.conse) (span : 12 ≤ s.i - s.iStart + 1)
    (year : 1461 ≤ 4 * (nth (live s.clrx s.end_) (s.i - 1) -
      nth (live s.clrx s.end_) (s.iStart - 1)))
    (hst : s.iCount = some 0 ∨ TrainInv P N s) :
    ∃ s', monitorPhase P N ω s = .ok s' ∧
      Inv P N dates nCm { s' with i := s'.i + 1, it := s.it + 1 } := by
  unfold monitorPhase
  obtain ⟨ic, pe, l, skip, cur, sc, href, hR⟩ := refresh_ok hc ω h room span hst
  have hs1 := h.start
  have hele := h.arr.ele
  have hll := h.arr.llen
  have hle := hR.le
  have hge := hR.ge
  have hsclen : sc.length = P.conse := by
    have := congrArg List.length hR.dates
    simp only [List.length_map, List.length_take, List.length_drop] at this
    omega
  rw [href]
  simp only [bind, Except.bind]
  rw [h.arr.rd (by omega) (by omega)]
  simp only []
  obtain ⟨cm', hcm1, hcm2⟩ := cmPut_ok hs h.cm (h.arr.mem (k := s.i) (by omega) (by omega))
    (ω.cmMon s.it)
  rw [hcm1]
  simp only []
  have hdiff := h.diff
  by_cases hbr : isBreak N sc = true
  · simp only [hbr, if_true]
    refine ⟨_, rfl, ⟨h.arr, hcm2, ?_, ?_, ?_, h.dense, ?_, ?_, ?_, ?_, ?_, ?_, ?_⟩, ?_⟩
    · simp only; push_cast; omega
    · simp only; omega
    · simp only; omega
    · intro hn; simp at hn
    · intro _; simp only; omega
    · intro r hr x hx
      simp only [List.getLast?_append, List.getLast?_singleton, Option.some_or, Option.mem_def,
        Option.some.injEq] at hr
      subst hr
      simp only at hx ⊢
      rw [mem_drop_iff] at hx
      obtain ⟨k, hk1, hk2, rfl⟩ := hx
      exact nth_le h.arr.sorted (by omega) (by omega) hk2
    · intro r hr
      rcases List.mem_append.mp hr with hr | hr
      · exact h.closed r hr
      · simp only [List.mem_singleton] at hr
        subst hr
        refine ⟨?_, ?_, ?_, ?_, ?_, rfl, ?_, ?_, hbr, Or.inr ?_⟩
        · simp only [hR.hcur.tStart]; exact h.arr.mem (by omega) (by omega)
        · simp only [hR.tEnd]; exact h.arr.mem (by omega) (by omega)
        · exact h.arr.mem (by omega) (by omega)
        · simp only [hR.hcur.tStart, hR.tEnd]
          exact nth_le h.arr.sorted (by omega) (by omega) (by omega)
        · simp only [hR.tEnd]
          exact nth_lt h.arr.sorted (by omega) (by omega) (by omega)
        · simp only [hR.hcur.fitted]
          exact ((List.take_sublist _ _).trans (List.drop_sublist _ _)).trans h.arr.sub
        · intro x hx
          simp only [hR.hcur.fitted] at hx
          rw [drop_take_eq_range (by omega) (by omega)] at hx
          simp only [List.mem_map, List.mem_range] at hx
          obtain ⟨k, hk, rfl⟩ := hx
          simp only [hR.hcur.tStart, hR.tEnd]
          exact ⟨nth_le h.arr.sorted (by omega) (by omega) (by omega),
            nth_le h.arr.sorted (by omega) (by omega) (by omega)⟩
        · simp only [hR.hcur.len, hR.hcur.cat, hR.hcur.numObs, hR.tEnd, hR.hcur.tStart]
          refine ⟨hR.hcur.ge, trivial, trivial, year, hsclen, ?_, ?_⟩
          · rw [hR.dates]
            exact ((List.take_sublist _ _).trans (List.drop_sublist _ _)).trans h.arr.sub
          · rw [hR.dates, drop_take_eq_range (by omega) (by omega)]
            obtain ⟨m, hm⟩ : ∃ m, P.conse = m + 1 := ⟨P.conse - 1, by omega⟩
            rw [hm, List.range_succ_eq_map]
            simp
    · apply ordered_snoc h.closed h.ordered
      intro r hr
      simp only [hR.hcur.tStart]
      exact h.after r hr _ (nth_mem_drop (by omega) (by omega) (by omega))
    · intro r hr
      simp only at hr
      cases hrecs : s.recs with
      | nil => rw [hrecs] at hr; simp at hr
      | cons a as =>
        rw [hrecs] at hr
        simp only [List.cons_append, List.tail_cons] at hr
        rcases List.mem_append.mp hr with hr | hr
        · exact h.tail14 r (by rw [hrecs]; simpa using hr)
        · simp only [List.mem_singleton] at hr
          subst hr
          simp only [hR.hcur.cat]
          exact normalCat_ne _
    · simp only [h.ovf, NUM_FC, List.length_append, List.length_singleton]
      rw [Bool.eq_iff_iff]
      simp
      omega
    · intro ht; simp at ht
  · simp only [hbr]
    have hbr' : isBreak N sc = false := by simpa using hbr
    by_cases hout : isOutlier N sc = true
    · simp only [hout, if_true]
      have hl' := live_shiftDown (clrx := s.clrx) (e := s.end_) (k := s.i) (by omega) (by omega) hele
      refine ⟨_, rfl, ⟨h.arr.shift (by omega) (by omega), hcm2, ?_, h.start, ?_, h.dense, h.denseLe,
        ?_, ?_, h.closed, h.ordered, h.tail14, h.ovf⟩, ?_⟩
      · simp only; push_cast; omega
      · simp only; omega
      · intro _; simp only; omega
      · intro r hr x hx
        simp only [hl'] at hr hx
        exact h.after r hr x (mem_drop_eraseIdx (by omega) (by omega) hx)
      · intro _
        refine ⟨?_, ?_, hsclen, ?_, hbr', ⟨ic, rfl, hR.ic⟩, ⟨pe, rfl⟩, ⟨l, rfl, ?_, ?_, ?_⟩⟩
        · simp only; omega
        · simp only [hl']
          rw [nth_eraseIdx (by omega) (by omega), nth_eraseIdx (by omega) (by omega)]
          simp only [show s.i - 1 < s.i by omega, show s.iStart - 1 < s.i by omega, if_true,
            show s.i - 1 + 1 - 1 = s.i - 1 by omega]
          exact year
        · simp only [hl', show s.i - 1 + 1 = s.i by omega]
          rw [List.map_tail, hR.dates, tail_dates (by omega), drop_eraseIdx_self (by omega)]
        · simp only [hl']; exact hR.hcur.erase (by omega) (by omega)
        · simp only; omega
        · simp only; omega
    · simp only [hout]
      refine ⟨_, rfl, ⟨h.arr, hcm2, ?_, h.start, ?_, h.dense, h.denseLe,
        ?_, h.after, h.closed, h.ordered, h.tail14, h.ovf⟩, ?_⟩
      · simp only; push_cast; omega
      · simp only; omega
      · intro _; simp only; omega
      · intro _
        refine ⟨?_, ?_, hsclen, ?_, hbr', ⟨ic, rfl, hR.ic⟩, ⟨pe, rfl⟩, ⟨l, rfl, hR.hcur, ?_, ?_⟩⟩
        · simp only; omega
        · simp only [show s.i + 1 - 1 = s.i by omega]
          have := nth_le h.arr.sorted (a := s.i - 1) (b := s.i) (by omega) (by omega) (by omega)
          omega
        · simp only
          rw [List.map_tail, hR.dates, tail_dates (by omega)]
        · simp only; omega
        · simp only; omega

/-! ### The loop -/

theorem body_ok {P : Params} {N : Num V W} {dates : List Int} {nCm : Nat} (hc : 1 ≤ P.conse)
    (hs : CmSized P dates nCm) (ω : Oracle V W) {s : St V W} (h : Inv P N dates nCm s)
    (room : s.i ≤ s.end_ - P.conse) :
    ∃ s', body P N ω s = .ok s' ∧ Inv P N dates nCm s' ∧ s'.it = s.it + 1 := by
  unfold body
  have hs1 := h.start
  have hs2 := h.startLe
  have hele := h.arr.ele
  have hll := h.arr.llen
  rw [h.arr.rd (by omega) (by omega), h.arr.rd (by omega) (by omega)]
  simp only [bind, Except.bind]
  by_cases hcond : s.i - s.iStart + 1 ≥ MIN_OBS ∧
      yearOrMore (nth (live s.clrx s.end_) (s.i - 1) - nth (live s.clrx s.end_) (s.iStart - 1)) = true
  · simp only [hcond, and_self, if_true]
    have hspan : 12 ≤ s.i - s.iStart + 1 := by have := hcond.1; simp only [MIN_OBS] at this; omega
    have hyear : 1461 ≤ 4 * (nth (live s.clrx s.end_) (s.i - 1) -
        nth (live s.clrx s.end_) (s.iStart - 1)) := by
      have := hcond.2; simp only [yearOrMore, decide_eq_true_eq] at this; omega
    by_cases htr : s.train = false
    · simp only [htr, if_true]
      obtain ⟨go, s1, h1, h2, h3⟩ := trainPhase_ok hc hs ω h.toBase htr room hspan
      rw [h1]
      simp only []
      rcases h3 with ⟨rfl, h4, h5⟩ | ⟨rfl, h4, h5⟩
      · simp only [Bool.false_eq_true, if_false]
        exact ⟨_, rfl, ⟨h5, by intro ht; simp only at ht; rw [h4] at ht; cases ht⟩, rfl⟩
      · simp only [if_true]
        obtain ⟨s2, h6, h7⟩ := monitorPhase_ok hc hs ω h4 h5.room h5.span h5.year
          (Or.inl h5.iCount)
        rw [h6]
        simp only []
        rw [h2] at h7
        exact ⟨_, rfl, h7, rfl⟩
    · have htr' : s.train = true := by simpa using htr
      simp only [htr', Bool.true_eq_false, if_false]
      simp only [if_true]
      obtain ⟨s2, h6, h7⟩ := monitorPhase_ok hc hs ω h.toBase room hspan hyear
        (Or.inr (h.tr htr'))
      rw [h6]
      simp only []
      exact ⟨_, rfl, h7, rfl⟩
  · simp only [hcond, if_false]
    refine ⟨_, rfl, ⟨h.toBase.advance _ rfl rfl rfl ?_ ?_ ?_ h.dense h.denseLe rfl rfl rfl rfl, ?_⟩, rfl⟩
    · simp
    · simp; omega
    · simp; omega
    · intro ht
      exfalso
      apply hcond
      have := h.tr ht
      refine ⟨by simp only [MIN_OBS]; exact this.span, ?_⟩
      simp only [yearOrMore, decide_eq_true_eq]
      exact this.year

theorem loop_ok {P : Params} {N : Num V W} {dates : List Int} {nCm : Nat} (hc : 1 ≤ P.conse)
    (hs : CmSized P dates nCm) (ω : Oracle V W) :
    ∀ (f : Nat) (s : St V W), Inv P N dates nCm s → s.end_ - P.conse - s.i + 1 ≤ f →
      ∃ s', loop P N ω f s = .ok s' ∧ Inv P N dates nCm s' ∧ ¬ s'.i ≤ s'.end_ - P.conse ∧
        s.it ≤ s'.it ∧ (s.it < s'.it → s'.i = s'.end_ - P.conse + 1) ∧ (s.it = s'.it → s' = s) := by
  intro f
  induction f with
  | zero =>
    intro s h hf
    have : ¬ s.i ≤ s.end_ - P.conse := by simp at hf; omega
    simp only [loop, this, if_false]
    exact ⟨s, rfl, h, this, by omega, by omega, fun _ => rfl⟩
  | succ f ih =>
    intro s h hf
    by_cases room : s.i ≤ s.end_ - P.conse
    · simp only [loop, room, if_true]
      obtain ⟨s1, h1, h2, h3⟩ := body_ok hc hs ω h room
      rw [h1]
      simp only [bind, Except.bind]
      have hd1 := h.diff
      have hd2 := h2.diff
      obtain ⟨s2, h4, h5, h6, h7, h8, h9⟩ := ih s1 h2 (by omega)
      refine ⟨s2, h4, h5, h6, by omega, ?_, by omega⟩
      intro _
      by_cases he : s1.it = s2.it
      · have := h9 he; subst this; omega
      · exact h8 (by omega)
    · simp only [loop, room, if_false]
      exact ⟨s, rfl, h, room, by omega, by omega, fun _ => rfl⟩

theorem init_inv {P : Params} {N : Num V W} {dates : List Int} (nCm : Nat)
    (hd : dates.Pairwise (· < ·)) : Inv P N dates nCm (init dates nCm : St V W) := by
  have hl : live dates dates.length = dates := by simp [live]
  refine ⟨⟨⟨rfl, ?_, ?_, ?_, ?_⟩, cm_init P dates nCm, ?_, ?_, ?_, ?_, ?_, ?_, ?_, ?_, ?_, ?_, ?_⟩, ?_⟩
  · simp [init]
  · simp [init]
  · simp only [init, hl]; exact hd
  · simp only [init, hl]; exact List.Sublist.refl _
  all_goals simp [init]

end Pycold.Cold
