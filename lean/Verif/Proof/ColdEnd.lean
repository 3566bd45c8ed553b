import Verif.Proof.ColdRun
/-! The end of the series and the summary theorem about `stand_procedure`. -/
namespace Pycold.Cold

open Spec

variable {V W : Type}

/-- Score `n` is stable: within the threshold, or the trailing scores do not agree in direction. -/
def stableAt (N : Num V W) (scores : List (Score V W)) (n : Nat) : Bool :=
  match scores[n]? with
  | none => false
  | some sc => N.le sc.mag N.tcg || N.le N.nsign (N.angle ((scores.drop n).map (·.vec)))

theorem scanLast_ok (N : Num V W) (scores : List (Score V W)) (conse : Nat) :
    ∀ n, n ≤ scores.length →
    ∃ j, scanLast N scores conse n = .ok j ∧
      ((1 ≤ j ∧ j ≤ n ∧ stableAt N scores (j - 1) = true ∧
          ∀ m, j ≤ m → m < n → stableAt N scores m = false) ∨
       (j = conse ∧ ∀ m, m < n → stableAt N scores m = false)) := by
  intro n
  induction n with
  | zero => intro _; exact ⟨conse, rfl, Or.inr ⟨rfl, by omega⟩⟩
  | succ n ih =>
    intro hn
    have hget : scores[n]? = some scores[n] := List.getElem?_eq_getElem (by omega)
    simp only [scanLast, hget]
    by_cases hst : stableAt N scores n = true
    · have := hst
      simp only [stableAt, hget] at this
      simp only [this, if_true]
      exact ⟨_, rfl, Or.inl ⟨by omega, by omega, by simpa using hst, by omega⟩⟩
    · have := hst
      simp only [stableAt, hget] at this
      simp only [this]
      obtain ⟨j, h1, h2⟩ := ih (by omega)
      refine ⟨j, h1, ?_⟩
      have hst' : stableAt N scores n = false := by simpa using hst
      rcases h2 with ⟨h3, h4, h5, h6⟩ | ⟨h3, h4⟩
      · left
        refine ⟨h3, by omega, h5, ?_⟩
        intro m hm1 hm2
        by_cases hmn : m = n
        · subst hmn; exact hst'
        · exact h6 m hm1 (by omega)
      · right
        refine ⟨h3, ?_⟩
        intro m hm
        by_cases hmn : m = n
        · subst hmn; exact hst'
        · exact h4 m (by omega)

theorem confirmed_of_unstable {N : Num V W} (hN : Ordered N) {scores : List (Score V W)} {j : Nat}
    (hj : j < scores.length) (h : ∀ m, j ≤ m → m < scores.length → stableAt N scores m = false) :
    Confirmed N (scores.drop j) := by
  constructor
  · intro x hx
    rw [List.mem_drop_iff_getElem] at hx
    obtain ⟨m, hm, rfl⟩ := hx
    have := h (j + m) (by omega) (by omega)
    have hget : scores[j + m]? = some scores[j + m] := List.getElem?_eq_getElem (by omega)
    simp only [stableAt, hget, Bool.or_eq_false_iff, hN.le_iff] at this
    simpa using this.1
  · have := h j (by omega) hj
    have hget : scores[j]? = some scores[j] := List.getElem?_eq_getElem (by omega)
    simp only [stableAt, hget, Bool.or_eq_false_iff, hN.le_iff] at this
    simpa using this.2

/-- What holds of the record for the end of the series. -/
structure FinalI (P : Params) (N : Num V W) (dates : List Int) (r : Rec V W) : Prop where
  memStart : r.tStart ∈ dates
  memEnd : r.tEnd ∈ dates
  startLt : r.tStart < r.tEnd
  sub : r.fitted.Sublist dates
  inside : ∀ x ∈ r.fitted, r.tStart ≤ x ∧ x ≤ r.tEnd
  numObs : r.numObs = r.fitted.length
  kind : (r.category = 24 ∧ 6 ≤ r.fitted.length ∧ r.tBreak = 0 ∧ r.changeProb = 0 ∧ r.window = []) ∨
    (12 ≤ r.fitted.length ∧ r.category = normalCat r.fitted.length ∧ 1461 ≤ 4 * (r.tEnd - r.tStart) ∧
      ∃ j : Nat, 1 ≤ j ∧ j ≤ P.conse ∧
        r.changeProb = (((P.conse : Int) - j) * 100).tdiv P.conse ∧
        (j = P.conse → r.tBreak = 0 ∧ r.window = []) ∧
        (j < P.conse → r.tBreak ∈ dates ∧ r.tEnd < r.tBreak ∧ r.window.length = P.conse - j ∧
          (r.window.map Score.date).Sublist dates ∧
          (r.window.map Score.date).head? = some r.tBreak ∧
          (Ordered N → Confirmed N r.window)))

theorem finishTrained_ok {P : Params} {N : Num V W} {dates : List Int} {nCm : Nat}
    (hc : 1 ≤ P.conse) {s : St V W} (h : Inv P N dates nCm s) (htr : s.train = true)
    (hi : s.i = s.end_ - P.conse + 1) :
    ∃ r s', finishTrained P N s = .ok s' ∧ s'.recs = s.recs ++ [r] ∧ s'.cm = s.cm ∧
      s'.overflow = s.overflow ∧ FinalI P N dates r ∧ ∀ l ∈ s.recs.getLast?, l.tBreak ≤ r.tStart := by
  have ht := h.tr htr
  unfold finishTrained
  have hs1 := h.start
  have hsp := ht.span
  have hyr := ht.year
  have hele := h.arr.ele
  have hll := h.arr.llen
  have hslen := ht.slen
  obtain ⟨l, hl0, hcur, hl1, hl2⟩ := ht.cur
  obtain ⟨j, hj, hcase⟩ := scanLast_ok N s.scores P.conse P.conse (by omega)
  rw [hj]
  simp only [bind, Except.bind]
  have hj1 : 1 ≤ j ∧ j ≤ P.conse := by
    rcases hcase with ⟨a, b, _, _⟩ | ⟨a, _⟩ <;> omega
  rw [h.arr.rd (by omega) (by omega)]
  simp only []
  have hafter : ∀ l ∈ s.recs.getLast?, l.tBreak ≤ nth (live s.clrx s.end_) (s.iStart - 1) :=
    fun l hl => h.after l hl _ (nth_mem_drop (by omega) (by omega) (by omega))
  have hmono := nth_le h.arr.sorted (a := s.i - 1) (b := s.end_ - 1 - P.conse + j) (by omega)
    (by omega) (by omega)
  have hinside : ∀ x ∈ s.cur.fitted, s.cur.tStart ≤ x ∧
      x ≤ nth (live s.clrx s.end_) (s.end_ - 1 - P.conse + j) := by
    intro x hx
    rw [hcur.fitted] at hx
    rw [drop_take_eq_range (by omega) (by omega)] at hx
    simp only [List.mem_map, List.mem_range] at hx
    obtain ⟨k, hk, rfl⟩ := hx
    rw [hcur.tStart]
    exact ⟨nth_le h.arr.sorted (by omega) (by omega) (by omega),
      nth_le h.arr.sorted (by omega) (by omega) (by omega)⟩
  have hsub : s.cur.fitted.Sublist dates := by
    rw [hcur.fitted]
    exact ((List.take_sublist _ _).trans (List.drop_sublist _ _)).trans h.arr.sub
  have hge := hcur.ge
  by_cases hlt : P.conse > j
  · simp only [hlt, if_true]
    rw [h.arr.rd (by omega) (by omega)]
    simp only []
    refine ⟨_, _, rfl, rfl, rfl, rfl, ?_, ?_⟩
    · refine ⟨?_, h.arr.mem (by omega) (by omega), ?_, hsub, hinside, ?_, Or.inr ⟨?_, ?_, ?_, ?_⟩⟩
      · simp only [hcur.tStart]; exact h.arr.mem (by omega) (by omega)
      · simp only [hcur.tStart]; exact nth_lt h.arr.sorted (by omega) (by omega) (by omega)
      · simp only [hcur.numObs, hcur.len]
      · simp only [hcur.len]; exact hge
      · simp only [hcur.len, hcur.cat]
      · simp only [hcur.tStart]; omega
      · refine ⟨j, hj1.1, hj1.2, rfl, by omega, ?_⟩
        intro _
        have hwd : (s.scores.drop j).map Score.date =
            (live s.clrx s.end_).drop (s.end_ - P.conse + j).toNat := by
          have hd : s.scores.drop j = s.scores.tail.drop (j - 1) := by
            rw [List.drop_tail]; congr 1; omega
          rw [hd, List.map_drop, ht.sdates, List.drop_take, List.drop_drop]
          rw [List.take_of_length_le]
          · congr 1; omega
          · simp only [List.length_drop]; omega
        refine ⟨h.arr.mem (by omega) (by omega),
          nth_lt h.arr.sorted (by omega) (by omega) (by omega), by simp; omega, ?_, ?_, ?_⟩
        · simp only [hwd]; exact (List.drop_sublist _ _).trans h.arr.sub
        · simp only [hwd]
          rw [List.head?_drop, nth_eq (by omega) (by omega), List.getElem?_eq_getElem (by omega)]
        · intro hN
          rcases hcase with ⟨_, _, _, h6⟩ | ⟨h6, _⟩
          · exact confirmed_of_unstable hN (by omega) (by rw [hslen]; exact h6)
          · omega
    · intro l hl; simp only [hcur.tStart]; exact hafter l hl
  · simp only [hlt, if_false]
    refine ⟨_, _, rfl, rfl, rfl, rfl, ?_, ?_⟩
    · refine ⟨?_, h.arr.mem (by omega) (by omega), ?_, hsub, hinside, ?_, Or.inr ⟨?_, ?_, ?_, ?_⟩⟩
      · simp only [hcur.tStart]; exact h.arr.mem (by omega) (by omega)
      · simp only [hcur.tStart]; exact nth_lt h.arr.sorted (by omega) (by omega) (by omega)
      · simp only [hcur.numObs, hcur.len]
      · simp only [hcur.len]; exact hge
      · simp only [hcur.len, hcur.cat]
      · simp only [hcur.tStart]; omega
      · refine ⟨j, hj1.1, hj1.2, rfl, fun _ => ⟨hcur.tBreak, rfl⟩, by intro; omega⟩
    · intro l hl; simp only [hcur.tStart]; exact hafter l hl

theorem endStart_ok {P : Params} {N : Num V W} {dates : List Int} {nCm : Nat} {s : St V W}
    (h : Base P N dates nCm s) :
    1 ≤ endStart s ∧ (s.recs = [] → endStart s = 1) ∧ (s.recs ≠ [] → endStart s ≤ s.end_) ∧
    ∀ l ∈ s.recs.getLast?, ∀ x ∈ (live s.clrx s.end_).drop (endStart s - 1).toNat, l.tBreak ≤ x := by
  unfold endStart
  cases hg : s.recs.getLast? with
  | none =>
    have hnil : s.recs = [] := List.getLast?_eq_none_iff.mp hg
    simp [hnil]
  | some l =>
    have hne : s.recs ≠ [] := by intro hn; rw [hn] at hg; simp at hg
    have hin := h.inEnd hne
    have hst := h.start
    have hele := h.arr.ele
    have hll := h.arr.llen
    have hv : l.tBreak ≤ s.clrx.getD (s.iStart - 1).toNat 0 := by
      rw [getD_live (e := s.end_) (by omega) (by omega)]
      exact h.after l (by rw [hg]; rfl) _ (nth_mem_drop (by omega) (by omega) (by omega))
    obtain ⟨m, h1, _, h3, h4, _⟩ := findGe_some (clrx := s.clrx) (t := l.tBreak)
      (stop := s.clrx.length) (k := 0) (j := (s.iStart - 1).toNat) (by omega) (by omega)
      (by omega) hv
    simp only [h1]
    refine ⟨by omega, fun hn => absurd hn hne, fun _ => by omega, ?_⟩
    intro l' hl' x hx
    simp at hl'; subst hl'
    rw [mem_drop_iff] at hx
    obtain ⟨k, hk1, hk2, rfl⟩ := hx
    rw [show s.clrx.getD m 0 = nth (live s.clrx s.end_) (m : Int) by
      have := getD_live (clrx := s.clrx) (e := s.end_) (k := (m : Int)) (by omega) (by omega)
      simpa using this] at h4
    have := nth_le h.arr.sorted (a := (m : Int)) (b := k) (by omega) (by omega) hk2
    omega

theorem finishUntrained_ok {P : Params} {N : Num V W} {dates : List Int} {nCm : Nat}
    (ω : Oracle V W) {s : St V W} (h : Base P N dates nCm s) :
    ∃ s', finishUntrained ω s = .ok s' ∧ s'.cm = s.cm ∧ s'.overflow = s.overflow ∧
      (s'.recs = s.recs ∨ ∃ r, s'.recs = s.recs ++ [r] ∧ FinalI P N dates r ∧
        ∀ l ∈ s.recs.getLast?, l.tBreak ≤ r.tStart) := by
  unfold finishUntrained
  obtain ⟨h1, h2, h3, h4⟩ := endStart_ok h
  have hele := h.arr.ele
  have hll := h.arr.llen
  generalize endStart s = st at *
  by_cases hge : s.end_ - st + 1 ≥ LASSO_MIN
  · simp only [hge, if_true]
    have hge6 : s.end_ - st + 1 ≥ 6 := hge
    rw [chk_ok (by omega) (by omega)]
    simp only [bind, Except.bind]
    obtain ⟨b0, hb0⟩ : ∃ b0 : Nat, st - 1 = (b0 : Int) := ⟨(st - 1).toNat, by omega⟩
    obtain ⟨len, hlen⟩ : ∃ len : Nat, s.end_ - st + 1 = (len : Int) :=
      ⟨(s.end_ - st + 1).toNat, by omega⟩
    have hcp := compact_rmIds ω.endMask (live s.clrx s.end_) b0 len (by omega)
    have hKsub := keep_sublist ω.endMask (((live s.clrx s.end_).drop b0).take len) 0
    generalize keep ω.endMask (((live s.clrx s.end_).drop b0).take len) 0 = K at *
    have hcpdef : List.take s.end_.toNat s.clrx = live s.clrx s.end_ := rfl
    simp only [hcpdef, hb0, hlen, Int.toNat_natCast]
    rw [hcp]
    have hnil : (live s.clrx s.end_).drop (b0 + len) = [] := by
      apply List.drop_eq_nil_of_le; omega
    rw [hnil, List.append_nil]
    generalize hcpx : (live s.clrx s.end_).take b0 ++ K = cpx
    have h0 : ((live s.clrx s.end_).take b0).length = b0 := by
      simp only [List.length_take]; omega
    have hcplen : cpx.length = b0 + K.length := by
      rw [← hcpx]; simp only [List.length_append, h0]
    have hcpsub : cpx.Sublist (live s.clrx s.end_) := by
      rw [← hcpx]
      conv => rhs; rw [← List.take_append_drop b0 (live s.clrx s.end_)]
      exact (List.Sublist.refl _).append (hKsub.trans (List.take_sublist _ _))
    have hcpdrop : ∀ x ∈ cpx.drop b0, x ∈ (live s.clrx s.end_).drop b0 := by
      rw [← hcpx, List.drop_append, h0]
      simp only [List.drop_take, Nat.sub_self, List.take_zero, List.nil_append, List.drop_zero]
      intro x hx
      exact List.mem_of_mem_take (hKsub.subset hx)
    have hcle : cpx.length ≤ s.clrx.length := by
      have := hcpsub.length_le; omega
    have hlive := live_commit s.clrx cpx
    have harr : Arr dates (commit s.clrx cpx) cpx.length :=
      ⟨(commit_length hcle).trans h.arr.len, by omega,
        by rw [commit_length hcle]; omega, by rw [hlive]; exact h.arr.sorted.sublist hcpsub,
        by rw [hlive]; exact hcpsub.trans h.arr.sub⟩
    have hll' := harr.llen
    by_cases hge2 : (cpx.length : Int) - st + 1 ≥ LASSO_MIN
    · simp only [hge2, if_true]
      have hge6' : (cpx.length : Int) - st + 1 ≥ 6 := hge2
      rw [chk_ok (by omega) (by omega)]
      simp only []
      have hsl := slice_live (clrx := commit s.clrx cpx) (e := cpx.length) (lo := (b0 : Int))
        (hi := (cpx.length : Int) - 1) (by omega) (by omega)
      have hslen := slice_length (l := live (commit s.clrx cpx) cpx.length) (lo := (b0 : Int))
        (hi := (cpx.length : Int) - 1) (by omega) (by omega) (by omega)
      have hafter' : ∀ l ∈ s.recs.getLast?, ∀ k : Int, (b0 : Int) ≤ k → k < cpx.length →
          l.tBreak ≤ nth (live (commit s.clrx cpx) cpx.length) k := by
        intro l hl k hk1 hk2
        apply h4 l hl
        rw [hb0, Int.toNat_natCast]
        apply hcpdrop
        rw [hlive]
        have := nth_mem_drop (l := cpx) (b := (b0 : Int)) (k := k) (by omega) hk1 hk2
        simpa using this
      have key : ∀ tS, (∀ k : Int, (b0 : Int) ≤ k → k < cpx.length →
            tS ≤ nth (live (commit s.clrx cpx) cpx.length) k) → tS ∈ dates →
          FinalI P N dates
            ({ tStart := tS, tEnd := nth (live (commit s.clrx cpx) cpx.length) ((cpx.length : Int) - 1),
               tBreak := 0, changeProb := 0, numObs := (cpx.length : Int) - st + 1,
               category := 20 + 4,
               fitted := slice (commit s.clrx cpx) b0 ((cpx.length : Int) - 1) } : Rec V W) := by
        intro tS hle hmem
        refine ⟨hmem, harr.mem (by omega) (by omega), ?_, ?_, ?_, ?_, Or.inl ?_⟩
        · have := hle (b0 : Int) (by omega) (by omega)
          have := nth_lt harr.sorted (a := (b0 : Int)) (b := (cpx.length : Int) - 1) (by omega)
            (by omega) (by omega)
          simp only; omega
        · simp only [hsl]; exact (slice_sublist _ _ _).trans harr.sub
        · intro x hx
          simp only [hsl] at hx
          obtain ⟨k, hk1, hk2, rfl⟩ := mem_slice (by omega) (by omega) hx
          exact ⟨hle k hk1 (by omega), nth_le harr.sorted (by omega) (by omega) (by omega)⟩
        · simp only [hsl]; omega
        · simp only [hsl]; exact ⟨rfl, by omega, trivial, trivial, trivial⟩
      have hov : (s.overflow || decide (s.recs.length ≥ NUM_FC)) = s.overflow := by
        rw [h.ovf]; simp [NUM_FC]
      cases hg : s.recs.getLast? with
      | none =>
        have hrn : s.recs = [] := List.getLast?_eq_none_iff.mp hg
        have hst1 := h2 hrn
        simp only []
        rw [harr.rd (by omega) (by omega), harr.rd (by omega) (by omega)]
        simp only []
        refine ⟨_, rfl, rfl, hov, Or.inr ⟨_, rfl, ?_, by simp⟩⟩
        refine key _ ?_ (harr.mem (by omega) (by omega))
        intro k hk1 hk2
        exact nth_le harr.sorted (by omega) (by omega) (by omega)
      | some l =>
        simp only []
        rw [harr.rd (by omega) (by omega)]
        simp only []
        have hlm : l ∈ s.recs.getLast? := by rw [hg]; rfl
        have hlmem : l ∈ s.recs := List.mem_of_getLast? hg
        refine ⟨_, rfl, rfl, hov, Or.inr ⟨_, rfl, ?_, ?_⟩⟩
        · exact key _ (hafter' l hlm) (h.closed l hlmem).memBreak
        · intro l' hl'; simp at hl'; subst hl'; exact Int.le_refl _
    · simp only [hge2, if_false]
      exact ⟨_, rfl, rfl, rfl, Or.inl rfl⟩
  · simp only [hge, if_false, bind, Except.bind]
    exact ⟨_, rfl, rfl, rfl, Or.inl rfl⟩

/-- Everything proved about one run of the procedure. -/
structure Outcome (P : Params) (N : Num V W) (dates : List Int) (nCm : Nat) (out : Output V W)
    (closed last : List (Rec V W)) : Prop where
  recs : out.recs = closed ++ last
  one : last.length ≤ 1
  closedOk : ∀ r ∈ closed, ClosedI P N dates r
  lastOk : ∀ r ∈ last, FinalI P N dates r
  ordered : (closed ++ last).Pairwise (fun a b => a.tBreak ≤ b.tStart)
  tail14 : ∀ r ∈ closed.tail, r.category ≠ 14
  ovf : out.overflow = decide (40 ≤ closed.length)
  iters : out.iterations = dates.length - P.conse - 11
  cm : CmInv P dates nCm out.cm

theorem standProcedure_ok {P : Params} (N : Num V W) {dates : List Int} {nCm : Nat}
    (hc : 1 ≤ P.conse) (hs : CmSized P dates nCm) (ω : Oracle V W) (hd : dates.Pairwise (· < ·)) :
    ∃ out closed last, standProcedure P N ω dates nCm = .ok out ∧
      Outcome P N dates nCm out closed last := by
  unfold standProcedure
  have hI := init_inv (P := P) (N := N) nCm hd
  obtain ⟨s, h1, h2, h3, h4, h5, h6⟩ := loop_ok hc hs ω dates.length (init dates nCm) hI
    (by simp only [init]; omega)
  rw [h1]
  simp only [bind, Except.bind]
  have hdiff := h2.diff
  have hit : s.it = dates.length - P.conse - 11 := by
    by_cases h0 : (init dates nCm : St V W).it = s.it
    · have := h6 h0; subst this; simp only [init] at *; omega
    · have := h5 (by omega); omega
  by_cases htr : s.train = true
  · simp only [htr, if_true]
    have hi : s.i = s.end_ - P.conse + 1 := by
      by_cases h0 : (init dates nCm : St V W).it = s.it
      · have := h6 h0; subst this; simp [init] at htr
      · exact h5 (by omega)
    obtain ⟨r, s', g1, g2, g3, g4, g5, g6⟩ := finishTrained_ok hc h2 htr hi
    rw [g1]
    simp only []
    refine ⟨_, s.recs, [r], rfl, ⟨g2, by simp, h2.closed, ?_, ?_, h2.tail14, ?_, hit, ?_⟩⟩
    · intro x hx; simp at hx; subst hx; exact g5
    · exact ordered_snoc h2.closed h2.ordered g6
    · simp only [g4]; exact h2.ovf
    · simp only [g3]; exact h2.cm
  · simp only [htr]
    obtain ⟨s', g1, g3, g4, g5⟩ := finishUntrained_ok ω h2.toBase
    simp only [Bool.false_eq_true, if_false]
    rw [g1]
    simp only []
    rcases g5 with g5 | ⟨r, g5, g6, g7⟩
    · refine ⟨_, s.recs, [], rfl, ⟨by simpa using g5, by simp, h2.closed, by simp,
        by simpa using h2.ordered, h2.tail14, ?_, hit, ?_⟩⟩
      · simp only [g4]; exact h2.ovf
      · simp only [g3]; exact h2.cm
    · refine ⟨_, s.recs, [r], rfl, ⟨g5, by simp, h2.closed, ?_, ?_, h2.tail14, ?_, hit, ?_⟩⟩
      · intro x hx; simp at hx; subst hx; exact g6
      · exact ordered_snoc h2.closed h2.ordered g7
      · simp only [g4]; exact h2.ovf
      · simp only [g3]; exact h2.cm

end Pycold.Cold
