import Verif.Proof.ColdParts
/-! The loop invariant of the COLD detection loop and its preservation. -/
namespace Pycold.Cold

open Spec

variable {V W : Type}

/-- Category of a normal record with `l` fitted observations. -/
def normalCat (l : Int) : Int := if l < 18 then 4 else if l < 24 then 6 else 8

theorem updateCft_eq (l : Int) : updateCft l 3 4 6 8 8 = normalCat l := by
  simp only [updateCft, normalCat]; grind

/-- What holds of every closed record. -/
structure ClosedI (P : Params) (N : Num V W) (dates : List Int) (r : Rec V W) : Prop where
  memStart : r.tStart ∈ dates
  memEnd : r.tEnd ∈ dates
  memBreak : r.tBreak ∈ dates
  startLe : r.tStart ≤ r.tEnd
  endLt : r.tEnd < r.tBreak
  prob : r.changeProb = 100
  sub : r.fitted.Sublist dates
  inside : ∀ x ∈ r.fitted, r.tStart ≤ x ∧ x ≤ r.tEnd
  brk : isBreak N r.window = true
  kind : (r.category = 14 ∧ 6 ≤ r.fitted.length ∧ r.numObs = r.fitted.length + 1 ∧
            (min 6 P.conse ≤ r.window.length ∧ r.window.length ≤ P.conse) ∧
            (r.window.map Score.date).Pairwise (· > ·) ∧
            (r.window.map Score.date).head? = some r.tEnd ∧
            (∀ d ∈ r.window.map Score.date, d ∈ dates)) ∨
         (12 ≤ r.fitted.length ∧ r.category = normalCat r.fitted.length ∧
            r.numObs = r.fitted.length ∧ 1461 ≤ 4 * (r.tEnd - r.tStart) ∧
            r.window.length = P.conse ∧ (r.window.map Score.date).Sublist dates ∧
            (r.window.map Score.date).head? = some r.tBreak)

/-- The part of the invariant that does not concern a model in use. -/
structure Base (P : Params) (N : Num V W) (dates : List Int) (nCm : Nat) (s : St V W) : Prop where
  arr : Arr dates s.clrx s.end_
  cm : CmInv P dates nCm s.cm
  diff : s.end_ - s.i = dates.length - 12 - s.it
  start : 1 ≤ s.iStart
  startLe : s.iStart ≤ s.i
  dense : 1 ≤ s.iDense
  denseLe : s.recs = [] → s.iDense ≤ s.iStart
  inEnd : s.recs ≠ [] → s.iStart ≤ s.end_
  after : ∀ l ∈ s.recs.getLast?, ∀ x ∈ (live s.clrx s.end_).drop (s.iStart - 1).toNat, l.tBreak ≤ x
  closed : ∀ r ∈ s.recs, ClosedI P N dates r
  ordered : s.recs.Pairwise (fun a b => a.tBreak ≤ b.tStart)
  tail14 : ∀ r ∈ s.recs.tail, r.category ≠ 14
  ovf : s.overflow = decide (40 ≤ s.recs.length)

/-- The record in progress after a fit on the first `l` observations of the segment. -/
structure CurInv (L : List Int) (iStart : Int) (l : Nat) (r : Rec V W) : Prop where
  fitted : r.fitted = (L.drop (iStart - 1).toNat).take l
  len : r.fitted.length = l
  ge : 12 ≤ l
  numObs : r.numObs = l
  cat : r.category = normalCat l
  tStart : r.tStart = nth L (iStart - 1)
  tBreak : r.tBreak = 0
  prob : r.changeProb = 0

/-- A model is in use (between iterations). -/
structure TrainInv (P : Params) (N : Num V W) (s : St V W) : Prop where
  span : 12 ≤ s.i - s.iStart + 1
  year : 1461 ≤ 4 * (nth (live s.clrx s.end_) (s.i - 1) - nth (live s.clrx s.end_) (s.iStart - 1))
  slen : s.scores.length = P.conse
  sdates : s.scores.tail.map Score.date = ((live s.clrx s.end_).drop s.i.toNat).take (P.conse - 1)
  nobreak : isBreak N s.scores = false
  iCount : ∃ c, s.iCount = some c ∧ c ≠ 0
  preEnd : ∃ p, s.preEnd = some p
  cur : ∃ l : Nat, s.idsOldLen = some (l : Int) ∧ CurInv (live s.clrx s.end_) s.iStart l s.cur ∧
    (l : Int) ≤ s.i - s.iStart + 1 ∧ min 24 (s.i - s.iStart) ≤ (l : Int)

structure Inv (P : Params) (N : Num V W) (dates : List Int) (nCm : Nat) (s : St V W) : Prop
    extends Base P N dates nCm s where
  tr : s.train = true → TrainInv P N s

/-! ### Small facts -/

theorem le_last {P : Params} {N : Num V W} {dates : List Int} {recs : List (Rec V W)}
    (hcl : ∀ r ∈ recs, ClosedI P N dates r)
    (ho : recs.Pairwise (fun a b => a.tBreak ≤ b.tStart)) {l : Rec V W}
    (hl : l ∈ recs.getLast?) {r : Rec V W} (hr : r ∈ recs) : r.tBreak ≤ l.tBreak := by
  obtain ⟨init, rfl⟩ : ∃ init, recs = init ++ [l] := by
    rw [Option.mem_def, List.getLast?_eq_some_iff] at hl; exact hl
  rcases List.mem_append.mp hr with h | h
  · have := (List.pairwise_append.mp ho).2.2 r h l (by simp)
    have hc := hcl l (by simp)
    have := hc.startLe
    have := hc.endLt
    omega
  · simp at h; subst h; omega

theorem ordered_snoc {P : Params} {N : Num V W} {dates : List Int} {recs : List (Rec V W)}
    (hcl : ∀ r ∈ recs, ClosedI P N dates r)
    (ho : recs.Pairwise (fun a b => a.tBreak ≤ b.tStart)) {r : Rec V W}
    (hl : ∀ l ∈ recs.getLast?, l.tBreak ≤ r.tStart) :
    (recs ++ [r]).Pairwise (fun a b => a.tBreak ≤ b.tStart) := by
  rw [List.pairwise_append]
  refine ⟨ho, by simp, ?_⟩
  intro a ha b hb
  simp at hb; subst hb
  cases hg : recs.getLast? with
  | none => rw [List.getLast?_eq_none_iff] at hg; subst hg; simp at ha
  | some l =>
    have h1 := le_last hcl ho (l := l) (by rw [hg]; rfl) ha
    have h2 := hl l (by rw [hg]; rfl)
    omega

theorem maxGap_ok {dates clrx : List Int} {e : Int} (ha : Arr dates clrx e) :
    ∀ (m : Nat) (k stop acc : Int), (stop - k).toNat = m → 0 ≤ k → stop < e →
      ∃ g, maxGap clrx e k stop acc = .ok g := by
  intro m
  induction m with
  | zero =>
    intro k stop acc hm h0 h1
    rw [maxGap]
    simp only [show ¬ k < stop by omega, if_false]
    exact ⟨_, rfl⟩
  | succ m ih =>
    intro k stop acc hm h0 h1
    rw [maxGap]
    simp only [show k < stop by omega, if_true]
    rw [ha.rd (by omega) (by omega), ha.rd (by omega) (by omega)]
    simp only [bind, Except.bind]
    exact ih _ _ _ (by omega) (by omega) h1

theorem findBreak_ok {P : Params} {N : Num V W} {dates : List Int} {nCm : Nat} {s : St V W}
    (h : Base P N dates nCm s) :
    ∃ b, findBreak s = .ok b ∧ 1 ≤ b ∧ b ≤ s.iStart ∧
      (∀ l ∈ s.recs.getLast?, ∀ x ∈ (live s.clrx s.end_).drop (b - 1).toNat, l.tBreak ≤ x) ∧
      (s.recs = [] → b = s.iDense) := by
  unfold findBreak
  cases hg : s.recs.getLast? with
  | none =>
    have hnil : s.recs = [] := List.getLast?_eq_none_iff.mp hg
    exact ⟨_, rfl, h.dense, h.denseLe hnil, by simp, fun _ => rfl⟩
  | some l =>
    have hne : s.recs ≠ [] := by intro hn; rw [hn] at hg; simp at hg
    have hin := h.inEnd hne
    have hst := h.start
    have hele := h.arr.ele
    have hll := h.arr.llen
    have hv : l.tBreak ≤ s.clrx.getD (s.iStart - 1).toNat 0 := by
      rw [getD_live (e := s.end_) (by omega) (by omega)]
      exact h.after l (by rw [hg]; rfl) _ (nth_mem_drop (by omega) (by omega) (by omega))
    obtain ⟨m, h1, _, h3, h4, _⟩ := findGe_some (clrx := s.clrx) (t := l.tBreak)
      (stop := s.end_.toNat) (k := 0) (j := (s.iStart - 1).toNat) (by omega) (by omega)
      (by omega) hv
    simp only [h1]
    refine ⟨_, rfl, by omega, by omega, ?_, by intro hn; exact absurd hn hne⟩
    intro l' hl' x hx
    simp at hl'; subst hl'
    rw [mem_drop_iff] at hx
    obtain ⟨k, hk1, hk2, rfl⟩ := hx
    rw [show s.clrx.getD m 0 = nth (live s.clrx s.end_) (m : Int) by
      have := getD_live (clrx := s.clrx) (e := s.end_) (k := (m : Int)) (by omega) (by omega)
      simpa using this] at h4
    have := nth_le h.arr.sorted (a := (m : Int)) (b := k) (by omega) (by omega) hk2
    omega

/-- The situation after a successful model initialisation, before monitoring. -/
structure Ready (P : Params) (s : St V W) : Prop where
  train : s.train = true
  iCount : s.iCount = some 0
  span : 12 ≤ s.i - s.iStart + 1
  year : 1461 ≤ 4 * (nth (live s.clrx s.end_) (s.i - 1) - nth (live s.clrx s.end_) (s.iStart - 1))
  room : s.i ≤ s.end_ - P.conse

theorem doLookBack_ok {P : Params} {N : Num V W} {dates : List Int} {nCm : Nat} (hc : 1 ≤ P.conse)
    (hs : CmSized P dates nCm) (ω : Oracle V W) {s : St V W} (h : Base P N dates nCm s)
    (hr : Ready P s) {iBreak : Int} (hb1 : 1 ≤ iBreak) (hb2 : iBreak ≤ s.iStart)
    (hb3 : ∀ l ∈ s.recs.getLast?, ∀ x ∈ (live s.clrx s.end_).drop (iBreak - 1).toNat, l.tBreak ≤ x)
    (hb4 : s.recs = [] → iBreak = s.iDense) :
    ∃ s' ini tested, doLookBack P N ω s iBreak = .ok (s', ini, tested) ∧ Base P N dates nCm s' ∧
      Ready P s' ∧ s'.recs = s.recs ∧ s'.iDense = s.iDense ∧ s'.it = s.it ∧
      (iBreak < s'.iStart → isBreak N tested = true ∧
        ini = some (min (s'.iStart - iBreak) P.conse) ∧
        tested.map Score.date = (List.range (min (s'.iStart - iBreak) P.conse).toNat).map
          (fun (k : Nat) => nth (live s'.clrx s'.end_) (s'.iStart - 2 - (k : Int)))) := by
  unfold doLookBack
  have h1 := h.start
  have h2 := hr.span
  have h3 := hr.room
  have h4 := hr.year
  by_cases hgt : s.iStart > iBreak
  · simp only [hgt, if_true]
    obtain ⟨b', he, hp⟩ := lookBack_ok (N := N) hc hs ω s.it _ iBreak (s.iStart - 2)
      (⟨s.clrx, s.end_, s.i, s.iStart, none, [], s.cm⟩ : LB V W) rfl hb1 (by omega) (by simp)
      (by simp; omega) (by simp; omega) h.arr h.cm
    rw [he]
    simp only [bind, Except.bind]
    have hd := hp.diff
    have hlo := hp.lo
    have hhi := hp.hi
    have hsp := hp.span
    have hlast := hp.last
    have hfirst := hp.first
    simp only at hd hlo hhi hsp hlast hfirst
    refine ⟨_, _, _, rfl, ?_, ?_, rfl, rfl, rfl, hp.brk⟩
    · refine ⟨hp.arr, hp.cm, ?_, ?_, ?_, h.dense, ?_, ?_, ?_, h.closed, h.ordered, h.tail14, h.ovf⟩
      · simp only; have := h.diff; omega
      · simp only; omega
      · simp only; omega
      · intro hn; simp only at hn ⊢; rw [← hb4 hn]; exact hlo
      · intro _; simp only; have := h.diff; omega
      · intro l hl x hx
        simp only at hl hx
        apply hb3 l hl x
        apply hp.mem
        have hsub : x ∈ (live b'.clrx b'.end_).drop (iBreak - 1).toNat := by
          rw [mem_drop_iff] at hx ⊢
          obtain ⟨k, hk1, hk2, hk3⟩ := hx
          exact ⟨k, by omega, hk2, hk3⟩
        exact hsub
    · refine ⟨hr.train, hr.iCount, ?_, ?_, ?_⟩
      · simp only; omega
      · simp only; omega
      · simp only; omega
  · simp only [hgt, if_false]
    exact ⟨_, _, _, rfl, h, hr, rfl, rfl, rfl, by intro; omega⟩

theorem firstCurve_ok {P : Params} {N : Num V W} {dates : List Int} {nCm : Nat} (hc : 1 ≤ P.conse)
    {s : St V W} (h : Base P N dates nCm s) (hr : Ready P s) (ini : Option Int)
    (tested : List (Score V W))
    (hbrk : s.recs = [] → s.iDense < s.iStart → isBreak N tested = true ∧
        ini = some (min (s.iStart - s.iDense) P.conse) ∧
        tested.map Score.date = (List.range (min (s.iStart - s.iDense) P.conse).toNat).map
          (fun (k : Nat) => nth (live s.clrx s.end_) (s.iStart - 2 - (k : Int)))) :
    ∃ s', firstCurve P s ini tested = .ok s' ∧ Base P N dates nCm s' ∧ Ready P s' ∧
      s'.it = s.it := by
  unfold firstCurve
  have h1 := h.start
  have h2 := hr.span
  have h3 := hr.room
  have h4 := hr.year
  have hd := h.dense
  have hele := h.arr.ele
  have hll := h.arr.llen
  by_cases hcond : (s.recs.isEmpty && decide (s.iStart - s.iDense ≥ LASSO_MIN)) = true
  · simp only [hcond, if_true]
    rw [Bool.and_eq_true, List.isEmpty_iff] at hcond
    obtain ⟨hnil, hge⟩ := hcond
    have hge : s.iStart - s.iDense ≥ 6 := of_decide_eq_true hge
    obtain ⟨hbr, hini, hdts⟩ := hbrk hnil (by omega)
    rw [chk_ok (by omega) (by omega), h.arr.rd (by omega) (by omega),
      h.arr.rd (by omega) (by omega), h.arr.rd (by omega) (by omega)]
    simp only [bind, Except.bind, hini]
    simp only [show 1 ≤ min (s.iStart - s.iDense) (P.conse : Int) ∧
      min (s.iStart - s.iDense) (P.conse : Int) ≤ P.conse by omega, and_self, if_true]
    have hsl := slice_live (clrx := s.clrx) (e := s.end_) (lo := s.iDense - 1) (hi := s.iStart - 2)
      (by omega) (by omega)
    have hslen := slice_length (l := live s.clrx s.end_) (lo := s.iDense - 1) (hi := s.iStart - 2)
      (by omega) (by omega) (by omega)
    refine ⟨_, rfl, ⟨h.arr, h.cm, h.diff, h.start, h.startLe, h.dense, ?_, ?_, ?_, ?_, ?_, ?_, ?_⟩,
      ⟨hr.train, hr.iCount, hr.span, hr.year, hr.room⟩, rfl⟩
    · intro hn; simp at hn
    · intro _; simp only; omega
    · intro l hl x hx
      simp only [List.getLast?_append, List.getLast?_singleton, Option.some_or, Option.mem_def,
        Option.some.injEq] at hl
      subst hl
      simp only at hx ⊢
      rw [mem_drop_iff] at hx
      obtain ⟨k, hk1, hk2, rfl⟩ := hx
      exact nth_le h.arr.sorted (by omega) (by omega) hk2
    · intro r hrm
      simp only [hnil, List.nil_append, List.mem_singleton] at hrm
      subst hrm
      refine ⟨h.arr.mem (by omega) (by omega), h.arr.mem (by omega) (by omega),
        h.arr.mem (by omega) (by omega), nth_le h.arr.sorted (by omega) (by omega) (by omega),
        nth_lt h.arr.sorted (by omega) (by omega) (by omega), rfl, ?_, ?_, hbr, Or.inl ?_⟩
      · simp only [hsl]; exact (slice_sublist _ _ _).trans h.arr.sub
      · intro x hx
        simp only [hsl] at hx
        obtain ⟨k, hk1, hk2, rfl⟩ := mem_slice (by omega) (by omega) hx
        exact ⟨nth_le h.arr.sorted (by omega) (by omega) (by omega),
          nth_le h.arr.sorted (by omega) (by omega) (by omega)⟩
      · have htl : tested.length = (min (s.iStart - s.iDense) (P.conse : Int)).toNat := by
          have := congrArg List.length hdts
          simpa using this
        simp only [hsl]
        refine ⟨by decide, by omega, by omega, by omega, ?_, ?_, ?_⟩
        · rw [hdts, List.pairwise_map]
          refine List.Pairwise.imp_of_mem ?_ (List.pairwise_lt_range)
          intro a b ha hb hab
          simp only [List.mem_range] at ha hb
          exact nth_lt h.arr.sorted (by omega) (by omega) (by omega)
        · rw [hdts]
          have : ∃ m : Nat, (min (s.iStart - s.iDense) (P.conse : Int)).toNat = m + 1 :=
            ⟨(min (s.iStart - s.iDense) (P.conse : Int)).toNat - 1, by omega⟩
          obtain ⟨m, hm⟩ := this
          rw [hm, List.range_succ_eq_map]
          simp
        · rw [hdts]
          intro d hdm
          simp only [List.mem_map, List.mem_range] at hdm
          obtain ⟨k, hk, rfl⟩ := hdm
          exact h.arr.mem (by omega) (by omega)
    · simp [hnil]
    · intro r hrm; simp [hnil] at hrm
    · have hov := h.ovf
      rw [hov]
      simp [hnil, NUM_FC]
  · simp only [hcond]
    exact ⟨_, rfl, h, hr, rfl⟩

/-! ### Model initialisation -/

/-- Advancing `i` (and possibly `i_start`, `i_dense`) without touching the series. -/
theorem Base.advance {P : Params} {N : Num V W} {dates : List Int} {nCm : Nat} {s : St V W}
    (h : Base P N dates nCm s) (s' : St V W) (hx : s'.clrx = s.clrx) (he : s'.end_ = s.end_)
    (hi : s'.i = s.i + 1) (hst : s.iStart ≤ s'.iStart) (hst2 : s'.iStart ≤ s'.i)
    (hst3 : s'.iStart ≤ s.end_) (hd1 : 1 ≤ s'.iDense) (hd2 : s.recs = [] → s'.iDense ≤ s'.iStart)
    (hr : s'.recs = s.recs) (hov : s'.overflow = s.overflow) (hcm : s'.cm = s.cm)
    (hit : s'.it = s.it + 1) : Base P N dates nCm s' := by
  have h1 := h.diff
  have h2 := h.start
  refine ⟨by rw [hx, he]; exact h.arr, by rw [hcm]; exact h.cm, by rw [he, hi, hit]; push_cast; omega,
    by omega, hst2, hd1, by rw [hr]; exact hd2, by rw [he]; intro _; exact hst3, ?_,
    by rw [hr]; exact h.closed, by rw [hr]; exact h.ordered, by rw [hr]; exact h.tail14,
    by rw [hov, hr]; exact h.ovf⟩
  rw [hr, hx, he]
  intro l hl x hxm
  apply h.after l hl x
  rw [mem_drop_iff] at hxm ⊢
  obtain ⟨k, hk1, hk2, hk3⟩ := hxm
  exact ⟨k, by omega, hk2, hk3⟩

theorem trainPhase_ok {P : Params} {N : Num V W} {dates : List Int} {nCm : Nat} (hc : 1 ≤ P.conse)
    (hs : CmSized P dates nCm) (ω : Oracle V W) {s : St V W} (h : Base P N dates nCm s)
    (htr : s.train = false) (room : s.i ≤ s.end_ - P.conse) (span : 12 ≤ s.i - s.iStart + 1) :
    ∃ go s', trainPhase P N ω s = .ok (go, s') ∧ s'.it = s.it ∧
      ((go = false ∧ s'.train = false ∧ Base P N dates nCm { s' with it := s.it + 1 }) ∨
       (go = true ∧ Base P N dates nCm s' ∧ Ready P s')) := by
  unfold trainPhase
  have hst := h.start
  have hele := h.arr.ele
  have hll := h.arr.llen
  have hd := h.dense
  obtain ⟨g, hg⟩ := maxGap_ok h.arr _ (s.iStart - 1) (s.i - 1) 0 rfl (by omega) (by omega)
  rw [hg]
  simp only [bind, Except.bind]
  by_cases hgap : P.gapExceeds g = true
  · simp only [hgap, if_true]
    refine ⟨_, _, rfl, rfl, Or.inl ⟨rfl, htr, ?_⟩⟩
    exact h.advance _ rfl rfl rfl (by simp; omega) (by simp; omega) (by simp; omega) (by simp; omega)
      (by simp) rfl rfl rfl rfl
  · simp only [hgap]
    rw [chk_ok (by omega) (by omega)]
    simp only []
    generalize hlen : (s.i - s.iStart + 1).toNat = len
    generalize hspan : keptCount (ω.mask s.it) len = kept
    by_cases hk : (kept : Int) < MIN_OBS
    · simp only [hk, if_true]
      refine ⟨_, _, rfl, rfl, Or.inl ⟨rfl, htr, ?_⟩⟩
      exact h.advance _ rfl rfl rfl (by simp) (by simp; omega) (by simp; omega) hd
        h.denseLe rfl rfl rfl rfl
    · simp only [hk, if_false]
      have hk12 : 12 ≤ kept := by simp only [MIN_OBS] at hk; omega
      -- the compacted series
      obtain ⟨b0, hb0⟩ : ∃ b0 : Nat, s.iStart - 1 = (b0 : Int) := ⟨(s.iStart - 1).toNat, by omega⟩
      have hcp := compact_rmIds (ω.mask s.it) (live s.clrx s.end_) b0 len (by omega)
      have hK := keptCount_eq (ω.mask s.it) len (((live s.clrx s.end_).drop b0).take len)
        (by simp only [List.length_take, List.length_drop]; omega)
      rw [hspan] at hK
      have hKsub := keep_sublist (ω.mask s.it) (((live s.clrx s.end_).drop b0).take len) 0
      generalize hKdef : keep (ω.mask s.it) (((live s.clrx s.end_).drop b0).take len) 0 = K at *
      rw [hb0]
      have hcpdef : List.take s.end_.toNat s.clrx = live s.clrx s.end_ := rfl
      simp only [hcpdef]
      rw [hcp]
      generalize hcpx : (live s.clrx s.end_).take b0 ++ (K ++ (live s.clrx s.end_).drop (b0 + len)) = cpx
      have hcplen : (cpx.length : Int) = b0 + kept + (s.end_ - s.i) := by
        rw [← hcpx]
        simp only [List.length_append, List.length_take, List.length_drop]
        omega
      have hcpsub : cpx.Sublist (live s.clrx s.end_) := by
        have hL : live s.clrx s.end_ = (live s.clrx s.end_).take b0 ++
            (((live s.clrx s.end_).drop b0).take len ++ (live s.clrx s.end_).drop (b0 + len)) := by
          rw [← List.drop_drop, List.take_append_drop, List.take_append_drop]
        rw [← hcpx]
        conv => rhs; rw [hL]
        exact (List.Sublist.refl _).append (hKsub.append (List.Sublist.refl _))
      have hcpdrop : ∀ x ∈ cpx.drop b0, x ∈ (live s.clrx s.end_).drop b0 := by
        have h0 : ((live s.clrx s.end_).take b0).length = b0 := by
          simp only [List.length_take]; omega
        rw [← hcpx, List.drop_append, h0]
        simp only [List.drop_take, Nat.sub_self, List.take_zero, List.nil_append, List.drop_zero]
        intro x hx
        rcases List.mem_append.mp hx with hx | hx
        · exact List.mem_of_mem_take (hKsub.subset hx)
        · rw [← List.drop_drop] at hx; exact List.mem_of_mem_drop hx
      have hsorted : cpx.Pairwise (· < ·) := h.arr.sorted.sublist hcpsub
      have hrd : ∀ k : Int, 0 ≤ k → k < cpx.length → rd cpx cpx.length k = .ok (nth cpx k) := by
        intro k h0 h1
        rw [rd_ok (by omega) h0 h1]
        simp [live]
      rw [hrd _ (by omega) (by omega), hrd _ (by omega) (by omega)]
      simp only []
      by_cases hy : yearOrMore (nth cpx (s.iStart + (kept : Int) - 1 - 1) - nth cpx b0) = true
      · simp only [hy, Bool.not_true]
        rw [chk_ok (by omega) (by omega)]
        simp only [Bool.false_eq_true, if_false]
        -- the state after committing the compaction
        have hcle : cpx.length ≤ s.clrx.length := by
          have := hcpsub.length_le; omega
        have hlive := live_commit s.clrx cpx
        have harr : Arr dates (commit s.clrx cpx) cpx.length :=
          ⟨(commit_length hcle).trans h.arr.len, by omega,
            by rw [commit_length hcle]; omega, by rw [hlive]; exact hsorted,
            by rw [hlive]; exact hcpsub.trans h.arr.sub⟩
        have hbase : ∀ (t : Bool) (ic : Option Int), Base P N dates nCm
            { s with clrx := commit s.clrx cpx, end_ := cpx.length,
                     i := s.iStart + (kept : Int) - 1, train := t, iCount := ic } := by
          intro t ic
          refine ⟨harr, h.cm, ?_, h.start, ?_, h.dense, h.denseLe, ?_, ?_, h.closed, h.ordered,
            h.tail14, h.ovf⟩
          · have := h.diff; simp only; omega
          · simp only; omega
          · intro _; simp only; omega
          · intro l hl x hx
            simp only [hlive, hb0, Int.toNat_natCast] at hx
            have := h.after l hl x
            rw [hb0, Int.toNat_natCast] at this
            exact this (hcpdrop x hx)
        by_cases hun : ω.unstable s.it = true
        · simp only [hun, if_true]
          refine ⟨_, _, rfl, rfl, Or.inl ⟨rfl, htr, ?_⟩⟩
          refine (hbase s.train s.iCount).advance _ rfl rfl rfl ?_ ?_ ?_ hd ?_ rfl rfl rfl rfl
          · simp; omega
          · simp; omega
          · simp; omega
          · intro hn; have := h.denseLe hn; simp; omega
        · simp only [hun]
          have hready : Ready P
              { s with clrx := commit s.clrx cpx, end_ := cpx.length,
                       i := s.iStart + (kept : Int) - 1, train := true, iCount := some 0 } := by
            refine ⟨rfl, rfl, ?_, ?_, ?_⟩
            · simp only; omega
            · simp only [hlive, hb0]
              simp only [yearOrMore, decide_eq_true_eq] at hy
              omega
            · simp only; omega
          obtain ⟨b, hb, hb1, hb2, hb3, hb4⟩ := findBreak_ok (hbase true (some 0))
          simp only [Bool.false_eq_true, if_false]
          rw [hb]
          simp only []
          obtain ⟨s1, ini, tested, hl1, hl2, hl3, hl4, hl5, hl6, hl7⟩ :=
            doLookBack_ok hc hs ω (hbase true (some 0)) hready hb1 hb2 hb3 hb4
          rw [hl1]
          simp only []
          obtain ⟨s2, hf1, hf2, hf3, hf4⟩ := firstCurve_ok hc hl2 hl3 ini tested (by
            intro hn hlt
            rw [hl4] at hn
            have hbd := hb4 hn
            rw [hl5] at hlt
            rw [hl5]
            simp only at hbd hlt ⊢
            rw [← hbd] at hlt ⊢
            exact hl7 hlt)
          rw [hf1]
          simp only []
          refine ⟨_, _, rfl, ?_, Or.inr ⟨rfl, hf2, hf3⟩⟩
          rw [hf4, hl6]
      · have hy' : yearOrMore (nth cpx (s.iStart + (kept : Int) - 1 - 1) - nth cpx b0) = false := by
          simpa using hy
        simp only [hy', Bool.not_false, if_true]
        refine ⟨_, _, rfl, rfl, Or.inl ⟨rfl, htr, ?_⟩⟩
        exact h.advance _ rfl rfl rfl (by simp) (by simp; omega) (by simp; omega) hd
          h.denseLe rfl rfl rfl rfl

end Pycold.Cold
