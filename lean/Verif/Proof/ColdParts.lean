import Verif.Proof.ColdLists
import Verif.Spec.Cold
/-! Invariants of the parts of the COLD loop: CM arrays, break test, look-back. -/
namespace Pycold.Cold

open Spec

variable {V W : Type}

/-! ### Change magnitudes -/

structure CmInv (P : Params) (dates : List Int) (nCm : Nat) (cm : Cm) : Prop where
  holds : CmHolds P nCm cm
  mem : ∀ p ∈ cm.log, p.1 ∈ dates

theorem toShort_le (x : Int) : toShort x ≤ 32767 := by
  unfold toShort
  have := Int.bmod_lt (x := x) (m := 65536) (by omega)
  omega

theorem cmPut_ok {P : Params} {dates : List Int} {nCm : Nat} {cm : Cm} (hs : CmSized P dates nCm)
    (h : CmInv P dates nCm cm) {d : Int} (hd : d ∈ dates) (raw : Int) :
    ∃ cm', cmPut P cm d raw = .ok cm' ∧ CmInv P dates nCm cm' := by
  unfold cmPut
  by_cases hb : P.bOutputCM = true
  · simp only [hb, if_true]
    obtain ⟨hi, hall⟩ := hs hb
    obtain ⟨hd0, hd1⟩ := hall d hd
    have htd : (d - P.startingDate).tdiv P.interval = (d - P.startingDate) / P.interval :=
      Int.tdiv_eq_ediv_of_nonneg (by omega)
    have hn0 : 0 ≤ (d - P.startingDate) / P.interval := Int.ediv_nonneg (by omega) (by omega)
    rw [htd]
    generalize hn : (d - P.startingDate) / P.interval = n at *
    obtain ⟨hl1, hl2, hslots⟩ := h.holds
    have hcond : 0 ≤ n ∧ n < (cm.out.length : Int) := by omega
    have hval := toShort_le (if raw > MAX_SHORT then MAX_SHORT else raw)
    generalize toShort (if raw > MAX_SHORT then MAX_SHORT else raw) = val at *
    have hget : cm.out[n.toNat]? = some (cm.out[n.toNat]'(by omega)) :=
      List.getElem?_eq_getElem _
    generalize (cm.out[n.toNat]'(by omega)) = old at hget
    simp only [hcond, and_self, if_true, hget]
    by_cases hv : val > old
    · simp only [hv, if_true]
      refine ⟨_, rfl, ⟨by simpa using hl1, by simpa using hl2, ?_⟩, ?_⟩
      · intro k hk
        by_cases hkn : n = (k : Int)
        · subst hkn
          right
          refine ⟨(d, val), by simp, by simpa using hn, ?_, ?_, ?_, hval, ?_⟩
          · simp [hl1, hk]
          · simp [hl2, hk, toShort, LAUNCH]
          · rcases hslots k hk with ⟨h1, _, _⟩ | ⟨p, _, _, h1, _, h2, _, _⟩
            · simp at hget h1; rw [h1] at hget; injection hget; simp; omega
            · simp at hget h1; rw [h1] at hget; injection hget; simp; omega
          · intro q hq hqk
            rcases List.mem_append.mp hq with hq | hq
            · rcases hslots k hk with ⟨h1, _, h2⟩ | ⟨p, _, _, h1, _, _, _, h2⟩
              · have := h2 q hq hqk
                simp at hget h1; rw [h1] at hget; injection hget; simp; omega
              · have := h2 q hq hqk
                simp at hget h1; rw [h1] at hget; injection hget; simp; omega
            · simp at hq; subst hq; simp
        · have hne : n.toNat ≠ k := by omega
          have hother : ∀ q ∈ cm.log ++ [(d, val)], (q.1 - P.startingDate) / P.interval = k →
              q ∈ cm.log := by
            intro q hq hqk
            rcases List.mem_append.mp hq with hq | hq
            · exact hq
            · simp at hq; subst hq; exact absurd (hn.symm.trans hqk) hkn
          rcases hslots k hk with ⟨h1, h2, h3⟩ | ⟨p, hp, h1, h2, h3, h4, h5, h6⟩
          · left
            refine ⟨by simpa [List.getElem?_set, hne] using h1,
              by simpa [List.getElem?_set, hne] using h2,
              fun q hq hqk => h3 q (hother q hq hqk) hqk⟩
          · right
            refine ⟨p, by simp [hp], h1, by simpa [List.getElem?_set, hne] using h2,
              by simpa [List.getElem?_set, hne] using h3, h4, h5,
              fun q hq hqk => h6 q (hother q hq hqk) hqk⟩
      · intro p hp
        rcases List.mem_append.mp hp with hp | hp
        · exact h.mem p hp
        · simp at hp; subst hp; exact hd
    · simp only [hv, if_false]
      refine ⟨_, rfl, ⟨by simpa using hl1, by simpa using hl2, ?_⟩, ?_⟩
      · intro k hk
        rcases hslots k hk with ⟨h1, h2, h3⟩ | ⟨p, hp, h1, h2, h3, h4, h5, h6⟩
        · left
          refine ⟨h1, h2, fun q hq hqk => ?_⟩
          rcases List.mem_append.mp hq with hq | hq
          · exact h3 q hq hqk
          · simp at hq; subst hq
            have : n = (k : Int) := hn.symm.trans hqk
            subst this
            simp at hget h1; rw [h1] at hget; injection hget; simp; omega
        · right
          refine ⟨p, by simp [hp], h1, h2, h3, h4, h5, fun q hq hqk => ?_⟩
          rcases List.mem_append.mp hq with hq | hq
          · exact h6 q hq hqk
          · simp at hq; subst hq
            have : n = (k : Int) := hn.symm.trans hqk
            subst this
            simp at hget h2; rw [h2] at hget; injection hget; simp; omega
      · intro p hp
        rcases List.mem_append.mp hp with hp | hp
        · exact h.mem p hp
        · simp at hp; subst hp; exact hd
  · simp only [hb]
    exact ⟨cm, rfl, h⟩

theorem cm_init (P : Params) (dates : List Int) (nCm : Nat) :
    CmInv P dates nCm ⟨List.replicate nCm (-9999), List.replicate nCm (-9999), []⟩ := by
  refine ⟨⟨by simp, by simp, fun k hk => Or.inl ⟨?_, ?_, by simp⟩⟩, by simp⟩ <;>
    simp [hk]

/-! ### The break test -/

theorem minMag_spec {N : Num V W} (hN : Ordered N) (mags : List V) :
    N.lt N.tcg (minMag N mags) = true ↔ ∀ v ∈ mags, N.lt N.tcg v = true := by
  have gen : ∀ (mags : List V) (acc : V),
      (N.lt N.tcg (mags.foldl (fun acc v => if N.lt v acc then v else acc) acc) = true ↔
        N.lt N.tcg acc = true ∧ ∀ v ∈ mags, N.lt N.tcg v = true) := by
    intro mags
    induction mags with
    | nil => simp
    | cons x xs ih =>
      intro acc
      simp only [List.foldl_cons, ih, List.forall_mem_cons]
      by_cases h : N.lt x acc = true
      · simp only [h, if_true]
        constructor
        · rintro ⟨h1, h2⟩; exact ⟨hN.trans _ _ _ h1 h, h1, h2⟩
        · rintro ⟨_, h1, h2⟩; exact ⟨h1, h2⟩
      · simp only [h]
        constructor
        · rintro ⟨h1, h2⟩
          refine ⟨h1, ?_, h2⟩
          rcases hN.cotrans _ x _ h1 with h3 | h3
          · exact h3
          · exact absurd h3 h
        · rintro ⟨h0, h1, h2⟩; exact ⟨h0, h2⟩
  rw [minMag, gen]
  simp [hN.big]

theorem isBreak_iff {N : Num V W} (hN : Ordered N) (sc : List (Score V W)) :
    isBreak N sc = true ↔ Confirmed N sc := by
  simp only [isBreak, Bool.and_eq_true, minMag_spec hN, Confirmed]
  simp

/-! ### The array -/

structure Arr (dates clrx : List Int) (e : Int) : Prop where
  len : clrx.length = dates.length
  e0 : 0 ≤ e
  ele : e ≤ clrx.length
  sorted : (live clrx e).Pairwise (· < ·)
  sub : (live clrx e).Sublist dates

theorem Arr.llen {dates clrx : List Int} {e : Int} (h : Arr dates clrx e) :
    ((live clrx e).length : Int) = e := live_length h.e0 h.ele

theorem Arr.rd {dates clrx : List Int} {e k : Int} (h : Arr dates clrx e) (h0 : 0 ≤ k)
    (h1 : k < e) : Cold.rd clrx e k = .ok (nth (live clrx e) k) := rd_ok h.ele h0 h1

theorem Arr.mem {dates clrx : List Int} {e k : Int} (h : Arr dates clrx e) (h0 : 0 ≤ k)
    (h1 : k < e) : nth (live clrx e) k ∈ dates :=
  h.sub.subset (nth_mem h0 (by rw [h.llen]; exact h1))

theorem nth_eraseIdx {l : List Int} {k j : Int} (hk : 0 ≤ k) (hj : 0 ≤ j) :
    nth (l.eraseIdx k.toNat) j = if j < k then nth l j else nth l (j + 1) := by
  simp only [nth, List.getD_eq_getElem?_getD, List.getElem?_eraseIdx]
  by_cases h : j < k
  · have : j.toNat < k.toNat := by omega
    simp [h, this]
  · have h1 : ¬ j.toNat < k.toNat := by omega
    have h2 : (j + 1).toNat = j.toNat + 1 := by omega
    simp [h, h1, h2]

theorem getD_live {clrx : List Int} {e k : Int} (h0 : 0 ≤ k) (h1 : k < e) :
    clrx.getD k.toNat 0 = nth (live clrx e) k := by
  simp only [nth, live, List.getD_eq_getElem?_getD, List.getElem?_take]
  have : k.toNat < e.toNat := by omega
  simp [this]

theorem Arr.shift {dates clrx : List Int} {e k : Int} (h : Arr dates clrx e) (h0 : 0 ≤ k)
    (h1 : k < e) : Arr dates (shiftDown clrx k.toNat (e - 1).toNat) (e - 1) := by
  have hl := live_shiftDown h0 h1 h.ele
  have hlen := shiftDown_length clrx k.toNat (e - 1).toNat
  have := h.ele
  refine ⟨hlen.trans h.len, by omega, by omega, ?_, ?_⟩
  · rw [hl]; exact h.sorted.sublist (List.eraseIdx_sublist _ _)
  · rw [hl]; exact (List.eraseIdx_sublist _ _).trans h.sub

theorem mem_drop_eraseIdx {l : List Int} {k b : Int} (hb : 0 ≤ b) (hk : b ≤ k) {x : Int}
    (hx : x ∈ (l.eraseIdx k.toNat).drop b.toNat) : x ∈ l.drop b.toNat := by
  rw [mem_drop_iff] at *
  obtain ⟨j, h1, h2, rfl⟩ := hx
  have hlen : (l.eraseIdx k.toNat).length ≤ l.length := (List.eraseIdx_sublist _ _).length_le
  by_cases hkl : k.toNat < l.length
  · have := List.length_eraseIdx_of_lt hkl
    rw [nth_eraseIdx (by omega) (by omega)]
    split
    · exact ⟨j, h1, by omega, rfl⟩
    · exact ⟨j + 1, by omega, by omega, rfl⟩
  · rw [List.eraseIdx_of_length_le (by omega)] at *
    exact ⟨j, h1, h2, rfl⟩

theorem take_eraseIdx_ge {l : List Int} {k b : Nat} (hk : b ≤ k) :
    (l.eraseIdx k).take b = l.take b := by
  apply List.ext_getElem?
  intro j
  simp only [List.getElem?_take, List.getElem?_eraseIdx]
  grind

/-! ### Look-back -/

structure LBPost (P : Params) (N : Num V W) (dates : List Int) (nCm : Nat) (iBreak : Int)
    (b b' : LB V W) : Prop where
  arr : Arr dates b'.clrx b'.end_
  cm : CmInv P dates nCm b'.cm
  diff : b'.end_ - b'.i = b.end_ - b.i
  lo : iBreak ≤ b'.iStart
  hi : b'.iStart ≤ b.iStart
  span : b.i - b.iStart ≤ b'.i - b'.iStart
  last : nth (live b'.clrx b'.end_) (b'.i - 1) = nth (live b.clrx b.end_) (b.i - 1)
  first : nth (live b'.clrx b'.end_) (b'.iStart - 1) ≤ nth (live b.clrx b.end_) (b.iStart - 1)
  take : (live b'.clrx b'.end_).take (iBreak - 1).toNat = (live b.clrx b.end_).take (iBreak - 1).toNat
  mem : ∀ x ∈ (live b'.clrx b'.end_).drop (iBreak - 1).toNat,
    x ∈ (live b.clrx b.end_).drop (iBreak - 1).toNat
  brk : iBreak < b'.iStart → isBreak N b'.tested = true ∧
    b'.iniConse = some (min (b'.iStart - iBreak) P.conse) ∧
    b'.tested.map Score.date = (List.range (min (b'.iStart - iBreak) P.conse).toNat).map
      (fun (k : Nat) => nth (live b'.clrx b'.end_) (b'.iStart - 2 - (k : Int)))

theorem LBPost.trans {P : Params} {N : Num V W} {dates : List Int} {nCm : Nat} {iBreak : Int}
    {b b1 b2 : LB V W} (h : LBPost P N dates nCm iBreak b1 b2)
    (diff : b1.end_ - b1.i = b.end_ - b.i)
    (hi : b1.iStart ≤ b.iStart)
    (span : b.i - b.iStart ≤ b1.i - b1.iStart)
    (last : nth (live b1.clrx b1.end_) (b1.i - 1) = nth (live b.clrx b.end_) (b.i - 1))
    (first : nth (live b1.clrx b1.end_) (b1.iStart - 1) ≤ nth (live b.clrx b.end_) (b.iStart - 1))
    (take : (live b1.clrx b1.end_).take (iBreak - 1).toNat
      = (live b.clrx b.end_).take (iBreak - 1).toNat)
    (mem : ∀ x ∈ (live b1.clrx b1.end_).drop (iBreak - 1).toNat,
      x ∈ (live b.clrx b.end_).drop (iBreak - 1).toNat) : LBPost P N dates nCm iBreak b b2 where
  arr := h.arr
  cm := h.cm
  diff := h.diff.trans diff
  lo := h.lo
  hi := Int.le_trans h.hi hi
  span := Int.le_trans span h.span
  last := h.last.trans last
  first := Int.le_trans h.first first
  take := h.take.trans take
  mem := fun x hx => mem x (h.mem x hx)
  brk := h.brk

theorem lookBack_ok {P : Params} {N : Num V W} {dates : List Int} {nCm : Nat}
    (hc : 1 ≤ P.conse) (hs : CmSized P dates nCm) (ω : Oracle V W) (it : Nat) :
    ∀ (m : Nat) (iBreak iIni : Int) (b : LB V W), (iIni - (iBreak - 1) + 1).toNat = m →
      1 ≤ iBreak → iBreak ≤ iIni + 2 → b.iStart = iIni + 2 → iIni + 1 < b.end_ → b.iStart ≤ b.i →
      Arr dates b.clrx b.end_ → CmInv P dates nCm b.cm →
      ∃ b', lookBack P N ω it iBreak iIni b = .ok b' ∧ LBPost P N dates nCm iBreak b b' := by
  intro m
  induction m with
  | zero =>
    intro iBreak iIni b hm h1 h2 h3 h4 h5 ha hcm
    rw [lookBack]
    have : ¬ iIni ≥ iBreak - 1 := by omega
    simp only [this, if_false]
    exact ⟨b, rfl, ⟨ha, hcm, rfl, by omega, by omega, by omega, rfl, by omega, rfl, fun x h => h,
      by omega⟩⟩
  | succ m ih =>
    intro iBreak iIni b hm h1 h2 h3 h4 h5 ha hcm
    rw [lookBack]
    have hge : iIni ≥ iBreak - 1 := by omega
    have hele := ha.ele
    have hll := ha.llen
    simp only [hge, if_true]
    generalize hini : (if iIni - (iBreak - 1) + 1 < (P.conse : Int) then iIni - (iBreak - 1) + 1
      else (P.conse : Int)) = ini
    have hini' : ini = min (iIni + 2 - iBreak) P.conse := by
      rw [← hini]; split <;> omega
    have hi1 : 1 ≤ ini := by omega
    have hi2 : ini ≤ iIni + 2 - iBreak := by omega
    have hi3 : ini ≤ P.conse := by omega
    have hne : ¬ ini = 0 := by omega
    simp only [hne, if_false]
    rw [chk_ok (by omega) (by omega)]
    simp only [bind, Except.bind]
    have hcmput : ∃ cm', lbCm P ω it iIni ini b = .ok cm' ∧ CmInv P dates nCm cm' := by
      unfold lbCm
      split
      · rw [ha.rd (by omega) (by omega)]
        exact cmPut_ok hs hcm (ha.mem (by omega) (by omega)) _
      · exact ⟨_, rfl, hcm⟩
    obtain ⟨cm', hcm1, hcm2⟩ := hcmput
    rw [hcm1]
    simp only []
    generalize hsc : (List.range ini.toNat).map (fun (k : Nat) =>
        Score.mk (b.clrx.getD (iIni - (k : Int)).toNat 0) (ω.lbScore it iIni k).1
          (ω.lbScore it iIni k).2) = sc
    have hdates : sc.map Score.date = (List.range ini.toNat).map
        (fun (k : Nat) => nth (live b.clrx b.end_) (iIni - (k : Int))) := by
      rw [← hsc, List.map_map]
      apply List.map_congr_left
      intro k hk
      simp only [List.mem_range] at hk
      exact getD_live (by omega) (by omega)
    by_cases hbr : isBreak N sc = true
    · simp only [hbr, if_true]
      refine ⟨_, rfl, ⟨ha, hcm2, rfl, by simp; omega, by simp, by simp, rfl, by simp, rfl,
        fun x h => h, ?_⟩⟩
      intro _
      refine ⟨hbr, ?_, ?_⟩
      · simp only [h3, hini']
      · simp only [h3]
        rw [hdates, ← hini']
        apply List.map_congr_left
        intro k hk
        congr 1
        omega
    · simp only [hbr]
      by_cases hout : isOutlier N sc = true
      · simp only [hout, if_true]
        have hl := live_shiftDown (clrx := b.clrx) (e := b.end_) (k := iIni) (by omega) (by omega) hele
        obtain ⟨b', he, hp⟩ := ih iBreak (iIni - 1)
          { clrx := shiftDown b.clrx iIni.toNat (b.end_ - 1).toNat, end_ := b.end_ - 1,
            i := b.i - 1, iStart := iIni + 1, iniConse := some ini, tested := sc, cm := cm' }
          (by omega) h1 (by omega) (by simp; omega) (by simp; omega) (by simp; omega)
          (ha.shift (by omega) (by omega)) hcm2
        refine ⟨b', he, hp.trans (by simp; omega) (by simp; omega) (by simp; omega) ?_ ?_ ?_ ?_⟩
        · simp only [hl]
          rw [nth_eraseIdx (by omega) (by omega)]
          simp only [show ¬ b.i - 1 - 1 < iIni by omega, if_false]
          congr 1; omega
        · simp only [hl]
          rw [nth_eraseIdx (by omega) (by omega)]
          simp only [show ¬ iIni + 1 - 1 < iIni by omega, if_false]
          rw [h3]
          exact Int.le_of_eq (by congr 1; omega)
        · simp only [hl]
          exact take_eraseIdx_ge (by omega)
        · simp only [hl]
          intro x hx
          exact mem_drop_eraseIdx (by omega) (by omega) hx
      · simp only [hout]
        obtain ⟨b', he, hp⟩ := ih iBreak (iIni - 1)
          { b with iStart := iIni + 1, iniConse := some ini, tested := sc, cm := cm' }
          (by omega) h1 (by omega) (by simp; omega) (by simp; omega) (by simp; omega)
          ha hcm2
        refine ⟨b', he, hp.trans (by simp) (by simp; omega) (by simp; omega) rfl ?_ rfl
          (fun x h => h)⟩
        simp only []
        exact nth_le ha.sorted (by omega) (by omega) (by omega)

end Pycold.Cold
