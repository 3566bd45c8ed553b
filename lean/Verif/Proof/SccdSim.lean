import Verif.Proof.SccdLedger
/-!
# S-CCD: continuing from the stored state is the same as not having stopped
-/
namespace Pycold.Sccd
open Spec
variable {V F R M : Type}

theorem rd_shift (D o : List Obs) (k : Nat) : rd (D ++ o) (D.length + k) = rd o k := by
  simp [rd, List.getElem?_append_right]

theorem chk_shift (D o : List Obs) (k : Nat) : chk (D ++ o) (D.length + k) = chk o k := by
  simp [chk]

theorem slice_shift (D o : List Obs) (lo hi : Nat) :
    slice (D ++ o) (D.length + lo) (D.length + hi) = slice o lo hi := by
  unfold slice
  rw [← List.drop_drop, List.drop_left]
  congr 1
  omega

theorem drop_shift (D o : List Obs) (k : Nat) : (D ++ o).drop (D.length + k) = o.drop k := by
  rw [← List.drop_drop, List.drop_left]

theorem take_shift (D o : List Obs) (k : Nat) : (D ++ o).take (D.length + k) = D ++ o.take k := by
  rw [List.take_append]
  simp [List.take_of_length_le]

theorem eraseIdx_shift (D o : List Obs) (k : Nat) :
    (D ++ o).eraseIdx (D.length + k) = D ++ o.eraseIdx k := by
  rw [List.eraseIdx_append_of_length_le (by omega)]
  simp

def LB.shift (D rm : List Obs) (b : LB) : LB :=
  ⟨D ++ b.obs, D.length + b.i, D.length + b.iStart, rm ++ b.removed⟩

theorem lookBack_shift (N : Num V F R) (conse : Nat) (w D rm : List Obs) (prev : Nat) :
    ∀ (m : Nat) (b b' : LB), lookBack N conse w prev m b = .ok b' →
      lookBack N conse w (D.length + prev) m (b.shift D rm) = .ok (b'.shift D rm)
  | 0, b, b', h => by
    unfold lookBack at h ⊢
    cases h; rfl
  | m + 1, b, b', h => by
    obtain ⟨bo, bi, bs, br⟩ := b
    simp only [LB.shift]
    unfold lookBack at h ⊢
    generalize hc : (if m + 1 < conse then m + 1 else conse) = c at h ⊢
    have hcm : c ≤ m + 1 := by rw [← hc]; split <;> omega
    by_cases h0 : c = 0
    · simp [h0] at h
    have e1 : D.length + (prev + m) + 1 - c = D.length + (prev + m + 1 - c) := by omega
    simp only [h0, if_false, bind, Except.bind, Nat.add_assoc D.length prev m, chk_shift, rd_shift, e1,
      slice_shift] at h ⊢
    cases hk : chk bo (prev + m) with
    | error e => simp [hk] at h
    | ok _ =>
      simp only [hk] at h ⊢
      cases hr : rd bo (prev + m) with
      | error e => simp [hr] at h
      | ok o =>
        simp only [hr] at h ⊢
        split
        · rename_i hx
          rw [if_pos hx] at h
          cases h; rfl
        · rename_i hx
          rw [if_neg hx] at h
          by_cases hy : N.lt N.tmaxLb (N.lbMag w o) = true
          · simp only [hy, if_true] at h ⊢
            by_cases hz : bi = 0
            · simp [hz] at h
            · have hz' : ¬ (D.length + bi = 0) := by omega
              simp only [hz, hz', if_false] at h ⊢
              have := lookBack_shift N conse w D rm prev m _ _ h
              simp only [LB.shift] at this
              rw [eraseIdx_shift, show D.length + bi - 1 = D.length + (bi - 1) by omega,
                List.append_assoc]
              exact this
          · simp only [hy] at h ⊢
            exact lookBack_shift N conse w D rm prev m _ _ h

/-- `a` is `b` with `D` in front of its observations and `rm` in front of its noise; the position of
the first dense observation is irrelevant once there is a record. -/
structure Shift (D rm : List Obs) (b a : St F R) : Prop where
  recs : b.recs ≠ []
  eq : a = { b with obs := D ++ b.obs, i := D.length + b.i, iStart := D.length + b.iStart,
                    prevBreak := D.length + b.prevBreak, removed := rm ++ b.removed, iDense := a.iDense }

theorem step1_shift (N : Num V F R) {conse : Nat} (hc : 0 < conse) {D rm : List Obs} {b a b' : St F R}
    {d : Bool} (h : Shift D rm b a) (hi : 17 ≤ b.i) (hs : b.prevBreak ≤ b.iStart)
    (hsi : b.iStart ≤ b.i) (e : step1 N conse b = .ok (d, b')) :
    ∃ a', step1 N conse a = .ok (d, a') ∧ Shift D rm b' a' := by
  obtain ⟨hr, ha⟩ := h
  generalize a.iDense = de at ha
  subst ha
  have hre : b.recs.isEmpty = false := by simpa using hr
  have hi1 : ¬ (b.i < MIN_OBS - 1) := by simp [MIN_OBS]; omega
  have hi2 : ¬ (D.length + b.i < MIN_OBS - 1) := by simp [MIN_OBS]; omega
  unfold step1 at e ⊢
  simp only [hi1, hi2, if_false, bind, Except.bind, chk_shift, slice_shift, hre, Bool.false_eq_true] at e ⊢
  cases hk : chk b.obs b.i with
  | error x => simp [hk] at e
  | ok _ =>
    have hlt : b.i < b.obs.length := by
      unfold chk at hk; split at hk
      · assumption
      · cases hk
    simp only [hk] at e ⊢
    by_cases hg : 4 * maxGap (slice b.obs b.iStart b.i) 0 > 1461
    · simp only [hg, if_true] at e ⊢
      cases e
      exact ⟨_, rfl, hr, by simp [Nat.add_assoc]⟩
    · simp only [hg, if_false] at e ⊢
      have htmp : min (D.length + b.i + conse - 1) ((D ++ b.obs).length - 1) =
          D.length + min (b.i + conse - 1) (b.obs.length - 1) := by
        simp only [List.length_append]
        omega
      rw [htmp, chk_shift, slice_shift]
      cases hk2 : chk b.obs (min (b.i + conse - 1) (b.obs.length - 1)) with
      | error x => simp [hk2] at e
      | ok _ =>
        simp only [hk2] at e ⊢
        generalize hfl : N.mask (slice b.obs b.iStart (min (b.i + conse - 1) (b.obs.length - 1))) = flag at e ⊢
        generalize hkp : keep flag 0 (slice b.obs b.iStart b.i) = kept at e ⊢
        by_cases hq : kept.length < MIN_OBS
        · simp only [hq, if_true] at e ⊢
          cases e
          exact ⟨_, rfl, hr, rfl⟩
        · simp only [hq, if_false] at e ⊢
          have hq18 : 18 ≤ kept.length := by simp only [MIN_OBS] at hq; omega
          rw [take_shift, Nat.add_assoc D.length b.i 1, drop_shift, List.append_assoc, List.append_assoc,
            ← List.append_assoc (List.take _ _),
            show D.length + b.iStart + kept.length - 1 = D.length + (b.iStart + kept.length - 1) by omega,
            rd_shift, rd_shift, slice_shift]
          generalize hcp : b.obs.take b.iStart ++ kept ++ b.obs.drop (b.i + 1) = cp at e ⊢
          cases h1 : rd cp b.iStart with
          | error x => simp [h1] at e
          | ok x1 =>
            simp only [h1] at e ⊢
            cases h2 : rd cp (b.iStart + kept.length - 1) with
            | error x => simp [h2] at e
            | ok x2 =>
              simp only [h2] at e ⊢
              by_cases hy : yearOrMore (x2.date - x1.date) = true
              · simp only [hy, Bool.not_true, Bool.false_eq_true, if_false] at e ⊢
                by_cases hu : N.unstable (slice cp b.iStart (b.iStart + kept.length - 1)) = true
                · simp only [hu, if_true] at e ⊢
                  cases e
                  exact ⟨_, rfl, hr, by simp [Nat.add_assoc]⟩
                · simp only [hu] at e ⊢
                  rw [show D.length + b.iStart - (D.length + b.prevBreak) = b.iStart - b.prevBreak by omega]
                  cases hL : lookBack N conse (slice cp b.iStart (b.iStart + kept.length - 1)) b.prevBreak
                      (b.iStart - b.prevBreak) ⟨cp, b.iStart + kept.length - 1, b.iStart,
                        b.removed ++ flagged flag 0 (slice b.obs b.iStart b.i)⟩ with
                  | error x => simp [hL] at e
                  | ok lb =>
                    have hL' := lookBack_shift N conse _ D rm b.prevBreak _ _ _ hL
                    simp only [LB.shift] at hL'
                    rw [List.append_assoc, hL']
                    simp only [hL] at e ⊢
                    unfold firstCurve at e ⊢
                    simp only [hre, Bool.false_and, Bool.false_eq_true, if_false] at e ⊢
                    cases e
                    refine ⟨_, rfl, hr, ?_⟩
                    simp only [drop_shift]
                    rw [show D.length + lb.iStart - (D.length + b.prevBreak) = lb.iStart - b.prevBreak by omega]
              · have hy' : yearOrMore (x2.date - x1.date) = false := by simpa using hy
                simp only [hy', Bool.not_false, if_true] at e ⊢
                cases e
                exact ⟨_, rfl, hr, rfl⟩

/-- `a` runs on with `D` in front of what `b` was started on. -/
structure Rel (D rm : List Obs) (b a : St F R) : Prop where
  obs : a.obs = D ++ b.obs
  i : a.i = D.length + b.i
  train : a.train = b.train
  filt : a.filt = b.filt
  tStart : a.tStart = b.tStart
  numObs : a.numObs = b.numObs
  recs : a.recs = b.recs
  changed : a.changed = b.changed
  model : b.changed = true → a.model = b.model
  pre : a.pre = b.pre
  seg : a.seg = b.seg
  removed : a.removed = rm ++ b.removed
  prev : b.changed = true → a.prevBreak = D.length + b.prevBreak
  fresh : b.changed = false → b.train = true
  start : b.train = false → a.iStart = D.length + b.iStart ∧ b.recs ≠ []

theorem step2_rel (N : Num V F R) {conse mode0 : Nat} (h0 : mode0 ≠ 0) (hc : 0 < conse) {D rm : List Obs}
    {b a b' : St F R} (h : Rel D rm b a) (ht : b.train = true) (e : step2 N conse mode0 b = .ok b') :
    ∃ a', step2 N conse mode0 a = .ok a' ∧ Rel D rm b' a' := by
  obtain ⟨ao, ai, as, ad, ap, at', af, ats, an, ar, am, ac, apr, asg, arm⟩ := a
  obtain ⟨bo, bi, bs, bd, bp, bt, bf, bts, bn, br, bm, bc, bpr, bsg, brm⟩ := b
  obtain ⟨h1, h2, h3, h4, h5, h6, h7, h8, h9, h10, h11, h12, h13, h14, h15⟩ := h
  simp only at *
  subst ht
  subst h1 h2 h3 h4 h5 h6 h7 h8 h10 h11 h12
  unfold step2 at e ⊢
  cases af with
  | none => simp at e
  | some f =>
    simp only [bind, Except.bind] at e ⊢
    rw [show D.length + bi + conse - 1 = D.length + (bi + conse - 1) by omega, chk_shift, rd_shift,
      Nat.add_assoc, rd_shift, drop_shift, eraseIdx_shift]
    cases hk : chk bo (bi + conse - 1) with
    | error x => simp [hk] at e
    | ok _ =>
      simp only [hk] at e ⊢
      cases hr : rd bo bi with
      | error x => simp [hr] at e
      | ok o =>
        simp only [hr] at e ⊢
        by_cases hch : isChange N f an ((bo.drop bi).take conse) = true
        · simp only [hch, if_true] at e ⊢
          cases e
          refine ⟨_, rfl, ?_⟩
          exact ⟨rfl, rfl, rfl, rfl, rfl, rfl, rfl, rfl,
            fun _ => by simp only [snapshot, tail8, drop_shift], rfl, rfl, rfl, fun _ => rfl,
            by simp [h0], fun _ => ⟨rfl, by simp⟩⟩
        · simp only [hch] at e ⊢
          cases hr1 : rd bo (bi + 1) with
          | error x => simp [hr1] at e
          | ok nx =>
            simp only [hr1] at e ⊢
            by_cases hv : N.lt N.tmax (N.mag f an o) = true
            · simp only [hv, if_true] at e ⊢
              cases e
              refine ⟨_, rfl, ?_⟩
              exact ⟨rfl, rfl, rfl, rfl, rfl, rfl, rfl, rfl, h9, rfl, rfl, by simp, h13,
                by simp, by simp⟩
            · simp only [hv] at e ⊢
              cases e
              refine ⟨_, rfl, ?_⟩
              exact ⟨rfl, rfl, rfl, rfl, rfl, rfl, rfl, rfl, h9, rfl, rfl, by simp, h13,
                by simp, by simp⟩

theorem trainStep_rel (N : Num V F R) {conse : Nat} (hc : 0 < conse) {D rm : List Obs}
    {b a b' : St F R} (h : Rel D rm b a) (ht : b.train = false) (hs : b.prevBreak ≤ b.iStart)
    (hsi : b.iStart ≤ b.i) (e : trainStep N conse b = .ok b') :
    ∃ a', trainStep N conse a = .ok a' ∧ Shift D rm b' a' := by
  have hch : b.changed = true := by
    cases hq : b.changed with
    | true => rfl
    | false => rw [h.fresh hq] at ht; simp at ht
  have hS : Shift D rm b a := by
    refine ⟨(h.start ht).2, ?_⟩
    have k1 := h.model hch
    have k2 := h.prev hch
    have k3 := (h.start ht).1
    obtain ⟨h1, h2, h3, h4, h5, h6, h7, h8, h9, h10, h11, h12, h13, h14, h15⟩ := h
    cases a; cases b
    simp only at *
    subst h1 h2 h3 h4 h5 h6 h7 h8 h10 h11 h12 k1 k2 k3
    rfl
  unfold trainStep at e ⊢
  have ho := h.obs
  have hi := h.i
  have hst := (h.start ht).1
  rw [ho, hi, hst, rd_shift, rd_shift]
  simp only [bind, Except.bind] at e ⊢
  cases hr1 : rd b.obs b.iStart with
  | error x => simp [hr1] at e
  | ok o1 =>
    simp only [hr1] at e ⊢
    cases hr2 : rd b.obs b.i with
    | error x => simp [hr2] at e
    | ok o2 =>
      simp only [hr2] at e ⊢
      have hd : decide (D.length + b.iStart + MIN_OBS ≤ D.length + b.i + 1) = decide (b.iStart + MIN_OBS ≤ b.i + 1) := by
        rw [Bool.eq_iff_iff]; simp; omega
      rw [hd]
      by_cases hg : (decide (b.iStart + MIN_OBS ≤ b.i + 1) && yearOrMore (o2.date - o1.date)) = true
      · simp only [hg, if_true] at e ⊢
        have h17 : 17 ≤ b.i := by
          simp [MIN_OBS] at hg; omega
        cases hs1 : step1 N conse b with
        | error x => simp [hs1] at e
        | ok r =>
          obtain ⟨d, b1⟩ := r
          obtain ⟨a1, ea, hS1⟩ := step1_shift N hc hS h17 hs hsi hs1
          simp only [hs1, ea] at e ⊢
          cases d with
          | false =>
            simp only [Bool.not_false, if_true] at e ⊢
            cases e
            refine ⟨_, rfl, hS1.recs, ?_⟩
            rw [hS1.eq]
            simp [Nat.add_assoc]
          | true =>
            simp only [Bool.not_true, Bool.false_eq_true, if_false] at e ⊢
            have q1 := congrArg St.obs hS1.eq
            have q2 := congrArg St.i hS1.eq
            have q3 := congrArg St.iStart hS1.eq
            simp only at q1 q2 q3
            rw [q1, q2, q3, Nat.add_assoc, rd_shift, rd_shift, slice_shift]
            cases hr3 : rd b1.obs (b1.i + 1) with
            | error x => simp [hr3] at e
            | ok nx =>
              simp only [hr3] at e ⊢
              cases hr4 : rd b1.obs b1.iStart with
              | error x => simp [hr4] at e
              | ok o4 =>
                simp only [hr4] at e ⊢
                cases e
                refine ⟨_, rfl, hS1.recs, ?_⟩
                rw [hS1.eq]
                simp
                omega
      · simp only [hg] at e ⊢
        cases e
        refine ⟨_, rfl, hS.recs, ?_⟩
        rw [hS.eq]
        simp [Nat.add_assoc]

theorem step_rel (N : Num V F R) {conse mode0 : Nat} (h0 : mode0 ≠ 0) (hc : 0 < conse) {D rm : List Obs}
    {G : Prop} {H0 X : List Obs} {b a b' : St F R} (inv : Inv G H0 X b)
    (h2 : b.i + conse + 1 ≤ b.obs.length) (h : Rel D rm b a) (e : step N conse mode0 b = .ok b') :
    ∃ a', step N conse mode0 a = .ok a' ∧ Rel D rm b' a' := by
  have d := step_delta N hc inv h2 e
  unfold step at e ⊢
  rw [h.train]
  cases ht : b.train with
  | true =>
    simp only [ht, if_true] at e ⊢
    exact step2_rel N h0 hc h ht e
  | false =>
    simp only [ht, Bool.false_eq_true, if_false] at e ⊢
    obtain ⟨a', ea, hS⟩ := trainStep_rel N hc h ht (inv.nprev ht) (inv.nstart ht) e
    refine ⟨a', ea, ?_⟩
    have hch : b.changed = true := by
      cases hq : b.changed with
      | true => rfl
      | false => rw [h.fresh hq] at ht; simp at ht
    have hc' : b'.changed = true := by
      rcases d.act with ⟨c, _⟩ | ⟨c, _⟩
      · rw [c, hch]
      · rw [ht] at c; simp at c
    have q := hS.eq
    have hr := hS.recs
    clear hS d ea
    generalize a'.iDense = de at q
    subst q
    exact ⟨rfl, rfl, rfl, rfl, rfl, rfl, rfl, rfl, fun _ => rfl, rfl, rfl, rfl, fun _ => rfl,
      by simp [hc'], fun _ => ⟨rfl, hr⟩⟩

theorem loop_rel (N : Num V F R) {conse mode0 : Nat} (h0 : mode0 ≠ 0) (hc : 0 < conse) {D rm : List Obs}
    {G : Prop} {H0 X : List Obs} : ∀ (k : Nat) (b a b' : St F R), Inv G H0 X b → Rel D rm b a →
      loop N conse mode0 k b = .ok b' →
    ∃ a', loop N conse mode0 k a = .ok a' ∧ Rel D rm b' a'
  | 0, b, a, b', inv, h, e => by
    unfold loop at e ⊢
    rw [h.obs, h.i, List.length_append]
    by_cases hg : b.i + conse + 1 ≤ b.obs.length
    · simp [hg] at e
    · rw [if_neg hg] at e
      cases e
      exact ⟨a, if_neg (by omega), h⟩
  | k + 1, b, a, b', inv, h, e => by
    unfold loop at e ⊢
    rw [h.obs, h.i, List.length_append]
    by_cases hg : b.i + conse + 1 ≤ b.obs.length
    · rw [if_pos hg] at e
      rw [if_pos (by omega)]
      rcases step_inv N (mode0 := mode0) hc inv hg with ⟨b1, e1, inv1, _⟩ | ⟨e1, _⟩
      · obtain ⟨a1, ea, h1⟩ := step_rel N h0 hc inv hg h e1
        simp only [e1, ea, bind, Except.bind] at e ⊢
        exact loop_rel N h0 hc k b1 a1 b' inv1 h1 e
      · simp [e1, bind, Except.bind] at e
    · rw [if_neg hg] at e
      cases e
      exact ⟨a, if_neg (by omega), h⟩

/-- More fuel changes nothing once the loop has ended. -/
theorem loop_fuel (N : Num V F R) {conse mode0 : Nat} : ∀ (k j : Nat) (s s' : St F R), k ≤ j →
    loop N conse mode0 k s = .ok s' → loop N conse mode0 j s = .ok s'
  | 0, j, s, s', _, e => by
    unfold loop at e
    by_cases hg : s.i + conse + 1 ≤ s.obs.length
    · simp [hg] at e
    · cases j with
      | zero => unfold loop; exact e
      | succ j => unfold loop; rw [if_neg hg] at e ⊢; exact e
  | k + 1, j, s, s', hk, e => by
    cases j with
    | zero => omega
    | succ j =>
      unfold loop at e ⊢
      by_cases hg : s.i + conse + 1 ≤ s.obs.length
      · rw [if_pos hg] at e ⊢
        cases e1 : step N conse mode0 s with
        | error x => simp [e1, bind, Except.bind] at e
        | ok s1 =>
          simp only [e1, bind, Except.bind] at e ⊢
          exact loop_fuel N k j s1 s' (by omega) e
      · rw [if_neg hg] at e ⊢
        exact e

theorem chk_eq_ok {o : List Obs} {k : Nat} (h : k < o.length) (Z : List Obs) :
    chk (o ++ Z) k = chk o k := by
  rw [chk_ok h, chk_ok (by simp; omega)]

theorem rd_eq_left {o : List Obs} {k : Nat} (h : k < o.length) (Z : List Obs) :
    rd (o ++ Z) k = rd o k := by
  rw [rd_ok h, rd_ok (by simp; omega), List.getElem_append_left]

theorem drop_take_left {o : List Obs} {k c : Nat} (h : k + c ≤ o.length) (Z : List Obs) :
    ((o ++ Z).drop k).take c = (o.drop k).take c := by
  rw [List.drop_append_of_le_length (by omega), List.take_append_of_le_length (by simp; omega)]

/-- A monitoring iteration that finds no change does not look at later observations. -/
theorem step2_prefix (N : Num V F R) {conse mode0 : Nat} (h0 : mode0 ≠ 0) (hc : 0 < conse) {s s' : St F R}
    (h2 : s.i + conse + 1 ≤ s.obs.length) (e : step2 N conse mode0 s = .ok s')
    (hch : s'.changed = false) (Z : List Obs) :
    step2 N conse mode0 { s with obs := s.obs ++ Z } = .ok { s' with obs := s'.obs ++ Z } := by
  unfold step2 at e ⊢
  cases hf : s.filt with
  | none => simp [hf] at e
  | some f =>
    simp only [hf, bind, Except.bind] at e ⊢
    rw [chk_eq_ok (by omega), rd_eq_left (by omega), rd_eq_left (by omega), drop_take_left (by omega),
      List.eraseIdx_append_of_lt_length (by omega)]
    rw [chk_ok (by omega), rd_ok (show s.i < s.obs.length by omega), rd_ok (show s.i + 1 < s.obs.length by omega)] at e ⊢
    simp only at e ⊢
    by_cases hx : isChange N f s.numObs ((s.obs.drop s.i).take conse) = true
    · simp only [hx, if_true] at e
      cases e
      simp [h0] at hch
    · simp only [hx, Bool.false_eq_true, if_false] at e ⊢
      by_cases hv : N.lt N.tmax (N.mag f s.numObs s.obs[s.i]) = true
      · simp only [hv, if_true] at e ⊢
        cases e; rfl
      · simp only [hv, Bool.false_eq_true, if_false] at e ⊢
        cases e; rfl

theorem loop_prefix (N : Num V F R) {conse mode0 : Nat} (h0 : mode0 ≠ 0) (hc : 0 < conse) {G : Prop}
    {H0 X : List Obs} (Z : List Obs) : ∀ (k : Nat) (s s' : St F R), Inv G H0 X s → s.train = true →
      s.obs.length - s.i - conse ≤ k → loop N conse mode0 k s = .ok s' → s'.changed = false →
    ∃ n, n ≤ s.obs.length - s.i - conse ∧ ∀ K, loop N conse mode0 (n + K) { s with obs := s.obs ++ Z } =
      loop N conse mode0 K { s' with obs := s'.obs ++ Z }
  | 0, s, s', inv, ht, hk, e, hch => by
    unfold loop at e
    rw [if_neg (by omega)] at e
    cases e
    exact ⟨0, by omega, fun K => by rw [Nat.zero_add]⟩
  | k + 1, s, s', inv, ht, hk, e, hch => by
    unfold loop at e
    by_cases hg : s.i + conse + 1 ≤ s.obs.length
    · rw [if_pos hg] at e
      rcases step_inv N (mode0 := mode0) hc inv hg with ⟨s1, e1, inv1, hd⟩ | ⟨e1, _⟩
      · simp only [e1, bind, Except.bind] at e
        have hlen : s1.obs.length - s1.i = s.obs.length - (s.i + 1) := by
          have := congrArg List.length hd
          simpa using this
        have d := step_delta N hc inv hg e1
        have hrun : s1.changed = true → s'.changed = true := by
          intro hq
          rcases loop_inv N (mode0 := mode0) hc k s1 inv1 (by omega) with ⟨s'', e'', _, r, _⟩ | ⟨e'', _⟩
          · rw [e] at e''; cases e''; exact r.once hq
          · rw [e] at e''; simp at e''
        have hc1 : s1.changed = false := by
          cases hq : s1.changed with
          | false => rfl
          | true => rw [hrun hq] at hch; simp at hch
        have ht1 : s1.train = true := by
          rcases d.act with ⟨_, _, t, _⟩ | ⟨_, _, c, _⟩
          · exact (t ht).1
          · rw [c] at hc1; simp [h0] at hc1
        obtain ⟨n, hn, hK⟩ := loop_prefix N h0 hc Z k s1 s' inv1 ht1 (by omega) e hch
        refine ⟨n + 1, by omega, fun K => ?_⟩
        have e2 : step N conse mode0 { s with obs := s.obs ++ Z } = .ok { s1 with obs := s1.obs ++ Z } := by
          unfold step at e1 ⊢
          rw [if_pos ht] at e1
          rw [if_pos (by exact ht)]
          exact step2_prefix N h0 hc hg e1 hc1 Z
        rw [show n + 1 + K = (n + K) + 1 by omega]
        conv => lhs; unfold loop
        rw [if_pos (by simp; omega)]
        simp only [e2, bind, Except.bind]
        exact hK K
      · simp [e1, bind, Except.bind] at e
    · rw [if_neg hg] at e
      cases e
      exact ⟨0, by omega, fun K => by rw [Nat.zero_add]⟩

end Pycold.Sccd
