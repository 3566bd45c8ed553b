import Verif.Model.Sccd
/-!
# Lemmas about one iteration of the S-CCD loop
-/
namespace Pycold.Sccd
variable {V F R M : Type}

/-! ## Lists -/

theorem rd_ok {obs : List Obs} {k : Nat} (h : k < obs.length) : rd obs k = .ok obs[k] := by
  simp [rd, h]

theorem rd_eq_ok {obs : List Obs} {k : Nat} {o : Obs} (h : rd obs k = .ok o) : obs[k]? = some o := by
  unfold rd at h
  cases e : obs[k]? with
  | none => simp [e] at h
  | some v => simp [e] at h; simp [h]

theorem chk_ok {obs : List Obs} {k : Nat} (h : k < obs.length) : chk obs k = .ok () := by
  simp [chk, h]

theorem keep_sublist (flag : Nat → Bool) : ∀ (k : Nat) (l : List Obs), (keep flag k l).Sublist l
  | _, [] => by simp [keep]
  | k, o :: os => by
    unfold keep
    split
    · exact (keep_sublist flag (k + 1) os).cons _
    · exact (keep_sublist flag (k + 1) os).cons_cons _

theorem keep_perm (flag : Nat → Bool) : ∀ (k : Nat) (l : List Obs),
    l.Perm (flagged flag k l ++ keep flag k l)
  | _, [] => by simp [keep, flagged]
  | k, o :: os => by
    unfold keep flagged
    split
    · simpa using keep_perm flag (k + 1) os
    · exact ((keep_perm flag (k + 1) os).cons o).trans List.perm_middle.symm

/-! ## The look-back loop -/

/-- The look-back succeeds; it keeps everything before `prev` and from the window on, and splits
what is in between into a part left alone, a part taken into the window, and removed observations. -/
theorem lookBack_spec (N : Num V F R) {conse : Nat} (hc : 0 < conse) (w P U : List Obs) :
    ∀ (m : Nat) (Q E : List Obs) (b : LB), Q.length = m → b.obs = P ++ Q ++ (E ++ U) →
      b.iStart = P.length + Q.length → P.length + Q.length ≤ b.i →
      ∃ Q1 E1 rm, lookBack N conse w P.length m b = .ok
          ⟨P ++ Q1 ++ (E1 ++ E ++ U), b.i - rm.length, P.length + Q1.length, b.removed ++ rm⟩ ∧
        (Q1 ++ E1).Sublist Q ∧ Q.Perm (rm ++ (Q1 ++ E1)) := by
  intro m
  induction m with
  | zero =>
    intro Q E b hQ ho hs hi
    have : Q = [] := List.length_eq_zero_iff.mp hQ
    subst this
    refine ⟨[], [], [], ?_, by simp, by simp⟩
    cases b
    simp_all [lookBack]
  | succ m ih =>
    intro Q E b hQ ho hs hi
    obtain ⟨Q', o, rfl⟩ : ∃ Q' o, Q = Q' ++ [o] :=
      ⟨Q.dropLast, Q.getLast (by intro h; simp [h] at hQ), (List.dropLast_concat_getLast _).symm⟩
    have hm : Q'.length = m := by simpa using hQ
    subst hm
    have hlen : P.length + Q'.length < b.obs.length := by rw [ho]; simp
    have hget : b.obs[P.length + Q'.length]'hlen = o := by
      simp only [ho]
      rw [List.getElem_append_left (by simp), List.getElem_append_right (by omega)]
      simp
    unfold lookBack
    have hc0 : ¬ (if Q'.length + 1 < conse then Q'.length + 1 else conse) = 0 := by
      split <;> omega
    generalize (if Q'.length + 1 < conse then Q'.length + 1 else conse) = c at hc0
    simp only [hc0, if_false, chk_ok hlen, rd_ok hlen, hget, bind, Except.bind]
    split
    · refine ⟨Q' ++ [o], [], [], ?_, by simp, by simp⟩
      cases b
      simp_all
    · split
      · have hi0 : ¬ b.i = 0 := by simp at hi; omega
        simp only [hi0, if_false]
        have he : b.obs.eraseIdx (P.length + Q'.length) = P ++ Q' ++ (E ++ U) := by
          rw [ho, List.append_assoc P, List.eraseIdx_append_of_length_le (by omega)]
          simp [List.eraseIdx_append_of_length_le]
        obtain ⟨Q1, E1, rm, hr, hsub, hp⟩ := ih Q' E
          { obs := b.obs.eraseIdx (P.length + Q'.length), i := b.i - 1,
            iStart := P.length + Q'.length, removed := b.removed ++ [o] }
          rfl he rfl (by simp at hi ⊢; omega)
        refine ⟨Q1, E1, o :: rm, ?_, ?_, ?_⟩
        · rw [hr]; simp; omega
        · exact hsub.trans (List.sublist_append_left _ _)
        · refine (List.perm_append_comm).trans ?_
          simpa using hp
      · obtain ⟨Q1, E1, rm, hr, hsub, hp⟩ := ih Q' (o :: E)
          { b with iStart := P.length + Q'.length } rfl (by simp [ho]) rfl (by simp at hi ⊢; omega)
        refine ⟨Q1, E1 ++ [o], rm, ?_, ?_, ?_⟩
        · rw [hr]; simp
        · rw [← List.append_assoc]; exact hsub.append_right [o]
        · simpa using hp.append_right [o]

theorem slice_window (A W T : List Obs) (hW : W ≠ []) :
    slice (A ++ W ++ T) A.length (A.length + W.length - 1) = W := by
  have : 0 < W.length := List.length_pos_iff.mpr hW
  unfold slice
  rw [List.append_assoc, List.drop_left, show A.length + W.length - 1 + 1 - A.length = W.length by omega,
    List.take_left]

/-! ## Training -/

/-- What an unsuccessful initialisation leaves behind. -/
structure Incomplete (s s1 : St F R) : Prop where
  same : s1.train = s.train ∧ s1.filt = s.filt ∧ s1.tStart = s.tStart ∧ s1.numObs = s.numObs ∧
    s1.recs = s.recs ∧ s1.model = s.model ∧ s1.changed = s.changed ∧ s1.pre = s.pre ∧ s1.seg = s.seg ∧
    s1.prevBreak = s.prevBreak
  start : s.iStart ≤ s1.iStart ∧ s1.iStart ≤ s1.i + 1
  dense : s.iDense ≤ s1.iDense ∧ (s.recs = [] → s1.iDense ≤ s1.iStart)
  front : s1.obs.take s.iStart = s.obs.take s.iStart
  back : s1.obs.drop (s1.i + 1) = s.obs.drop (s.i + 1)
  len : s1.obs.length + s.i = s.obs.length + s1.i
  sub : s1.obs.Sublist s.obs
  perm : (s.removed ++ s.obs).Perm (s1.removed ++ s1.obs)

/-- What a successful initialisation leaves behind: the observations up to the previous break `P`,
then `Q1` (left alone), then the window `E ++ K` of the new model, then the rest `T`. -/
structure Complete (N : Num V F R) (conse : Nat) (s s2 : St F R) (P Q1 E K T : List Obs) : Prop where
  same : s2.train = s.train ∧ s2.filt = s.filt ∧ s2.tStart = s.tStart ∧ s2.numObs = s.numObs ∧
    s2.model = s.model ∧ s2.changed = s.changed ∧ s2.seg = s.seg ∧ s2.iDense = s.iDense
  obs : s2.obs = P ++ Q1 ++ (E ++ K) ++ T
  i : s2.i + 1 = (P ++ Q1 ++ (E ++ K)).length
  start : s2.iStart = (P ++ Q1).length
  front : P = s.obs.take (if s.recs.isEmpty then s.iDense else s.prevBreak)
  plen : P.length = if s.recs.isEmpty then s.iDense else s.prevBreak
  back : T = s.obs.drop (s.i + 1)
  long : 18 ≤ K.length
  year : ∃ a ∈ K.head?, ∃ b ∈ K.getLast?, 4 * (b.date - a.date) ≥ 1461
  sub : s2.obs.Sublist s.obs
  perm : (s.removed ++ s.obs).Perm (s2.removed ++ s2.obs)
  recs : (s2.recs = s.recs ∧ s2.prevBreak = P.length ∧
      s2.pre = ((P ++ Q1).drop s.prevBreak) ∧ (s.recs = [] → Q1.length < 6)) ∨
    (∃ r, s.recs = [] ∧ s2.recs = [r] ∧ s2.prevBreak = s2.iStart ∧ s2.pre = [] ∧ 6 ≤ Q1.length ∧
      conse ≤ s2.iStart ∧ r.lead = P.drop s.prevBreak ∧ r.span = Q1 ∧ r.numObs = Q1.length ∧
      (s2.obs.head?).map (·.date) = some r.tStart ∧
      ((E ++ K).head?).map (·.date) = some r.tBreak ∧
      r.body = N.firstRec (Q1 ++ (E ++ K).take 1) ((P ++ Q1).drop ((P ++ Q1).length - conse)) K)

theorem step1_cases (N : Num V F R) {conse : Nat} (hc : 0 < conse) (s : St F R)
    (h1 : s.iStart ≤ s.i) (h2 : s.i + conse + 1 ≤ s.obs.length)
    (h3 : s.prevBreak ≤ s.iStart) (h4 : s.recs = [] → s.iDense ≤ s.iStart)
    (h5 : s.recs = [] → s.prevBreak ≤ s.iDense) :
    (∃ s1, step1 N conse s = .ok (false, s1) ∧ Incomplete s s1) ∨
    (∃ s2 P Q1 E K T, step1 N conse s = .ok (true, s2) ∧ Complete N conse s s2 P Q1 E K T) ∨
    (step1 N conse s = .error .oob ∧ 6 < conse ∧ s.recs = []) := by
  have self : Incomplete s s :=
    ⟨by simp, ⟨by omega, by omega⟩, ⟨by omega, h4⟩, rfl, rfl, rfl, List.Sublist.refl _,
      List.Perm.refl _⟩
  have hi : s.i < s.obs.length := by omega
  obtain ⟨A, W, T, hO, hA, hW⟩ : ∃ A W T, s.obs = A ++ W ++ T ∧ A.length = s.iStart ∧
      A.length + W.length = s.i + 1 := by
    refine ⟨s.obs.take s.iStart, (s.obs.drop s.iStart).take (s.i + 1 - s.iStart),
      s.obs.drop (s.i + 1), ?_, ?_, ?_⟩
    · rw [List.append_assoc]
      conv => lhs; rw [← List.take_append_drop s.iStart s.obs]
      congr 1
      conv => lhs; rw [← List.take_append_drop (s.i + 1 - s.iStart) (s.obs.drop s.iStart)]
      rw [List.drop_drop]
      congr 2; omega
    · simp; omega
    · simp; omega
  have hWne : W ≠ [] := by intro h; subst h; simp at hW; omega
  have hT : s.obs.drop (s.i + 1) = T := by
    rw [hO, ← hW, ← List.length_append, List.drop_left]
  have hAt : s.obs.take s.iStart = A := by
    rw [hO, ← hA, List.append_assoc, List.take_left]
  have hwin : slice s.obs s.iStart s.i = W := by
    have := slice_window A W T hWne
    rw [← hO, hA, show s.iStart + W.length - 1 = s.i by omega] at this
    exact this
  have hTl : conse ≤ T.length := by rw [← hT]; simp; omega
  unfold step1
  split
  · exact .inl ⟨s, rfl, self⟩
  · have htmp : min (s.i + conse - 1) (s.obs.length - 1) < s.obs.length := by omega
    simp only [chk_ok hi, bind, Except.bind]
    split
    · refine .inl ⟨_, rfl, by simp, ⟨by simp, by simp; omega⟩,
        ⟨by simp, by intro h; have := h4 h; simp; omega⟩, rfl, rfl, rfl,
        List.Sublist.refl _, List.Perm.refl _⟩
    · simp only [chk_ok htmp, hwin, hAt, hT]
      generalize N.mask (slice s.obs s.iStart (min (s.i + conse - 1) (s.obs.length - 1))) = flag
      have hks := keep_sublist flag 0 W
      have hkp := keep_perm flag 0 W
      generalize keep flag 0 W = K at hks hkp
      generalize flagged flag 0 W = fl at hkp
      split
      · exact .inl ⟨s, rfl, self⟩
      · rename_i hK
        have hK : 18 ≤ K.length := by simpa [MIN_OBS] using hK
        have hKne : K ≠ [] := by intro h; subst h; simp at hK
        have hcl : (A ++ K ++ T).length = s.iStart + K.length + T.length := by simp [hA, Nat.add_assoc]
        have hi' : s.iStart + K.length - 1 < (A ++ K ++ T).length := by omega
        have hs' : s.iStart < (A ++ K ++ T).length := by omega
        have hga : K.head? = some ((A ++ K ++ T)[s.iStart]'hs') := by
          rw [List.head?_eq_getElem?, ← List.getElem?_eq_getElem hs',
            List.getElem?_append_left (by simp; omega), List.getElem?_append_right (by omega), hA]
          simp
        have hgb : K.getLast? = some ((A ++ K ++ T)[s.iStart + K.length - 1]'hi') := by
          rw [List.getLast?_eq_getElem?, ← List.getElem?_eq_getElem hi',
            List.getElem?_append_left (by simp; omega), List.getElem?_append_right (by omega), hA]
          congr 1; omega
        simp only [rd_ok hi', rd_ok hs']
        split
        · exact .inl ⟨s, rfl, self⟩
        · rename_i hy
          have hsub : (A ++ K ++ T).Sublist s.obs := by
            rw [hO]
            exact ((List.Sublist.refl A).append hks).append (List.Sublist.refl T)
          have hperm : (s.removed ++ s.obs).Perm (s.removed ++ fl ++ (A ++ K ++ T)) := by
            rw [hO]
            simp only [List.append_assoc]
            refine List.Perm.append_left _ ?_
            refine (List.Perm.append_left A (hkp.append_right T)).trans ?_
            simp only [← List.append_assoc]
            refine List.Perm.append_right T (List.Perm.append_right K List.perm_append_comm)
          split
          · refine .inl ⟨_, rfl, by simp, ⟨by simp, by simp; omega⟩,
              ⟨by simp, by intro h; have := h4 h; simp; omega⟩, ?_, ?_, ?_,
              hsub, hperm⟩
            · simp only [hAt]; rw [List.append_assoc, ← hA, List.take_left]
            · simp only [hT]
              rw [show s.iStart + K.length - 1 + 1 = (A ++ K).length by simp; omega, List.drop_left]
            · simp only [hcl]
              have : s.obs.length = s.i + 1 + T.length := by rw [hO]; simp; omega
              omega
          · rename_i hu
            obtain ⟨prev, hprev⟩ : ∃ p, p = if s.recs.isEmpty then s.iDense else s.prevBreak := ⟨_, rfl⟩
            have hple : prev ≤ s.iStart := by
              rw [hprev]; split
              · rename_i h; exact h4 (by simpa using h)
              · omega
            have hpb : s.prevBreak ≤ prev := by
              rw [hprev]; split
              · rename_i h; exact h5 (by simpa using h)
              · exact Nat.le_refl _
            obtain ⟨P, Q, rfl, hPl⟩ : ∃ P Q, A = P ++ Q ∧ P.length = prev :=
              ⟨A.take prev, A.drop prev, (List.take_append_drop _ _).symm, by simp; omega⟩
            have hQl : Q.length = s.iStart - prev := by simp at hA; omega
            obtain ⟨Q1, E, rm, hlb, hsub1, hp1⟩ := lookBack_spec N hc
              (slice (P ++ Q ++ K ++ T) s.iStart (s.iStart + K.length - 1)) P (K ++ T) (s.iStart - prev) Q []
              ⟨P ++ Q ++ K ++ T, s.iStart + K.length - 1, s.iStart, s.removed ++ fl⟩
              hQl (by simp) (by simp [← hA]) (by simp at hA ⊢; omega)
            simp only [List.append_nil] at hlb
            have hPt : P = s.obs.take prev := by
              rw [hO, List.append_assoc, List.append_assoc, ← hPl, List.take_left]
            rw [hPl] at hlb
            simp only [← hprev, hlb]
            have hrmlen : Q.length = rm.length + (Q1.length + E.length) := by
              have := hp1.length_eq; simpa using this
            have hPQ : s.iStart = P.length + Q.length := by simp at hA; omega
            have hobs : P ++ Q1 ++ (E ++ (K ++ T)) = P ++ Q1 ++ (E ++ K) ++ T := by simp
            have hsub2 : (P ++ Q1 ++ (E ++ K) ++ T).Sublist s.obs := by
              refine List.Sublist.trans ?_ hsub
              have := ((List.Sublist.refl P).append hsub1).append (List.Sublist.refl (K ++ T))
              simpa using this
            have hperm2 : (s.removed ++ s.obs).Perm
                (s.removed ++ fl ++ rm ++ (P ++ Q1 ++ (E ++ K) ++ T)) := by
              refine hperm.trans ?_
              simp only [List.append_assoc]
              refine List.Perm.append_left _ (List.Perm.append_left _ ?_)
              refine (List.Perm.append_left P (hp1.append_right (K ++ T))).trans ?_
              simp only [← List.append_assoc]
              refine List.Perm.append_right _ (List.Perm.append_right _ (List.Perm.append_right _
                (List.Perm.append_right _ List.perm_append_comm)))
            have hKy : ∃ a ∈ K.head?, ∃ b ∈ K.getLast?, 4 * (b.date - a.date) ≥ 1461 :=
              ⟨_, hga, _, hgb, by simpa [yearOrMore] using hy⟩
            unfold firstCurve
            simp only [hobs]
            by_cases hfc : (s.recs.isEmpty && decide (s.iDense + LASSO_MIN ≤ prev + Q1.length)) = true
            · simp only [hfc, if_true]
              have hr0 : s.recs = [] := by
                have := (Bool.and_eq_true _ _ ▸ hfc).1
                simpa using this
              have hfc : s.iDense + 6 ≤ prev + Q1.length := by
                have := of_decide_eq_true (Bool.and_eq_true _ _ ▸ hfc).2
                simpa only [LASSO_MIN] using this
              have hpd : prev = s.iDense := by rw [hprev, hr0]; rfl
              have hl1 : prev + Q1.length < (P ++ Q1 ++ (E ++ K) ++ T).length := by simp; omega
              have hl0 : 0 < (P ++ Q1 ++ (E ++ K) ++ T).length := by omega
              simp only [rd_ok hl1, rd_ok hl0, bind, Except.bind]
              by_cases hcc : prev + Q1.length < conse
              · simp only [hcc, if_true]
                refine .inr (.inr ⟨trivial, ?_, hr0⟩)
                omega
              · simp only [hcc, if_false]
                refine .inr (.inl ⟨_, P, Q1, E, K, T, rfl, by simp, rfl, ?_, by simp [hPl], ?_, ?_, hT.symm,
                  hK, hKy, hsub2, hperm2, .inr ⟨_, hr0, congrArg (· ++ [_]) hr0, rfl, rfl, by omega, by simp only; omega, ?_, ?_, ?_, ?_, ?_, ?_⟩⟩)
                · simp; omega
                · rw [← hprev]; exact hPt
                · rw [← hprev]; exact hPl
                · simp only [← hpd]
                  rw [List.append_assoc, List.append_assoc, List.drop_append_of_le_length (by omega),
                    List.take_append_of_le_length (by simp; omega), List.take_of_length_le (by simp; omega)]
                · simp only [← hpd]
                  rw [List.append_assoc, List.append_assoc, ← hPl, List.drop_left,
                    show P.length + Q1.length - P.length = Q1.length by omega, List.take_left]
                · simp only; omega
                · simp only [List.head?_eq_getElem?, List.getElem?_eq_getElem hl0, Option.map_some]
                · rw [List.head?_eq_getElem?]
                  have : (P ++ Q1 ++ (E ++ K) ++ T)[prev + Q1.length]? = (E ++ K)[0]? := by
                    rw [List.getElem?_append_left (l₁ := P ++ Q1 ++ (E ++ K)) (by simp; omega),
                      List.getElem?_append_right (by simp; omega)]
                    congr 1; simp; omega
                  rw [← this, List.getElem?_eq_getElem hl1]; rfl
                · have hw : slice (P ++ Q ++ K ++ T) s.iStart (s.iStart + K.length - 1) = K := by
                    have := slice_window (P ++ Q) K T hKne
                    rwa [hA] at this
                  simp only [hw]
                  congr 1
                  · unfold slice
                    rw [← hpd, List.append_assoc, List.append_assoc, ← hPl, List.drop_left,
                      show P.length + Q1.length + 1 - P.length = Q1.length + 1 by omega,
                      List.take_length_add_append, List.take_append_of_le_length (by simp; omega)]
                  · rw [List.append_assoc (P ++ Q1), List.drop_append_of_le_length (by simp; omega),
                      List.take_append_of_le_length (by simp; omega), List.take_of_length_le (by simp; omega)]
                    simp only [List.length_append, hPl]
            · simp only [hfc, if_false]
              refine .inr (.inl ⟨_, P, Q1, E, K, T, rfl, by simp, rfl, ?_, by simp [hPl], ?_, ?_, hT.symm,
                  hK, hKy, hsub2, hperm2, .inl ⟨rfl, by simp [hPl], ?_, ?_⟩⟩)
              · simp; omega
              · rw [← hprev]; exact hPt
              · rw [← hprev]; exact hPl
              · simp only
                rw [List.append_assoc (P ++ Q1), List.drop_append_of_le_length (by simp; omega),
                    List.take_append_of_le_length (by simp; omega), List.take_of_length_le (by simp; omega)]
              · intro hr0
                have hpd : prev = s.iDense := by rw [hprev, hr0]; rfl
                have hfc' : ¬ s.iDense + 6 ≤ prev + Q1.length := by
                  intro h; apply hfc; simp [hr0, LASSO_MIN, h]
                omega

end Pycold.Sccd
