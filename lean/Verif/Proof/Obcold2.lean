import Verif.Proof.Obcold
/-! The loop over the segments. -/
namespace Pycold.Obcold

open Pycold.Obcold.Spec Pycold.Misc

variable {R M : Type}

/-- The parts of the screened series. -/
theorem screened {clear : List ClrObs} (hasc : Asc clear) {s : St R M} (hs : s.obs.Sublist clear)
    {tmp : Nat} (htl : tmp ≤ s.obs.length) (ht : s.iLast + 6 ≤ tmp)
    {good obs : List ClrObs} (hg : good.Sublist ((s.obs.drop s.iLast).take (tmp - s.iLast)))
    (hg6 : 6 ≤ good.length) (ho : obs = s.obs.take s.iLast ++ good ++ s.obs.drop tmp) :
    obs.Sublist s.obs ∧ (obs.drop s.iLast).take good.length = good ∧
      obs.drop (s.iLast + good.length) = s.obs.drop tmp ∧
      obs[s.iLast]? = good[0]? ∧ obs[s.iLast + good.length - 1]? = good[good.length - 1]? ∧
      obs.length = s.iLast + good.length + (s.obs.length - tmp) := by
  have hlen : (s.obs.take s.iLast).length = s.iLast := by simp; omega
  have hd : obs.drop s.iLast = good ++ s.obs.drop tmp := by
    rw [ho, List.append_assoc, List.drop_append, List.drop_eq_nil_of_le (by omega), hlen]
    simp
  refine ⟨?_, ?_, ?_, ?_, ?_, ?_⟩
  · rw [ho, List.append_assoc]
    conv_rhs => rw [← List.take_append_drop s.iLast s.obs]
    refine List.Sublist.append (List.Sublist.refl _) ?_
    conv_rhs => rw [← List.take_append_drop (tmp - s.iLast) (s.obs.drop s.iLast)]
    rw [List.drop_drop, show s.iLast + (tmp - s.iLast) = tmp by omega]
    exact List.Sublist.append hg (List.Sublist.refl _)
  · rw [hd, List.take_left']; rfl
  · rw [← List.drop_drop, hd, List.drop_left']; rfl
  · have : obs[s.iLast]? = (obs.drop s.iLast)[0]? := by simp
    rw [this, hd, List.getElem?_append_left (by omega)]
  · have : obs[s.iLast + good.length - 1]? = (obs.drop s.iLast)[good.length - 1]? := by
      rw [List.getElem?_drop]; congr 1; omega
    rw [this, hd, List.getElem?_append_left (by omega)]
  · rw [ho]; simp; omega

theorem nearest_sub {l l' : List Int} {b x : Int} (hs : ∀ y ∈ l', y ∈ l) (hx : x ∈ l') (h : NearestTo l b x) :
    NearestTo l' b x := ⟨hx, fun y hy => h.2 y (hs y hy)⟩

theorem getLast?_append_singleton {A : Type} (l : List A) (a : A) : (l ++ [a]).getLast? = some a := by simp

/-- The observations between the last break and the next. -/
theorem Inv.window {clear : List ClrObs} (hasc : Asc clear) {acc rem : List Int} {s : St R M}
    (hI : Inv clear acc rem s) {tmp : Nat} {x : ClrObs} (hx : s.obs[tmp]? = some x) :
    span clear (lastBreak none s.recs) (some x.date) = (s.obs.drop s.iLast).take (tmp - s.iLast) := by
  have hasc' : Asc s.obs := hasc.sublist hI.sub
  rw [span_upto, hI.spanFrom hasc]
  by_cases hle : s.iLast ≤ tmp
  · exact filter_before hasc' hx hle
  · rw [show tmp - s.iLast = 0 by omega, List.take_zero, List.filter_eq_nil_iff]
    intro o ho
    have h1 : o ∈ s.obs.drop tmp := by
      rw [show s.iLast = tmp + (s.iLast - tmp) by omega, ← List.drop_drop] at ho
      exact List.mem_of_mem_drop ho
    have := mem_drop_date hasc' hx h1
    simp; omega

/-- One iteration for an accepted break. -/
theorem segment_break {E : Env R M} {conse : Nat} {clear : List ClrObs} (hasc : Asc clear) {acc bs : List Int}
    {b : Int} (hbs : ∀ b' ∈ bs, b < b') {s : St R M} (hI : Inv clear acc (b :: bs) s) :
    (∃ s' d, segment E conse (some b) s = .ok s' ∧ Inv clear acc bs s' ∧ NearestTo (clear.map (·.date)) b d ∧
      ((s'.recs = s.recs ∧ (usable E (span clear (lastBreak none s.recs) (some d))).length < 6) ∨
       ∃ r, s'.recs = s.recs ++ [r] ∧ Closed E conse clear (lastBreak none s.recs) d r)) ∨
    (segment E conse (some b) s = .error .uninit ∧ ∀ o ∈ clear, (9999999 : Int) ≤ (o.date - b).natAbs) ∨
    (segment E conse (some b) s = .error .overrun ∧ Cold.NUM_FC ≤ s.recs.length) := by
  have hasc' : Asc s.obs := hasc.sublist hI.sub
  have skip : Inv clear acc bs s := by
    refine ⟨hI.sub, hI.lost, ?_, ?_⟩
    · rcases hI.start with h | ⟨c, b', h1, h3, h5, h6⟩
      · exact Or.inl h
      · exact Or.inr ⟨c, b', h1, h3, h5, fun x hx => h6 x (List.mem_cons_of_mem _ hx)⟩
    · have := hI.count; simp at this; omega
  cases hf : findIndexClrx (s.obs.map (·.date)) b with
  | none =>
    right; left
    refine ⟨by simp [segment, findBreak, hf, bind, Except.bind], ?_⟩
    have hall : ∀ o ∈ s.obs, (9999999 : Int) ≤ (o.date - b).natAbs := by
      intro o ho
      by_contra hn
      obtain ⟨k, hk⟩ := fi_some (l := s.obs.map (·.date)) (b := b) (x := o.date)
        (List.mem_map.mpr ⟨o, ho, rfl⟩) (by omega)
      rw [hf] at hk; cases hk
    intro o ho
    by_cases hm : o ∈ s.obs
    · exact hall o hm
    · obtain ⟨c, hc, hlt⟩ := hI.far (List.mem_cons_self ..) ho hm
      have := hall c hc; omega
  | some tmp =>
    obtain ⟨xd, hxd, hnear, hbnd⟩ := fi_spec hasc'.dates hf
    rw [List.getElem?_map] at hxd
    obtain ⟨x, hx, rfl⟩ := Option.map_eq_some_iff.mp hxd
    obtain ⟨htl, hxe⟩ := List.getElem?_eq_some_iff.mp hx
    have hnc := hI.nearest (List.mem_cons_self ..) hnear
    have hwin := hI.window hasc hx
    by_cases hsmall : tmp < s.iLast + 6
    · left
      refine ⟨s, x.date, by simp [segment, findBreak, hf, bind, Except.bind, hsmall], skip, hnc, Or.inl ⟨rfl, ?_⟩⟩
      refine Nat.lt_of_le_of_lt (usable_sublist _ _).length_le ?_
      rw [hwin, List.length_take]; omega
    · cases hsc : screen E s tmp (some b) with
      | none =>
        left
        refine ⟨s, x.date, ?_, skip, hnc, Or.inl ⟨rfl, ?_⟩⟩
        · simp only [segment, findBreak, hf, bind, Except.bind]
          rw [if_neg hsmall, hsc]
        · rw [hwin]; exact screen_none hsc (by omega)
      | some obs =>
        obtain ⟨hg2, hg3⟩ := screen_some hsc (by omega) (by omega)
        have hg1 := usable_sublist E ((s.obs.drop s.iLast).take (tmp - s.iLast))
        rw [← hwin] at hg1 hg2 hg3
        generalize hgood : usable E (span clear (lastBreak none s.recs) (some x.date)) = good at hg1 hg2 hg3
        rw [hwin] at hg1
        obtain ⟨p1, p2, p3, p4, p5, p6⟩ := screened hasc hI.sub (by omega) (by omega) hg1 hg2 hg3
        -- position of the same observation
        have hx' : obs[s.iLast + good.length]? = some x := by
          have : obs[s.iLast + good.length]? = (obs.drop (s.iLast + good.length))[0]? := by simp
          rw [this, p3]; simpa using hx
        have hasc'' : Asc obs := hasc'.sublist p1
        have hfi : findIndexClrx (obs.map (·.date)) b = some (s.iLast + good.length) := by
          refine fi_at hasc''.dates (x := x.date) (by rw [List.getElem?_map, hx']; rfl) ?_ hbnd
          refine nearest_sub ?_ ?_ hnear
          · intro y hy
            obtain ⟨o, ho, rfl⟩ := List.mem_map.mp hy
            exact List.mem_map.mpr ⟨o, p1.subset ho, rfl⟩
          · exact List.mem_map.mpr ⟨x, List.mem_of_getElem? hx', rfl⟩
        by_cases hov : Cold.NUM_FC ≤ s.recs.length
        · right; right
          refine ⟨?_, hov⟩
          simp only [segment, findBreak, hf, bind, Except.bind]
          rw [if_neg hsmall, hsc]
          simp only [hfi]
          rw [if_pos hov]
        · left
          obtain ⟨a, ha⟩ : ∃ a, good[0]? = some a := ⟨good[0], by simp⟩
          obtain ⟨z, hz⟩ : ∃ z, good[good.length - 1]? = some z := ⟨good[good.length - 1], by simp⟩
          have hcat : Cold.updateCft (((s.iLast + good.length : Nat) : Int) - s.iLast) 3 4 6 8 8 =
              coefs good.length := by
            rw [← cat_coefs]; congr 1; omega
          have hsub : (s.iLast + good.length) - s.iLast = good.length := by omega
          -- the record and the new state
          let body := E.fit good (coefs good.length)
          let aft := (obs.drop (s.iLast + good.length)).take conse
          let r : Rec R M :=
            { tStart := a.date, tEnd := z.date, tBreak := x.date,
              numObs := ((s.iLast + good.length : Nat) : Int) - s.iLast + 1, category := coefs good.length,
              changeProb := 100, body := body, mag := some (E.magnitude body aft), fitted := good,
              «after» := aft }
          refine ⟨⟨obs, s.iLast + good.length, s.recs ++ [r]⟩, x.date, ?_, ?_⟩
          · simp only [segment, findBreak, hf, bind, Except.bind]
            rw [if_neg hsmall, hsc]
            simp only [hfi, hsub, p2, hcat]
            rw [if_neg hov, p4, ha, if_neg (by omega), p5, hz]
            simp only [hx']
            rfl
          · -- facts about the record
            obtain ⟨c0, hc0⟩ : ∃ c0, s.obs[s.iLast]? = some c0 :=
              ⟨s.obs[s.iLast], by simp⟩
            have hlb := hI.lostBefore hc0
            have hsubc : obs.Sublist clear := p1.trans hI.sub
            have hgc : good.Sublist clear :=
              (hg1.trans ((List.take_sublist _ _).trans (List.drop_sublist _ _))).trans hI.sub
            have hlost' : ∀ o ∈ clear, o ∉ obs → o.date < x.date := by
              intro o ho hn
              by_cases hm : o ∈ s.obs
              · have h1 : o ∉ s.obs.drop tmp := by
                  intro hd; apply hn; rw [hg3]; exact List.mem_append_right _ hd
                have h2 : o ∈ s.obs.take tmp := by
                  rw [← List.take_append_drop tmp s.obs] at hm
                  rcases List.mem_append.mp hm with h | h
                  · exact h
                  · exact absurd h h1
                exact mem_take_date hasc' hx h2
              · have h1 := hlb o ho hm
                have h2 := asc_get hasc' hc0 hx (by omega)
                omega
            have hfrom : span clear (some x.date) none = obs.drop (s.iLast + good.length) := by
              rw [span_sub hasc hsubc hlost', span_from hasc'' hx']
            refine ⟨⟨hsubc, fun o ho hn => ⟨x, hx', hlost' o ho hn⟩, ?_, ?_⟩, hnc,
              Or.inr ⟨r, rfl, ⟨⟨hgc, hg2, ?_, ?_, ?_, rfl, rfl⟩, hgood.symm, rfl, rfl, ?_, rfl⟩⟩⟩
            · exact Or.inr ⟨x, b, hx', lastBreak_snoc _ _ _, hnc, hbs⟩
            · have := hI.count
              simp at this ⊢; omega
            · show good.head?.map (·.date) = some a.date
              rw [List.head?_eq_getElem?, ha]; rfl
            · show good.getLast?.map (·.date) = some z.date
              rw [List.getLast?_eq_getElem?, hz]; rfl
            · show ((s.iLast + good.length : Nat) : Int) - s.iLast + 1 = good.length + 1
              omega
            · show aft = (span clear (some x.date) none).take conse
              rw [hfrom]

/-- The last iteration. -/
theorem segment_last {E : Env R M} {conse : Nat} {clear : List ClrObs} (hasc : Asc clear) {acc : List Int}
    {s : St R M} (hI : Inv clear acc [] s) :
    (segment E conse none s = .ok s ∧ (span clear (lastBreak none s.recs) none).length < 6) ∨
    (∃ obs r, segment E conse none s = .ok ⟨obs, s.iLast, s.recs ++ [r]⟩ ∧
      Open E clear (lastBreak none s.recs) r) ∨
    (segment E conse none s = .error .overrun ∧ Cold.NUM_FC ≤ s.recs.length) := by
  rw [hI.spanFrom hasc]
  by_cases hsmall : s.obs.length < s.iLast + 6
  · left
    refine ⟨?_, by simp; omega⟩
    simp only [segment, findBreak, bind, Except.bind]
    rw [if_pos hsmall]
  · have hsc : screen E s s.obs.length none = some s.obs := by
      unfold screen; rw [if_neg (by simp)]
    by_cases hov : Cold.NUM_FC ≤ s.recs.length
    · right; right
      refine ⟨?_, hov⟩
      simp only [segment, findBreak, bind, Except.bind]
      rw [if_neg hsmall, hsc]
      simp only
      rw [if_pos hov]
    · right; left
      have hwin : (s.obs.drop s.iLast).take (s.obs.length - s.iLast) = s.obs.drop s.iLast :=
        List.take_of_length_le (by simp)
      have hlen : (s.obs.drop s.iLast).length = s.obs.length - s.iLast := by simp
      have hcat : Cold.updateCft (((s.obs.length : Nat) : Int) - s.iLast) 3 4 6 8 8 =
          coefs (s.obs.drop s.iLast).length := by
        rw [← cat_coefs, hlen]; congr 1; omega
      obtain ⟨a, ha⟩ : ∃ a, s.obs[s.iLast]? = some a := ⟨s.obs[s.iLast], by simp⟩
      obtain ⟨z, hz⟩ : ∃ z, s.obs[s.obs.length - 1]? = some z := ⟨s.obs[s.obs.length - 1], by simp⟩
      let r : Rec R M :=
        { tStart := a.date, tEnd := z.date, tBreak := 0,
          numObs := (s.obs.length : Int) - s.iLast + 1, category := coefs (s.obs.drop s.iLast).length,
          changeProb := 0, body := E.fit (s.obs.drop s.iLast) (coefs (s.obs.drop s.iLast).length),
          mag := none, fitted := s.obs.drop s.iLast, «after» := [] }
      refine ⟨s.obs, r, ?_, ⟨?_, ?_, rfl, rfl, rfl⟩⟩
      · simp only [segment, findBreak, bind, Except.bind]
        rw [if_neg hsmall, hsc]
        simp only [hwin, hcat]
        rw [if_neg hov, ha, if_neg (by omega), hz]
      · refine ⟨(List.drop_sublist _ _).trans hI.sub, by show 6 ≤ (s.obs.drop s.iLast).length; omega, ?_, ?_, ?_, rfl, rfl⟩
        · show (s.obs.drop s.iLast).head?.map (·.date) = some a.date
          rw [List.head?_eq_getElem?, List.getElem?_drop, Nat.add_zero, ha]; rfl
        · show (s.obs.drop s.iLast).getLast?.map (·.date) = some z.date
          rw [List.getLast?_eq_getElem?, List.getElem?_drop, hlen,
            show s.iLast + (s.obs.length - s.iLast - 1) = s.obs.length - 1 by omega, hz]; rfl
        · show (s.obs.length : Int) - s.iLast + 1 = ((s.obs.drop s.iLast).length : Int) + 1
          rw [hlen]; omega
      · show s.obs.drop s.iLast = _
        rw [hI.spanFrom hasc]

theorem closeLast_snoc (l : List (Rec R M)) (r : Rec R M) :
    closeLast (l ++ [r]) = l ++ [{ r with tBreak := 0, changeProb := 0, mag := none }] := by
  induction l with
  | nil => rfl
  | cons a as ih =>
    cases as with
    | nil => rfl
    | cons b bs => simp only [List.cons_append] at ih ⊢; rw [closeLast, ih]; simp

theorem closeLast_spec {rs : List (Rec R M)} (h : rs ≠ []) : LastClosed rs (closeLast rs) := by
  rcases List.eq_nil_or_concat rs with h' | ⟨l, r, h'⟩
  · exact absurd h' h
  · have hr : rs = l ++ [r] := by simpa using h'
    exact ⟨l, r, hr, by rw [hr, closeLast_snoc]⟩

/-- The whole loop. -/
theorem segments_ok {E : Env R M} {conse : Nat} {clear : List ClrObs} (hasc : Asc clear) {acc : List Int} :
    ∀ (bs : List Int) (s : St R M), bs.Pairwise (· < ·) → Inv clear acc bs s →
    (∃ s' rs, segments E conse bs s = .ok s' ∧ s'.recs = s.recs ++ rs ∧
      Follows E conse clear (lastBreak none s.recs) bs rs) ∨
    (segments E conse bs s = .error .uninit ∧ ∃ b ∈ bs, ∀ o ∈ clear, (9999999 : Int) ≤ (o.date - b).natAbs) ∨
    (segments E conse bs s = .error .overrun ∧ Cold.NUM_FC ≤ acc.length) := by
  intro bs
  induction bs with
  | nil =>
    intro s _ hI
    have hcount := hI.count
    simp only [List.length_nil, Nat.add_zero] at hcount
    rcases segment_last (E := E) (conse := conse) hasc hI with ⟨h1, h2⟩ | ⟨obs, r, h1, h2⟩ | ⟨h1, h2⟩
    · left
      exact ⟨s, [], h1, by simp, .rest h2⟩
    · left
      exact ⟨_, [r], h1, rfl, .last h2⟩
    · right; right
      exact ⟨h1, by omega⟩
  | cons b bs ih =>
    intro s hp hI
    obtain ⟨hp1, hp2⟩ := List.pairwise_cons.mp hp
    have hcount := hI.count
    simp only [List.length_cons] at hcount
    rcases segment_break (E := E) (conse := conse) hasc hp1 hI with ⟨s', d, h1, h2, h3, h4⟩ | ⟨h1, h2⟩ | ⟨h1, h2⟩
    · rcases ih s' hp2 h2 with ⟨t, rs, g1, g2, g3⟩ | ⟨g1, b', g2, g3⟩ | g
      · left
        rcases h4 with ⟨e1, e2⟩ | ⟨r, e1, e2⟩
        · rw [e1] at g2 g3
          exact ⟨t, rs, by simp [segments, h1, bind, Except.bind, g1], g2, .skip h3 e2 g3⟩
        · rw [e1] at g2 g3
          rw [lastBreak_snoc, e2.brk] at g3
          exact ⟨t, r :: rs, by simp [segments, h1, bind, Except.bind, g1], by rw [g2]; simp, .brk h3 e2 g3⟩
      · right; left; exact ⟨by simp [segments, h1, bind, Except.bind, g1], b', List.mem_cons_of_mem _ g2, g3⟩
      · right; right; exact ⟨by simp [segments, h1, bind, Except.bind, g.1], g.2⟩
    · right; left
      exact ⟨by simp [segments, h1, bind, Except.bind], b, List.mem_cons_self .., h2⟩
    · right; right
      exact ⟨by simp [segments, h1, bind, Except.bind], by omega⟩

end Pycold.Obcold
