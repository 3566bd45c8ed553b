import Verif.Proof.SccdConfirm
import Verif.Spec.SccdTrack
/-!
# S-CCD: the filter is that of the observations kept
-/
namespace Pycold.Sccd
open Spec
variable {V F R M : Type}

theorem headD_snoc (l : List Obs) (o nx : Obs) : (l ++ [o]).headD nx = l.headD o := by
  cases l <;> rfl

theorem follow_snoc (N : Num V F R) (o nx : Obs) : ∀ (rest : List Obs) (f : F),
    follow N f (rest ++ [o]) nx = N.filter (follow N f rest o) o nx.date
  | [], _ => rfl
  | a :: as, f => by
    simp only [List.cons_append, follow, headD_snoc]
    exact follow_snoc N o nx as _

theorem tracked_snoc (N : Num V F R) (prior : Option F) (w rest : List Obs) (o nx : Obs) :
    tracked N prior w (rest ++ [o]) nx = N.filter (tracked N prior w rest o) o nx.date := by
  unfold tracked
  rw [follow_snoc, headD_snoc]

theorem tracked_skip {N : Num V F R} (hN : Erases N) (prior : Option F) (w rest : List Obs) (o nx : Obs)
    (hw : w ≠ []) (h : Asc (w ++ rest ++ [o, nx])) :
    N.skip (tracked N prior w rest o) o nx.date = tracked N prior w rest nx := by
  have ho : o.date < nx.date := by
    have := h.sublist (List.sublist_append_right _ _)
    exact (List.pairwise_cons.mp this).1 nx (by simp)
  by_cases hr : rest = []
  · subst hr
    obtain ⟨w', x, rfl⟩ : ∃ w' x, w = w' ++ [x] := ⟨_, _, (List.dropLast_concat_getLast hw).symm⟩
    have hx : x.date < o.date := asc_split h x (by simp) o (by simp)
    exact hN.fit prior _ x o nx (by simp) hx (Int.le_of_lt ho)
  · obtain ⟨r', x, rfl⟩ : ∃ r' x, rest = r' ++ [x] := ⟨_, _, (List.dropLast_concat_getLast hr).symm⟩
    have hx : x.date < o.date := asc_split h x (by simp) o (by simp)
    rw [tracked_snoc, tracked_snoc]
    exact hN.filter _ x o _ hx (Int.le_of_lt ho)

theorem FilterOf.snoc {N : Num V F R} {prior : Option F} {seg : List Obs} {o : Obs} {f : F}
    (h : FilterOf N prior seg o f) (nx : Obs) : FilterOf N prior (seg ++ [o]) nx (N.filter f o nx.date) := by
  obtain ⟨k, h1, h2, hy, rfl⟩ := h
  refine ⟨k, h1, by simp; omega, by rw [List.take_append_of_le_length h2]; exact hy, ?_⟩
  rw [List.take_append_of_le_length h2, List.drop_append_of_le_length h2, tracked_snoc]

theorem FilterOf.skip {N : Num V F R} (hN : Erases N) {prior : Option F} {seg : List Obs} {o : Obs} {f : F}
    (h : FilterOf N prior seg o f) (nx : Obs) (ha : Asc (seg ++ [o, nx])) :
    FilterOf N prior seg nx (N.skip f o nx.date) := by
  obtain ⟨k, h1, h2, hy, rfl⟩ := h
  refine ⟨k, h1, h2, hy, tracked_skip hN _ _ _ _ _ ?_ ?_⟩
  · intro e
    have := congrArg List.length e
    rw [List.length_take, List.length_nil] at this
    omega
  · rw [List.take_append_drop]; exact ha

theorem ClosedChain.snoc {N : Num V F R} {conse : Nat} {all : List Obs} {r : Rec R} {f : F} :
    ∀ {rs : List (Rec R)} {prior last : Option F}, ClosedChain N conse all prior rs last →
      ClosedBy N conse all last r f → ClosedChain N conse all prior (rs ++ [r]) (some f)
  | [], _, _, h, hr => by cases h; exact ⟨f, hr, rfl⟩
  | _ :: _, _, _, ⟨g, hg, h⟩, hr => ⟨g, hg, h.snoc hr⟩

theorem ClosedBy.mono {N : Num V F R} {conse : Nat} {all all' : List Obs} {prior : Option F} {r : Rec R} {f : F}
    (hs : all.Sublist all') (h : ClosedBy N conse all prior r f) : ClosedBy N conse all' prior r f := by
  obtain ⟨nx, win, h1, h2, h3, h4⟩ := h
  exact ⟨nx, win, h1, h2, h3.trans hs, h4⟩

theorem OpenedBy.mono {N : Num V F R} {conse : Nat} {all all' : List Obs} {r : Rec R}
    (hs : all.Sublist all') (h : OpenedBy N conse all r) : OpenedBy N conse all' r := by
  obtain ⟨nx, w, h1, h2, h3, h4, h5, h6⟩ := h
  exact ⟨nx, w, h1, h2, h3, h4.trans hs, h5.trans hs, h6⟩

theorem ClosedChain.mem {N : Num V F R} {conse : Nat} {all : List Obs} :
    ∀ {rs : List (Rec R)} {prior last : Option F}, ClosedChain N conse all prior rs last →
      ∀ r ∈ rs, ∃ p f, ClosedBy N conse all p r f
  | [], _, _, _, r, hr => by simp at hr
  | _ :: _, prior, _, ⟨f, hf, h⟩, r, hr => by
    rcases List.mem_cons.mp hr with rfl | hr
    · exact ⟨prior, f, hf⟩
    · exact h.mem r hr

/-- The numbers behind a state of the loop: records `new` closed since the call began with `recs0`, possibly
after an opening record, and the current filter. -/
def Numbers (N : Num V F R) (conse : Nat) (all : List Obs) (prior0 : Option F) (recs0 : List (Rec R)) (s : St F R) : Prop :=
  ∃ op new last, s.recs = recs0 ++ op ++ new ∧ (op = [] ∨ recs0 = [] ∧ ∃ r, op = [r] ∧ OpenedBy N conse all r) ∧
    ClosedChain N conse all prior0 new last ∧ (s.train = false → s.filt = last) ∧
    (s.train = true → ∃ nx f, s.obs[s.i]? = some nx ∧ s.filt = some f ∧ FilterOf N last s.seg nx f)

theorem step_numbers {N : Num V F R} (hN : Erases N) {conse mode0 : Nat} {G : Prop} {H0 X : List Obs}
    {all : List Obs} {prior0 : Option F} {recs0 : List (Rec R)} {s s' : St F R} (hc : 0 < conse) (g : G)
    (hall : (H0 ++ X).Sublist all)
    (inv : Inv G H0 X s) (h2 : s.i + conse + 1 ≤ s.obs.length) (hn : Numbers N conse all prior0 recs0 s)
    (h : step N conse mode0 s = .ok s') : Numbers N conse all prior0 recs0 s' := by
  obtain ⟨op, new, last, hrec, hop, hch, hf, ht⟩ := hn
  have hi : s.i < s.obs.length := by omega
  have hi1 : s.i + 1 < s.obs.length := by omega
  unfold step at h
  cases htr : s.train with
  | true =>
    simp only [htr, if_true] at h
    obtain ⟨nx, f, hnx, hff, hfo⟩ := ht htr
    have hnx' : s.obs[s.i] = nx := by
      rw [List.getElem?_eq_getElem hi] at hnx
      exact Option.some.inj hnx
    have hi2 : s.i + conse - 1 < s.obs.length := by omega
    have hdrop : s.obs.drop s.i = nx :: s.obs[s.i + 1] :: s.obs.drop (s.i + 2) := by
      rw [List.drop_eq_getElem_cons hi, List.drop_eq_getElem_cons hi1, hnx']
    have hasc : Asc (s.seg ++ [nx, s.obs[s.i + 1]]) := by
      have hs' : Asc (H0 ++ s.obs.take s.i ++ s.obs.drop s.i) := by simpa using inv.asc g
      rw [inv.tH htr, hdrop] at hs'
      refine hs'.sublist (List.Sublist.append ?_ ?_)
      · exact (List.sublist_append_right _ _).trans (List.sublist_append_right _ _)
      · exact ((List.nil_sublist _).cons_cons _).cons_cons _
    unfold step2 at h
    simp only [hff, chk_ok hi2, rd_ok hi, rd_ok hi1, bind, Except.bind] at h
    split at h
    · rename_i hch'
      cases h
      obtain ⟨c, rfl⟩ : ∃ c, conse = c + 1 := ⟨conse - 1, by omega⟩
      refine ⟨op, new ++ [(⟨s.tStart, (s.obs[s.i]).date, s.numObs, N.changeRec f s.numObs ((s.obs.drop s.i).take (c + 1)),
          s.pre, s.seg⟩ : Rec R)],
        some f, by simp only [hrec, List.append_assoc], hop, hch.snoc (f := f)
        ⟨nx, (s.obs.drop (s.i + 1)).take c, ?_, ?_, ?_, hfo, ?_, ?_⟩, fun _ => rfl, by simp⟩
      · simp; omega
      · simp only [hnx']
      · have h1 : (H0 ++ s.obs.take s.i ++ s.obs.drop s.i).Sublist all := by
          rw [List.append_assoc, List.take_append_drop]
          exact ((List.Sublist.refl _).append inv.sub).trans hall
        rw [inv.tH htr] at h1
        refine List.Sublist.trans (List.Sublist.append ?_ ?_) h1
        · exact (List.sublist_append_right _ _).trans (List.sublist_append_right _ _)
        · rw [List.drop_eq_getElem_cons hi, hnx']
          exact (List.take_sublist _ _).cons_cons _
      · rw [List.drop_eq_getElem_cons hi, List.take_succ_cons, hnx'] at hch'
        exact hch'
      · simp only
        rw [List.drop_eq_getElem_cons hi, List.take_succ_cons, hnx']
    · split at h
      · cases h
        refine ⟨op, new, last, hrec, hop, hch, by simp [htr], fun _ => ⟨s.obs[s.i + 1], _, ?_, rfl, ?_⟩⟩
        · simp only
          rw [List.getElem?_eraseIdx_of_ge (Nat.le_refl _), List.getElem?_eq_getElem hi1]
        · simp only [hnx']
          exact hfo.skip hN _ hasc
      · cases h
        refine ⟨op, new, last, hrec, hop, hch, by simp [htr], fun _ => ⟨s.obs[s.i + 1], _, ?_, rfl, ?_⟩⟩
        · simp only
          rw [List.getElem?_eq_getElem hi1]
        · simp only [hnx']
          exact hfo.snoc _
  | false =>
    simp only [htr, Bool.false_eq_true, if_false] at h
    have hst := inv.nstart htr
    have hs : s.iStart < s.obs.length := by omega
    have hlast := hf htr
    unfold trainStep at h
    simp only [rd_ok hs, rd_ok hi, bind, Except.bind] at h
    by_cases hg : (decide (s.iStart + MIN_OBS ≤ s.i + 1) && yearOrMore (s.obs[s.i].date - s.obs[s.iStart].date)) = true
    · simp only [hg, if_true] at h
      rcases step1_cases N hc s hst h2 (inv.nprev htr) (inv.ndense htr) (inv.nfirst htr) with
        ⟨s1, e, hI⟩ | ⟨s2, P, Q1, E, K, T, e, hC⟩ | ⟨e, hc6, hr⟩
      · simp only [e, Bool.not_false, if_true] at h
        cases h
        obtain ⟨e1, e2, e3, e4, e5, e6, e7, e8, e9, e10⟩ := hI.same
        refine ⟨op, new, last, by simp only [e5]; exact hrec, hop, hch, fun _ => ?_, ?_⟩
        · simp only [e2]; exact hlast
        · simp [e1, htr]
      · obtain ⟨e1, e2, e3, e4, e5, e6, e7, e8⟩ := hC.same
        have hl : s2.i + 1 < s2.obs.length := by
          rw [hC.i, hC.obs, hC.back]; simp; omega
        have hl' : s2.iStart < s2.obs.length := by
          rw [hC.start, hC.obs]; have := hC.long; simp; omega
        have hne : E ++ K ≠ [] := by
          intro e'; have := hC.long; simp at e'; rw [e'.2] at this; simp at this
        have hsl : slice s2.obs s2.iStart s2.i = E ++ K := by
          have := slice_window (P ++ Q1) (E ++ K) T hne
          rw [← hC.obs, ← hC.start] at this
          have hi' := hC.i
          rw [List.length_append, ← hC.start] at hi'
          rwa [show s2.iStart + (E ++ K).length - 1 = s2.i by omega] at this
        have hlong := hC.long
        have hasc2 : Asc (H0 ++ s2.obs) :=
          (inv.gasc g).sublist ((List.Sublist.refl _).append (hC.sub.trans inv.sub))
        rw [hC.obs] at hasc2
        have hEK : Asc (E ++ K) := hasc2.sublist (((List.sublist_append_right _ _).trans
          (List.sublist_append_left _ _)).trans (List.sublist_append_right _ _))
        have hyear : Year (E ++ K) := by
          obtain ⟨x, hx, y, hy, hxy⟩ := hC.year
          cases hq : E ++ K with
          | nil => exact absurd hq hne
          | cons q qs =>
            refine ⟨q, rfl, y, by rw [← hq]; exact List.mem_append_right _ (List.mem_of_getLast? hy), ?_⟩
            rw [hq] at hEK
            have := asc_head hEK x (by rw [← hq]; exact List.mem_append_right _ (List.mem_of_head? hx))
            omega
        simp only [e, Bool.not_true, Bool.false_eq_true, if_false, rd_ok hl, rd_ok hl', hsl] at h
        cases h
        have hfil : ∃ nx f, s2.obs[s2.i + 1]? = some nx ∧
            some (N.fit s2.filt (E ++ K) s2.obs[s2.i + 1]) = some f ∧ FilterOf N last (E ++ K) nx f := by
          refine ⟨_, _, List.getElem?_eq_getElem hl, rfl, (E ++ K).length, by simp; omega, Nat.le_refl _, ?_, ?_⟩
          · rw [List.take_length]; exact hyear
          · rw [List.take_length, List.drop_length, e2, hlast]; rfl
        rcases hC.recs with ⟨r1, _⟩ | ⟨r, r1, r2, _, _, _, _, r7, r8, _, _, r11, r12⟩
        · exact ⟨op, new, last, by simp only [r1]; exact hrec, hop, hch, by simp, fun _ => hfil⟩
        · rw [r1] at hrec
          have hnil := hrec.symm
          simp only [List.append_eq_nil_iff] at hnil
          obtain ⟨⟨h0, hopn⟩, hnew⟩ := hnil
          subst hopn hnew
          refine ⟨[r], [], last, by simp [r2, h0], .inr ⟨h0, r, rfl, ?_⟩, hch, by simp, fun _ => hfil⟩
          have hP : P.drop s.prevBreak = P := by
            have := inv.nH htr
            rw [r1] at this
            simp only [flat, List.flatMap_nil, List.append_eq_nil_iff, List.take_eq_nil_iff] at this
            rcases this.2 with h' | h'
            · rw [h', List.drop_zero]
            · rw [h'] at hi; simp at hi
          cases hq : E ++ K with
          | nil => exact absurd hq hne
          | cons q qs =>
            rw [hq] at r11 r12 hEK
            simp only [List.head?_cons, Option.map_some, Option.some.injEq] at r11
            have hs1 : (P ++ Q1 ++ (q :: qs)).Sublist all := by
              have h1 : (H0 ++ s2.obs).Sublist all := ((List.Sublist.refl _).append (hC.sub.trans inv.sub)).trans hall
              rw [hC.obs, hq] at h1
              exact ((List.sublist_append_left _ _).trans (List.sublist_append_right _ _)).trans h1
            refine ⟨q, K, r11, hC.long, ?_, ?_, ?_, ?_⟩
            · intro o ho
              rw [← r11]
              exact asc_head hEK o (by rw [← hq]; exact List.mem_append_right _ ho)
            · rw [r8, r7, hP]
              exact ((List.Sublist.refl _).append ((List.nil_sublist qs).cons_cons q)).trans hs1
            · rw [r8, r7, hP]
              refine ((List.Sublist.refl _).append ?_).trans hs1
              rw [← hq]
              exact List.sublist_append_right _ _
            · rw [r12, r8, r7, hP]
              rfl
      · simp [e] at h
    · simp only [hg] at h
      cases h
      exact ⟨op, new, last, hrec, hop, hch, fun _ => hlast, by simp [htr]⟩

theorem loop_numbers {N : Num V F R} (hN : Erases N) {conse mode0 : Nat} {G : Prop} {H0 X : List Obs}
    {all : List Obs} {prior0 : Option F} {recs0 : List (Rec R)} (hc : 0 < conse) (g : G)
    (hall : (H0 ++ X).Sublist all) :
    ∀ (k : Nat) (s s' : St F R), Inv G H0 X s → Numbers N conse all prior0 recs0 s →
      loop N conse mode0 k s = .ok s' → Numbers N conse all prior0 recs0 s'
  | 0, s, s', _, hn, e => by
    unfold loop at e
    split at e
    · cases e
    · cases e; exact hn
  | k + 1, s, s', inv, hn, e => by
    unfold loop at e
    by_cases hg : s.i + conse + 1 ≤ s.obs.length
    · rw [if_pos hg] at e
      rcases step_inv N (mode0 := mode0) hc inv hg with ⟨s1, e1, inv1, _⟩ | ⟨e1, _⟩
      · simp only [e1, bind, Except.bind] at e
        exact loop_numbers hN hc g hall k s1 s' inv1 (step_numbers hN hc g hall inv hg hn e1) e
      · simp [e1, bind, Except.bind] at e
    · rw [if_neg hg] at e
      cases e; exact hn

end Pycold.Sccd
