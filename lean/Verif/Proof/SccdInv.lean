import Verif.Proof.SccdStep
import Verif.Spec.Sccd
/-!
# Invariant of the S-CCD loop
-/
namespace Pycold.Sccd
variable {V F R M : Type}

theorem flat_append (a b : List (Rec R)) : flat (a ++ b) = flat a ++ flat b := by
  simp [flat]

theorem flat_single (r : Rec R) : flat [r] = r.lead ++ r.span := by simp [flat]

theorem Chrono.mono {rest rest' : List Obs} (h : ∀ o ∈ rest', o ∈ rest) :
    ∀ {rs : List (Rec R)}, Chrono rest rs → Chrono rest' rs
  | [], _ => trivial
  | _ :: _, ⟨h1, h2, h3⟩ =>
    ⟨h1, fun o ho => h2 o (by
      rcases List.mem_append.mp ho with h' | h'
      · exact List.mem_append_left _ h'
      · exact List.mem_append_right _ (h o h')), Chrono.mono h h3⟩

theorem Chrono.snoc {rest : List Obs} {r : Rec R} (h1 : ∀ o ∈ r.lead ++ r.span, o.date < r.tBreak)
    (h2 : ∀ o ∈ rest, r.tBreak ≤ o.date) :
    ∀ {rs : List (Rec R)}, Chrono (r.lead ++ r.span ++ rest) rs → Chrono rest (rs ++ [r])
  | [], _ => ⟨h1, by simpa [flat] using h2, trivial⟩
  | q :: qs, ⟨g1, g2, g3⟩ => by
    refine ⟨g1, ?_, Chrono.snoc h1 h2 g3⟩
    intro o ho
    apply g2
    have ho' : o ∈ flat (qs ++ [r]) ++ rest := ho
    rw [flat_append, flat_single] at ho'
    simpa using ho'

theorem RecsOk.snoc {recs : List (Rec R)} {r : Rec R} (h : RecsOk recs) (hr : Regular r) :
    RecsOk (recs ++ [r]) := by
  cases recs with
  | nil => exact ⟨by simpa using .inl hr, by simp⟩
  | cons q qs =>
    refine ⟨by simpa using h.1, ?_⟩
    intro x hx
    simp at hx
    rcases hx with hx | rfl
    · exact h.2 x (by simpa using hx)
    · exact hr

theorem Asc.sublist {a b : List Obs} (h : a.Sublist b) (hb : Asc b) : Asc a := List.Pairwise.sublist h hb

/-- `H0`: what earlier records and the loaded model account for; `X`: the observations given to the
loop. -/
structure Inv (G : Prop) (H0 X : List Obs) (s : St F R) : Prop where
  gasc : G → Asc (H0 ++ X)
  sub : s.obs.Sublist X
  perm : X.Perm (s.removed ++ s.obs)
  recsOk : G → RecsOk s.recs
  chronoN : G → s.train = false → Chrono (s.obs.drop s.prevBreak) s.recs
  chronoT : G → s.train = true → Chrono (s.pre ++ s.seg ++ s.obs.drop s.i) s.recs
  yearR : G → ∀ r ∈ s.recs.tail, Year r.span
  nstart : s.train = false → s.iStart ≤ s.i
  nprev : s.train = false → s.prevBreak ≤ s.iStart
  ndense : s.train = false → s.recs = [] → s.iDense ≤ s.iStart
  nfirst : s.train = false → s.recs = [] → s.prevBreak ≤ s.iDense
  nH : s.train = false → H0 ++ s.obs.take s.prevBreak = flat s.recs
  ngh : s.train = false → s.pre = [] ∧ s.seg = []
  tfilt : s.train = true → s.filt.isSome
  tprev : s.train = true → s.prevBreak ≤ s.i
  tseg : s.train = true → G → SegOk s.seg s.tStart s.numObs
  tyear : s.train = true → G → Year s.seg
  tB : s.train = true → G → s.recs ≠ [] → H0 ++ s.obs.take s.prevBreak = flat s.recs ∨
    (s.changed = false ∧ ∃ A, A ≠ [] ∧ H0 = flat s.recs ++ A)
  tH : s.train = true → H0 ++ s.obs.take s.i = flat s.recs ++ (s.pre ++ s.seg)

theorem Inv.asc {G : Prop} {H0 X : List Obs} {s : St F R} (h : Inv G H0 X s) (ha : G) :
    Asc (H0 ++ s.obs) := (h.gasc ha).sublist ((List.Sublist.refl _).append h.sub)

theorem asc_split {A B : List Obs} (h : Asc (A ++ B)) : ∀ a ∈ A, ∀ b ∈ B, a.date < b.date :=
  (List.pairwise_append.mp h).2.2

theorem asc_head {o : Obs} {B : List Obs} (h : Asc (o :: B)) : ∀ b ∈ o :: B, o.date ≤ b.date := by
  intro b hb
  rcases List.mem_cons.mp hb with rfl | hb
  · omega
  · exact Int.le_of_lt ((List.pairwise_cons.mp h).1 b hb)

theorem drop_eraseIdx (l : List Obs) (i : Nat) : (l.eraseIdx i).drop i = l.drop (i + 1) := by
  rw [List.eraseIdx_eq_take_drop_succ]
  by_cases h : i ≤ l.length
  · rw [List.drop_append_of_le_length (by simp; omega), List.drop_of_length_le (by simp; omega)]
    simp
  · rw [List.drop_of_length_le (by simp; omega), List.drop_of_length_le (by omega)]

theorem take_eraseIdx (l : List Obs) (i : Nat) : (l.eraseIdx i).take i = l.take i := by
  rw [List.eraseIdx_eq_take_drop_succ]
  by_cases h : i ≤ l.length
  · rw [List.take_append_of_le_length (by simp; omega), List.take_take, Nat.min_self]
  · rw [List.drop_of_length_le (by omega)]; simp [List.take_take]

theorem perm_eraseIdx {l : List Obs} {i : Nat} (h : i < l.length) : l.Perm (l[i] :: l.eraseIdx i) := by
  rw [List.eraseIdx_eq_take_drop_succ]
  conv => lhs; rw [← List.take_append_drop i l, List.drop_eq_getElem_cons h]
  exact List.perm_middle

theorem step2_inv (N : Num V F R) {conse mode0 : Nat} {G : Prop} {H0 X : List Obs} {s : St F R} (hc : 0 < conse)
    (inv : Inv G H0 X s) (ht : s.train = true) (h2 : s.i + conse + 1 ≤ s.obs.length) :
    ∃ s', step2 N conse mode0 s = .ok s' ∧ Inv G H0 X s' ∧ s'.obs.drop s'.i = s.obs.drop (s.i + 1) := by
  obtain ⟨f, hf⟩ := Option.isSome_iff_exists.mp (inv.tfilt ht)
  have hi : s.i < s.obs.length := by omega
  have hi1 : s.i + 1 < s.obs.length := by omega
  have hi2 : s.i + conse - 1 < s.obs.length := by omega
  have hdrop : s.obs.drop s.i = s.obs[s.i] :: s.obs.drop (s.i + 1) := List.drop_eq_getElem_cons hi
  unfold step2
  simp only [hf, chk_ok hi2, rd_ok hi, bind, Except.bind]
  split
  · refine ⟨_, rfl, ?_, rfl⟩
    have hreg : G → Regular ({ tStart := s.tStart, tBreak := s.obs[s.i].date, numObs := s.numObs, body := N.changeRec f s.numObs (List.take conse (List.drop s.i s.obs)), lead := s.pre, span := s.seg } : Rec R) := inv.tseg ht
    exact
      { gasc := inv.gasc, sub := inv.sub, perm := inv.perm, recsOk := fun g => (inv.recsOk g).snoc (hreg g)
        chronoN := by
          intro ha _
          have hs := inv.asc ha
          have hs' : Asc (H0 ++ s.obs.take s.i ++ s.obs.drop s.i) := by simpa using hs
          rw [inv.tH ht] at hs'
          refine Chrono.snoc ?_ ?_ (inv.chronoT ha ht)
          · intro o ho
            exact asc_split hs' o (List.mem_append_right _ ho) _ (List.drop_eq_getElem_cons hi ▸ List.mem_cons_self)
          · have := hs'.sublist (List.sublist_append_right _ _)
            rw [hdrop] at this
            intro o ho
            simp only [hdrop] at ho
            exact asc_head this o ho
        chronoT := by simp
        yearR := by
          intro ha r hr
          cases hq : s.recs with
          | nil => simp [hq] at hr
          | cons q qs =>
            simp [hq] at hr
            rcases hr with hr | rfl
            · exact inv.yearR ha r (by simpa [hq] using hr)
            · exact inv.tyear ht ha
        nstart := by simp
        nprev := by simp
        ndense := by simp
        nfirst := by simp
        nH := by
          intro _
          simp only [flat_append, flat_single]
          exact inv.tH ht
        ngh := by simp
        tfilt := by simp
        tprev := by simp
        tseg := by simp
        tyear := by simp
        tB := by simp
        tH := by simp }
  · simp only [rd_ok hi1]
    split
    · refine ⟨_, rfl, ?_, by simp only [drop_eraseIdx]⟩
      exact
        { gasc := inv.gasc, sub := (List.eraseIdx_sublist _ _).trans inv.sub
          perm := by
            refine inv.perm.trans ?_
            simp only [List.append_assoc]
            exact List.Perm.append_left _ (perm_eraseIdx hi)
          recsOk := inv.recsOk
          chronoN := by simp [ht]
          chronoT := by
            intro ha _
            refine (inv.chronoT ha ht).mono ?_
            intro o ho
            simp only [drop_eraseIdx, hdrop] at ho ⊢
            simp only [List.mem_append, List.mem_cons] at ho ⊢
            rcases ho with ho | ho <;> simp [ho]
          yearR := inv.yearR
          nstart := by simp [ht]
          nprev := by simp [ht]
          ndense := by simp [ht]
          nfirst := by simp [ht]
          nH := by simp [ht]
          ngh := by simp [ht]
          tfilt := by simp
          tprev := by intro _; exact inv.tprev ht
          tseg := by intro _; exact inv.tseg ht
          tyear := by intro _; exact inv.tyear ht
          tB := by
            intro _ g hr
            have hp := inv.tprev ht
            have : (s.obs.eraseIdx s.i).take s.prevBreak = s.obs.take s.prevBreak := by
              have := congrArg (List.take s.prevBreak) (take_eraseIdx s.obs s.i)
              simpa [List.take_take, Nat.min_eq_left hp] using this
            simp only [this]
            exact inv.tB ht g hr
          tH := by
            intro _
            simp only [take_eraseIdx]
            exact inv.tH ht }
    · refine ⟨_, rfl, ?_, rfl⟩
      have hsg := inv.tseg ht
      have hne : G → s.seg ≠ [] := by intro g h; have := (hsg g).long; simp [h] at this
      have hhead : G → (s.seg ++ [s.obs[s.i]]).head? = s.seg.head? := by
        intro g
        cases hq : s.seg with
        | nil => exact absurd hq (hne g)
        | cons q qs => rfl
      exact
        { gasc := inv.gasc, sub := inv.sub, perm := inv.perm, recsOk := inv.recsOk
          chronoN := by simp [ht]
          chronoT := by
            intro ha _
            have := inv.chronoT ha ht
            rw [hdrop] at this
            simpa using this
          yearR := inv.yearR
          nstart := by simp [ht]
          nprev := by simp [ht]
          ndense := by simp [ht]
          nfirst := by simp [ht]
          nH := by simp [ht]
          ngh := by simp [ht]
          tfilt := by simp
          tprev := by intro _; have := inv.tprev ht; simp only; omega
          tseg := by
            intro _ g
            refine ⟨?_, ?_, ?_⟩
            · have := (hsg g).count; simp; omega
            · have := (hsg g).long; simp; omega
            · simp only [hhead g]; exact (hsg g).first
          tyear := by
            intro _ ha
            obtain ⟨a, h1, b, h2, h3⟩ := inv.tyear ht ha
            exact ⟨a, by simp only [hhead ha]; exact h1, b, List.mem_append_left _ h2, h3⟩
          tB := fun _ g hr => inv.tB ht g hr
          tH := by
            intro _
            have := inv.tH ht
            rw [List.take_succ_eq_append_getElem hi, ← List.append_assoc, this]
            simp }

theorem trainStep_incomplete {G : Prop} {H0 X : List Obs} {s s1 : St F R} (hc : conse0 < s.obs.length - s.i)
    (inv : Inv G H0 X s) (ht : s.train = false) (h : Incomplete s s1) :
    Inv G H0 X { s1 with i := s1.i + 1 } := by
  obtain ⟨e1, e2, e3, e4, e5, e6, e7, e8, e9, e10⟩ := h.same
  have hst := h.start
  have hpr := inv.nprev ht
  have htake : s1.obs.take s.prevBreak = s.obs.take s.prevBreak := by
    have := congrArg (List.take s.prevBreak) h.front
    simpa [List.take_take, Nat.min_eq_left hpr] using this
  exact
    { gasc := inv.gasc, sub := h.sub.trans inv.sub
      perm := inv.perm.trans h.perm
      recsOk := by simpa [e5] using inv.recsOk
      chronoN := by
        intro ha _
        simp only [e5, e10]
        refine (inv.chronoN ha ht).mono ?_
        intro o ho
        have hs : (s1.obs.take s.prevBreak ++ s1.obs.drop s.prevBreak).Sublist
            (s.obs.take s.prevBreak ++ s.obs.drop s.prevBreak) := by simpa using h.sub
        rw [htake] at hs
        exact ((List.append_sublist_append_left _).mp hs).subset ho
      chronoT := by simp [e1, ht]
      yearR := by simpa [e5] using inv.yearR
      nstart := by intro _; exact hst.2
      nprev := by intro _; simp only [e10]; omega
      ndense := by intro _ hr; exact h.dense.2 (by simpa [e5] using hr)
      nfirst := by
        intro _ hr
        have := inv.nfirst ht (by simpa [e5] using hr)
        have := h.dense.1
        simp only [e10]; omega
      nH := by intro _; simp only [e10, e5, htake]; exact inv.nH ht
      ngh := by intro _; simp only [e8, e9]; exact inv.ngh ht
      tfilt := by simp [e1, ht]
      tprev := by simp [e1, ht]
      tseg := by simp [e1, ht]
      tyear := by simp [e1, ht]
      tB := by simp [e1, ht]
      tH := by simp [e1, ht] }

theorem trainStep_complete (N : Num V F R) {conse : Nat} {G : Prop} {H0 X : List Obs} {s s2 : St F R}
    {P Q1 E K T : List Obs} (inv : Inv G H0 X s) (ht : s.train = false)
    (h : Complete N conse s s2 P Q1 E K T) (f : Option F) (hf : f.isSome) (hH : s.recs = [] → H0 = []) :
    ∀ a, (E ++ K).head? = some a →
    Inv G H0 X { s2 with filt := f, numObs := (s2.i : Int) - s2.iStart + 1, tStart := a.date,
                         i := s2.i + 1, train := true, seg := E ++ K } := by
  intro a hhd
  have hpb : s.prevBreak ≤ P.length := by
    rw [h.plen]; split
    · rename_i h'; exact inv.nfirst ht (by simpa using h')
    · exact Nat.le_refl _
  have htk : s.obs.take s.prevBreak = P.take s.prevBreak := by
    rw [h.front, List.take_take, Nat.min_eq_left]
    rw [← h.plen]; exact hpb
  have hPP : P.take s.prevBreak ++ P.drop s.prevBreak = P := List.take_append_drop _ _
  have hPP' : ∀ L, P ++ L = P.take s.prevBreak ++ (P.drop s.prevBreak ++ L) := by
    intro L; rw [← List.append_assoc, hPP]
  have hdr : (P ++ Q1).drop s.prevBreak = P.drop s.prevBreak ++ Q1 :=
    List.drop_append_of_le_length hpb
  have hnH := inv.nH ht
  rw [htk] at hnH
  have hasc : G → Asc (H0 ++ s2.obs) := fun ha =>
    (inv.gasc ha).sublist ((List.Sublist.refl _).append (h.sub.trans inv.sub))
  have htake : s2.obs.take (s2.i + 1) = P ++ Q1 ++ (E ++ K) := by
    rw [h.i, h.obs, List.take_left]
  have hdrop : s2.obs.drop (s2.i + 1) = T := by
    rw [h.i, h.obs, List.drop_left]
  have hlen : s2.i + 1 = P.length + Q1.length + (E.length + K.length) := by
    have := h.i; simp at this; omega
  have hst : s2.iStart = P.length + Q1.length := by have := h.start; simpa using this
  have hyear : G → Year (E ++ K) := by
    intro ha
    obtain ⟨x, hx, y, hy, hxy⟩ := h.year
    have hs := hasc ha
    rw [h.obs] at hs
    have hs' : Asc (E ++ K) := hs.sublist (by
      refine List.Sublist.trans ?_ (List.sublist_append_right _ _)
      refine List.Sublist.trans ?_ (List.sublist_append_left _ _)
      exact List.sublist_append_right _ _)
    refine ⟨a, hhd, y, List.mem_append_right _ (List.mem_of_getLast? hy), ?_⟩
    have hax : a.date ≤ x.date := by
      cases hq : E ++ K with
      | nil => simp [hq] at hhd
      | cons q qs =>
        rw [hq] at hs' hhd
        simp at hhd
        subst hhd
        apply asc_head hs'
        rw [← hq]
        exact List.mem_append_right _ (List.mem_of_head? hx)
    omega
  have hKl := h.long
  have hseg : SegOk (E ++ K) a.date ((s2.i : Int) - s2.iStart + 1) :=
    ⟨by simp; omega, by simp; omega, by simp [hhd]⟩
  rcases h.recs with ⟨r1, r2, r3, _⟩ | ⟨r, r1, r2, r3, r4, r5, r6, r7, r8, r9, r10, r11, _⟩
  · exact
      { gasc := inv.gasc, sub := h.sub.trans inv.sub
        perm := inv.perm.trans h.perm
        recsOk := by simpa [r1] using inv.recsOk
        chronoN := by simp
        chronoT := by
          intro ha _
          simp only [r1, hdrop, r3]
          refine (inv.chronoN ha ht).mono ?_
          intro o ho
          have hs : s2.obs.Sublist (s.obs.take s.prevBreak ++ s.obs.drop s.prevBreak) := by
            simpa using h.sub
          rw [h.obs, htk] at hs
          have heq : P ++ Q1 ++ (E ++ K) ++ T =
              P.take s.prevBreak ++ ((P ++ Q1).drop s.prevBreak ++ (E ++ K) ++ T) := by
            rw [hdr]
            simpa using hPP' (Q1 ++ (E ++ (K ++ T)))
          rw [heq] at hs
          exact ((List.append_sublist_append_left _).mp hs).subset ho
        yearR := by simpa [r1] using inv.yearR
        nstart := by simp
        nprev := by simp
        ndense := by simp
        nfirst := by simp
        nH := by simp
        ngh := by simp
        tfilt := by intro _; exact hf
        tprev := by intro _; simp only [r2]; omega
        tseg := by intro _ _; exact hseg
        tyear := by intro _; exact hyear
        tB := by
          intro _ _ hr
          left
          simp only [r1] at hr ⊢
          have hpl : P.length = s.prevBreak := by
            have := h.plen
            rw [if_neg (by simpa using hr)] at this
            exact this
          rw [r2, h.obs, List.append_assoc, List.append_assoc, List.take_left, ← hnH]
          rw [List.take_of_length_le (by omega)]
        tH := by
          intro _
          simp only [htake, r1, r3, ← hnH]
          rw [hdr]
          simpa using hPP' (Q1 ++ (E ++ K)) }
  · have hH0 : H0 = [] := hH r1
    have hPtk : P.take s.prevBreak = [] := by
      rw [hH0, r1] at hnH
      simpa [flat] using hnH
    have hPdr : P.drop s.prevBreak = P := by
      conv => rhs; rw [← hPP, hPtk, List.nil_append]
    rw [hPdr] at r7
    exact
      { gasc := inv.gasc, sub := h.sub.trans inv.sub
        perm := inv.perm.trans h.perm
        recsOk := by
          intro _
          rw [r2]
          refine ⟨?_, by simp⟩
          intro x hx
          simp at hx
          subst hx
          refine .inr ⟨by rw [r9, r8], by rw [r8]; exact r5, ?_⟩
          rw [r7, r8, ← r10, h.obs]
          have : P ++ Q1 ≠ [] := by intro e; simp at e; rw [e.2] at r5; simp at r5
          cases hq : P ++ Q1 with
          | nil => exact absurd hq this
          | cons q qs => rfl
        chronoN := by simp
        chronoT := by
          intro ha _
          simp only [r2, hdrop, r4]
          have hs := hasc ha
          rw [h.obs, hH0, List.nil_append, List.append_assoc] at hs
          cases hq : E ++ K with
          | nil => simp [hq] at hhd
          | cons q qs =>
            rw [hq] at hs r11
            simp at r11
            refine ⟨?_, ?_, trivial⟩
            · intro o ho
              rw [r7, r8] at ho
              rw [← r11]
              exact asc_split hs o ho q (by simp)
            · intro o ho
              rw [← r11]
              have hs2 := hs.sublist (List.sublist_append_right _ _)
              rw [List.cons_append] at hs2
              apply asc_head hs2
              simpa [flat] using ho
        yearR := by simp [r2]
        nstart := by simp
        nprev := by simp
        ndense := by simp
        nfirst := by simp
        nH := by simp
        ngh := by simp
        tfilt := by intro _; exact hf
        tprev := by intro _; simp only [r3]; omega
        tseg := by intro _ _; exact hseg
        tyear := by intro _; exact hyear
        tB := by
          intro _ _ _
          left
          simp only [r3]
          rw [h.start, h.obs, List.append_assoc (P ++ Q1), List.take_left, r2, flat_single, r7, r8, hH0]
          rfl
        tH := by
          intro _
          simp only [htake, r2, r4, hH0, flat_single, r7, r8]
          simp }

/-- One iteration keeps the invariant and consumes exactly one observation; the only failure is the
negative index of the opening record, impossible for `conse ≤ 6`. -/
theorem step_inv (N : Num V F R) {conse mode0 : Nat} {G : Prop} {H0 X : List Obs} {s : St F R} (hc : 0 < conse)
    (inv : Inv G H0 X s) (h2 : s.i + conse + 1 ≤ s.obs.length) :
    (∃ s', step N conse mode0 s = .ok s' ∧ Inv G H0 X s' ∧ s'.obs.drop s'.i = s.obs.drop (s.i + 1)) ∨
    (step N conse mode0 s = .error .oob ∧ 6 < conse ∧ s.recs = [] ∧ s.train = false) := by
  unfold step
  cases ht : s.train with
  | true => exact .inl (by simpa using step2_inv N hc inv ht h2)
  | false =>
    have hi : s.i < s.obs.length := by omega
    have hst := inv.nstart ht
    have hs : s.iStart < s.obs.length := by omega
    simp only [Bool.false_eq_true, if_false]
    unfold trainStep
    simp only [rd_ok hs, rd_ok hi, bind, Except.bind]
    by_cases hg : (decide (s.iStart + MIN_OBS ≤ s.i + 1) && yearOrMore (s.obs[s.i].date - s.obs[s.iStart].date)) = true
    · simp only [hg, if_true]
      rcases step1_cases N hc s hst h2 (inv.nprev ht) (inv.ndense ht) (inv.nfirst ht) with
        ⟨s1, e, hI⟩ | ⟨s2, P, Q1, E, K, T, e, hC⟩ | ⟨e, hc6, hr⟩
      · refine .inl ⟨{ s1 with i := s1.i + 1 }, by simp [e],
          trainStep_incomplete (conse0 := 0) (by omega) inv ht hI, hI.back⟩
      · have hl : s2.i + 1 < s2.obs.length := by
          rw [hC.i, hC.obs, hC.back]; simp; omega
        have hl' : s2.iStart < s2.obs.length := by
          rw [hC.start, hC.obs]; have := hC.long; simp; omega
        have hne : E ++ K ≠ [] := by
          intro e'; have := hC.long; simp at e'; rw [e'.2] at this; simp at this
        have hsl : slice s2.obs s2.iStart s2.i = E ++ K := by
          have := slice_window (P ++ Q1) (E ++ K) T hne
          rw [← hC.obs, ← hC.start] at this
          have hi' := hC.i
          rw [List.length_append, ← hC.start] at hi'
          rwa [show s2.iStart + (E ++ K).length - 1 = s2.i by omega] at this
        have hhd : (E ++ K).head? = some (s2.obs[s2.iStart]'hl') := by
          rw [← List.getElem?_eq_getElem hl', hC.start]
          simp only [hC.obs]
          rw [List.append_assoc (P ++ Q1), List.getElem?_append_right (Nat.le_refl _), Nat.sub_self,
            ← List.head?_eq_getElem?]
          cases hq : E ++ K with
          | nil => exact absurd hq hne
          | cons q qs => rfl
        refine .inl ⟨_, by simp only [e, Bool.not_true, Bool.false_eq_true, if_false, rd_ok hl, rd_ok hl', hsl]; rfl,
          trainStep_complete N inv ht hC _ rfl (fun h => by
            have := inv.nH ht; rw [h] at this; simp [flat] at this; exact this.1) _ hhd, ?_⟩
        simp only
        rw [hC.i, hC.obs, List.drop_left, hC.back]
      · exact .inr ⟨by simp [e], hc6, hr, trivial⟩
    · have self : Incomplete s s :=
        ⟨by simp, ⟨by omega, by omega⟩, ⟨by omega, inv.ndense ht⟩, rfl, rfl, rfl, List.Sublist.refl _,
          List.Perm.refl _⟩
      simp only [hg]
      exact .inl ⟨_, rfl, trainStep_incomplete (conse0 := 0) (by omega) inv ht self, rfl⟩

end Pycold.Sccd
