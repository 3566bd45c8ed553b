import Verif.Proof.SccdMon
/-!
# S-CCD: breaks are confirmed; breaks are more than a year apart
-/
namespace Pycold.Sccd
open Spec
variable {V F R M : Type}

theorem allAbove_all (N : Num V F R) (ht : ∀ a b c, N.lt a b = false → N.lt b c = false → N.lt a c = false)
    (f : F) (n : Int) : ∀ (win : List Obs) (m : V), allAbove N f n m win = true →
    ∀ o ∈ win, N.lt (N.mag f n o) N.tcg = false
  | [], _, _, o, ho => by simp at ho
  | o :: os, m, h, x, hx => by
    unfold allAbove at h
    simp only at h
    by_cases hl : N.lt (N.mag f n o) m = true
    · simp only [hl, if_true] at h
      by_cases hc : N.lt (N.mag f n o) N.tcg = true
      · simp [hc] at h
      · have hc' : N.lt (N.mag f n o) N.tcg = false := by simpa using hc
        rw [if_neg hc] at h
        rcases List.mem_cons.mp hx with rfl | hx
        · exact hc'
        · exact allAbove_all N ht f n os _ h x hx
    · simp only [hl] at h
      by_cases hc : N.lt m N.tcg = true
      · simp [hc] at h
      · have hc' : N.lt m N.tcg = false := by simpa using hc
        have hl' : N.lt (N.mag f n o) m = false := by simpa using hl
        rcases List.mem_cons.mp hx with rfl | hx
        · exact ht _ _ _ hl' hc'
        · refine allAbove_all N ht f n os m ?_ x hx
          simpa [hc'] using h

theorem step_confirm (N : Num V F R) (ht : ∀ a b c, N.lt a b = false → N.lt b c = false → N.lt a c = false)
    {conse mode0 : Nat} {G : Prop} {H0 X : List Obs} {s s' : St F R} (hc : 0 < conse)
    (inv : Inv G H0 X s) (h2 : s.i + conse + 1 ≤ s.obs.length) (h : step N conse mode0 s = .ok s') :
    s'.recs = s.recs ∨ (s.recs = [] ∧ ∃ r, s'.recs = [r]) ∨
      ∃ r, s'.recs = s.recs ++ [r] ∧ Confirmed N conse X r := by
  have d := step_delta N hc inv h2 h
  cases htr : s.train with
  | false =>
    rcases d.act with ⟨_, _, _, hr⟩ | ⟨c, _⟩
    · by_cases hne : s.recs = []
      · rcases d.grow with e | ⟨r, e⟩
        · exact .inl e
        · exact .inr (.inl ⟨hne, r, by rw [e, hne]; rfl⟩)
      · exact .inl (hr hne)
    · rw [htr] at c; simp at c
  | true =>
    unfold step at h
    rw [if_pos htr] at h
    unfold step2 at h
    cases hff : s.filt with
    | none => simp [hff] at h
    | some f =>
      simp only [hff, bind, Except.bind] at h
      rw [chk_ok (by omega), rd_ok (show s.i < s.obs.length by omega), rd_ok (show s.i + 1 < s.obs.length by omega)] at h
      simp only at h
      by_cases hx : isChange N f s.numObs ((s.obs.drop s.i).take conse) = true
      · simp only [hx, if_true] at h
        cases h
        have hi : s.i < s.obs.length := by omega
        simp only [isChange, Bool.and_eq_true, Bool.not_eq_true'] at hx
        refine .inr (.inr ⟨_, rfl, f, s.numObs, (s.obs.drop s.i).take conse, ?_, ?_, ?_, ?_, hx.2, rfl, rfl⟩)
        · exact ((List.take_sublist _ _).trans (List.drop_sublist _ _)).trans inv.sub
        · simp; omega
        · cases conse with
          | zero => omega
          | succ c => rw [List.drop_eq_getElem_cons hi, List.take_succ_cons]; rfl
        · exact allAbove_all N ht f s.numObs _ _ hx.1
      · simp only [hx, Bool.false_eq_true, if_false] at h
        by_cases hv : N.lt N.tmax (N.mag f s.numObs s.obs[s.i]) = true
        · simp only [hv, if_true] at h
          cases h; exact .inl rfl
        · simp only [hv, Bool.false_eq_true, if_false] at h
          cases h; exact .inl rfl

/-- New records of a run: the first of the series may be an opening record, the others are confirmed. -/
theorem loop_confirm (N : Num V F R) (ht : ∀ a b c, N.lt a b = false → N.lt b c = false → N.lt a c = false)
    {conse mode0 : Nat} {G : Prop} {H0 X : List Obs} (hc : 0 < conse) :
    ∀ (k : Nat) (s s' : St F R), Inv G H0 X s → loop N conse mode0 k s = .ok s' →
      ∃ new, s'.recs = s.recs ++ new ∧
        ∀ r ∈ (if s.recs = [] then new.tail else new), Confirmed N conse X r
  | 0, s, s', inv, e => by
    unfold loop at e
    split at e
    · cases e
    · cases e; exact ⟨[], by simp, by simp⟩
  | k + 1, s, s', inv, e => by
    unfold loop at e
    by_cases hg : s.i + conse + 1 ≤ s.obs.length
    · rw [if_pos hg] at e
      rcases step_inv N (mode0 := mode0) hc inv hg with ⟨s1, e1, inv1, _⟩ | ⟨e1, _⟩
      · simp only [e1, bind, Except.bind] at e
        obtain ⟨new, h1, h2⟩ := loop_confirm N ht hc k s1 s' inv1 e
        rcases step_confirm N ht hc inv hg e1 with h | ⟨h0, r, h⟩ | ⟨r, h, hr⟩
        · exact ⟨new, by rw [h1, h], by rw [h] at h2; exact h2⟩
        · refine ⟨r :: new, by rw [h1, h, h0]; rfl, ?_⟩
          rw [if_neg (by rw [h]; simp)] at h2
          rw [if_pos h0]; exact h2
        · refine ⟨r :: new, by rw [h1, h]; simp, ?_⟩
          rw [if_neg (by rw [h]; simp)] at h2
          intro x hx
          have : x ∈ r :: new := by
            split at hx
            · exact List.mem_cons_of_mem _ hx
            · exact hx
          rcases List.mem_cons.mp this with rfl | h'
          · exact hr
          · exact h2 x h'
      · simp [e1, bind, Except.bind] at e
    · rw [if_neg hg] at e
      cases e; exact ⟨[], by simp, by simp⟩

theorem confirm_call (E : Env V F R M)
    (ht : ∀ rm a b c, (E.num rm).lt a b = false → (E.num rm).lt b c = false → (E.num rm).lt a c = false)
    {p q : Pack F R M} (h : Promise E.conse p) (hc : 0 < E.conse)
    (hc8 : E.conse ≤ 8) (model : Option (Model F)) (hmod : p.mode ≠ 0 → model = p.model)
    (scenes : List Scene) (hq : ∀ o ∈ scenes, KnownQa o.qa)
    (e : (sccd E { p with model := model } scenes >>= packOut) = .ok q) :
    ∃ new, q.recs = p.recs ++ new ∧ ∀ r ∈ (if p.recs = [] then new.tail else new),
      Confirmed (E.num q.minRmse) E.conse
        (append (pending p) (fresh E.bC2 (snowBranch E p.mode scenes) scenes)) r := by
  have hm := h.modes
  have hst : stored p.mode model p.queue = .ok (pending p) := by
    have := stored_ok h
    by_cases h0 : p.mode = 0
    · simp [stored, h0, isQueueMode, isMonitorMode, pending]
    · rw [hmod h0]; exact this
  rw [sccd_eq E { p with model := model } scenes hm hq hst] at e
  simp only at e
  obtain ⟨ys, hys, hsub⟩ := append_prefix (fresh E.bC2 (snowBranch E p.mode scenes) scenes) (pending p)
  rw [hys] at e ⊢
  by_cases hb : snowBranch E p.mode scenes = true
  · have hs : p.mode = 0 ∨ p.mode = 3 ∨ p.mode = 4 := by
      simp only [snowBranch] at hb
      by_cases h0 : p.mode = 0
      · exact .inl h0
      · simp [h0] at hb
        exact .inr hb
    obtain ⟨out, eo, hr, hrm, hrn, hcase⟩ := snow_cases (E.num p.minRmse) h model hmod hs ys
    simp only [hb, if_true, eo, bind, Except.bind] at e
    have : q.recs = out.recs := by
      rcases hcase with ⟨e4, _⟩ | ⟨e3, _⟩
      · rw [packOut_que (by simp only; omega)] at e; cases e; rfl
      · rw [packOut_mon (by simp only; omega)] at e; cases e; rfl
    exact ⟨[], by rw [this, hr]; simp, by simp⟩
  · have hns : p.mode ≠ 3 ∧ p.mode ≠ 4 := by
      constructor <;> intro e <;> simp [snowBranch, e] at hb
    have hb' : snowBranch E p.mode scenes = false := by simpa using hb
    simp only [hb', Bool.false_eq_true, if_false] at e
    by_cases hl : (pending p ++ ys).length > (pending p).length
    · simp only [hl, if_true] at e
      have g := given_false h hc8 hns model hmod ys
      generalize (if (p.recs.isEmpty && decide (p.mode = 0)) = true then E.variogram (pending p ++ ys) else p.minRmse) = rm at e
      rcases standard_cases (E.num rm) p.queue hc g with
        ⟨out, s, s0, eo, e0, eL, inv, run, hdr, hsh, res⟩ | ⟨eo, _⟩
      · simp only [eo, bind, Except.bind] at e
        obtain ⟨s0', e0', inv0, o0, i0, r0, m0, c0, t0, p0⟩ := initSt_inv g
        rw [e0] at e0'
        cases e0'
        have hmr := (packOut_fields e).2.1
        simp only at hmr
        have hrq : q.recs = out.recs := by
          have hmo := res.modes
          have hm2 := res.from2
          simp only [List.mem_cons, List.not_mem_nil, or_false] at hmo hm
          by_cases h1 : out.mode % 10 = 1
          · rw [packOut_mon (by simp only; omega)] at e; cases e; rfl
          · by_cases h5 : out.mode = 5
            · rw [packOut_five (by simp only; omega)] at e; cases e; rfl
            · rw [packOut_que (by simp only; omega)] at e; cases e; rfl
        obtain ⟨new, h1, h2⟩ := loop_confirm (E.num rm) (ht rm) hc _ s0 s inv0 eL
        rw [hrq, res.recs, hmr]
        rw [r0] at h1 h2
        exact ⟨new, h1, h2⟩
      · simp only [eo, bind, Except.bind] at e
        cases e
    · simp only [hl, if_false, bind, Except.bind] at e
      rw [packOut_same h model hmod] at e
      cases e
      exact ⟨[], by simp, by simp⟩

/-- Days between the first observation and the newest, from the number of breaks. -/
theorem breaks_apart (rest : List Obs) : ∀ (recs : List (Rec R)) (d : Int), Chrono rest recs →
    (∀ r ∈ recs, Year r.span) → (∀ o ∈ flat recs, d ≤ o.date) →
    ∀ o ∈ rest, recs ≠ [] → 1461 * (recs.length : Int) < 4 * (o.date - d)
  | [], _, _, _, _, _, _, h => absurd rfl h
  | r :: rs, d, hC, hY, hd, o, ho, _ => by
    obtain ⟨h1, h2, h3⟩ := hC
    obtain ⟨a, ha, b, hb, hab⟩ := hY r (by simp)
    have had : d ≤ a.date := hd a (by simp [flat, List.mem_of_mem_head? ha])
    have hbr := h1 b (by simp [hb])
    by_cases hrs : rs = []
    · subst hrs
      have := h2 o (by simp [ho])
      simp only [List.length_cons, List.length_nil]
      omega
    · have := breaks_apart rest rs r.tBreak h3 (fun r hr => hY r (by simp [hr]))
        (fun o ho => h2 o (by simp [ho])) o ho hrs
      simp only [List.length_cons]
      omega

theorem breaks_count (rest : List Obs) (recs : List (Rec R)) (hC : Chrono rest recs)
    (hY : ∀ r ∈ recs.tail, Year r.span) (hne : ∀ r ∈ recs.head?, r.lead ++ r.span ≠ []) {d : Int}
    (hd : ∀ o ∈ flat recs, d ≤ o.date) (o : Obs) (ho : o ∈ rest) (hr : recs ≠ []) :
    1461 * ((recs.length : Int) - 1) < 4 * (o.date - d) := by
  cases recs with
  | nil => exact absurd rfl hr
  | cons r rs =>
    obtain ⟨h1, h2, h3⟩ := hC
    obtain ⟨a, ha⟩ := List.exists_mem_of_ne_nil _ (hne r (by simp))
    have hda : d ≤ a.date := hd a (by
      simp only [flat, List.flatMap_cons, List.mem_append]
      left; simpa using ha)
    have hab := h1 a ha
    by_cases hrs : rs = []
    · subst hrs
      have := h2 o (by simp [ho])
      simp only [List.length_cons, List.length_nil]
      omega
    · have := breaks_apart rest rs r.tBreak h3 hY (fun o ho => h2 o (by simp [ho])) o ho hrs
      simp only [List.length_cons]
      omega

end Pycold.Sccd

namespace Pycold.Sccd
open Spec
variable {V F R M : Type}

/-- The records of a first call, whatever `conse`. -/
theorem first_call (E : Env V F R M) {q : Pack F R M} (m0 : M) (hc : 0 < E.conse) (hc8 : E.conse ≤ 8)
    (model : Option (Model F)) (scenes : List Scene) (hq : ∀ o ∈ scenes, KnownQa o.qa)
    (hasc : Asc (fresh E.bC2 (snowBranch E 0 scenes) scenes))
    (e : (sccd E { (start m0 : Pack F R M) with model := model } scenes >>= packOut) = .ok q) :
    RecsOk q.recs ∧ (∀ r ∈ q.recs.tail, Year r.span) ∧
    ∃ rest, Chrono rest q.recs ∧ (flat q.recs ++ rest).Sublist (fresh E.bC2 (snowBranch E 0 scenes) scenes) ∧
      (fresh E.bC2 (snowBranch E 0 scenes) scenes ≠ [] → rest ≠ []) := by
  have h : Promise E.conse (start m0 : Pack F R M) := start_promise E.conse m0
  rw [sccd_eq E { (start m0 : Pack F R M) with model := model } scenes h.modes hq (old := []) rfl] at e
  simp only at e
  have h0 : (start m0 : Pack F R M).mode = 0 := rfl
  have hrec0 : (start m0 : Pack F R M).recs = [] := rfl
  rw [h0] at e
  have hX : append [] (fresh E.bC2 (snowBranch E 0 scenes) scenes) = fresh E.bC2 (snowBranch E 0 scenes) scenes :=
    append_asc _ [] (by simpa using hasc)
  rw [hX] at e
  generalize hXe : fresh E.bC2 (snowBranch E 0 scenes) scenes = X at *
  have hempty : ∀ {q : Pack F R M}, q.recs = [] → RecsOk q.recs ∧ (∀ r ∈ q.recs.tail, Year r.span) ∧
    ∃ rest, Chrono rest q.recs ∧ (flat q.recs ++ rest).Sublist X ∧ (X ≠ [] → rest ≠ []) := by
    intro q hq
    rw [hq]
    exact ⟨⟨by simp, by simp⟩, by simp, X, trivial, by simp [flat], id⟩
  by_cases hb : snowBranch E 0 scenes = true
  · obtain ⟨out, eo, hr, hrm, hrn, hcase⟩ := snow_cases (E.num (start m0 : Pack F R M).minRmse) h model (by simp [start]) (.inl h0) X
    have hp0 : pending (start m0 : Pack F R M) = [] := rfl
    rw [hp0, h0, List.nil_append] at eo
    simp only [hb, if_true, eo, bind, Except.bind] at e
    have : q.recs = out.recs := by
      rcases hcase with ⟨e4, _⟩ | ⟨e3, _⟩
      · rw [packOut_que (by simp only; omega)] at e; cases e; rfl
      · rw [packOut_mon (by simp only; omega)] at e; cases e; rfl
    exact hempty (by rw [this, hr, hrec0])
  · have hb' : snowBranch E 0 scenes = false := by simpa using hb
    simp only [hb', Bool.false_eq_true, if_false] at e
    by_cases hl : X.length > ([] : List Obs).length
    · rw [if_pos hl] at e
      have g : Given True E.conse 0 model (start m0 : Pack F R M).recs X :=
        { modes := by simp
          mon := by simp
          five := by simp
          recsOk := fun _ => by simp [hrec0, RecsOk]
          asc := fun _ => by simpa [hrec0, flat, openPart] using hasc
          chrono := fun _ => by simp [hrec0, Chrono]
          year := fun _ => by simp [hrec0] }
      generalize (if ((start m0 : Pack F R M).recs.isEmpty && decide True) = true then E.variogram X else (start m0 : Pack F R M).minRmse) = rm at e
      rcases standard_cases (E.num rm) (start m0 : Pack F R M).queue hc g with
        ⟨out, s, s0, eo, e0, eL, inv, run, hdr, hsh, res⟩ | ⟨eo, _⟩
      · simp only [eo, bind, Except.bind] at e
        have hrq : q.recs = out.recs := by
          have hmo := res.modes
          have hm2 := res.from2
          simp only [List.mem_cons, List.not_mem_nil, or_false] at hmo
          by_cases h1 : out.mode % 10 = 1
          · rw [packOut_mon (by simp only; omega)] at e; cases e; rfl
          · by_cases h5 : out.mode = 5
            · rw [packOut_five (by simp only; omega)] at e; cases e; rfl
            · rw [packOut_que (by simp only; omega)] at e; cases e; rfl
        rw [hrq, res.recs]
        have hdrl := congrArg List.length hdr
        simp only [List.length_drop] at hdrl
        simp only [List.length_nil] at hl
        refine ⟨inv.recsOk trivial, inv.yearR trivial, ?_⟩
        have hH : flat (start m0 : Pack F R M).recs ++ openPart 0 model = [] := by simp [hrec0, flat, openPart]
        cases ht : s.train with
        | true =>
          refine ⟨_, inv.chronoT trivial ht, ?_, ?_⟩
          · have := inv.tH ht
            rw [hH, List.nil_append] at this
            rw [← List.append_assoc, ← this, List.take_append_drop]
            exact inv.sub
          · intro _ hn
            have := congrArg List.length hn
            simp only [List.length_append, List.length_drop, List.length_nil] at this
            omega
        | false =>
          have hp := inv.nprev ht
          have hs := inv.nstart ht
          refine ⟨_, inv.chronoN trivial ht, ?_, ?_⟩
          · have := inv.nH ht
            rw [hH, List.nil_append] at this
            rw [← this, List.take_append_drop]
            exact inv.sub
          · intro _ hn
            have := congrArg List.length hn
            simp only [List.length_drop, List.length_nil] at this
            omega
      · simp only [eo, bind, Except.bind] at e
        cases e
    · rw [if_neg hl] at e
      simp only [bind, Except.bind] at e
      have hps := packOut_same h model (by simp [start])
      rw [h0] at hps
      rw [hps] at e
      cases e
      exact hempty rfl

theorem recs_le {all : List Obs} {recs : List (Rec R)} {rest : List Obs} (hok : RecsOk recs)
    (hY : ∀ r ∈ recs.tail, Year r.span) (hC : Chrono rest recs) (hsub : (flat recs ++ rest).Sublist all)
    (hasc : Asc all) (hrest : rest ≠ []) (hr : recs ≠ []) (a b : Obs) (ha : all.head? = some a)
    (hb : all.getLast? = some b) : 1461 * ((recs.length : Int) - 1) < 4 * (b.date - a.date) := by
  obtain ⟨o, ho⟩ := List.exists_mem_of_ne_nil _ hrest
  have hmin : ∀ o ∈ all, a.date ≤ o.date := by
    cases all with
    | nil => simp at ha
    | cons x xs =>
      simp at ha; subst ha
      exact asc_head hasc
  have hmax : ∀ o ∈ all, o.date ≤ b.date := by
    obtain ⟨ys, hys⟩ := List.getLast?_eq_some_iff.mp hb
    intro o ho
    rw [hys] at ho hasc
    rcases List.mem_append.mp ho with h | h
    · have := asc_split hasc o h b (by simp); omega
    · simp at h; subst h; omega
  have hne : ∀ r ∈ recs.head?, r.lead ++ r.span ≠ [] := by
    intro r hr hn
    rcases hok.1 r hr with h | h
    · have := h.long
      have : r.span = [] := (List.append_eq_nil_iff.mp hn).2
      simp_all
    · have := h.long
      have : r.span = [] := (List.append_eq_nil_iff.mp hn).2
      simp_all
  have := breaks_count rest recs hC hY hne (d := a.date)
    (fun x hx => hmin x (hsub.subset (by simp [hx]))) o ho hr
  have h2 := hmax o (hsub.subset (by simp [ho]))
  omega

/-- Records but the first cover a year between the break before and their own, so breaks are a year apart. -/
theorem breaks_pairwise (rest : List Obs) : ∀ (recs : List (Rec R)), Chrono rest recs → (∀ r ∈ recs.tail, Year r.span) →
    recs.Pairwise (fun r s => 1461 < 4 * (s.tBreak - r.tBreak))
  | [], _, _ => List.Pairwise.nil
  | r :: rs, hC, hY => by
    obtain ⟨_, h2, h3⟩ := hC
    have hafter : ∀ (l : List (Rec R)), Chrono rest l → ∀ s ∈ l, ∀ o ∈ s.lead ++ s.span, o.date < s.tBreak := by
      intro l
      induction l with
      | nil => intro _ s hs; cases hs
      | cons x xs ih =>
        intro hc s hs
        rcases List.mem_cons.mp hs with rfl | hs
        · exact hc.1
        · exact ih hc.2.2 s hs
    refine List.Pairwise.cons ?_ (breaks_pairwise rest rs h3 (fun s hs => hY s (List.mem_of_mem_tail hs)))
    intro s hs
    obtain ⟨a, ha, b, hb, hab⟩ := hY s hs
    have h5 := h2 a (List.mem_append_left _ (List.mem_flatMap.mpr ⟨s, hs, List.mem_append_right _ (List.mem_of_mem_head? ha)⟩))
    have h6 := hafter rs h3 s hs b (List.mem_append_right _ hb)
    omega

/-- Without equal dates next to each other nothing is skipped. -/
theorem append_eq : ∀ (xs acc : List Obs), Asc xs → (∀ x ∈ acc, ∀ o ∈ xs, x.date ≠ o.date) →
    append acc xs = acc ++ xs
  | [], acc, _, _ => by simp [append]
  | o :: os, acc, h, hd => by
    unfold append
    have hne : (decide (acc.length > 0) && decide (some o.date = acc.getLast?.map (·.date))) = false := by
      cases hq : acc.getLast? with
      | none => simp
      | some x =>
        have := hd x (List.mem_of_getLast? hq) o (by simp)
        simp; intro _ h'; exact this h'.symm
    rw [hne]
    simp only [Bool.false_eq_true, if_false]
    rw [append_eq os (acc ++ [o]) (List.pairwise_cons.mp h).2 ?_]
    · simp
    · intro x hx y hy
      rcases List.mem_append.mp hx with hx | hx
      · exact hd x hx y (by simp [hy])
      · simp at hx; subst hx
        have := (List.pairwise_cons.mp h).1 y hy
        omega

end Pycold.Sccd
