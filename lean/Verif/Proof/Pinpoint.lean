import Verif.Spec.Pinpoint
import Verif.Proof.SccdConfirm
import Verif.Proof.SccdSeq
/-!
# Pinpoint records: the table of strongest rounds, and the loop that fills it
-/
namespace Pycold.Sccd
open Pycold.Spec Pycold.Sccd.Spec
variable {V F R M : Type}

/-! ## Order -/

theorem lt_trans' {N : Num V F R} (o : Ordered N) {a b c : V} (h1 : N.lt a b = true) (h2 : N.lt b c = true) :
    N.lt a c = true := by
  cases h : N.lt a c with
  | true => rfl
  | false =>
    have := o.negtrans b a c (o.asymm _ _ h1) h
    rw [this] at h2; simp at h2

theorem lt_split {N : Num V F R} (o : Ordered N) {a c : V} (b : V) (h : N.lt a c = true) :
    N.lt a b = true ∨ N.lt b c = true := by
  cases h1 : N.lt a b with
  | true => exact .inl rfl
  | false =>
    cases h2 : N.lt b c with
    | true => exact .inr rfl
    | false => rw [o.negtrans _ _ _ h1 h2] at h; simp at h

/-! ## The change rule is the same with and without pinpoint -/

/-- The running minimum of `allAbove`/`pinLoop` from `m` on. -/
def runMin (N : Num V F R) (f : F) (n : Int) (m : V) (win : List Obs) : V :=
  (win.map (N.mag f n)).foldl (fun a v => if N.lt v a then v else a) m

theorem runMin_lt {N : Num V F R} (o : Ordered N) (f : F) (n : Int) {x : V} : ∀ (win : List Obs) (m : V),
    N.lt (runMin N f n m win) x = true ↔ N.lt m x = true ∨ ∃ w ∈ win, N.lt (N.mag f n w) x = true
  | [], m => by simp [runMin]
  | w :: ws, m => by
    have ih := runMin_lt o f n (x := x) ws (if N.lt (N.mag f n w) m then N.mag f n w else m)
    have e : runMin N f n m (w :: ws) = runMin N f n (if N.lt (N.mag f n w) m then N.mag f n w else m) ws := rfl
    rw [e, ih]
    simp only [List.mem_cons, exists_eq_or_imp]
    by_cases h : N.lt (N.mag f n w) m = true
    · simp only [h, if_true]
      constructor
      · rintro (h1 | h1)
        · exact .inr (.inl h1)
        · exact .inr (.inr h1)
      · rintro (h1 | h1 | h1)
        · exact .inl (lt_trans' o h h1)
        · exact .inl h1
        · exact .inr h1
    · simp only [h]
      constructor
      · rintro (h1 | h1)
        · exact .inl (by simpa using h1)
        · exact .inr (.inr h1)
      · rintro (h1 | h1 | h1)
        · exact .inl (by simpa using h1)
        · left
          rcases lt_split o m h1 with h2 | h2
          · exact absurd h2 h
          · simpa using h2
        · exact .inr h1

theorem allAbove_iff {N : Num V F R} (o : Ordered N) (f : F) (n : Int) : ∀ (win : List Obs) (m : V),
    allAbove N f n m win = true ↔ (win = [] ∨ N.lt m N.tcg = false) ∧ ∀ w ∈ win, N.lt (N.mag f n w) N.tcg = false
  | [], m => by simp [allAbove]
  | w :: ws, m => by
    unfold allAbove
    simp only
    have e := runMin_lt o f n (x := N.tcg) [w] m
    have e' : runMin N f n m [w] = if N.lt (N.mag f n w) m then N.mag f n w else m := rfl
    rw [e'] at e
    by_cases h : N.lt (if N.lt (N.mag f n w) m then N.mag f n w else m) N.tcg = true
    · rw [if_pos h]
      have := e.mp h
      simp only [List.mem_singleton, exists_eq_left] at this
      simp only [Bool.false_eq_true, false_iff]
      rintro ⟨h1, h2⟩
      rcases this with h3 | h3
      · rcases h1 with h1 | h1
        · cases h1
        · rw [h1] at h3; simp at h3
      · have := h2 w (by simp)
        rw [this] at h3; simp at h3
    · rw [if_neg h, allAbove_iff o f n ws]
      have h' : N.lt (if N.lt (N.mag f n w) m then N.mag f n w else m) N.tcg = false := by simpa using h
      rw [h']
      have hn : ¬ (N.lt m N.tcg = true ∨ N.lt (N.mag f n w) N.tcg = true) := by
        intro hx; exact h (e.mpr (by simpa using hx))
      have h1 : N.lt m N.tcg = false := by
        cases hq : N.lt m N.tcg with
        | false => rfl
        | true => exact absurd (.inl hq) hn
      have h2 : N.lt (N.mag f n w) N.tcg = false := by
        cases hq : N.lt (N.mag f n w) N.tcg with
        | false => rfl
        | true => exact absurd (.inr hq) hn
      simp [h1, h2]

theorem pinLoop_ge {N : Num V F R} (f : F) (n : Int) : ∀ (win : List Obs) (k : Nat) (m : V), 3 ≤ k →
    pinLoop N f n k m win = true
  | [], _, _, _ => rfl
  | w :: ws, k, m, h => by
    unfold pinLoop
    simp only
    have hk' : decide (k < PINPOINT_CONSE) = false := decide_eq_false (by unfold PINPOINT_CONSE; omega)
    rw [hk', Bool.and_false, if_neg (by simp)]
    exact pinLoop_ge f n ws (k + 1) _ (by omega)

theorem pinLoop_iff {N : Num V F R} (o : Ordered N) (f : F) (n : Int) : ∀ (win : List Obs) (k : Nat) (m : V),
    N.lt m N.gate = false →
    (pinLoop N f n k m win = true ↔ ∀ w ∈ win.take (3 - k), N.lt (N.mag f n w) N.gate = false)
  | [], _, _, _ => by simp [pinLoop]
  | w :: ws, k, m, hm => by
    by_cases hk : 3 ≤ k
    · rw [pinLoop_ge f n _ k m hk]
      simp [show 3 - k = 0 by omega]
    · unfold pinLoop
      simp only
      have hk' : decide (k < PINPOINT_CONSE) = true := decide_eq_true (by unfold PINPOINT_CONSE; omega)
      rw [hk', show 3 - k = (3 - (k + 1)) + 1 by omega, List.take_succ_cons]
      simp only [Bool.and_true, List.mem_cons, forall_eq_or_imp]
      have e := runMin_lt o f n (x := N.gate) [w] m
      have e' : runMin N f n m [w] = if N.lt (N.mag f n w) m then N.mag f n w else m := rfl
      rw [e'] at e
      simp only [List.mem_singleton, exists_eq_left, hm, Bool.false_eq_true, false_or] at e
      by_cases h : N.lt (if N.lt (N.mag f n w) m then N.mag f n w else m) N.gate = true
      · rw [if_pos h]
        simp [e.mp h]
      · rw [if_neg h, pinLoop_iff o f n ws (k + 1) _ (by simpa using h)]
        have : N.lt (N.mag f n w) N.gate = false := by
          cases hq : N.lt (N.mag f n w) N.gate with
          | false => rfl
          | true => exact absurd (e.mpr hq) h
        simp [this]

theorem isPin_iff {N : Num V F R} (o : Ordered N) (conse : Nat) (r : Round F) :
    isPin N conse r = true ↔ Anomalous N conse r := by
  unfold isPin Anomalous Round.win
  rw [Bool.and_eq_true, pinLoop_iff o _ _ _ _ _ o.big, decide_eq_true_eq, List.take_take]
  constructor
  · rintro ⟨h1, h2⟩
    refine ⟨h2, ?_⟩
    rwa [show min (3 - 0) conse = 3 by simp [PINPOINT_CONSE] at h2; omega] at h1
  · rintro ⟨h1, h2⟩
    refine ⟨?_, h1⟩
    rwa [show min (3 - 0) conse = 3 by omega]

theorem isChange_iff {N : Num V F R} (o : Ordered N) (conse : Nat) (r : Round F) :
    isChange N r.filt r.numObs (r.rest.take conse) = true ↔ Change N conse r := by
  unfold isChange Change
  rw [Bool.and_eq_true, allAbove_iff o]
  simp [o.bigT]

theorem isChangeP_eq {N : Num V F R} (o : Ordered N) (hg : N.lt N.tcg N.gate = false)
    {conse : Nat} {r : Round F} (hne : r.rest.take conse ≠ []) :
    isChangeP N conse r = isChange N r.filt r.numObs (r.rest.take conse) := by
  unfold isChangeP isChange
  congr 1
  rw [Bool.eq_iff_iff, Bool.and_eq_true, allAbove_iff o, pinLoop_iff o _ _ _ _ _ o.big]
  have hm : r.mag N conse = runMin N r.filt r.numObs N.big (r.rest.take conse) := rfl
  rw [hm]
  have hr := runMin_lt o r.filt r.numObs (x := N.tcg) (r.rest.take conse) N.big
  have up : ∀ v, N.lt v N.tcg = false → N.lt v N.gate = false := by
    intro v hv
    exact o.negtrans _ _ _ hv hg
  simp only [hne, false_or, Round.win, Bool.not_eq_true']
  constructor
  · rintro ⟨_, h2⟩
    have h2' : ¬ _ := fun x => by rw [hr.mpr x] at h2; simp at h2
    refine ⟨?_, ?_⟩
    · cases hq : N.lt N.big N.tcg with
      | false => rfl
      | true => exact absurd (.inl hq) h2'
    · intro w hw
      cases hq : N.lt (N.mag r.filt r.numObs w) N.tcg with
      | false => rfl
      | true => exact absurd (.inr ⟨w, hw, hq⟩) h2'
  · rintro ⟨h1, h2⟩
    refine ⟨fun w hw => up _ (h2 w (List.mem_of_mem_take hw)), ?_⟩
    cases hq : N.lt (runMin N r.filt r.numObs N.big (r.rest.take conse)) N.tcg with
    | false => rfl
    | true =>
      rcases hr.mp hq with h3 | ⟨w, hw, h3⟩
      · rw [h1] at h3; simp at h3
      · rw [h2 w hw] at h3; simp at h3

/-! ## The table -/

theorem cmIndex_eq {d : Int} (h : 723546 ≤ d) : cmIndex d = period d := by
  unfold cmIndex period ORDINAL_1982
  exact Int.tdiv_eq_ediv_of_nonneg (by omega)

theorem cmCount_eq {d : Int} (h : 723546 ≤ d) : cmCount d = period d + 1 := by
  unfold cmCount period ORDINAL_1982
  rw [Int.tdiv_eq_ediv_of_nonneg (by omega)]
  omega

theorem period_mono {a b : Int} (h : a ≤ b) : period a ≤ period b := by
  unfold period; omega

theorem period_nonneg {d : Int} (h : 723546 ≤ d) : 0 ≤ period d := by
  unfold period; omega

/-- `L`: the records offered so far, in order of time. -/
structure Table (N : Num V F R) (Z : ZeroV V) (n : Nat) (L : List (Pin V F)) (t : PinSt V F) : Prop where
  len : t.cm.length = n
  cap : t.pins.length ≤ 40
  dates : ∀ c ∈ L, 723546 ≤ c.tBreak
  apart : t.pins.Pairwise (fun p q => period p.tBreak < period q.tBreak)
  best : ∀ p ∈ t.pins, p ∈ L ∧ t.cm[(period p.tBreak).toNat]? = some p.mag ∧ N.lt Z.zero p.mag = true ∧
    ∀ c ∈ L, period c.tBreak = period p.tBreak → N.lt p.mag c.mag = false ∧
      (N.lt c.mag p.mag = false → p.tBreak ≤ c.tBreak)
  slot : ∀ k : Nat, k < n → (∃ p ∈ t.pins, period p.tBreak = k) ∨
    (t.cm[k]? = some Z.zero ∧ ∀ c ∈ L, period c.tBreak = k → N.lt Z.zero c.mag = false)

theorem Table.start (N : Num V F R) (Z : ZeroV V) (n : Nat) :
    Table N Z n [] (⟨List.replicate n Z.zero, []⟩ : PinSt V F) :=
  { len := by simp
    cap := by simp
    dates := by simp
    apart := by simp
    best := by simp
    slot := by intro k hk; right; simp [hk] }

theorem record_step {N : Num V F R} {Z : ZeroV V} (o : Ordered N) (z : ZeroOk N Z) {n : Nat} {L : List (Pin V F)}
    {t : PinSt V F} (h : Table N Z n L t) (c : Pin V F) (hd : 723546 ≤ c.tBreak) (hn : period c.tBreak < n)
    (hL : ∀ x ∈ L, x.tBreak < c.tBreak) :
    (∃ t', record N Z t c = .ok t' ∧ Table N Z n (L ++ [c]) t') ∨
    (record N Z t c = .error .oob ∧ 40 ≤ t.pins.length ∧ ∀ p ∈ t.pins, period p.tBreak < period c.tBreak) := by
  have h0 := period_nonneg hd
  obtain ⟨k, hk⟩ : ∃ k : Nat, period c.tBreak = k := ⟨(period c.tBreak).toNat, by omega⟩
  have hkn : k < n := by omega
  have hk' : (period c.tBreak).toNat = k := by omega
  have hpd : ∀ p ∈ t.pins, p.tBreak < c.tBreak := fun p hp => hL p (h.best p hp).1
  have hpp : ∀ p ∈ t.pins, 0 ≤ period p.tBreak ∧ period p.tBreak ≤ k := fun p hp =>
    ⟨period_nonneg (h.dates p (h.best p hp).1), by rw [← hk]; exact period_mono (Int.le_of_lt (hpd p hp))⟩
  have hdates : ∀ x ∈ L ++ [c], 723546 ≤ x.tBreak := by
    intro x hx
    rcases List.mem_append.mp hx with hx | hx
    · exact h.dates x hx
    · simp at hx; rw [hx]; exact hd
  unfold record
  rw [cmIndex_eq hd, if_neg (by omega), hk']
  rcases h.slot k hkn with ⟨p, hp, hpk⟩ | ⟨hz, hzL⟩
  · -- the period has a record: it is the last one
    obtain ⟨hpL, hpc, hpz, hpb⟩ := h.best p hp
    rw [show (period p.tBreak).toNat = k by omega] at hpc
    have hlast : ∃ A, t.pins = A ++ [p] := by
      obtain ⟨A, B, hAB⟩ := List.append_of_mem hp
      cases B with
      | nil => exact ⟨A, hAB⟩
      | cons q qs =>
        exfalso
        have hq : q ∈ t.pins := by rw [hAB]; simp
        have := h.apart
        rw [hAB] at this
        have := (List.pairwise_cons.mp (List.pairwise_append.mp this).2.1).1 q (by simp)
        have := (hpp q hq).2
        omega
    obtain ⟨A, hA⟩ := hlast
    have hAapart := h.apart
    rw [hA] at hAapart
    have hAlt : ∀ q ∈ A, period q.tBreak < k := fun q hq => by
      have := (List.pairwise_append.mp hAapart).2.2 q hq p (by simp)
      omega
    simp only [hpc]
    left
    cases hlt : N.lt p.mag c.mag with
    | false =>
      simp only [Bool.false_eq_true, if_false]
      refine ⟨t, rfl, h.len, h.cap, hdates, h.apart, ?_, ?_⟩
      · intro q hq
        obtain ⟨b1, b2, b3, b4⟩ := h.best q hq
        refine ⟨List.mem_append_left _ b1, b2, b3, ?_⟩
        intro x hx hxp
        rcases List.mem_append.mp hx with hx | hx
        · exact b4 x hx hxp
        · simp at hx; subst hx
          have hqp : q = p := by
            rw [hA] at hq
            rcases List.mem_append.mp hq with hq | hq
            · have := hAlt q hq; omega
            · simpa using hq
          subst hqp
          exact ⟨hlt, fun _ => Int.le_of_lt (hpd q hp)⟩
      · intro j hj
        rcases h.slot j hj with s1 | ⟨s1, s2⟩
        · exact .inl s1
        · by_cases hjk : j = k
          · exact .inl ⟨p, hp, by omega⟩
          · refine .inr ⟨s1, ?_⟩
            intro x hx hxp
            rcases List.mem_append.mp hx with hx | hx
            · exact s2 x hx hxp
            · simp at hx; subst hx; omega
    | true =>
      have hnz : Z.isZero p.mag = false := z.pos _ hpz
      have hlen : t.pins.length = A.length + 1 := by rw [hA]; simp
      have hset : t.pins.set (t.pins.length - 1) c = A ++ [c] := by
        rw [hlen, hA]; simp
      simp only [if_true, hnz, Bool.false_eq_true, if_false]
      rw [if_neg (by omega), hset]
      refine ⟨_, rfl, by simp [h.len], by have := h.cap; simp; omega, hdates, ?_, ?_, ?_⟩
      · simp only
        refine List.pairwise_append.mpr ⟨(List.pairwise_append.mp hAapart).1, by simp, ?_⟩
        intro q hq x hx
        simp at hx; subst hx
        have := hAlt q hq; omega
      · intro q hq
        simp only at hq ⊢
        rcases List.mem_append.mp hq with hq | hq
        · have hqm : q ∈ t.pins := by rw [hA]; simp [hq]
          obtain ⟨b1, b2, b3, b4⟩ := h.best q hqm
          have := hAlt q hq
          have := (hpp q hqm).1
          refine ⟨List.mem_append_left _ b1, ?_, b3, ?_⟩
          · rw [List.getElem?_set_ne (by omega)]; exact b2
          · intro x hx hxp
            rcases List.mem_append.mp hx with hx | hx
            · exact b4 x hx hxp
            · simp at hx; subst hx; omega
        · simp at hq; subst hq
          refine ⟨by simp, ?_, lt_trans' o hpz hlt, ?_⟩
          · rw [hk', List.getElem?_set_self (by rw [h.len]; exact hkn)]
          · intro x hx hxp
            rcases List.mem_append.mp hx with hx | hx
            · obtain ⟨d1, d2⟩ := hpb x hx (by omega)
              refine ⟨o.negtrans _ _ _ (o.asymm _ _ hlt) d1, ?_⟩
              intro hf
              rcases lt_split o x.mag hlt with e | e
              · rw [d1] at e; simp at e
              · rw [hf] at e; simp at e
            · simp at hx; subst hx
              refine ⟨?_, fun _ => Int.le_refl _⟩
              cases hq : N.lt x.mag x.mag with
              | false => rfl
              | true => exact (o.asymm _ _ hq).symm.trans hq |> fun e => by simp at e
      · intro j hj
        simp only
        by_cases hjk : j = k
        · exact .inl ⟨c, by simp, by omega⟩
        · rcases h.slot j hj with ⟨q, hq, hqj⟩ | ⟨s1, s2⟩
          · left
            rw [hA] at hq
            rcases List.mem_append.mp hq with hq | hq
            · exact ⟨q, by simp [hq], hqj⟩
            · simp at hq; subst hq; omega
          · refine .inr ⟨by rw [List.getElem?_set_ne (by omega)]; exact s1, ?_⟩
            intro x hx hxp
            rcases List.mem_append.mp hx with hx | hx
            · exact s2 x hx hxp
            · simp at hx; subst hx; omega
  · -- nothing of positive strength was offered in this period
    have hno : ∀ p ∈ t.pins, period p.tBreak < k := by
      intro p hp
      have h1 := (hpp p hp).2
      have h2 := (hpp p hp).1
      by_cases e : period p.tBreak = k
      · exfalso
        have h3 := hzL p (h.best p hp).1 e
        rw [(h.best p hp).2.2.1] at h3
        simp at h3
      · omega
    simp only [hz]
    cases hlt : N.lt Z.zero c.mag with
    | false =>
      simp only [Bool.false_eq_true, if_false]
      refine .inl ⟨t, rfl, h.len, h.cap, hdates, h.apart, ?_, ?_⟩
      · intro q hq
        obtain ⟨b1, b2, b3, b4⟩ := h.best q hq
        refine ⟨List.mem_append_left _ b1, b2, b3, ?_⟩
        intro x hx hxp
        rcases List.mem_append.mp hx with hx | hx
        · exact b4 x hx hxp
        · simp at hx; subst hx
          have := hno q hq; omega
      · intro j hj
        rcases h.slot j hj with s1 | ⟨s1, s2⟩
        · exact .inl s1
        · refine .inr ⟨s1, ?_⟩
          intro x hx hxp
          rcases List.mem_append.mp hx with hx | hx
          · exact s2 x hx hxp
          · simp at hx; subst hx; exact hlt
    | true =>
      simp only [if_true, z.zero]
      by_cases h40 : t.pins.length < NUM_PINPOINT
      · rw [if_pos h40]
        refine .inl ⟨_, rfl, by simp [h.len], by simp [NUM_PINPOINT] at h40; simp; omega, hdates, ?_, ?_, ?_⟩
        · simp only
          refine List.pairwise_append.mpr ⟨h.apart, by simp, ?_⟩
          intro q hq x hx
          simp at hx; subst hx
          have := hno q hq; omega
        · intro q hq
          simp only at hq ⊢
          rcases List.mem_append.mp hq with hq | hq
          · obtain ⟨b1, b2, b3, b4⟩ := h.best q hq
            have := hno q hq
            have := (hpp q hq).1
            refine ⟨List.mem_append_left _ b1, ?_, b3, ?_⟩
            · rw [List.getElem?_set_ne (by omega)]; exact b2
            · intro x hx hxp
              rcases List.mem_append.mp hx with hx | hx
              · exact b4 x hx hxp
              · simp at hx; subst hx; omega
          · simp at hq; subst hq
            refine ⟨by simp, ?_, hlt, ?_⟩
            · rw [hk', List.getElem?_set_self (by rw [h.len]; exact hkn)]
            · intro x hx hxp
              rcases List.mem_append.mp hx with hx | hx
              · have d1 := hzL x hx (by omega)
                refine ⟨?_, ?_⟩
                · cases hq : N.lt q.mag x.mag with
                  | false => rfl
                  | true => rw [lt_trans' o hlt hq] at d1; simp at d1
                · intro hf
                  rcases lt_split o x.mag hlt with e | e
                  · rw [d1] at e; simp at e
                  · rw [hf] at e; simp at e
              · simp at hx; subst hx
                refine ⟨?_, fun _ => Int.le_refl _⟩
                cases hq : N.lt x.mag x.mag with
                | false => rfl
                | true => exact (o.asymm _ _ hq).symm.trans hq |> fun e => by simp at e
        · intro j hj
          simp only
          by_cases hjk : j = k
          · exact .inl ⟨c, by simp, by omega⟩
          · rcases h.slot j hj with ⟨q, hq, hqj⟩ | ⟨s1, s2⟩
            · exact .inl ⟨q, by simp [hq], hqj⟩
            · refine .inr ⟨by rw [List.getElem?_set_ne (by omega)]; exact s1, ?_⟩
              intro x hx hxp
              rcases List.mem_append.mp hx with hx | hx
              · exact s2 x hx hxp
              · simp at hx; subst hx; omega
      · rw [if_neg h40]
        exact .inr ⟨rfl, by simp [NUM_PINPOINT] at h40; omega, fun p hp => by have := hno p hp; omega⟩

/-! ## The loop -/

/-- The records offered to the table by the rounds of a log. -/
def offered (N : Num V F R) (conse : Nat) (log : List (Round F)) : List (Pin V F) :=
  (log.filter (isPin N conse)).map (fun r => pinOf N conse r (dateOf r))

structure LogInv (N : Num V F R) (Z : ZeroV V) (conse n : Nat) (X : List Obs) (t : StP V F R) : Prop where
  table : Table N Z n (offered N conse t.log) t.pin
  rounds : Rounds conse X t.log
  before : ∀ r ∈ t.log, ∀ o ∈ t.core.obs.drop t.core.i, dateOf r < o.date
  breaks : ∃ op br, t.core.recs = op ++ br ∧ op.length ≤ 1 ∧
    br.map (·.tBreak) = (t.log.filter (fun r => isChange N r.filt r.numObs (r.rest.take conse))).map dateOf

/-- Forty-one dates of clear observations in different periods. -/
theorem many_of {N : Num V F R} {Z : ZeroV V} {conse n : Nat} {X : List Obs} {t : StP V F R}
    (h : LogInv N Z conse n X t) {o : Obs} (ho : o ∈ X) (h40 : 40 ≤ t.pin.pins.length)
    (hlt : ∀ p ∈ t.pin.pins, period p.tBreak < period o.date) : ManyPeriods X := by
  refine ⟨t.pin.pins.map (·.tBreak) ++ [o.date], by simp; omega, ?_, ?_⟩
  · refine List.pairwise_append.mpr ⟨?_, by simp, ?_⟩
    · rw [List.pairwise_map]; exact h.table.apart
    · intro a ha b hb
      simp only [List.mem_map] at ha
      obtain ⟨p, hp, rfl⟩ := ha
      simp at hb; subst hb
      exact hlt p hp
  · intro d hd
    rcases List.mem_append.mp hd with hd | hd
    · simp only [List.mem_map] at hd
      obtain ⟨p, hp, rfl⟩ := hd
      obtain ⟨hpL, _⟩ := h.table.best p hp
      simp only [offered, List.mem_map, List.mem_filter] at hpL
      obtain ⟨r, ⟨hr, _⟩, rfl⟩ := hpL
      obtain ⟨hs, hl⟩ := h.rounds.within r hr
      cases hq : r.rest with
      | nil => rw [hq] at hl; simp at hl
      | cons a as =>
        exact ⟨a, hs.subset (by rw [hq]; simp), by simp [pinOf, dateOf, hq]⟩
    · simp at hd; exact ⟨o, ho, hd.symm⟩

theorem step2P_eq {N : Num V F R} (o : Ordered N) (hg : N.lt N.tcg N.gate = false) (Z : ZeroV V) {conse mode0 : Nat}
    (hc : 0 < conse) {t : StP V F R} {f : F} (hf : t.core.filt = some f)
    (h2 : t.core.i + conse + 1 ≤ t.core.obs.length) :
    step2P N Z conse mode0 t =
      (if isPin N conse ⟨f, t.core.numObs, t.core.obs.drop t.core.i⟩ then
        record N Z t.pin (pinOf N conse ⟨f, t.core.numObs, t.core.obs.drop t.core.i⟩
          (dateOf (⟨f, t.core.numObs, t.core.obs.drop t.core.i⟩ : Round F)))
        else .ok t.pin) >>= fun pin => step2 N conse mode0 t.core >>= fun s =>
          .ok ⟨s, pin, t.log ++ [⟨f, t.core.numObs, t.core.obs.drop t.core.i⟩]⟩ := by
  have hi : t.core.i < t.core.obs.length := by omega
  have hi1 : t.core.i + 1 < t.core.obs.length := by omega
  have hi2 : t.core.i + conse - 1 < t.core.obs.length := by omega
  have hd : dateOf (⟨f, t.core.numObs, t.core.obs.drop t.core.i⟩ : Round F) = t.core.obs[t.core.i].date := by
    unfold dateOf
    simp only
    rw [List.drop_eq_getElem_cons hi]; rfl
  have hch := isChangeP_eq o hg (conse := conse) (r := ⟨f, t.core.numObs, t.core.obs.drop t.core.i⟩) (by
    intro hn
    have := congrArg List.length hn
    simp at this
    omega)
  unfold step2P step2
  simp only [hf, chk_ok hi2, rd_ok hi, rd_ok hi1, hd, hch, bind, Except.bind]
  generalize (if isPin N conse ⟨f, t.core.numObs, t.core.obs.drop t.core.i⟩ = true then
    record N Z t.pin (pinOf N conse ⟨f, t.core.numObs, t.core.obs.drop t.core.i⟩ t.core.obs[t.core.i].date)
    else Except.ok t.pin) = P
  cases P with
  | error e => rfl
  | ok pin =>
    simp only
    split
    · rfl
    · split <;> rfl

theorem stepP_cases {N : Num V F R} {Z : ZeroV V} (o : Ordered N) (z : ZeroOk N Z) (hg : N.lt N.tcg N.gate = false)
    {conse n : Nat} {X : List Obs} (hc : 0 < conse) (hX : ∀ x ∈ X, 723546 ≤ x.date ∧ period x.date < n)
    {t : StP V F R} (inv : Inv True [] X t.core) (lg : LogInv N Z conse n X t)
    (h2 : t.core.i + conse + 1 ≤ t.core.obs.length) :
    (∃ t', stepP N Z conse 0 t = .ok t' ∧ step N conse 0 t.core = .ok t'.core ∧ Inv True [] X t'.core ∧
      LogInv N Z conse n X t' ∧ t'.core.obs.drop t'.core.i = t.core.obs.drop (t.core.i + 1)) ∨
    (stepP N Z conse 0 t = .error .oob ∧ step N conse 0 t.core = .error .oob) ∨
    (stepP N Z conse 0 t = .error .oob ∧ ManyPeriods X) := by
  have hi : t.core.i < t.core.obs.length := by omega
  have hdrop : t.core.obs.drop t.core.i = t.core.obs[t.core.i] :: t.core.obs.drop (t.core.i + 1) :=
    List.drop_eq_getElem_cons hi
  cases htr : t.core.train with
  | false =>
    have hs : stepP N Z conse 0 t = trainStep N conse t.core >>= fun s => .ok { t with core := s } := by
      unfold stepP; rw [htr]; rfl
    have hs' : step N conse 0 t.core = trainStep N conse t.core := by unfold step; rw [htr]; rfl
    rcases step_inv N (mode0 := 0) hc inv h2 with ⟨s1, e, inv1, hd⟩ | ⟨e, _⟩
    · left
      rw [hs, hs'] at *
      rw [e]
      refine ⟨{ t with core := s1 }, rfl, rfl, inv1, ?_, hd⟩
      have e' : step N conse 0 t.core = .ok s1 := by unfold step; rw [htr]; exact e
      have dl := step_delta N hc inv h2 e'
      refine ⟨lg.table, lg.rounds, ?_, ?_⟩
      · intro r hr x hx
        simp only [hd] at hx
        exact lg.before r hr x (by rw [hdrop]; exact List.mem_cons_of_mem _ hx)
      · obtain ⟨op, br, h1, h3, h4⟩ := lg.breaks
        rcases dl.act with ⟨_, _, _, hr⟩ | ⟨c, _⟩
        · by_cases hne : t.core.recs = []
          · rcases dl.grow with g | ⟨r, g⟩
            · exact ⟨op, br, by simp only [g]; exact h1, h3, h4⟩
            · rw [hne] at h1
              have hob : op = [] ∧ br = [] := by simpa using h1.symm
              refine ⟨[r], br, ?_, by simp, h4⟩
              simp only [g, hne, hob.2]; simp
          · exact ⟨op, br, by simp only [hr hne]; exact h1, h3, h4⟩
        · rw [htr] at c; simp at c
    · right; left
      rw [hs, hs'] at *
      rw [e]
      exact ⟨rfl, rfl⟩
  | true =>
    obtain ⟨f, hf⟩ := Option.isSome_iff_exists.mp (inv.tfilt htr)
    have hs : stepP N Z conse 0 t = step2P N Z conse 0 t := by unfold stepP; rw [htr]; rfl
    have hs' : step N conse 0 t.core = step2 N conse 0 t.core := by unfold step; rw [htr]; rfl
    obtain ⟨s1, e, inv1, hd⟩ := step2_inv N (mode0 := 0) hc inv htr h2
    rw [hs, hs', step2P_eq o hg Z hc hf h2, e]
    generalize hre : (⟨f, t.core.numObs, t.core.obs.drop t.core.i⟩ : Round F) = r
    have hrest : r.rest = t.core.obs.drop t.core.i := by rw [← hre]
    have hdate : dateOf r = t.core.obs[t.core.i].date := by
      unfold dateOf; rw [hrest, hdrop]; rfl
    have hmem : t.core.obs[t.core.i] ∈ X := inv.sub.subset (List.getElem_mem hi)
    have hlogd : ∀ r' ∈ t.log, dateOf r' < dateOf r := by
      intro r' hr'
      rw [hdate]
      exact lg.before r' hr' _ (hdrop ▸ List.mem_cons_self)
    have hrounds : Rounds conse X (t.log ++ [r]) := by
      refine ⟨List.pairwise_append.mpr ⟨lg.rounds.order, by simp, ?_⟩, ?_⟩
      · intro a ha b hb
        simp at hb; subst hb
        exact hlogd a ha
      · intro x hx
        rcases List.mem_append.mp hx with hx | hx
        · exact lg.rounds.within x hx
        · simp at hx; subst hx
          rw [hrest]
          exact ⟨(List.drop_sublist _ _).trans inv.sub, by simp; omega⟩
    have hbefore : ∀ x ∈ t.log ++ [r], ∀ y ∈ s1.obs.drop s1.i, dateOf x < y.date := by
      intro x hx y hy
      rw [hd] at hy
      rcases List.mem_append.mp hx with hx | hx
      · exact lg.before x hx y (by rw [hdrop]; exact List.mem_cons_of_mem _ hy)
      · simp at hx; subst hx
        have ha : Asc (t.core.obs.drop t.core.i) := by
          have := inv.asc trivial
          simp only [List.nil_append] at this
          exact this.sublist (List.drop_sublist _ _)
        rw [hdrop] at ha
        rw [hdate]
        exact (List.pairwise_cons.mp ha).1 y hy
    have hbreaks : ∃ op br, s1.recs = op ++ br ∧ op.length ≤ 1 ∧
        br.map (·.tBreak) = ((t.log ++ [r]).filter (fun r => isChange N r.filt r.numObs (r.rest.take conse))).map dateOf := by
      obtain ⟨op, br, h1, h3, h4⟩ := lg.breaks
      have hi1 : t.core.i + 1 < t.core.obs.length := by omega
      have hi2 : t.core.i + conse - 1 < t.core.obs.length := by omega
      have hcr : isChange N r.filt r.numObs (r.rest.take conse) =
          isChange N f t.core.numObs ((t.core.obs.drop t.core.i).take conse) := by rw [← hre]
      unfold step2 at e
      simp only [hf, chk_ok hi2, rd_ok hi, rd_ok hi1, bind, Except.bind] at e
      cases hcg : isChange N f t.core.numObs ((t.core.obs.drop t.core.i).take conse) with
      | true =>
        simp only [hcg, if_true] at e
        cases e
        refine ⟨op, br ++ [_], by simp only [h1, List.append_assoc]; rfl, h3, ?_⟩
        rw [List.filter_append, List.map_append, List.map_append, h4]
        simp [hcr, hcg, hdate]
      | false =>
        simp only [hcg, Bool.false_eq_true, if_false] at e
        have hrc : s1.recs = t.core.recs := by
          split at e <;> cases e <;> rfl
        refine ⟨op, br, by rw [hrc]; exact h1, h3, ?_⟩
        rw [List.filter_append, List.map_append, h4]
        simp [hcr, hcg]
    cases hp : isPin N conse r with
    | false =>
      left
      simp only [Bool.false_eq_true, if_false, bind, Except.bind]
      refine ⟨_, rfl, rfl, inv1, ⟨?_, hrounds, hbefore, hbreaks⟩, hd⟩
      have : offered N conse (t.log ++ [r]) = offered N conse t.log := by simp [offered, hp]
      simp only [this]
      exact lg.table
    | true =>
      simp only [if_true]
      have hoff : offered N conse (t.log ++ [r]) = offered N conse t.log ++ [pinOf N conse r (dateOf r)] := by
        simp [offered, hp]
      have hb : (pinOf N conse r (dateOf r)).tBreak = t.core.obs[t.core.i].date := hdate
      obtain ⟨hx1, hx2⟩ := hX _ hmem
      rcases record_step o z lg.table (pinOf N conse r (dateOf r)) (by rw [hb]; exact hx1) (by rw [hb]; exact hx2) (by
        intro x hx
        simp only [offered, List.mem_map, List.mem_filter] at hx
        obtain ⟨r', ⟨hr', _⟩, rfl⟩ := hx
        exact hlogd r' hr') with ⟨p', ep, ht⟩ | ⟨ep, h40, hlt⟩
      · left
        simp only [ep, bind, Except.bind]
        exact ⟨_, rfl, rfl, inv1, ⟨by simp only [hoff]; exact ht, hrounds, hbefore, hbreaks⟩, hd⟩
      · right; right
        simp only [ep, bind, Except.bind]
        exact ⟨trivial, many_of lg hmem h40 (by rw [← hb]; exact hlt)⟩

theorem loopP_cases {N : Num V F R} {Z : ZeroV V} (o : Ordered N) (z : ZeroOk N Z) (hg : N.lt N.tcg N.gate = false)
    {conse n : Nat} {X : List Obs} (hc : 0 < conse) (hX : ∀ x ∈ X, 723546 ≤ x.date ∧ period x.date < n) :
    ∀ (k : Nat) (t : StP V F R), Inv True [] X t.core → LogInv N Z conse n X t →
      t.core.obs.length - t.core.i - conse ≤ k →
    (∃ t', loopP N Z conse 0 k t = .ok t' ∧ loop N conse 0 k t.core = .ok t'.core ∧ LogInv N Z conse n X t') ∨
    (loopP N Z conse 0 k t = .error .oob ∧ loop N conse 0 k t.core = .error .oob) ∨
    (loopP N Z conse 0 k t = .error .oob ∧ ManyPeriods X)
  | 0, t, inv, lg, hk => by
    unfold loopP loop
    rw [if_neg (by omega), if_neg (by omega)]
    exact .inl ⟨t, rfl, rfl, lg⟩
  | k + 1, t, inv, lg, hk => by
    unfold loopP loop
    by_cases h2 : t.core.i + conse + 1 ≤ t.core.obs.length
    · rw [if_pos h2, if_pos h2]
      rcases stepP_cases o z hg hc hX inv lg h2 with ⟨t1, e1, e2, inv1, lg1, hd⟩ | ⟨e1, e2⟩ | ⟨e1, hm⟩
      · have hlen : t1.core.obs.length - t1.core.i = t.core.obs.length - (t.core.i + 1) := by
          have := congrArg List.length hd
          simpa using this
        simp only [e1, e2, bind, Except.bind]
        exact loopP_cases o z hg hc hX k t1 inv1 lg1 (by omega)
      · simp only [e1, e2, bind, Except.bind]
        exact .inr (.inl ⟨trivial, trivial⟩)
      · simp only [e1, bind, Except.bind]
        exact .inr (.inr ⟨trivial, hm⟩)
    · rw [if_neg h2, if_neg h2]
      exact .inl ⟨t, rfl, rfl, lg⟩


/-! ## A call -/

/-- Everything the pinpoint theorems say about a run. -/
structure Facts (N : Num V F R) (Z : ZeroV V) (conse : Nat) (X : List Obs) (recs : List (Rec R))
    (pins : List (Pin V F)) (log : List (Round F)) : Prop where
  rounds : Rounds conse X log
  table : Pinpoints N Z conse log pins
  breaks : BreaksOf N conse log recs
  cap : pins.length ≤ 40

theorem shows_pinOf (N : Num V F R) (conse : Nat) (r : Round F) : Shows N conse r (pinOf N conse r (dateOf r)) := by
  refine ⟨rfl, rfl, rfl, ?_, ?_, ?_⟩
  · intro k hk
    simp only [pinOf]
    rw [List.getElem?_append_left (by simp; exact hk), List.getElem?_map, List.getElem?_range hk]
    rfl
  · intro k hk
    simp only [pinOf]
    rw [List.getElem?_append_left (by simp; exact hk), List.getElem?_map, List.getElem?_range hk]
    rfl
  · intro k hk
    simp only [pinOf, NCONSE]
    rw [List.getElem?_map, List.getElem?_range hk]
    rfl

theorem facts_of {N : Num V F R} {Z : ZeroV V} (o : Ordered N) {conse n : Nat} {X : List Obs}
    (hX : ∀ x ∈ X, 723546 ≤ x.date ∧ period x.date < n) {t : StP V F R} (h : LogInv N Z conse n X t) :
    Facts N Z conse X t.core.recs t.pin.pins t.log := by
  have off : ∀ p, p ∈ offered N conse t.log ↔ ∃ r ∈ t.log, Anomalous N conse r ∧ pinOf N conse r (dateOf r) = p := by
    intro p
    simp only [offered, List.mem_map, List.mem_filter, isPin_iff o]
    constructor
    · rintro ⟨r, ⟨h1, h2⟩, h3⟩; exact ⟨r, h1, h2, h3⟩
    · rintro ⟨r, h1, h2, h3⟩; exact ⟨r, ⟨h1, h2⟩, h3⟩
  refine ⟨h.rounds, ⟨h.table.apart, ?_, ?_⟩, ?_, h.table.cap⟩
  · intro p hp
    obtain ⟨b1, _, b3, b4⟩ := h.table.best p hp
    obtain ⟨r, hr, ha, rfl⟩ := (off p).mp b1
    refine ⟨r, hr, ha, shows_pinOf N conse r, b3, ?_⟩
    intro r' hr' ha' hpr
    exact b4 _ ((off _).mpr ⟨r', hr', ha', rfl⟩) hpr
  · intro r hr ha hz
    obtain ⟨hs, hl⟩ := h.rounds.within r hr
    cases hq : r.rest with
    | nil => rw [hq] at hl; simp at hl
    | cons a as =>
      have hd : dateOf r = a.date := by simp [dateOf, hq]
      obtain ⟨h1, h2⟩ := hX a (hs.subset (by rw [hq]; simp))
      have h0 := period_nonneg h1
      rcases h.table.slot (period a.date).toNat (by omega) with ⟨p, hp, hpk⟩ | ⟨_, hno⟩
      · refine ⟨p, hp, by rw [hd]; omega, ?_⟩
        obtain ⟨_, _, _, b4⟩ := h.table.best p hp
        exact (b4 (pinOf N conse r (dateOf r)) ((off _).mpr ⟨r, hr, ha, rfl⟩)
          (by show period (dateOf r) = _; rw [hd]; omega)).1
      · have := hno (pinOf N conse r (dateOf r)) ((off _).mpr ⟨r, hr, ha, rfl⟩)
          (by show period (dateOf r) = _; rw [hd]; omega)
        have hz' : N.lt Z.zero (pinOf N conse r (dateOf r)).mag = true := hz
        rw [this] at hz'; simp at hz'
  · obtain ⟨op, br, h1, h2, h3⟩ := h.breaks
    refine ⟨op, br, h1, h2, _, List.filter_sublist, ?_, h3⟩
    intro r hr
    rw [List.mem_filter, isChange_iff o]
    exact ⟨fun x => x.2, fun x => ⟨hr, x⟩⟩

theorem standardP_cases {N : Num V F R} {Z : ZeroV V} (o : Ordered N) (z : ZeroOk N Z) (hg : N.lt N.tcg N.gate = false)
    {conse : Nat} {X : List Obs} (hc : 0 < conse) (hasc : Asc X) (hne : X ≠ []) (h82 : ∀ x ∈ X, 723546 ≤ x.date)
    (model : Option (Model F)) :
    (∃ out pins log, standardP N Z conse model X = .ok (out, pins, log) ∧ standard N conse 0 model [] [] X = .ok out ∧
      Facts N Z conse X out.recs pins log) ∨
    (∃ e, standardP N Z conse model X = .error e ∧ standard N conse 0 model [] [] X = .error e) ∨
    (standardP N Z conse model X = .error .oob ∧ ManyPeriods X) := by
  obtain ⟨last, hl⟩ : ∃ last, X.getLast? = some last := by
    cases h : X.getLast? with
    | none => exact absurd (List.getLast?_eq_none_iff.mp h) hne
    | some l => exact ⟨l, rfl⟩
  have hlm : last ∈ X := List.mem_of_getLast? hl
  have hlast : ∀ x ∈ X, x.date ≤ last.date := by
    intro x hx
    obtain ⟨A, hA⟩ := List.getLast?_eq_some_iff.mp hl
    rw [hA] at hx hasc
    rcases List.mem_append.mp hx with hx | hx
    · exact Int.le_of_lt (asc_split hasc x hx last (by simp))
    · simp at hx; rw [hx]; exact Int.le_refl _
  have hcnt := cmCount_eq (h82 last hlm)
  have hp0 := period_nonneg (h82 last hlm)
  have hX : ∀ x ∈ X, 723546 ≤ x.date ∧ period x.date < (cmCount last.date).toNat := by
    intro x hx
    have := period_mono (hlast x hx)
    exact ⟨h82 x hx, by omega⟩
  have g : Given True conse 0 model ([] : List (Rec R)) X :=
    { modes := by simp
      mon := by simp
      five := by simp
      recsOk := fun _ => by simp [RecsOk]
      asc := fun _ => by simpa [flat, openPart] using hasc
      chrono := fun _ => by simp [Chrono]
      year := fun _ => by simp }
  obtain ⟨s0, e0, inv0, o0, i0, r0, _, _, _, _⟩ := initSt_inv g
  have inv0' : Inv True [] X s0 := by simpa [flat, openPart] using inv0
  have lg0 : LogInv N Z conse (cmCount last.date).toNat X
      (⟨s0, ⟨List.replicate (cmCount last.date).toNat Z.zero, []⟩, []⟩ : StP V F R) :=
    { table := Table.start N Z _
      rounds := ⟨by simp, by simp⟩
      before := by simp
      breaks := ⟨[], [], by simp [r0], by simp, by simp⟩ }
  have hst := standard_cases N (model := model) (queue0 := []) hc g
  have hstd : standard N conse 0 model [] [] X =
      loop N conse 0 (X.length + 1) s0 >>= fun s => newMode conse 0 s >>= fun mp => step3 N conse mp.1 mp.2 [] s := by
    unfold standard
    rw [e0]; rfl
  unfold standardP
  rw [hl]
  simp only
  rw [if_neg (by omega), e0]
  rcases loopP_cases o z hg hc hX (X.length + 1) _ inv0' lg0 (by simp only [o0]; omega) with
    ⟨t', e1, e2, lg⟩ | ⟨e1, e2⟩ | ⟨e1, hm⟩
  · have hf := facts_of o hX lg
    simp only at e2
    rw [e2] at hstd
    simp only [e1, bind, Except.bind] at hstd ⊢
    cases hnm : newMode conse 0 t'.core with
    | error e =>
      rw [hnm] at hstd
      exact .inr (.inl ⟨e, rfl, hstd⟩)
    | ok mp =>
      rw [hnm] at hstd
      simp only at hstd ⊢
      cases hs3 : step3 N conse mp.1 mp.2 [] t'.core with
      | error e =>
        rw [hs3] at hstd
        exact .inr (.inl ⟨e, rfl, hstd⟩)
      | ok out =>
        rw [hs3] at hstd
        refine .inl ⟨out, _, _, rfl, hstd, ?_⟩
        rcases hst with ⟨out', s, s0', eo, e0', eL, _, _, _, _, res⟩ | ⟨eo, _⟩
        · rw [e0] at e0'; cases e0'
          rw [e2] at eL; cases eL
          rw [hstd] at eo; cases eo
          rw [res.recs]; exact hf
        · rw [hstd] at eo; cases eo
  · simp only at e2
    rw [e2] at hstd
    simp only [e1, bind, Except.bind]
    exact .inr (.inl ⟨_, rfl, hstd⟩)
  · simp only [e1, bind, Except.bind]
    exact .inr (.inr ⟨trivial, hm⟩)

theorem facts_none (N : Num V F R) (Z : ZeroV V) (conse : Nat) (X : List Obs) : Facts N Z conse X [] [] [] :=
  ⟨⟨by simp, by simp⟩, ⟨by simp, by simp, by simp⟩, ⟨[], [], by simp, by simp, [], by simp, by simp, by simp⟩, by simp⟩

theorem detectP_cases (E : Env V F R M) (Z : ZeroV V) (o : ∀ rm, Ordered (E.num rm)) (z : ∀ rm, ZeroOk (E.num rm) Z)
    (hg : ∀ rm, (E.num rm).lt (E.num rm).tcg (E.num rm).gate = false) (hc : 0 < E.conse)
    (m0 : M) (zm : Model F) (scenes : List Scene) (hq : ∀ s ∈ scenes, KnownQa s.qa)
    (hasc : Asc (fresh E.bC2 (snowBranch E 0 scenes) scenes))
    (h82 : ∀ x ∈ fresh E.bC2 (snowBranch E 0 scenes) scenes, 723546 ≤ x.date) :
    (∃ q pins log, detectP E Z m0 zm scenes = .ok (q, pins, log) ∧ detect E m0 zm scenes = .ok q ∧
      Facts (E.num q.minRmse) Z E.conse (fresh E.bC2 (snowBranch E 0 scenes) scenes) q.recs pins log) ∨
    (∃ e, detectP E Z m0 zm scenes = .error e ∧ detect E m0 zm scenes = .error e) ∨
    (detectP E Z m0 zm scenes = .error .oob ∧ ManyPeriods (fresh E.bC2 (snowBranch E 0 scenes) scenes)) := by
  unfold detectP detect
  by_cases h8 : E.conse > NCONSE
  · simp only [h8, if_true]
    exact .inr (.inl ⟨_, rfl, rfl⟩)
  simp only [h8, if_false]
  cases hh : scenes.head? with
  | none => exact .inr (.inl ⟨_, rfl, rfl⟩)
  | some a =>
  cases hl : scenes.getLast? with
  | none => exact .inr (.inl ⟨_, rfl, rfl⟩)
  | some b =>
  simp only
  by_cases hd : 4 * (b.date - a.date) < 1461
  · simp only [hd, if_true]
    exact .inr (.inl ⟨_, rfl, rfl⟩)
  simp only [hd, if_false]
  rw [sccd_eq E ⟨0, [], m0, some zm, [], []⟩ scenes (by simp) hq (old := []) rfl]
  obtain ⟨f1, f2, f3, f4⟩ := pre_facts E.bC2 scenes hq
  have hsb : E.snowPct (preprocessing E.bC2 scenes).sums.snow (preprocessing E.bC2 scenes).sums.clear =
      snowBranch E 0 scenes := by
    simp only [snowBranch, f3, f4, if_true]
  unfold sccdP
  simp only [f1, f2, hsb, accepted_eq, ne_eq, not_true_eq_false, if_false]
  have hX : append [] (fresh E.bC2 (snowBranch E 0 scenes) scenes) = fresh E.bC2 (snowBranch E 0 scenes) scenes :=
    append_asc _ [] (by simpa using hasc)
  generalize hXe : fresh E.bC2 (snowBranch E 0 scenes) scenes = X at *
  by_cases hb : snowBranch E 0 scenes = true
  · simp only [hb, if_true]
    have h : Promise E.conse (start m0 : Pack F R M) := start_promise E.conse m0
    obtain ⟨out, eo, hr, _, _, hcase⟩ := snow_cases (E.num m0) h (some zm) (by simp [start]) (.inl rfl) X
    have hp0 : pending (start m0 : Pack F R M) = [] := rfl
    rw [hp0, List.nil_append] at eo
    have eo' : snow (E.num m0) 0 (some zm) [] [] X = .ok out := eo
    have hr' : out.recs = [] := hr
    left
    rw [hX]
    simp only [eo', bind, Except.bind]
    rcases hcase with ⟨e4, _⟩ | ⟨e3, _⟩
    · rw [packOut_que (by simp only; omega), packOut_que (by simp only; omega)]
      refine ⟨_, _, _, rfl, rfl, ?_⟩
      simp only [hr']
      exact facts_none _ _ _ _
    · rw [packOut_mon (by simp only; omega), packOut_mon (by simp only; omega)]
      refine ⟨_, _, _, rfl, rfl, ?_⟩
      simp only [hr']
      exact facts_none _ _ _ _
  · have hb' : snowBranch E 0 scenes = false := by simpa using hb
    simp only [hb', Bool.false_eq_true, if_false]
    rw [hX]
    by_cases hl : X.length > 0
    · have hne : X ≠ [] := by intro h; rw [h] at hl; simp at hl
      simp only [hl, List.length_nil, if_true, List.isEmpty_nil, Bool.true_and, decide_true]
      rcases standardP_cases (o (E.variogram X)) (z _) (hg _) hc hasc hne h82 (some zm) with
        ⟨out, pins, log, e1, e2, hf⟩ | ⟨e, e1, e2⟩ | ⟨e1, hm⟩
      · simp only [e1, e2, bind, Except.bind, List.nil_append]
        cases hpo : packOut (⟨out.mode, out.recs, E.variogram X, out.model, out.queue, out.removed⟩ : Pack F R M) with
        | error e => exact .inr (.inl ⟨e, rfl, rfl⟩)
        | ok q =>
          refine .inl ⟨q, pins, log, rfl, rfl, ?_⟩
          have hq' : q.minRmse = E.variogram X ∧ (q.recs = out.recs ∨ out.mode = 0) := by
            unfold packOut at hpo
            split at hpo
            · cases hpo; exact ⟨rfl, .inl rfl⟩
            · split at hpo
              · cases hpo; exact ⟨rfl, .inl rfl⟩
              · split at hpo
                · cases hpo; exact ⟨rfl, .inl rfl⟩
                · split at hpo
                  · rename_i h0; cases hpo; exact ⟨rfl, .inr h0⟩
                  · cases hpo
          have g : Given True E.conse 0 (some zm) ([] : List (Rec R)) X :=
            { modes := by simp
              mon := by simp
              five := by simp
              recsOk := fun _ => by simp [RecsOk]
              asc := fun _ => by simpa [flat, openPart] using hasc
              chrono := fun _ => by simp [Chrono]
              year := fun _ => by simp }
          have hmo : out.mode ≠ 0 := by
            rcases standard_cases (E.num (E.variogram X)) [] hc g with ⟨out', s, s0', eo, _, _, _, _, _, _, res⟩ | ⟨eo, _⟩
            · rw [e2] at eo; cases eo
              have := res.modes
              simp only [List.mem_cons, List.not_mem_nil, or_false] at this
              omega
            · rw [e2] at eo; cases eo
          rw [hq'.1]
          rcases hq'.2 with h1 | h1
          · rw [h1]; exact hf
          · exact absurd h1 hmo
      · simp only [e1, e2, bind, Except.bind]
        exact .inr (.inl ⟨e, rfl, rfl⟩)
      · simp only [e1, bind, Except.bind]
        exact .inr (.inr ⟨trivial, hm⟩)
    · simp only [hl, List.length_nil, if_false, bind, Except.bind]
      left
      exact ⟨_, [], [], rfl, rfl, facts_none _ _ _ _⟩

theorem many_span {X : List Obs} {k : Nat} : ∀ {ds : List Int}, ds.length = k + 1 → ds.Pairwise (fun a b => period a < period b) →
    (∀ d ∈ ds, ∃ o ∈ X, o.date = d) → ∃ a ∈ ds, ∃ b ∈ ds, ds.head? = some a ∧ period a + k ≤ period b := by
  induction k with
  | zero =>
    intro ds hl _ _
    cases ds with
    | nil => simp at hl
    | cons a as => exact ⟨a, by simp, a, by simp, rfl, by simp⟩
  | succ k ih =>
    intro ds hl hp hm
    cases ds with
    | nil => simp at hl
    | cons a as =>
      obtain ⟨h1, h2⟩ := List.pairwise_cons.mp hp
      obtain ⟨x, hx, y, hy, _, hxy⟩ := ih (ds := as) (by simpa using hl) h2 (fun d hd => hm d (by simp [hd]))
      refine ⟨a, by simp, y, by simp [hy], rfl, ?_⟩
      have := h1 x hx
      omega

theorem not_many {X : List Obs} (h : ∀ a ∈ X, ∀ b ∈ X, period b.date < period a.date + 40) : ¬ ManyPeriods X := by
  rintro ⟨ds, hl, hp, hm⟩
  obtain ⟨a, ha, b, hb, _, hab⟩ := many_span (k := ds.length - 1) (by omega) hp hm
  obtain ⟨x, hx, rfl⟩ := hm a ha
  obtain ⟨y, hy, rfl⟩ := hm b hb
  have := h x hx y hy
  omega

end Pycold.Sccd
