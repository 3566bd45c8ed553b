import Verif.Model.ColdNum
import Verif.Model.Obcold
import Verif.Model.Pinpoint
import Verif.Proof.Preprocess
import Verif.Spec.Hidden
import Verif.Spec.SccdNum
/-!
# Property C95: scenes that do not show the ground have no influence

A series may have any number of cloud, shadow and fill scenes more or less, at any dates and with any band values:

* COLD's standard procedure gives the same result (snow scenes may differ, too), also when asked for change magnitudes;
* the reconstruction of OBCOLD gives the same segments;
* S-CCD gives the same packs, from the first call on and over every sequence of updates;
* the fallback for persistent snow gives the same record.

Refuted for the fallback for too few clear observations: it takes every scene in range, whatever its quality code.
-/
namespace Pycold.Hidden
open Pycold.Spec Spec

/-! ## Screening -/

theorem known_of_notClear {o : Scene} (h : NotClear o) : KnownQa o.qa := by
  rcases h with (h | h | h) | h <;> simp [KnownQa, h]

theorem known_filter {p : Scene → Bool} (hp : ∀ o, p o = false → NotClear o) (l : List Scene) :
    (∀ o ∈ l.filter p, KnownQa o.qa) ↔ ∀ o ∈ l, KnownQa o.qa := by
  constructor
  · intro h o ho
    by_cases hc : p o = true
    · exact h o (List.mem_filter.2 ⟨ho, hc⟩)
    · exact known_of_notClear (hp o (by simpa using hc))
  · intro h o ho
    exact h o (List.mem_filter.1 ho).1

theorem count_filter {p : Scene → Bool} {q : Int} (hp : ∀ o, p o = false → o.qa ≠ q) (l : List Scene) :
    qaCount (l.filter p) q = qaCount l q := by
  rw [qaCount, qaCount, List.countP_filter]
  refine List.countP_congr fun o _ => ?_
  by_cases hc : p o = true
  · simp [hc]
  · have := hp o (by simpa using hc)
    simp [hc, this]

theorem qa_of_notClear {o : Scene} (h : NotClear o) : ¬ o.qa < 2 := by
  rcases h with (h | h | h) | h <;> rw [h] <;> decide

theorem clrLoop_filter {p : Scene → Bool} (hp : ∀ o, p o = false → NotClear o) (c1 c2 : Bool) : ∀ (l : List Scene) (acc : List ClrObs),
    clrLoop c1 (l.filter p) ((l.filter p).map (idRange c2)) acc = clrLoop c1 l (l.map (idRange c2)) acc
  | [], acc => rfl
  | o :: l, acc => by
    by_cases hc : p o = true
    · rw [List.filter_cons_of_pos hc, List.map_cons, List.map_cons, clrLoop, clrLoop]
      exact clrLoop_filter hp c1 c2 l _
    · rw [List.filter_cons_of_neg hc, List.map_cons, clrLoop, clrLoop_filter hp c1 c2 l acc, clrStep,
        if_neg (by simp [qa_of_notClear (hp o (by simpa using hc))])]

theorem accepted_filter {p : Scene → Bool} (hp : ∀ o, p o = false → Hidden o) (bSnow c : Bool) : ∀ l : List Scene,
    Sccd.accepted bSnow (l.filter p) ((l.filter p).map (idRange c)) = Sccd.accepted bSnow l (l.map (idRange c))
  | [] => rfl
  | o :: l => by
    by_cases hc : p o = true
    · rw [List.filter_cons_of_pos hc, List.map_cons, List.map_cons, Sccd.accepted, Sccd.accepted, accepted_filter hp bSnow c l]
    · have hh := hp o (by simpa using hc)
      have h2 : ¬ o.qa < 2 := qa_of_notClear (Or.inl hh)
      have h3 : ¬ o.qa = CFMASK_SNOW := by
        rcases hh with h | h | h <;> rw [h] <;> decide
      rw [List.filter_cons_of_neg hc, List.map_cons, Sccd.accepted, accepted_filter hp bSnow c l, if_neg]
      cases bSnow <;> simp [h2, h3]

theorem pre_clear (bC2 : Bool) {a b : List Scene} (h : SameClear a b) :
    ((preprocessing bC2 a).status = .success ↔ (preprocessing bC2 b).status = .success) ∧
    ((preprocessing bC2 a).status = .success → (preprocessing bC2 a).sums.clear = (preprocessing bC2 b).sums.clear ∧
      ∀ c, clrLoop c a (preprocessing bC2 a).idr [] = clrLoop c b (preprocessing bC2 b).idr []) := by
  have hp : ∀ o : Scene, decide (¬ NotClear o) = false → NotClear o := by intro o h; simpa using h
  have hq : ∀ (q : Int), q = 0 ∨ q = 1 → ∀ o : Scene, decide (¬ NotClear o) = false → o.qa ≠ q := by
    rintro q hq o ho rfl
    have := qa_of_notClear (hp o ho)
    omega
  have hiff : (preprocessing bC2 a).status = .success ↔ (preprocessing bC2 b).status = .success := by
    rw [preprocessing, preprocessing, (preLoop_status bC2 a {}).1, (preLoop_status bC2 b {}).1,
      ← known_filter hp a, ← known_filter hp b, show a.filter _ = b.filter _ from h]
  refine ⟨hiff, fun ha => ?_⟩
  obtain ⟨a1, a2⟩ := preLoop_success bC2 a {} ha
  obtain ⟨b1, b2⟩ := preLoop_success bC2 b {} (hiff.1 ha)
  refine ⟨?_, fun c => ?_⟩
  · rw [preprocessing, preprocessing, a2, b2]
    simp only
    rw [← count_filter (hq 0 (by simp)) a, ← count_filter (hq 0 (by simp)) b, ← count_filter (hq 1 (by simp)) a,
      ← count_filter (hq 1 (by simp)) b, show a.filter _ = b.filter _ from h]
  · rw [preprocessing, preprocessing, a1, b1, ← clrLoop_filter hp c bC2 a, ← clrLoop_filter hp c bC2 b,
      show a.filter _ = b.filter _ from h]

theorem sameClear_of_seen {a b : List Scene} (h : SameSeen a b) : SameClear a b := by
  have key : ∀ l : List Scene, l.filter (fun o => decide (¬ NotClear o)) =
      (l.filter (fun o => decide (¬ Hidden o))).filter (fun o => decide (¬ NotClear o)) := by
    intro l
    rw [List.filter_filter]
    refine List.filter_congr fun o _ => ?_
    by_cases hc : Hidden o <;> simp [hc, NotClear]
  show a.filter _ = b.filter _
  rw [key a, key b, show a.filter _ = b.filter _ from h]

theorem pre_seen (bC2 : Bool) {a b : List Scene} (h : SameSeen a b) (ha : (preprocessing bC2 a).status = .success) :
    (preprocessing bC2 a).sums.snow = (preprocessing bC2 b).sums.snow ∧
      ∀ s, Sccd.accepted s a (preprocessing bC2 a).idr = Sccd.accepted s b (preprocessing bC2 b).idr := by
  have hp : ∀ o : Scene, decide (¬ Hidden o) = false → Hidden o := by intro o h; simpa using h
  have hq : ∀ o : Scene, decide (¬ Hidden o) = false → o.qa ≠ 3 := by
    intro o ho e
    rcases hp o ho with h | h | h <;> omega
  have hb := (pre_clear bC2 (sameClear_of_seen h)).1.1 ha
  obtain ⟨a1, a2⟩ := preLoop_success bC2 a {} ha
  obtain ⟨b1, b2⟩ := preLoop_success bC2 b {} hb
  refine ⟨?_, fun s => ?_⟩
  · rw [preprocessing, preprocessing, a2, b2]
    simp only
    rw [← count_filter hq a, ← count_filter hq b, show a.filter _ = b.filter _ from h]
  · rw [preprocessing, preprocessing, a1, b1, ← accepted_filter hp s bC2 a, ← accepted_filter hp s bC2 b,
      show a.filter _ = b.filter _ from h]

/-! ## COLD and OBCOLD -/

/-- COLD: the same outcome, and in the standard procedure the same records and change magnitudes.  The first date of
the change magnitudes is a parameter in `P`. -/
theorem C95_cold {F : Type} (P : Cold.Params) (E : ColdNum.Env F (Fin 7)) (bC2 : Bool) (a b : List Scene) (nCm : Nat)
    (h : SameClear a b) (ha : a ≠ []) (hb : b ≠ []) (da : DatesInOrder a) (db : DatesInOrder b) :
    ColdNum.cold P E bC2 a nCm = ColdNum.cold P E bC2 b nCm := by
  obtain ⟨h1, h2⟩ := pre_clear bC2 h
  have ea : a.isEmpty = false := by cases a <;> simp_all
  have eb : b.isEmpty = false := by cases b <;> simp_all
  rw [ColdNum.cold, ColdNum.cold, ea, eb, (dateCheckFails_false_iff a).2 da, (dateCheckFails_false_iff b).2 db]
  simp only [Bool.false_eq_true, if_false]
  by_cases hs : (preprocessing bC2 a).status = .success
  · obtain ⟨h3, h4⟩ := h2 hs
    rw [if_neg (fun c => c hs : ¬ (preprocessing bC2 a).status ≠ .success), if_neg (fun c => c (h1.1 hs) : ¬ (preprocessing bC2 b).status ≠ .success), h3,
      clearObs, clearObs, h4]
  · rw [if_pos hs, if_pos (fun e => hs (h1.2 e))]

/-- OBCOLD: the same segments. -/
theorem C95_obcold {R M : Type} (E : List ClrObs → Obcold.Env R M) (garbage : Bool) (conse : Nat) (bC2 : Bool) (a b : List Scene)
    (breaks : List Int) (h : SameClear a b) (hb : b ≠ []) (db : DatesInOrder b) (recs : List (Obcold.Rec R M))
    (hr : Obcold.reconstruct E garbage conse bC2 a breaks = .ok (.segments recs)) :
    Obcold.reconstruct E garbage conse bC2 b breaks = .ok (.segments recs) := by
  have hno : ∀ (l : List Scene) (idr : List Bool), Obcold.viaFallback (R := R) (M := M) garbage bC2 l idr ≠ .ok (.segments recs) := by
    intro l idr
    rw [Obcold.viaFallback]
    split <;> simp
  obtain ⟨h1, h2⟩ := pre_clear bC2 h
  unfold Obcold.reconstruct at hr ⊢
  split at hr
  · simp at hr
  · rename_i hemp
    split at hr
    · simp at hr
    · simp only at hr
      split at hr
      · simp at hr
      · rename_i hs
        have hs : (preprocessing bC2 a).status = .success := by simpa using hs
        obtain ⟨h3, h4⟩ := h2 hs
        rw [if_neg (by simp only [not_or] at hemp ⊢; exact ⟨hb, hemp.2⟩), (dateCheckFails_false_iff b).2 db]
        simp only [Bool.false_eq_true, if_false]
        rw [if_neg (fun c => c (h1.1 hs) : ¬ (preprocessing bC2 b).status ≠ .success), ← h3]
        split at hr
        · exact absurd hr (hno _ _)
        · rename_i hc
          rw [if_neg hc, ← h4]
          simp only [bind, Except.bind] at hr ⊢
          split at hr
          · simp at hr
          · split at hr
            · simp at hr
            · split at hr
              · exact absurd hr (hno _ _)
              · rename_i hne
                simp only [*, if_false]

/-! ## S-CCD -/

/-- A call on any pack. -/
theorem C95_sccd {V F R M : Type} (E : Sccd.Env V F R M) (p : Sccd.Pack F R M) (a b : List Scene) (h : SameSeen a b) :
    Sccd.sccd E p a = Sccd.sccd E p b := by
  obtain ⟨h1, h2⟩ := pre_clear E.bC2 (sameClear_of_seen h)
  unfold Sccd.sccd
  split
  · rfl
  · simp only
    by_cases hs : (preprocessing E.bC2 a).status = .success
    · obtain ⟨h5, h6⟩ := pre_seen E.bC2 h hs
      rw [if_neg (fun c => c hs : ¬ (preprocessing E.bC2 a).status ≠ .success),
        if_neg (fun c => c (h1.1 hs) : ¬ (preprocessing E.bC2 b).status ≠ .success), (h2 hs).1, h5]
      simp only [h6]
    · rw [if_pos hs, if_pos (fun e => hs (h1.2 e))]

/-- The first call, for series of at least a year. -/
theorem C95_detect {V F R M : Type} (E : Sccd.Env V F R M) (m0 : M) (z : Sccd.Model F) (a b : List Scene) (h : SameSeen a b)
    (ha : Year a) (hb : Year b) : Sccd.detect E m0 z a = Sccd.detect E m0 z b := by
  obtain ⟨x, y, e1, e2, e3⟩ := ha
  obtain ⟨x', y', e1', e2', e3'⟩ := hb
  unfold Sccd.detect
  rw [e1, e2, e1', e2']
  simp only
  rw [if_neg (by omega : ¬ 4 * (y.date - x.date) < 1461), if_neg (by omega : ¬ 4 * (y'.date - x'.date) < 1461), C95_sccd E _ a b h]

/-- The first call with pinpoint records. -/
theorem C95_pinpoint {V F R M : Type} (E : Sccd.Env V F R M) (Z : Sccd.ZeroV V) (m0 : M) (z : Sccd.Model F) (a b : List Scene)
    (h : SameSeen a b) (ha : Year a) (hb : Year b) : Sccd.detectP E Z m0 z a = Sccd.detectP E Z m0 z b := by
  have hs : Sccd.sccdP E Z m0 (some z) a = Sccd.sccdP E Z m0 (some z) b := by
    obtain ⟨h1, h2⟩ := pre_clear E.bC2 (sameClear_of_seen h)
    unfold Sccd.sccdP
    simp only
    by_cases hs : (preprocessing E.bC2 a).status = .success
    · obtain ⟨h5, h6⟩ := pre_seen E.bC2 h hs
      rw [if_neg (fun c => c hs : ¬ (preprocessing E.bC2 a).status ≠ .success),
        if_neg (fun c => c (h1.1 hs) : ¬ (preprocessing E.bC2 b).status ≠ .success), (h2 hs).1, h5]
      simp only [h6]
    · rw [if_pos hs, if_pos (fun e => hs (h1.2 e))]
  obtain ⟨x, y, e1, e2, e3⟩ := ha
  obtain ⟨x', y', e1', e2', e3'⟩ := hb
  unfold Sccd.detectP
  rw [e1, e2, e1', e2']
  simp only
  rw [if_neg (by omega : ¬ 4 * (y.date - x.date) < 1461), if_neg (by omega : ¬ 4 * (y'.date - x'.date) < 1461), hs]

/-- A first call and any sequence of updates, none of them without scenes. -/
theorem C95_session {V F R M : Type} (E : Sccd.Env V F R M) (m0 : M) (z : Sccd.Model F) (first first' : List Scene)
    (batches batches' : List (List Scene)) (h : SameSeen first first') (ha : Year first) (hb : Year first')
    (hl : List.Forall₂ (fun a b => SameSeen a b ∧ a ≠ [] ∧ b ≠ []) batches batches') :
    SccdNum.Spec.session E m0 z first batches = SccdNum.Spec.session E m0 z first' batches' := by
  have hfeed : ∀ p, Sccd.feed E p batches = Sccd.feed E p batches' := by
    induction hl with
    | nil => intro p; rfl
    | @cons a b as bs hab _ ih =>
      intro p
      have hu : Sccd.update E p a = Sccd.update E p b := by
        unfold Sccd.update
        rw [if_neg hab.2.1, if_neg hab.2.2, C95_sccd E _ a b hab.1]
      rw [Sccd.feed, Sccd.feed, hu]
      simp only [ih]
  unfold SccdNum.Spec.session
  rw [C95_detect E m0 z _ _ h ha hb]
  simp only [hfeed]

/-! ## The fallback -/

/-- The fallback for persistent snow: the same record. -/
theorem C95_snow (bC2 : Bool) (a b : List Scene) (h : SameSeen a b) (hq : ∀ o ∈ a, KnownQa o.qa)
    (hs : 100 * qaCount a 3 > 300 * (qaCount a 0 + qaCount a 1) + 3) : Fallback.ofCold bC2 a = Fallback.ofCold bC2 b := by
  have hok : (preprocessing bC2 a).status = .success := (preLoop_status bC2 a {}).1.2 hq
  obtain ⟨-, h2⟩ := pre_clear bC2 (sameClear_of_seen h)
  obtain ⟨h3, -⟩ := pre_seen bC2 h hok
  have hsum := (preLoop_success bC2 a {} hok).2
  have hsnowy : Fallback.snowy (preprocessing bC2 a).sums = true := by
    rw [preprocessing, hsum]
    simp only [Fallback.snowy, decide_eq_true_eq]
    omega
  have hsnowy' : Fallback.snowy (preprocessing bC2 b).sums = true := by
    rw [← hsnowy, Fallback.snowy, Fallback.snowy, h3, (h2 hok).1]
  have hsel : ∀ l : List Scene, Fallback.snowSel l = Fallback.snowSel (l.filter fun o => decide (¬ Hidden o)) := by
    intro l
    rw [Fallback.snowSel, Fallback.snowSel, List.filter_filter]
    refine List.filter_congr fun o _ => ?_
    by_cases hc : Hidden o
    · have : ¬ o.qa < 2 := qa_of_notClear (Or.inl hc)
      have : ¬ o.qa = CFMASK_SNOW := by rcases hc with h | h | h <;> rw [h] <;> decide
      simp [*]
    · simp [hc]
  rw [Fallback.ofCold, Fallback.ofCold]
  simp only [Fallback.inefficientobs, hsnowy, hsnowy', if_true]
  rw [Fallback.snowBranch, Fallback.snowBranch, hsel a, hsel b, show a.filter _ = b.filter _ from h]

/-- Eleven clear scenes and a cloudy one with green value `g`. -/
def cloudy (g : Int) : List Scene :=
  (List.range 11).map (fun k : Nat => (⟨k, 500, 500, 500, 500, 500, 500, 2900, 0⟩ : Scene)) ++ [⟨11, 500, g, 500, 500, 500, 500, 2900, 4⟩]

/-- The fallback for too few clear observations: with other values of a cloudy scene the record is another (here:
there is one, or none). -/
theorem C95_fallback_clouds : ∃ a b : List Scene, SameSeen a b ∧ a.map (·.date) = b.map (·.date) ∧ a.map (·.qa) = b.map (·.qa) ∧
    DatesInOrder a ∧ (∃ r, Fallback.ofCold false a = .ok (some r) ∧ r.numObs = 12) ∧ Fallback.ofCold false b = .ok none := by
  refine ⟨cloudy 500, cloudy 0, by unfold SameSeen; decide +kernel, by decide +kernel, by decide +kernel, by unfold DatesInOrder; decide +kernel, ?_, ?_⟩
  · have h : (match Fallback.ofCold false (cloudy 500) with
        | .ok (some r) => some r.numObs
        | _ => none) = some 12 := by decide +kernel
    split at h
    · rename_i r e
      exact ⟨r, e, by simpa using h⟩
    · simp at h
  · have h : (match Fallback.ofCold false (cloudy 0) with
        | .ok none => true
        | _ => false) = true := by decide +kernel
    split at h
    · rename_i e; exact e
    · simp at h

/-! ## Concrete cases -/

/-- A clear scene, a cloudy one and one of the next year; and the same with another cloudy scene at another date and a fill scene. -/
def exA : List Scene := [⟨1, 5, 5, 5, 5, 5, 5, 2900, 0⟩, ⟨20, 9, 9, 9, 9, 9, 9, 2900, 4⟩, ⟨400, 7, 7, 7, 7, 7, 7, 2900, 3⟩]
def exB : List Scene := [⟨0, 0, 0, 0, 0, 0, 0, 0, 255⟩, ⟨1, 5, 5, 5, 5, 5, 5, 2900, 0⟩, ⟨30, 8, 1, 8, 8, 8, 8, 2900, 2⟩,
  ⟨400, 7, 7, 7, 7, 7, 7, 2900, 3⟩, ⟨401, 6, 6, 6, 6, 6, 6, 2900, 4⟩]
example : SameSeen exA exB ∧ exA ≠ exB := ⟨by unfold SameSeen; decide, by decide⟩
example : SameClear exA (exB.take 3) := by unfold SameClear; decide
example : Year exA ∧ Year exB := ⟨⟨_, _, rfl, rfl, by decide⟩, ⟨_, _, rfl, rfl, by decide⟩⟩
example : DatesInOrder exA ∧ DatesInOrder exB := ⟨by unfold DatesInOrder; decide, by unfold DatesInOrder; decide⟩
example : List.Forall₂ (fun a b => SameSeen a b ∧ a ≠ [] ∧ b ≠ []) [exA.drop 1] [exB.drop 2] :=
  .cons ⟨by unfold SameSeen; decide, by decide, by decide⟩ .nil
/-- Series that differ in a clear scene are not the same. -/
example : ¬ SameSeen exA (exA.drop 1) := by unfold SameSeen; decide

end Pycold.Hidden
