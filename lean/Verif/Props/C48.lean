import Verif.Proof.ColdNoise
import Verif.Props.C05_C11
/-!
# C48: which observations are discarded as noise
-/
namespace Pycold

open Cold Cold.Spec

variable {V W : Type}

/-- **C48, while monitoring.** In every round of every run that monitors: the scores tested are those of the next `conse`
observations; if they confirm a break, a record with that break is added and no observation is taken out; if not, the
first of them is taken out exactly if its own score exceeds the limit for outliers, and no record is added. -/
theorem C48_monitoring {P : Params} {N : Num V W} {ω : Oracle V W} {dates : List Int} {nCm : Nat} (hc : 1 ≤ P.conse) (hN : Ordered N)
    (hs : CmSized P dates nCm) (hd : dates.Pairwise (· < ·)) {s m s' : St V W} (h : Reached P N ω dates nCm s)
    (room : s.i ≤ s.end_ - P.conse) (hm : Monitors P N ω s m) (e : body P N ω s = .ok s') :
    ∃ w : List (Score V W), w.length = P.conse ∧ w.map Score.date = ((kept m.clrx m.end_).drop m.i.toNat).take P.conse ∧
      (Confirmed N w → kept s'.clrx s'.end_ = kept m.clrx m.end_ ∧
        ∃ r, s'.recs = m.recs ++ [r] ∧ r.window = w ∧ w.head?.map Score.date = some r.tBreak) ∧
      (¬ Confirmed N w → s'.recs = m.recs) ∧
      (¬ Confirmed N w → FirstExceeds N w → kept s'.clrx s'.end_ = (kept m.clrx m.end_).eraseIdx m.i.toNat) ∧
      (¬ Confirmed N w → ¬ FirstExceeds N w → kept s'.clrx s'.end_ = kept m.clrx m.end_) := by
  have hI := reached_inv hc hs hd h
  have hs1 := hI.start
  have hs2 := hI.startLe
  have hele := hI.arr.ele
  have hll := hI.arr.llen
  unfold body at e
  obtain ⟨t, ht, e⟩ := ok_bind e
  cases e
  rw [hI.arr.rd (by omega) (by omega), hI.arr.rd (by omega) (by omega)] at ht
  obtain ⟨a, ha, ht⟩ := ok_bind ht
  obtain ⟨b, hb, ht⟩ := ok_bind ht
  cases ha
  cases hb
  rcases hm with ⟨htr, rfl⟩ | ⟨htr, hspan, hyear, htp⟩
  · have hT := hI.tr htr
    rw [if_pos ⟨hT.span, by simp only [yearOrMore, decide_eq_true_eq]; exact hT.year⟩, if_neg (by rw [htr]; decide)] at ht
    obtain ⟨m1, hmon, ht⟩ := ok_bind (x := monitorPhase P N ω m) ht
    cases ht
    obtain ⟨w, hw⟩ := monitor_stepped hc hN ω hI.toBase room hT.span (Or.inr hT) hmon
    exact ⟨w, hw.len, hw.dates, hw.confirmed, hw.other, hw.noise, hw.stays⟩
  · rw [if_pos ⟨hspan, by simp only [yearOrMore, decide_eq_true_eq]; exact hyear⟩, if_pos htr, htp] at ht
    obtain ⟨m1, hmon, ht⟩ := ok_bind (x := monitorPhase P N ω m) ht
    cases ht
    obtain ⟨go, s2, h1, _, h3⟩ := trainPhase_ok hc hs ω hI.toBase htr room hspan
    rw [htp] at h1
    cases h1
    rcases h3 with ⟨h, _⟩ | ⟨_, h4, h5⟩
    · cases h
    · obtain ⟨w, hw⟩ := monitor_stepped hc hN ω h4 h5.room h5.span (Or.inl h5.iCount) hmon
      exact ⟨w, hw.len, hw.dates, hw.confirmed, hw.other, hw.noise, hw.stays⟩

/-- **C48, when a model is found.** The observations that the initial screening flags are taken out, and the segment is
extended backwards to the last break: at each place the scores of the up to `conse` observations from there backwards
are tested; a confirmed break ends it; else the observation is taken out exactly if its own score exceeds the limit, and
joins the segment if not. -/
theorem C48_look_back {P : Params} {N : Num V W} {ω : Oracle V W} {dates : List Int} {nCm : Nat} (hc : 1 ≤ P.conse) (hN : Ordered N)
    (hs : CmSized P dates nCm) (hd : dates.Pairwise (· < ·)) {s m : St V W} (h : Reached P N ω dates nCm s)
    (room : s.i ≤ s.end_ - P.conse) (htr : s.train = false) (hm : Monitors P N ω s m) :
    ∃ screened place,
      screened = (((kept s.clrx s.end_).zipIdx).filter fun x =>
        !(decide (s.iStart - 1 ≤ x.2 ∧ (x.2 : Int) < s.i) && ω.mask s.it (x.2 - (s.iStart - 1).toNat))).map (·.1) ∧
      Earliest s.recs s.iDense screened place ∧
      LookBack N P.conse (ω.lbScore s.it) (place - 1) (s.iStart - 2) screened (kept m.clrx m.end_) m.iStart := by
  have hI := reached_inv hc hs hd h
  rcases hm with ⟨htr', _⟩ | ⟨_, hspan, _, htp⟩
  · rw [htr] at htr'; cases htr'
  · obtain ⟨obs, place, h1, h2, h3⟩ := train_lookBack hc hN ω hI.toBase room hspan htp
    refine ⟨obs, place, ?_, h2, h3⟩
    rw [h1]
    exact compact_filter hI.start hspan

/-! ### The run of C05–C21 step by step -/

/-- The state after `n` rounds. -/
def roundsOf (P : Params) (N : Num V W) (ω : Oracle V W) (dates : List Int) (nCm : Nat) : Nat → Option (St V W)
  | 0 => some (init dates nCm)
  | n + 1 => (roundsOf P N ω dates nCm n).bind fun s =>
      if s.i ≤ s.end_ - P.conse then match body P N ω s with | .ok s' => some s' | .error _ => none else none

theorem roundsOf_reached {P : Params} {N : Num V W} {ω : Oracle V W} {dates : List Int} {nCm : Nat} :
    ∀ (n : Nat) {s : St V W}, roundsOf P N ω dates nCm n = some s → Reached P N ω dates nCm s
  | 0, s, h => by cases h; exact .start
  | n + 1, s, h => by
    rw [roundsOf] at h
    cases hr : roundsOf P N ω dates nCm n with
    | none => rw [hr] at h; cases h
    | some t =>
      rw [hr, Option.bind_some] at h
      split at h
      · rename_i room
        cases hb : body P N ω t with
        | error e => rw [hb] at h; cases h
        | ok t' => rw [hb] at h; cases h; exact .step (roundsOf_reached n hr) room hb
      · cases h

-- round 22 (state after 21): the window is [40, 3], not a break, and the first exceeds the limit: observation 33 goes
example : (roundsOf xP wN xω ((wObs 45).map (·.date)) 13 21).map (fun s => (s.train, s.i, s.end_, s.recs.length)) = some (true, 33, 45, 1) ∧
    (roundsOf xP wN xω ((wObs 45).map (·.date)) 13 22).map (fun s => (s.scores.map (·.mag), s.end_, s.recs.length, s.clrx.take 45)) =
      some ([40, 3], 44, 1, (((wObs 45).map (·.date)).eraseIdx 33) ++ [1365]) := by decide +kernel

-- round 26: the window is [100, 100], a break; nothing is taken out
example : (roundsOf xP wN xω ((wObs 45).map (·.date)) 13 25).map (fun s => (s.train, s.end_, s.recs.length)) = some (true, 44, 1) ∧
    (roundsOf xP wN xω ((wObs 45).map (·.date)) 13 26).map (fun s => (s.scores.map (·.mag), s.end_, s.recs.length)) =
      some ([100, 100], 44, 2) := by decide +kernel

-- round 9: a model is found; the look-back meets a break at once
example : (roundsOf xP wN xω ((wObs 45).map (·.date)) 13 8).map (fun s => (s.train, decide (12 ≤ s.i - s.iStart + 1),
      match trainPhase xP wN xω s with | .ok (go, m) => (go, m.iStart, m.recs.length) | _ => (false, 0, 0))) =
    some (false, true, true, 8, 1) := by decide +kernel

example : Confirmed wN [⟨1, 100, ()⟩, ⟨2, 100, ()⟩] ∧ ¬ Confirmed wN [⟨1, 40, ()⟩, ⟨2, 3, ()⟩] ∧ FirstExceeds wN [⟨1, 40, ()⟩, ⟨2, 3, ()⟩] := by
  unfold Confirmed FirstExceeds
  refine ⟨by decide, by decide, ⟨_, rfl, by decide⟩⟩

-- looking back over three observations, the last of them an outlier
example : LookBack wN 2 (fun k j => (if k = 2 ∧ j = 0 then 50 else 3, ())) 0 2 [10, 20, 30, 40] [10, 20, 40] 1 := by
  have back : ∀ (k : Int) (obs : List Int) (w : List (Score Nat Unit)), w.length = min (k - 0 + 1).toNat 2 →
      ((List.range w.length).all fun j => match w[j]? with
        | some x => decide (obs[(k - j).toNat]? = some x.date ∧ x.mag = if k = 2 ∧ j = 0 then 50 else 3)
        | none => true) = true →
      Backwards 2 (fun k j => (if k = 2 ∧ j = 0 then 50 else 3, ())) 0 k obs w := by
    intro k obs w h1 h2
    refine ⟨h1, fun j x hx => ?_⟩
    have := List.all_eq_true.1 h2 j (List.mem_range.2 (List.getElem?_eq_some_iff.1 hx).1)
    rw [hx] at this
    have := of_decide_eq_true this
    exact ⟨this.1, Prod.ext this.2 rfl⟩
  refine .noise (w := [⟨30, 50, ()⟩, ⟨20, 3, ()⟩]) (by decide) (back _ _ _ (by decide) (by decide)) (by unfold Confirmed; decide)
    ⟨_, rfl, by decide⟩ ?_
  refine .joins (w := [⟨20, 3, ()⟩, ⟨10, 3, ()⟩]) (by decide) (back _ _ _ (by decide) (by decide)) (by unfold Confirmed; decide)
    (by rintro ⟨_, h, h'⟩; cases h; exact absurd h' (by decide)) ?_
  refine .joins (w := [⟨10, 3, ()⟩]) (by decide) (back _ _ _ (by decide) (by decide)) (by unfold Confirmed; decide)
    (by rintro ⟨_, h, h'⟩; cases h; exact absurd h' (by decide)) ?_
  exact LookBack.done (stop := 0) (k := -1) (by decide)

end Pycold
