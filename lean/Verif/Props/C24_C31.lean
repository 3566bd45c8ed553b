import Verif.Proof.SccdMon
import Verif.Props.SccdToy
/-!
# Properties C24–C31: S-CCD calls and sequences of calls

`History E ok p all`: the pack `p` was obtained from a void pack or `sccd_detect` by any sequence of
`sccd_update` and `sccd_identify` calls that returned, `all` are the usable observations received so far,
oldest first, and every returned pack satisfies `ok` (`Any`: no condition).
-/
namespace Pycold.Sccd
open Spec
variable {V F R M : Type}

/-- No condition on returned packs. -/
def Any : Pack F R M → Prop := fun _ => True

theorem sccd_unknown (E : Env V F R M) (p : Pack F R M) (scenes : List Scene)
    (h : ¬ ∀ o ∈ scenes, KnownQa o.qa) : sccd E p scenes = .error .fail := by
  unfold sccd
  by_cases hv : validModes.contains p.mode = true
  · simp only [hv, Bool.not_true, Bool.false_eq_true, if_false]
    have : (preprocessing E.bC2 scenes).status ≠ .success :=
      fun hs => h ((preLoop_status E.bC2 scenes {}).1.mp hs)
    simp [this]
  · have hv' : validModes.contains p.mode = false := by simpa using hv
    simp only [hv', Bool.not_false, if_true]

/-! ## C24: the loop terminates and accounts for every observation -/

/-- No call runs for ever, whatever the numerical tests say. -/
theorem C24_terminates (E : Env V F R M) (hc : 0 < E.conse) (hc8 : E.conse ≤ 8) (p : Pack F R M)
    (all : List Obs) (h : History E Any p all) (m0 : M) (z : Model F) (scenes : List Scene) :
    update E p scenes ≠ .error .fuel ∧ detect E m0 z scenes ≠ .error .fuel := by
  have hP := h.promise hc hc8
  constructor
  · intro e
    by_cases hne : scenes = []
    · simp [update, hne] at e
    · rw [update_eq E hP hne] at e
      by_cases hq : ∀ o ∈ scenes, KnownQa o.qa
      · rcases call_cases E hP hc hc8 p.model (fun _ => rfl) scenes hq with ⟨q, e', _⟩ | ⟨e', _⟩
        · have : (sccd E p scenes >>= packOut) = .ok q := e'
          rw [this] at e; cases e
        · have : (sccd E p scenes >>= packOut) = .error .oob := e'
          rw [this] at e; cases e
      · rw [sccd_unknown E p scenes hq] at e
        simp [bind, Except.bind] at e
  · intro e
    unfold detect at e
    by_cases hcc : E.conse > NCONSE
    · simp [hcc] at e
    simp only [hcc, if_false] at e
    split at e
    · split at e
      · cases e
      · by_cases hq : ∀ o ∈ scenes, KnownQa o.qa
        · rcases call_cases E (start_promise E.conse m0) hc hc8 (some z) (by simp [start]) scenes hq with
            ⟨q, e', _⟩ | ⟨e', _⟩
          · have : (sccd E ⟨0, [], m0, some z, [], []⟩ scenes >>= packOut) = .ok q := e'
            rw [this] at e; cases e
          · have : (sccd E ⟨0, [], m0, some z, [], []⟩ scenes >>= packOut) = .error .oob := e'
            rw [this] at e; cases e
        · rw [sccd_unknown E _ scenes hq] at e
          simp [bind, Except.bind] at e
    · cases e

/-- The detection loop on `obs`: at most `obs.length - conse` passes, whatever the numerical tests say.  At the
end exactly the last `conse` observations (all, if fewer) are unprocessed; each earlier one was removed as
noise, or belongs to a record, to the current model, or (no current model) still lies after the last break.
The alternative is a read outside the array; it needs `conse` 7 or 8 and no record yet. -/
theorem C24_every_observation (N : Num V F R) (conse : Nat) (hc : 0 < conse) (mode0 : Nat)
    (hmode : mode0 ∈ [0, 1, 11, 2, 12, 5]) (model : Option (Model F)) (recs : List (Rec R)) (obs : List Obs)
    (hmon : mode0 % 10 = 1 → model.isSome ∧ conse ≤ obs.length)
    (hfive : mode0 = 5 → (∃ m, model = some m ∧ m.obs.length = 8) ∧ conse ≤ obs.length)
    (s0 : St F R) (e0 : initSt mode0 model recs obs = .ok s0) :
    (∃ s, (∀ k, obs.length - conse ≤ k → loop N conse mode0 k s0 = .ok s) ∧
      s.obs.drop s.i = obs.drop (obs.length - conse) ∧
      s.obs.Sublist obs ∧ obs.Perm (s.removed ++ s.obs) ∧
      (s.train = true → flat recs ++ openPart mode0 model ++ s.obs.take s.i =
        flat s.recs ++ (s.pre ++ s.seg)) ∧
      (s.train = false → s.prevBreak ≤ s.i ∧
        flat recs ++ openPart mode0 model ++ s.obs.take s.prevBreak = flat s.recs)) ∨
    (loop N conse mode0 (obs.length - conse) s0 = .error .oob ∧ 6 < conse ∧ recs = []) := by
  have g : Given False conse mode0 model recs obs :=
    { modes := hmode
      mon := fun h => by
        obtain ⟨h1, h2⟩ := hmon h
        obtain ⟨m, hm⟩ := Option.isSome_iff_exists.mp h1
        exact ⟨m, hm, h2, fun x => x.elim⟩
      five := hfive
      recsOk := fun x => x.elim
      asc := fun x => x.elim
      chrono := fun x => x.elim
      year := fun x => x.elim }
  obtain ⟨s0', e0', inv0, o0, i0, r0, m0, c0, t0, p0⟩ := initSt_inv g
  rw [e0] at e0'
  cases e0'
  rcases loop_inv N (mode0 := mode0) hc (obs.length - conse) s0 inv0 (by rw [o0]; omega) with
    ⟨s, e, inv, run, hend, hdr⟩ | ⟨e, h6, hr, _⟩
  · refine .inl ⟨s, fun k hk => loop_fuel N _ k s0 s (by omega) e, ?_, inv.sub, inv.perm, fun ht => inv.tH ht,
      fun ht => ⟨Nat.le_trans (inv.nprev ht) (inv.nstart ht), inv.nH ht⟩⟩
    rw [o0, i0] at hdr
    rw [hdr]; congr 1; omega
  · exact .inr ⟨e, h6, by rw [← r0, hr]⟩

/-- 30 clear acquisitions of an unchanging pixel, 20 days apart. -/
abbrev Toy.base : List Scene := Toy.scenesOf 730000 20 500 0 30

example : ∃ p, detect (Toy.env 8) () Toy.zero Toy.base = .ok p ∧ History (Toy.env 8) Any p
    (fresh true false Toy.base) ∧ p.mode = 1 := by
  obtain ⟨p, e, h⟩ := Toy.isOk_iff (t := fun q => q.mode == 1)
    (show Toy.isOk (detect (Toy.env 8) () Toy.zero Toy.base) _ = true by decide +kernel)
  exact ⟨p, e, .detect () Toy.zero Toy.base p e trivial, by simpa using h⟩

example : (match (initSt 0 none [] (fresh true false Toy.base) : Except Err (St Int Unit)) >>=
    fun s0 => loop Toy.num 6 0 24 s0 with
    | .ok s => s.train && s.numObs == 24
    | .error _ => false) = true := by decide +kernel

/-! ## C25: the modes -/

/-- After any sequence of calls the mode is one of void (0), monitor (1, 11), snow monitor (3), snow queue
(4), monitor-to-queue (5), queue (12), and model and queue are as the mode promises (`Promise`). -/
theorem C25_contents (E : Env V F R M) (hc : 0 < E.conse) (hc8 : E.conse ≤ 8) (p : Pack F R M)
    (all : List Obs) (h : History E Any p all) : Promise E.conse p := h.promise hc hc8

/-- Every such pack is accepted by `sccd_update`: the call returns a pack (keeping all earlier records, and
never void again) unless a read outside the array happens, which needs `conse` 7 or 8, no record and no
model yet. -/
theorem C25_accepted (E : Env V F R M) (hc : 0 < E.conse) (hc8 : E.conse ≤ 8) (p : Pack F R M)
    (all : List Obs) (h : History E Any p all) (scenes : List Scene) (hne : scenes ≠ [])
    (hq : ∀ o ∈ scenes, KnownQa o.qa) :
    (∃ q, update E p scenes = .ok q ∧
      History E Any q (all ++ fresh E.bC2 (snowBranch E p.mode scenes) scenes) ∧
      (p.mode ≠ 0 → q.mode ≠ 0) ∧ p.recs <+: q.recs) ∨
    (update E p scenes = .error .oob ∧ 6 < E.conse ∧ p.recs = [] ∧ (p.mode = 0 ∨ p.mode = 12)) := by
  have hP := h.promise hc hc8
  have hu := update_eq E hP hne
  rcases call_cases E hP hc hc8 p.model (fun _ => rfl) scenes hq with ⟨q, e', _, h1, h2⟩ | ⟨e', h1⟩
  · refine .inl ⟨q, hu.trans e', .update p q all scenes h (hu.trans e') trivial, h1, h2⟩
  · exact .inr ⟨hu.trans e', h1⟩

/-- A pixel that has received a usable observation is not void. -/
theorem C25_never_void_again (E : Env V F R M) (hc : 0 < E.conse) (hc8 : E.conse ≤ 8) (p : Pack F R M)
    (all : List Obs) (h : History E Any p all) (hall : all ≠ []) : p.mode ≠ 0 :=
  fun h0 => hall (h.void_nil hc hc8 h0)

/-- `sccd_identify` accepts every pack that is not void, for `conse` up to 6, and changes at most the mode,
from 1 to 11. -/
theorem C25_identify_accepts (E : Env V F R M) (hc : 0 < E.conse) (hc6 : E.conse ≤ 6) (p : Pack F R M)
    (all : List Obs) (h : History E Any p all) (h0 : p.mode ≠ 0) (a : Ask F) :
    ∃ q d, identify a p = .ok (q, d) ∧ (q = p ∨ (p.mode = 1 ∧ q = { p with mode := 11 })) := by
  have hP := h.promise hc (by omega)
  have hS := h.settled hc (by omega)
  have key : ∃ r, identify a p = .ok r := by
    unfold identify
    by_cases hm : p.mode = 3 ∨ p.mode = 4 ∨ p.mode / 10 = 1
    · exact ⟨_, by rw [if_pos hm]⟩
    · rw [if_neg hm]
      have hmo := hP.modes
      simp only [List.mem_cons, List.not_mem_nil, or_false] at hmo
      have : p.mode = 1 ∨ p.mode = 5 := by omega
      obtain ⟨m, hmm, hl⟩ : ∃ m, p.model = some m ∧ m.obs.length = 8 := by
        rcases this with e | e
        · exact (hP.monitor (by simp [e])).1
        · exact (hP.both e).1
      obtain ⟨_, hlo, hhi⟩ := hS.tail m hmm
      rw [hmm]
      simp only
      have hi : (6 - m.conseLast).toNat < m.obs.length := by omega
      by_cases hg : (decide (m.conseLast ≥ a.distConse) && a.strong m.normCm && a.aligned m.cmAngle) = true
      · rw [if_pos hg, if_neg (by omega)]
        by_cases hgr : a.greening m = true
        · exact ⟨_, by rw [if_pos hgr]⟩
        · rw [if_neg hgr, List.getElem?_eq_getElem hi]
          exact ⟨_, rfl⟩
      · rw [if_neg hg]; exact ⟨_, rfl⟩
  obtain ⟨⟨q, d⟩, e⟩ := key
  exact ⟨q, d, e, identify_keeps e⟩

/-- On a void pack `sccd_identify` raises. -/
theorem C25_identify_void_raises (p : Pack F R M) (h : p.mode = 0) (hm : p.model = none) (a : Ask F) :
    identify a p = .error .fail := by
  simp [identify, h, hm]

-- every mode occurs: 1, 5, 12, 11, 3, 4
section
open Toy
example : isOk (detect (env 8) () zero base) (fun q => q.mode == 1) = true := by decide +kernel
example : isOk (detect (env 8) () zero base >>= fun p => update (env 8) p (scenesOf 730600 20 800 0 9))
    (fun q => q.mode == 5 && q.recs.length == 1 && q.queue.length == 9) = true := by decide +kernel
example : isOk (detect (env 8) () zero base >>= fun p => update (env 8) p (scenesOf 730600 20 800 0 9) >>=
    fun p => update (env 8) p (scenesOf 730780 20 800 0 20)) (fun q => q.mode == 12) = true := by decide +kernel
example : isOk (detect (env 8) () zero base >>= fun p => update (env 8) p (scenesOf 730600 20 800 0 4) >>=
    fun p => (identify ⟨3, fun _ => true, fun _ => true, fun _ => false, true⟩ p).map (·.1))
    (fun q => q.mode == 11) = true := by decide +kernel
example : isOk (update (env 8) (start ()) (scenesOf 730000 20 500 3 10)) (fun q => q.mode == 4) = true := by
  decide +kernel
example : isOk (detect (env 8) () zero (scenesOf 730000 20 500 3 30)) (fun q => q.mode == 3) = true := by
  decide +kernel
end

/-! ## C26: updating equals re-running -/

/-- Returned packs have fewer than 240 queued observations, and a monitor mode only if `conse` is 8. -/
def Fits (E : Env V F R M) (q : Pack F R M) : Prop :=
  q.queue.length < 240 ∧ (q.mode = 1 ∨ q.mode = 11 → E.conse = 8)

/-- In monitor mode with `conse` = 8 the observations stored with the model are exactly the newest 8
received and the model stands for all others. -/
theorem C26_stored_tail (E : Env V F R M) (hc : E.conse = 8) (p : Pack F R M) (all : List Obs)
    (h : History E (Fits E) p all) (hasc : Asc all) (hcod : Codable all) (hlen : all.length ≤ 32767)
    (hm : p.mode = 1 ∨ p.mode = 11) :
    ∃ older, holds p = older ++ pending p ∧ (pending p).length = 8 ∧ (holds p).Sublist all ∧
      all.Perm (p.removed ++ holds p) := by
  have hP := h.promise (by omega) (by omega)
  have L := h.ledger (by omega) (by omega) (fun q hq => hq) hasc hcod hlen
  refine ⟨flat p.recs ++ monitored p, rfl, ?_, L.sub, L.perm⟩
  obtain ⟨m, hmm, hl⟩ := (hP.monitor (by rcases hm with e | e <;> simp [e])).1
  rw [pending_mon (by omega) hmm]
  simpa using hl

/-- With `conse` = 8, for a monitored pixel: new acquisitions split into any number of batches, of any
sizes, give the same records, model, mode and queue as all of them in a single call, as long as no batch but
the last changes the mode.  Assumes that storing the filter in the model loses no precision. -/
theorem C26_any_batching_partial (E : Env V F R M) (hc : E.conse = 8)
    (hN : ∀ rm f, (E.num rm).narrow f = f) (p : Pack F R M) (all : List Obs)
    (h : History E (Fits E) p all) (hm : p.mode = 1 ∨ p.mode = 11) (batches : List (List Scene))
    (hb : batches ≠ []) (hne : ∀ b ∈ batches, b ≠ []) (hq : ∀ b ∈ batches, ∀ o ∈ b, KnownQa o.qa)
    (hst : Stays E p batches) (hasc : Asc (all ++ fresh E.bC2 false batches.flatten))
    (hcod : Codable (all ++ fresh E.bC2 false batches.flatten))
    (hlen : (all ++ fresh E.bC2 false batches.flatten).length ≤ 32767) :
    feed E p batches = update E p batches.flatten := by
  refine feed_eq E hc hN batches p all (h.promise (by omega) (by omega)) ?_ hm hb hne hq hst hasc hcod hlen
  refine h.ledger (by omega) (by omega) (fun q hq => hq)
    (hasc.sublist (List.sublist_append_left _ _)) (hcod.sublist (List.sublist_append_left _ _)) ?_
  simp at hlen; omega

section
open Toy
-- two batches, the second of which confirms a change
example : ∃ p, History (env 8) (Fits (env 8)) p (fresh true false base) ∧ p.mode = 1 ∧
    Stays (env 8) p [scenesOf 730600 20 800 0 4, scenesOf 730680 20 800 0 6] ∧
    isOk (feed (env 8) p [scenesOf 730600 20 800 0 4, scenesOf 730680 20 800 0 6])
      (fun q => q.mode == 5 && q.recs.length == 1) = true := by
  obtain ⟨p, e, h⟩ := isOk_iff (t := fun q => q.mode == 1 && q.queue.length == 0 &&
      isOk (update (env 8) q (scenesOf 730600 20 800 0 4)) (fun r => r.mode == q.mode) &&
      isOk (feed (env 8) q [scenesOf 730600 20 800 0 4, scenesOf 730680 20 800 0 6])
        (fun q => q.mode == 5 && q.recs.length == 1))
    (show isOk (detect (env 8) () zero base) _ = true by decide +kernel)
  simp only [Bool.and_eq_true, beq_iff_eq] at h
  obtain ⟨⟨⟨h1, h2⟩, h3⟩, h4⟩ := h
  obtain ⟨r, e1, e2⟩ := isOk_iff h3
  refine ⟨p, .detect () zero base p e ⟨by omega, fun _ => rfl⟩, h1, ⟨r, e1, by simpa using e2, trivial⟩, h4⟩
end

/-- With `conse` < 8 (the default is 6) every monitor pack makes the next update start with an observation
nobody made: all values 0, dated 1982-07-16. -/
theorem C26_phantom_observations (E : Env V F R M) (hc : 0 < E.conse) (hc8 : E.conse < 8) (p : Pack F R M)
    (all : List Obs) (h : History E Any p all) (hm : p.mode = 1 ∨ p.mode = 11) :
    stored p.mode p.model p.queue = .ok (pending p) ∧ phantom ∈ pending p :=
  ⟨stored_ok (h.promise hc (by omega)), h.phantoms hc hc8 hm⟩

section
open Toy
/-- With the default `conse` = 6 updating differs from re-running: the same acquisitions in two calls give a
break on 1982-07-16, long before the first observation; in a single call the break is on day 730600. -/
theorem C26_default_conse_refuted : ∃ p q r,
    detect (env 6) () zero base = .ok p ∧
    update (env 6) p (scenesOf 730600 20 800 0 9) = .ok q ∧ q.recs.map (·.tBreak) = [723742] ∧
    detect (env 6) () zero (base ++ scenesOf 730600 20 800 0 9) = .ok r ∧
      r.recs.map (·.tBreak) = [730600] := by
  obtain ⟨p, e1, h⟩ := isOk_iff (t := fun p => isOk (update (env 6) p (scenesOf 730600 20 800 0 9))
      (fun q => q.recs.map (·.tBreak) == [723742]))
    (show isOk (detect (env 6) () zero base) _ = true by decide +kernel)
  obtain ⟨q, e2, h2⟩ := isOk_iff h
  obtain ⟨r, e3, h3⟩ := isOk_iff (t := fun r => r.recs.map (·.tBreak) == [730600])
    (show isOk (detect (env 6) () zero (base ++ scenesOf 730600 20 800 0 9)) _ = true by decide +kernel)
  exact ⟨p, q, r, e1, e2, by simpa using h2, e3, by simpa using h3⟩
end

/-! ## C27: queue modes lose nothing -/

/-- In a queue mode the queue holds, in order, every observation received that is neither noise nor used by
a record. -/
theorem C27_queue_complete_partial (E : Env V F R M) (hc : 0 < E.conse) (hc8 : E.conse ≤ 8) (p : Pack F R M)
    (all : List Obs) (h : History E (Fits E) p all) (hasc : Asc all) (hcod : Codable all)
    (hlen : all.length ≤ 32767) (hm : p.mode = 12 ∨ p.mode = 4 ∨ p.mode = 5) :
    all.Perm (p.removed ++ (flat p.recs ++ p.queue.map decode)) ∧
    (flat p.recs ++ p.queue.map decode).Sublist all := by
  have L := h.ledger hc hc8 (fun q hq => hq) hasc hcod hlen
  have hh : holds p = flat p.recs ++ p.queue.map decode := by
    rw [holds, pending_que (by omega)]
    have : monitored p = [] := by rw [monitored, if_neg (by omega)]
    rw [this, List.append_nil]
  rw [← hh]
  exact ⟨L.perm, L.sub⟩

/-- Whatever `conse`, an update that leaves the pixel in a standard queue mode with fewer than 240 queued
observations has queued the newest `conse` ones, last. -/
theorem C27_newest_queued (E : Env V F R M) (hc : 0 < E.conse) (hc8 : E.conse ≤ 8) (p q : Pack F R M)
    (all : List Obs) (h : History E Any p all) (scenes : List Scene) (e : update E p scenes = .ok q)
    (hm : q.mode = 12 ∨ q.mode = 5) (h240 : q.queue.length < 240)
    (hasc : Asc (pending p ++ fresh E.bC2 false scenes)) (hmode : p.mode ≠ 0 ∨ snowBranch E 0 scenes = false)
    (hcod : Codable (pending p ++ fresh E.bC2 false scenes)) (hnew : fresh E.bC2 false scenes ≠ []) :
    ∃ older, pending q = older ++
      (pending p ++ fresh E.bC2 false scenes).drop ((pending p ++ fresh E.bC2 false scenes).length - E.conse) := by
  have hP := h.promise hc hc8
  obtain ⟨hne, hq, ec⟩ := update_call E hP e
  have hns : snowBranch E p.mode scenes = false := by
    by_cases hb : snowBranch E p.mode scenes = true
    · have hq' := hb
      have hs : p.mode = 0 ∨ p.mode = 3 ∨ p.mode = 4 := by
        simp only [snowBranch] at hb
        by_cases h0 : p.mode = 0
        · exact .inl h0
        · simp [h0] at hb
          exact .inr hb
      obtain ⟨ys, hys, _⟩ := append_prefix (fresh E.bC2 true scenes) (pending p)
      obtain ⟨out, eo, _, _, _, hcase⟩ := snow_cases (E.num p.minRmse) hP p.model (fun _ => rfl) hs ys
      have ec' := ec
      rw [sccd_eq E { p with model := p.model } scenes hP.modes hq (stored_ok hP)] at ec'
      simp only [hb, if_true, hys, eo, bind, Except.bind] at ec'
      have := (packOut_fields ec').1
      simp only at this
      rcases hcase with ⟨e4, _⟩ | ⟨e3, _⟩ <;> omega
    · simpa using hb
  have hX := append_asc _ _ hasc
  rcases queue_out E hP hc hc8 p.model (fun _ => rfl) scenes hq ec hm h240 _ rfl with ⟨h1, _⟩ | ⟨Y, hY⟩
  · rw [hns, hX] at h1
    exact absurd (List.append_right_eq_self.mp h1) hnew
  · rw [hns, hX] at hY
    refine ⟨(Y.map encode).map decode, ?_⟩
    rw [pending_que (by omega), hY, List.map_append, List.map_append,
      decode_encode (hcod.sublist (List.drop_sublist _ _))]

/-- Storing more than 240 observations drops the newest one. -/
theorem storeQueue_drops (X : List Obs) (h : 240 < X.length) :
    storeQueue X 0 = .ok (((X.drop (X.length - 241)).take 240).map encode) := by
  unfold storeQueue
  have hM : MAX_QUEUE = 240 := rfl
  rw [hM, if_pos (by omega), show X.length - 1 - 240 = X.length - 241 by omega]

/-- More than 240 usable observations within a year: the queue returned has 240 observations, and the newest
one received is not among them, while 240 older ones are. -/
theorem C27_newest_lost (E : Env V F R M) (m0 : M) (scenes : List Scene)
    (hc : 0 < E.conse) (hq : ∀ o ∈ scenes, KnownQa o.qa) (hs : snowBranch E 0 scenes = false)
    (hasc : Asc (fresh E.bC2 false scenes)) (hcod : Codable (fresh E.bC2 false scenes))
    (hlen : 240 < (fresh E.bC2 false scenes).length) (hcl : E.conse ≤ 240)
    (hyear : ∀ a ∈ fresh E.bC2 false scenes, ∀ b ∈ fresh E.bC2 false scenes, 4 * (b.date - a.date) < 1461) :
    ∃ q, update E (start m0) scenes = .ok q ∧ q.mode = 12 ∧
      pending q = ((fresh E.bC2 false scenes).drop ((fresh E.bC2 false scenes).length - 241)).take 240 ∧
      ∀ o ∈ (fresh E.bC2 false scenes).getLast?, o ∉ pending q := by
  have hne : scenes ≠ [] := by intro h; simp [h, fresh] at hlen
  have hP : Promise E.conse (start m0 : Pack F R M) := start_promise E.conse m0
  have hX : append [] (fresh E.bC2 false scenes) = fresh E.bC2 false scenes := append_asc _ [] (by simpa using hasc)
  have hu := update_eq E hP hne
  rw [sccd_eq E (start m0 : Pack F R M) scenes hP.modes hq (old := []) rfl] at hu
  have hb : snowBranch E (start m0 : Pack F R M).mode scenes = false := hs
  simp only [hb, hX, Bool.false_eq_true, if_false] at hu
  generalize hXe : fresh E.bC2 false scenes = X at *
  rw [if_pos (by simp; omega)] at hu
  have hr : (start m0 : Pack F R M).recs.isEmpty = true := rfl
  generalize (if ((start m0 : Pack F R M).recs.isEmpty && decide ((start m0 : Pack F R M).mode = 0)) = true
    then E.variogram X else (start m0 : Pack F R M).minRmse) = rm at hu
  have hstd : standard (E.num rm) E.conse 0 none [] [] X = .ok
      ⟨12, [], none, ((X.drop (X.length - 241)).take 240).map encode, []⟩ := by
    unfold standard initSt
    simp only [Nat.zero_mod, show (0 : Nat) = 1 ↔ False by simp, if_false, bind, Except.bind]
    rw [loop_short (E.num rm) (X.length + 1) _ rfl (Nat.le_refl _) (fun a ha b hb => by
      have := hyear a ha b hb
      simp only [yearOrMore, decide_eq_false_iff_not]; omega) (by simp only; omega)]
    simp only [newMode, if_true, Bool.false_eq_true, if_false, step3, bind, Except.bind]
    rw [if_neg (by decide), storeQueue_drops X hlen]
    simp
  have hstd' : standard (E.num rm) E.conse (start m0 : Pack F R M).mode (start m0 : Pack F R M).model
      (start m0 : Pack F R M).recs (start m0 : Pack F R M).queue X = .ok
      ⟨12, [], none, ((X.drop (X.length - 241)).take 240).map encode, []⟩ := hstd
  rw [hstd'] at hu
  simp only [bind, Except.bind] at hu
  rw [packOut_que (Or.inl (by rfl))] at hu
  refine ⟨_, hu, rfl, ?_, ?_⟩
  · rw [pending_que (by simp)]
    simp only
    rw [decode_encode (hcod.sublist ((List.take_sublist _ _).trans (List.drop_sublist _ _)))]
  · intro o ho
    rw [pending_que (by simp)]
    simp only
    rw [decode_encode (hcod.sublist ((List.take_sublist _ _).trans (List.drop_sublist _ _)))]
    intro hmem
    have h1 : (X.drop (X.length - 241)).getLast? = some o := by
      rw [List.getLast?_drop, if_neg (by omega)]; exact ho
    have hl : (X.drop (X.length - 241)).length = 240 + 1 := by simp; omega
    have hsplit := List.take_append_drop 240 (X.drop (X.length - 241))
    have hd : (X.drop (X.length - 241)).drop 240 = [o] := by
      have hlen1 : ((X.drop (X.length - 241)).drop 240).length = 1 := by simp; omega
      obtain ⟨a, ha⟩ := List.length_eq_one_iff.mp hlen1
      rw [ha]
      rw [← hsplit, ha] at h1
      simp at h1
      rw [h1]
    have ha : Asc (X.drop (X.length - 241)) := hasc.sublist (List.drop_sublist _ _)
    rw [← hsplit, hd] at ha
    have := (List.pairwise_append.mp ha).2.2 o hmem o (by simp)
    omega

section
open Toy
-- 250 acquisitions, one a day
example : (∀ o ∈ scenesOf 730000 1 500 0 250, KnownQa o.qa) ∧
    snowBranch (env 6) 0 (scenesOf 730000 1 500 0 250) = false ∧
    (fresh true false (scenesOf 730000 1 500 0 250)).length = 250 ∧
    isOk (update (env 6) (start ()) (scenesOf 730000 1 500 0 250)) (fun q => q.mode == 12 &&
      q.queue.length == 240 && q.queue.all (fun o => o.date + 723742 < 730249)) = true := by decide +kernel
end

/-! ## C28: nothing usable, nothing changes -/

/-- An update whose acquisitions bring no usable observation returns the pack unchanged: records, model, mode
and queue.  `narrow` is the conversion of the filter to single precision: converting twice is the same as
once.  No snow among no observations is below the snow threshold. -/
theorem C28_unchanged (E : Env V F R M) (hc : 0 < E.conse) (hc8 : E.conse ≤ 8)
    (hN : ∀ rm f, (E.num rm).narrow ((E.num rm).narrow f) = (E.num rm).narrow f) (hsn : E.snowPct 0 0 = false)
    (p : Pack F R M) (all : List Obs) (h : History E Any p all) (scenes : List Scene) (hne : scenes ≠ [])
    (hq : ∀ o ∈ scenes, KnownQa o.qa)
    (hnone : ∀ o ∈ scenes, ¬ Wanted E.bC2 (snowBranch E p.mode scenes) o) :
    update E p scenes = .ok p := by
  have hP := h.promise hc hc8
  rw [update_eq E hP hne]
  refine nothing_call E hP (h.settled hc hc8) hN hsn scenes hq ?_
  have : fresh E.bC2 (snowBranch E p.mode scenes) scenes = [] := by
    simp only [fresh, List.map_eq_nil_iff, List.filter_eq_nil_iff, decide_eq_true_eq]
    exact hnone
  rw [this]
  rfl

/-- The same for acquisitions of the date of the newest observation held. -/
theorem C28_same_date (E : Env V F R M) (hc : 0 < E.conse) (hc8 : E.conse ≤ 8)
    (hN : ∀ rm f, (E.num rm).narrow ((E.num rm).narrow f) = (E.num rm).narrow f) (hsn : E.snowPct 0 0 = false)
    (p : Pack F R M) (all : List Obs) (h : History E Any p all) (scenes : List Scene) (hne : scenes ≠ [])
    (hq : ∀ o ∈ scenes, KnownQa o.qa) (newest : Obs) (hnew : (pending p).getLast? = some newest)
    (hdup : ∀ o ∈ scenes, Wanted E.bC2 (snowBranch E p.mode scenes) o → o.date = newest.date) :
    update E p scenes = .ok p := by
  have hP := h.promise hc hc8
  rw [update_eq E hP hne]
  refine nothing_call E hP (h.settled hc hc8) hN hsn scenes hq ?_
  have hd : ∀ o ∈ fresh E.bC2 (snowBranch E p.mode scenes) scenes, o.date = newest.date := by
    intro o ho
    simp only [fresh, List.mem_map, List.mem_filter, decide_eq_true_eq] at ho
    obtain ⟨x, ⟨hx1, hx2⟩, rfl⟩ := ho
    exact hdup x hx1 hx2
  generalize fresh E.bC2 (snowBranch E p.mode scenes) scenes = xs at hd
  induction xs with
  | nil => rfl
  | cons o os ih =>
    unfold append
    have hlen : (pending p).length > 0 := by
      cases hp : pending p with
      | nil => simp [hp] at hnew
      | cons _ _ => simp
    rw [if_pos (by simp [hnew, hd o (by simp), hlen])]
    exact ih (fun o ho => hd o (List.mem_cons_of_mem _ ho))

section
open Toy
-- cloudy scenes given to a monitored pixel
example : ∃ p, History (env 8) Any p (fresh true false base) ∧ p.mode = 1 ∧
    (∀ o ∈ scenesOf 730600 20 500 4 3, ¬ Wanted true (snowBranch (env 8) 1 (scenesOf 730600 20 500 4 3)) o) ∧
    (∀ o ∈ scenesOf 730600 20 500 4 3, KnownQa o.qa) := by
  obtain ⟨p, e, h⟩ := isOk_iff (t := fun q => q.mode == 1)
    (show isOk (detect (env 8) () zero base) _ = true by decide +kernel)
  exact ⟨p, .detect () zero base p e trivial, by simpa using h, by decide +kernel, by decide +kernel⟩
end

/-! ## C29: the 16-bit encoding -/

/-- An observation stored in the model or the queue is recovered exactly iff its date is within
-32768..32767 days of 1982-07-16 and its values are 16-bit. -/
theorem C29_recovered_iff (o : Obs) : decode (encode o) = o ↔
    (-32768 ≤ o.date - 723742 ∧ o.date - 723742 ≤ 32767) ∧ ∀ v ∈ o.vals, -32768 ≤ v ∧ v ≤ 32767 := by
  have hs : ∀ x : Int, toShort x = x ↔ -32768 ≤ x ∧ x ≤ 32767 := by
    intro x
    constructor
    · intro h
      have : -32768 ≤ toShort x ∧ toShort x ≤ 32767 := by
        unfold toShort
        rw [Int.bmod_def]
        split <;> omega
      omega
    · rintro ⟨h1, h2⟩; exact toShort_id h1 h2
  have hL : LAUNCH = 723742 := rfl
  rcases o with ⟨d, vs⟩
  simp only [decode, encode, Obs.mk.injEq, hL]
  constructor
  · rintro ⟨h1, h2⟩
    refine ⟨(hs _).mp (by omega), fun v hv => (hs v).mp ?_⟩
    have : vs.map toShort = vs.map id := by simpa using h2
    exact List.map_inj_left.mp this v hv
  · rintro ⟨h1, h2⟩
    refine ⟨by have := (hs _).mpr h1; omega, ?_⟩
    exact map_toShort_id h2

/-- Last day recovered: 2072-04-01 (day 756509).  The next day comes back as 1892-10-28 (day 690974). -/
example : decode (encode ⟨756509, [1, 2]⟩) = ⟨756509, [1, 2]⟩ ∧
    decode (encode ⟨756510, [1, 2]⟩) = ⟨690974, [1, 2]⟩ := by decide

/-! ## C30: packing -/

/-- `sccd_detect` and `sccd_update` return a model iff the unit digit of the mode is 1, 3 or 5, and queued
observations iff it is 2, 4 or 5.  (A pixel without any snow observation is not a snow pixel.) -/
theorem C30_packed (E : Env V F R M) (hc : 0 < E.conse) (hc8 : E.conse ≤ 8) (hsn : ∀ n, E.snowPct 0 n = false)
    (p : Pack F R M) (all : List Obs) (h : History E Any p all) :
    (p.model.isSome ↔ p.mode % 10 ∈ [1, 3, 5]) ∧ (p.queue ≠ [] ↔ p.mode % 10 ∈ [2, 4, 5]) := by
  have hP := h.promise hc hc8
  have h4 := h.snowQueued hc hc8 hsn
  have hm := hP.modes
  simp only [List.mem_cons, List.not_mem_nil, or_false] at hm
  rcases hm with e | e | e | e | e | e | e
  · obtain ⟨_, h1, h2⟩ := hP.void e
    simp [e, h1, h2]
  · obtain ⟨⟨m, h1, _⟩, h2⟩ := hP.monitor (by simp [e])
    simp [e, h1, h2]
  · obtain ⟨⟨m, h1, _⟩, h2⟩ := hP.monitor (by simp [e])
    simp [e, h1, h2]
  · have h1 := hP.queue (by simp [e])
    simp [e, h1, h4 e]
  · obtain ⟨⟨m, h1, _⟩, h2, _⟩ := hP.both e
    have : p.queue ≠ [] := by intro hn; rw [hn] at h2; simp at h2; omega
    simp [e, h1, this]
  · obtain ⟨⟨m, h1, _⟩, h2⟩ := hP.monitor (by simp [e])
    simp [e, h1, h2]
  · have h1 := hP.queue (by simp [e])
    simp [e, h1, hP.waiting e]

/-- `sccd_detect` refuses `conse` > 8. -/
theorem C30_conse_refused (E : Env V F R M) (h : 8 < E.conse) (m0 : M) (z : Model F) (scenes : List Scene) :
    detect E m0 z scenes = .error .fail := by
  have : E.conse > NCONSE := h
  simp [detect, this]

/-- `sccd_detect` refuses a series whose dates span less than 365.25 days, and an empty one. -/
theorem C30_short_span_refused (E : Env V F R M) (m0 : M) (z : Model F) (scenes : List Scene)
    (h : ∀ a ∈ scenes.head?, ∀ b ∈ scenes.getLast?, 4 * (b.date - a.date) < 1461) :
    detect E m0 z scenes = .error .fail := by
  unfold detect
  split
  · rfl
  · split
    · rename_i a b ha hb
      rw [if_pos (h a ha b hb)]
    · rfl

/-- Neither is checked by `sccd_update`, which accepts `conse` up to 11 from Python.  With `conse` > 8 only 8
observations are kept, so an update of a monitored pixel that brings fewer than `conse` - 8 new ones reads
before the start of the array. -/
theorem C30_update_large_conse_out_of_bounds (E : Env V F R M) (p : Pack F R M) (m : Model F)
    (hP : Promise 8 p) (hm : p.mode = 1 ∨ p.mode = 11) (hmod : p.model = some m) (scenes : List Scene)
    (hq : ∀ o ∈ scenes, KnownQa o.qa) (hnew : append (pending p) (fresh E.bC2 false scenes) ≠ pending p)
    (hlen : (append (pending p) (fresh E.bC2 false scenes)).length < E.conse) :
    update E p scenes = .error .oob := by
  have hne : scenes ≠ [] := by intro h; subst h; exact hnew rfl
  have hb : snowBranch E p.mode scenes = false := by
    rcases hm with e | e <;> simp [snowBranch, e]
  rw [update_eq E hP hne, sccd_eq E p scenes hP.modes hq (stored_ok hP)]
  obtain ⟨ys, hys, _⟩ := append_prefix (fresh E.bC2 false scenes) (pending p)
  have hys' : ys ≠ [] := by intro h; rw [h] at hys; simp at hys; exact hnew hys
  have hl : (append (pending p) (fresh E.bC2 false scenes)).length > (pending p).length := by
    rw [hys]; simp; exact List.length_pos_iff.mpr hys'
  simp only [hb, Bool.false_eq_true, if_false]
  rw [if_pos hl]
  generalize append (pending p) (fresh E.bC2 false scenes) = X at hlen
  generalize (if (p.recs.isEmpty && decide (p.mode = 0)) = true then E.variogram X else p.minRmse) = rm
  have h10 : p.mode % 10 = 1 := by omega
  have hstd : standard (E.num rm) E.conse p.mode p.model p.recs p.queue X = .error .oob := by
    unfold standard initSt loop
    simp only [h10, if_true, hmod, bind, Except.bind]
    rw [if_neg (by omega)]
    simp only [newMode]
    rw [if_neg (by omega), if_neg (by simp), if_neg (by omega), if_neg (by omega)]
    simp only [step3, h10, if_true, storeModel, bind, Except.bind]
    rw [if_pos hlen]
  rw [hstd]
  rfl

/-! ## C31: persistent snow -/

/-- A snow pixel keeps every clear, water or snow observation, in order: in mode 4 fewer than 18, all queued;
in mode 3 the newest 8 stored with a model whose `num_obs` is the number of observations ever received and
whose `t_start` is the first of them.  No record is made. -/
theorem C31_snow (E : Env V F R M) (hc : 0 < E.conse) (hc8 : E.conse ≤ 8) (p : Pack F R M) (all : List Obs)
    (h : History E (Fits E) p all) (hasc : Asc all) (hcod : Codable all) (hlen : all.length ≤ 32767)
    (hm : p.mode = 3 ∨ p.mode = 4) :
    p.recs = [] ∧
    (p.mode = 4 → p.queue.map decode = all ∧ all.length < 18) ∧
    (p.mode = 3 → ∃ m older, p.model = some m ∧ m.numObs = all.length ∧
      all.head?.map (·.date) = some (723742 + m.tStart) ∧ all = older ++ m.obs.map decode ∧ m.obs.length = 8) := by
  have hP := h.promise hc hc8
  have hS := h.settled hc hc8
  have L := h.ledger hc hc8 (fun q hq => hq) hasc hcod hlen
  have hr := hP.snow (by rcases hm with e | e <;> simp [e])
  obtain ⟨hh, _⟩ := L.snow hm
  refine ⟨hr, ?_, ?_⟩
  · intro e
    have h1 : p.queue.map decode = all := by
      rw [← hh, holds, hr, pending_que (by omega), monitored, if_neg (by omega)]; simp [flat]
    refine ⟨h1, ?_⟩
    have := hS.snowQueue e
    rw [← h1]; simpa using this
  · intro e
    obtain ⟨m, hmm, h8⟩ := (hP.monitor (by simp [e])).1
    obtain ⟨h1, h2⟩ := L.snowModel e m hmm
    refine ⟨m, monitored p, hmm, h1, h2, ?_, h8⟩
    rw [← hh, holds, hr, pending_mon (by omega) hmm]; simp [flat]

section
open Toy
example : ∃ p, History (env 8) (Fits (env 8)) p (fresh true true (scenesOf 730000 20 500 3 30)) ∧ p.mode = 3 := by
  obtain ⟨p, e, h⟩ := isOk_iff (t := fun q => q.mode == 3 && q.queue.length == 0)
    (show isOk (detect (env 8) () zero (scenesOf 730000 20 500 3 30)) _ = true by decide +kernel)
  simp only [Bool.and_eq_true, beq_iff_eq] at h
  exact ⟨p, .detect () zero _ p e ⟨by omega, fun _ => rfl⟩, h.1⟩
end

end Pycold.Sccd
