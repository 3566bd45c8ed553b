import Verif.Props.C24_C31
import Verif.Proof.SccdConfirm
/-!
# Properties C41 and C53–C57: what S-CCD records and `sccd_identify` say about the observations
-/
namespace Pycold.Sccd
open Spec
variable {V F R M : Type}

/-! ## C41: `sccd_identify` -/

theorem fixed_range {o : Obs} (h : encode (decode o) = o) : -32768 ≤ o.date ∧ o.date ≤ 32767 := by
  have := congrArg Obs.date h
  simp only [encode, decode, Int.add_sub_cancel] at this
  rw [← this]
  unfold toShort
  rw [Int.bmod_def]
  split <;> omega

/-- `sccd_identify` (`conse` up to 6) returns a date iff the pixel is in mode 1 or 5 (not flagged as already
disturbed, not snow, not in a queue), at least `dist_conse` newest observations are anomalous, magnitude and
angle pass the thresholds, and the change is not a greening. -/
theorem C41_reported_iff (E : Env V F R M) (hc : 0 < E.conse) (hc6 : E.conse ≤ 6) (p : Pack F R M)
    (all : List Obs) (h : History E Any p all) (a : Ask F) :
    (∃ q d, identify a p = .ok (q, d) ∧ d ≠ 0) ↔
    (p.mode = 1 ∨ p.mode = 5) ∧ ∃ m, p.model = some m ∧ (a.distConse : Int) ≤ m.conseLast ∧
      a.strong m.normCm = true ∧ a.aligned m.cmAngle = true ∧ a.greening m = false := by
  have hP := h.promise hc (by omega)
  have hS := h.settled hc (by omega)
  have hmo := hP.modes
  simp only [List.mem_cons, List.not_mem_nil, or_false] at hmo
  unfold identify
  by_cases hm : p.mode = 3 ∨ p.mode = 4 ∨ p.mode / 10 = 1
  · rw [if_pos hm]
    constructor
    · rintro ⟨q, d, e, hd⟩
      simp at e; omega
    · rintro ⟨h1, _⟩; omega
  · rw [if_neg hm]
    by_cases h0 : p.mode = 0
    · rw [(hP.void h0).2.1]
      simp [h0]
    have hm5 : p.mode = 1 ∨ p.mode = 5 := by omega
    obtain ⟨m, hmm, hl⟩ : ∃ m, p.model = some m ∧ m.obs.length = 8 := by
      rcases hm5 with e | e
      · exact (hP.monitor (by simp [e])).1
      · exact (hP.both e).1
    obtain ⟨hfix, hlo, hhi⟩ := hS.tail m hmm
    rw [hmm]
    simp only
    have hi : (6 - m.conseLast).toNat < m.obs.length := by omega
    by_cases hg : (decide (m.conseLast ≥ a.distConse) && a.strong m.normCm && a.aligned m.cmAngle) = true
    · rw [if_pos hg, if_neg (by omega)]
      simp only [Bool.and_eq_true, decide_eq_true_eq] at hg
      by_cases hgr : a.greening m = true
      · rw [if_pos hgr]
        constructor
        · rintro ⟨q, d, e, hd⟩
          simp at e; omega
        · rintro ⟨_, m', he, _, _, _, hf⟩
          cases he
          rw [hgr] at hf; cases hf
      · rw [if_neg hgr, List.getElem?_eq_getElem hi]
        refine ⟨fun _ => ⟨hm5, m, rfl, hg.1.1, hg.1.2, hg.2, by simpa using hgr⟩, fun _ => ⟨_, _, rfl, ?_⟩⟩
        have := fixed_range (hfix _ (List.getElem_mem hi))
        have hL : LAUNCH = 723742 := rfl
        omega
    · rw [if_neg hg]
      constructor
      · rintro ⟨q, d, e, hd⟩
        simp at e; omega
      · rintro ⟨_, m', he, h1, h2, h3, _⟩
        cases he
        simp [h1, h2, h3] at hg

/-- What `sccd_identify` returns, if it returns a date. -/
theorem identify_date {a : Ask F} {p q : Pack F R M} {d : Int} (e : identify a p = .ok (q, d)) (hd : d ≠ 0) :
    ∃ m o, p.model = some m ∧ (a.distConse : Int) ≤ m.conseLast ∧ m.conseLast ≤ 6 ∧ (p.mode ≠ 3 ∧ p.mode ≠ 4) ∧
      m.obs[(6 - m.conseLast).toNat]? = some o ∧ d = (decode o).date := by
  unfold identify at e
  by_cases hm : p.mode = 3 ∨ p.mode = 4 ∨ p.mode / 10 = 1
  · rw [if_pos hm] at e; simp at e; omega
  · rw [if_neg hm] at e
    cases hmm : p.model with
    | none => simp [hmm] at e
    | some m =>
      simp only [hmm] at e
      by_cases hg : (decide (m.conseLast ≥ a.distConse) && a.strong m.normCm && a.aligned m.cmAngle) = true
      · rw [if_pos hg] at e
        simp only [Bool.and_eq_true, decide_eq_true_eq] at hg
        by_cases h6 : m.conseLast > 6
        · rw [if_pos h6] at e; cases e
        · rw [if_neg h6] at e
          by_cases hgr : a.greening m = true
          · rw [if_pos hgr] at e; simp at e; omega
          · rw [if_neg hgr] at e
            cases ho : m.obs[(6 - m.conseLast).toNat]? with
            | none => simp [ho] at e
            | some o =>
              simp only [ho] at e
              have := (Prod.ext_iff.mp (Except.ok.inj e)).2
              exact ⟨m, o, rfl, hg.1.1, by omega, by omega, ho, by simpa [decode] using this.symm⟩
      · rw [if_neg hg] at e; simp at e; omega

/-- The date is the first of the newest anomalies, if `conse` is 6 and the call saw 6 genuine newest
observations `X`. -/
theorem anomaly_date {N : Num V F R} {f : F} {n : Int} {X : List Obs} {m : Model F} {o : Obs}
    (hX : X.length = 6) (hcod : Codable X) (ho : m.obs = X.map encode ++ List.replicate 2 padObs)
    (hl : m.conseLast = leadCount N (X.reverse.map (N.endMag f n))) (h1 : 1 ≤ m.conseLast)
    (hget : m.obs[(6 - m.conseLast).toNat]? = some o) :
    FirstAnomaly (fun x => N.le (N.endMag f n x) N.gate = false) X (decode o) := by
  obtain ⟨A, B, hAB, hBl, hB, hA⟩ := leadCount_split N (N.endMag f n) X
  cases B with
  | nil => rw [hl, ← hBl] at h1; simp at h1
  | cons b bs =>
    have hlen := congrArg List.length hAB
    rw [hX, List.length_append] at hlen
    have hidx : (6 - m.conseLast).toNat = A.length := by rw [hl, ← hBl]; omega
    have hb : decode o = b := by
      rw [ho, hidx, List.getElem?_append_left (by simp; simp at hlen; omega), hAB] at hget
      simp at hget
      have hmem : b ∈ X := by rw [hAB]; simp
      have := decode_encode (l := [b]) (fun x hx => by
        simp at hx; subst hx; exact hcod _ hmem)
      simp at this
      rw [← hget, this]
    refine ⟨A, bs, by rw [hb]; exact hAB, by rw [hb]; exact hB, fun x hx => by simp [hA x hx]⟩

/-- After `sccd_detect` with `conse` = 6 the date returned is that of the observation where the run of
anomalies reaching to the newest observation begins. -/
theorem C41_date_after_detect_partial (E : Env V F R M) (hc : E.conse = 6) (m0 : M) (z : Model F)
    (scenes : List Scene) (p q : Pack F R M) (e : detect E m0 z scenes = .ok p) (hm : p.mode = 1)
    (a : Ask F) (h1 : 1 ≤ a.distConse) (d : Int) (ei : identify a p = .ok (q, d)) (hd : d ≠ 0)
    (X : List Obs) (hX : X = fresh E.bC2 (snowBranch E 0 scenes) scenes) (hasc : Asc X) (hcod : Codable X) :
    ∃ f n o, FirstAnomaly (fun x => (E.num p.minRmse).le ((E.num p.minRmse).endMag f n x) (E.num p.minRmse).gate = false)
      (X.drop (X.length - 6)) o ∧ d = o.date := by
  obtain ⟨_, hq, ec⟩ := detect_call E e
  have hP : Promise E.conse (start m0 : Pack F R M) := start_promise E.conse m0
  have hpX : append (pending (start m0 : Pack F R M)) (fresh E.bC2 (snowBranch E (start m0 : Pack F R M).mode scenes) scenes) = X := by
    have : pending (start m0 : Pack F R M) = [] := rfl
    rw [this, hX]
    exact append_asc _ [] (by rw [List.nil_append]; rw [hX] at hasc; exact hasc)
  obtain ⟨m, o, hmm, hdc, h6, _, hget, hdo⟩ := identify_date ei hd
  rcases mon_out E hP (by omega) (by omega) (some z) (by simp [start]) scenes hq ec (.inl hm) X hpX.symm with
    ⟨_, hpe⟩ | ⟨m', f, n, hm', hlen, hcase, _⟩
  · rw [hpe] at hm; simp [start] at hm
  · rw [hmm] at hm'; cases hm'
    rw [hc] at hlen hcase
    rcases hcase with ⟨ho, hl⟩ | ⟨_, hl⟩
    · exact ⟨f, n, decode o, anomaly_date (by simp; omega) (hcod.sublist (List.drop_sublist _ _)) ho hl (by omega) hget, hdo⟩
    · omega

/-- The same after `sccd_update`, if it brought at least 6 usable observations. -/
theorem C41_date_after_update_partial (E : Env V F R M) (hc : E.conse = 6) (p0 : Pack F R M) (all : List Obs)
    (h : History E Any p0 all) (scenes : List Scene) (p q : Pack F R M) (e : update E p0 scenes = .ok p)
    (hm : p.mode = 1) (a : Ask F) (h1 : 1 ≤ a.distConse) (d : Int) (ei : identify a p = .ok (q, d)) (hd : d ≠ 0)
    (X : List Obs) (hX : X = fresh E.bC2 (snowBranch E p0.mode scenes) scenes) (hasc : Asc X) (hcod : Codable X)
    (hnew : ∀ x ∈ pending p0, ∀ o ∈ X, x.date ≠ o.date) (hlen : 6 ≤ X.length) :
    ∃ f n o, FirstAnomaly (fun x => (E.num p.minRmse).le ((E.num p.minRmse).endMag f n x) (E.num p.minRmse).gate = false)
      (X.drop (X.length - 6)) o ∧ d = o.date := by
  have hP := h.promise (by omega) (by omega)
  obtain ⟨_, hq, ec⟩ := update_call E hP e
  have hpX := append_eq X (pending p0) hasc hnew
  obtain ⟨m, o, hmm, hdc, h6, _, hget, hdo⟩ := identify_date ei hd
  rcases mon_out E hP (by omega) (by omega) p0.model (fun _ => rfl) scenes hq ec (.inl hm) _
    (by rw [← hX, hpX]) with ⟨hn, hpe⟩ | ⟨m', f, n, hm', _, hcase, _⟩
  · have := List.append_right_eq_self.mp hn
    simp [this] at hlen
  · rw [hmm] at hm'; cases hm'
    rw [hc] at hcase
    have hdrop : (pending p0 ++ X).drop ((pending p0 ++ X).length - 6) = X.drop (X.length - 6) := by
      rw [List.drop_append, List.drop_eq_nil_of_le (by simp; omega), List.nil_append]
      congr 1; simp; omega
    rw [hdrop] at hcase
    rcases hcase with ⟨ho, hl⟩ | ⟨_, hl⟩
    · exact ⟨f, n, decode o, anomaly_date (by simp; omega) (hcod.sublist (List.drop_sublist _ _)) ho hl (by omega) hget, hdo⟩
    · omega

/-- Whatever the calls before, after a call ending in monitor mode the stored count is that of the
anomalies reaching back from the newest observation without a gap (or 0), and the stored magnitude and
angle, on which `sccd_identify` decides, are the smallest magnitude and the mean angle of exactly
these observations. -/
theorem C41_strength (E : Env V F R M) (hc : 0 < E.conse) (hc8 : E.conse ≤ 8) (p0 : Pack F R M)
    (all : List Obs) (h : History E Any p0 all) (scenes : List Scene) (p : Pack F R M)
    (e : update E p0 scenes = .ok p) (hm : p.mode = 1 ∨ p.mode = 11) (X : List Obs)
    (hX : X = append (pending p0) (fresh E.bC2 (snowBranch E p0.mode scenes) scenes)) (hnew : X ≠ pending p0) :
    ∃ m f n, p.model = some m ∧
      (m.conseLast = leadCount (E.num p.minRmse)
          (((X.drop (X.length - E.conse)).reverse).map ((E.num p.minRmse).endMag f n)) ∨ m.conseLast = 0) ∧
      Strength (E.num p.minRmse) f n (X.drop (X.length - E.conse)).reverse m := by
  have hP := h.promise hc hc8
  obtain ⟨_, hq, ec⟩ := update_call E hP e
  rcases mon_out E hP hc hc8 p0.model (fun _ => rfl) scenes hq ec hm X hX with ⟨hn, _⟩ | ⟨m, f, n, hm1, _, hcase, hs⟩
  · exact absurd hn hnew
  · exact ⟨m, f, n, hm1, hcase.imp (·.2) (·.2), hs⟩

/-- The same after `sccd_detect`. -/
theorem C41_strength_detect (E : Env V F R M) (hc : 0 < E.conse) (hc8 : E.conse ≤ 8) (m0 : M) (z : Model F)
    (scenes : List Scene) (p : Pack F R M) (e : detect E m0 z scenes = .ok p) (hm : p.mode = 1 ∨ p.mode = 11)
    (X : List Obs) (hX : X = fresh E.bC2 (snowBranch E 0 scenes) scenes) (hasc : Asc X) :
    ∃ m f n, p.model = some m ∧
      (m.conseLast = leadCount (E.num p.minRmse)
          (((X.drop (X.length - E.conse)).reverse).map ((E.num p.minRmse).endMag f n)) ∨ m.conseLast = 0) ∧
      Strength (E.num p.minRmse) f n (X.drop (X.length - E.conse)).reverse m := by
  obtain ⟨_, hq, ec⟩ := detect_call E e
  have hP : Promise E.conse (start m0 : Pack F R M) := start_promise E.conse m0
  have hpX : append (pending (start m0 : Pack F R M)) (fresh E.bC2 (snowBranch E (start m0 : Pack F R M).mode scenes) scenes) = X := by
    have : pending (start m0 : Pack F R M) = [] := rfl
    rw [this, hX]
    exact append_asc _ [] (by rw [List.nil_append]; rw [hX] at hasc; exact hasc)
  rcases mon_out E hP hc hc8 (some z) (by simp [start]) scenes hq ec hm X hpX.symm with ⟨_, hpe⟩ | ⟨m, f, n, hm1, _, hcase, hs⟩
  · rw [hpe] at hm; simp [start] at hm
  · exact ⟨m, f, n, hm1, hcase.imp (·.2) (·.2), hs⟩

section
open Toy

/-- Asks for at least `k` anomalies, with every other test passed. -/
def Toy.ask (k : Nat) : Ask Int := ⟨k, fun _ => true, fun _ => true, fun _ => false, true⟩

def Toy.dateOf (e : Except Err (Pack Int Unit Unit × Int)) : Option Int :=
  match e with
  | .ok (_, d) => some d
  | .error _ => none

-- the last three observations are anomalous, the earlier ones are not: three are counted
example : isOk (detect (env 6) () zero (base ++ scenesOf 730600 20 800 0 3)) (fun p => p.mode == 1 &&
    (match p.model with | some m => m.conseLast == 3 && m.normCm != NA_VALUE | none => false)) = true := by
  decide +kernel

-- the last three observations are anomalous: the first of them is reported
example : isOk (detect (env 6) () zero (base ++ scenesOf 730600 20 800 0 3)) (fun p => p.mode == 1 &&
    dateOf (identify (ask 3) p) == some 730600) = true := by decide +kernel

/-- With `conse` = 6 and an update bringing fewer than 6 observations the date reported can be 1982-07-16:
three anomalies from day 730600 on. -/
theorem C41_phantom_date : ∃ p q r,
    detect (env 6) () zero base = .ok p ∧ update (env 6) p (scenesOf 730600 20 800 0 3) = .ok q ∧
    identify (ask 3) q = .ok (r, 723742) := by
  obtain ⟨p, e, h⟩ := isOk_iff (t := fun p => isOk (update (env 6) p (scenesOf 730600 20 800 0 3))
      (fun q => dateOf (identify (ask 3) q) == some 723742))
    (show isOk (detect (env 6) () zero base) _ = true by decide +kernel)
  obtain ⟨q, e2, h2⟩ := isOk_iff h
  cases h3 : identify (ask 3) q with
  | error x => simp [dateOf, h3] at h2
  | ok r =>
    obtain ⟨r, d⟩ := r
    simp [dateOf, h3] at h2
    subst h2
    exact ⟨p, q, r, e, e2, h3⟩

/-- With `conse` = 5 the date is too late by one observation: four anomalies, the first on day 730600. -/
theorem C41_conse_5_late : ∃ p q, detect (env 5) () zero (base ++ scenesOf 730600 20 800 0 4) = .ok p ∧
    identify (ask 3) p = .ok (q, 730620) := by
  obtain ⟨p, e, h⟩ := isOk_iff (t := fun p => dateOf (identify (ask 3) p) == some 730620)
    (show isOk (detect (env 5) () zero (base ++ scenesOf 730600 20 800 0 4)) _ = true by decide +kernel)
  cases h3 : identify (ask 3) p with
  | error x => simp [dateOf, h3] at h
  | ok r =>
    obtain ⟨r, d⟩ := r
    simp [dateOf, h3] at h
    subst h
    exact ⟨p, r, e, h3⟩
end

/-- With `conse` 7 or 8 `sccd_identify` raises on every pixel whose change was just confirmed (mode 5), if the
change passes the thresholds. -/
theorem C41_conse_7_8_raises (E : Env V F R M) (hc7 : 7 ≤ E.conse) (hc8 : E.conse ≤ 8) (p : Pack F R M)
    (all : List Obs) (h : History E Any p all) (hm : p.mode = 5) (a : Ask F) (hd : a.distConse ≤ E.conse)
    (hs : ∀ v, a.strong v = true) (ha : ∀ v, a.aligned v = true) : identify a p = .error .fail := by
  obtain ⟨_, m, hmm, hl⟩ := h.atBreak (by omega) hc8 hm
  unfold identify
  rw [if_neg (by omega), hmm]
  simp only
  rw [if_pos (by simp [hs, ha, hl, hd]), if_pos (by omega)]

section
open Toy
example : ∃ p, History (env 8) Any p (fresh true false base ++ fresh true false (scenesOf 730600 20 800 0 9)) ∧
    p.mode = 5 := by
  obtain ⟨p, e, h⟩ := isOk_iff (t := fun p => p.mode == 1 &&
      isOk (update (env 8) p (scenesOf 730600 20 800 0 9)) (fun q => q.mode == 5))
    (show isOk (detect (env 8) () zero base) _ = true by decide +kernel)
  simp only [Bool.and_eq_true, beq_iff_eq] at h
  obtain ⟨q, e2, h2⟩ := isOk_iff h.2
  refine ⟨q, ?_, by simpa using h2⟩
  have := History.update p q _ _ (History.detect (ok := Any) () zero base p e trivial) e2 trivial
  rw [show snowBranch (env 8) p.mode (scenesOf 730600 20 800 0 9) = false by rw [h.1]; rfl] at this
  exact this
end

/-! ## C53: no read outside the arrays -/

/-- With `conse` up to 6 no call reads outside the observation arrays, for any data, any sequence of calls and
any outcome of the numerical tests. -/
theorem C53_in_bounds_partial (E : Env V F R M) (hc : 0 < E.conse) (hc6 : E.conse ≤ 6) (p : Pack F R M)
    (all : List Obs) (h : History E Any p all) (m0 : M) (z : Model F) (scenes : List Scene) (a : Ask F) :
    update E p scenes ≠ .error .oob ∧ detect E m0 z scenes ≠ .error .oob ∧ identify a p ≠ .error .oob := by
  have hP := h.promise hc (by omega)
  refine ⟨?_, ?_, ?_⟩
  · intro e
    by_cases hne : scenes = []
    · simp [update, hne] at e
    · rw [update_eq E hP hne] at e
      by_cases hq : ∀ o ∈ scenes, KnownQa o.qa
      · rcases call_cases E hP hc (by omega) p.model (fun _ => rfl) scenes hq with ⟨q, e', _⟩ | ⟨e', h6, _⟩
        · have : (sccd E p scenes >>= packOut) = .ok q := e'
          rw [this] at e; cases e
        · omega
      · rw [sccd_unknown E p scenes hq] at e
        simp [bind, Except.bind] at e
  · intro e
    unfold detect at e
    by_cases hcc : E.conse > NCONSE
    · simp [hcc] at e
    simp only [hcc, if_false] at e
    split at e
    · split at e
      · cases e
      · by_cases hq : ∀ o ∈ scenes, KnownQa o.qa
        · rcases call_cases E (start_promise E.conse m0) hc (by omega) (some z) (by simp [start]) scenes hq with
            ⟨q, e', _⟩ | ⟨e', h6, _⟩
          · have : (sccd E ⟨0, [], m0, some z, [], []⟩ scenes >>= packOut) = .ok q := e'
            rw [this] at e; cases e
          · omega
        · rw [sccd_unknown E _ scenes hq] at e
          simp [bind, Except.bind] at e
    · cases e
  · intro e
    by_cases h0 : p.mode = 0
    · rw [C25_identify_void_raises p h0 (hP.void h0).2.1 a] at e
      cases e
    · obtain ⟨q, d, e', _⟩ := C25_identify_accepts E hc hc6 p all h h0 a
      rw [e'] at e; cases e

section
open Toy
def Toy.isOob (e : Except Err (Pack Int Unit Unit)) : Bool :=
  match e with
  | .error .oob => true
  | _ => false

/-- With `conse` = 7 a series whose first 6 observations differ from the rest makes the first call read the
observation before the first one. -/
theorem C53_conse_7_out_of_bounds :
    detect (env 7) () zero (scenesOf 730000 20 500 0 6 ++ scenesOf 730200 20 800 0 40) = .error .oob := by
  have h : isOob (detect (env 7) () zero (scenesOf 730000 20 500 0 6 ++ scenesOf 730200 20 800 0 40)) = true := by
    decide +kernel
  generalize detect (env 7) () zero (scenesOf 730000 20 500 0 6 ++ scenesOf 730200 20 800 0 40) = e at h
  cases e with
  | ok q => cases h
  | error x => cases x <;> first | rfl | cases h
end

/-! ## C54: records describe the observations -/

/-- First call, any `conse`: every record but the first has `num_obs` ≥ 18 equal to the number of
observations its model used and `t_start` the date of the first of them; the first record may instead be an
opening record.  Breaks come after everything a record accounts for and not after anything later; the
records' observations are among those given, in order. -/
theorem C54_records_of_first_call (E : Env V F R M) (hc : 0 < E.conse) (m0 : M) (z : Model F)
    (scenes : List Scene) (q : Pack F R M) (e : detect E m0 z scenes = .ok q)
    (hasc : Asc (fresh E.bC2 (snowBranch E 0 scenes) scenes)) :
    RecsOk q.recs ∧ ∃ rest, Chrono rest q.recs ∧
      (flat q.recs ++ rest).Sublist (fresh E.bC2 (snowBranch E 0 scenes) scenes) := by
  obtain ⟨hc8, hq, ec⟩ := detect_call E e
  obtain ⟨h1, _, rest, h2, h3, _⟩ := first_call E m0 hc hc8 (some z) scenes hq hasc ec
  exact ⟨h1, rest, h2, h3⟩

/-- Any sequence of calls: the same for the records; a monitored model has `num_obs` and `t_start` of the
observations behind it; everything received is discarded as noise, or behind a record or the model, or
still waiting, in the order received. -/
theorem C54_records_of_sequences_partial (E : Env V F R M) (hc : 0 < E.conse) (hc8 : E.conse ≤ 8)
    (p : Pack F R M) (all : List Obs) (h : History E (Fits E) p all) (hasc : Asc all) (hcod : Codable all)
    (hlen : all.length ≤ 32767) :
    RecsOk p.recs ∧ Chrono (monitored p ++ pending p) p.recs ∧
    (p.mode = 1 ∨ p.mode = 11 → ∀ m, p.model = some m → SegOk m.seg (723742 + m.tStart) m.numObs) ∧
    (flat p.recs ++ monitored p ++ pending p).Sublist all ∧
    all.Perm (p.removed ++ (flat p.recs ++ monitored p ++ pending p)) := by
  have L := h.ledger hc hc8 (fun q hq => hq) hasc hcod hlen
  exact ⟨L.recs, L.chrono, fun hm m hmm => (L.model hm m hmm).1, L.sub, L.perm⟩

section
open Toy
-- a series with an opening record whose `t_start` is the very first observation, then a change
example : isOk (detect (env 6) () zero (scenesOf 730000 20 500 0 8 ++ scenesOf 730200 20 800 0 30 ++
      scenesOf 730800 20 300 0 10))
    (fun q => q.recs.map (fun r => (r.tStart, r.tBreak, r.numObs)) ==
      [(730000, 730200, 8), (730200, 730800, 30)]) = true := by decide +kernel
end

/-! ## C55: breaks are more than a year apart, so the record buffer is large enough for 40 years -/

/-- First call, any `conse`: any two breaks are more than 365.25 days apart. -/
theorem C55_spacing (E : Env V F R M) (hc : 0 < E.conse) (m0 : M) (z : Model F) (scenes : List Scene) (q : Pack F R M)
    (e : detect E m0 z scenes = .ok q) (hasc : Asc (fresh E.bC2 (snowBranch E 0 scenes) scenes)) :
    q.recs.Pairwise (fun r s => 1461 < 4 * (s.tBreak - r.tBreak)) := by
  obtain ⟨hc8, hq, ec⟩ := detect_call E e
  obtain ⟨_, h4, rest, h2, _, _⟩ := first_call E m0 hc hc8 (some z) scenes hq hasc ec
  exact breaks_pairwise rest q.recs h2 h4

/-- The same for sequences of calls. -/
theorem C55_spacing_sequences (E : Env V F R M) (hc : 0 < E.conse) (hc8 : E.conse ≤ 8)
    (p : Pack F R M) (all : List Obs) (h : History E (Fits E) p all) (hasc : Asc all) (hcod : Codable all)
    (hlen : all.length ≤ 32767) : p.recs.Pairwise (fun r s => 1461 < 4 * (s.tBreak - r.tBreak)) :=
  have L := h.ledger hc hc8 (fun q hq => hq) hasc hcod hlen
  breaks_pairwise _ p.recs L.chrono L.year

/-- First call, any `conse`: with `n` records the observations span more than (n - 1) * 365.25 days. -/
theorem C55_span_of_first_call (E : Env V F R M) (hc : 0 < E.conse) (m0 : M) (z : Model F)
    (scenes : List Scene) (q : Pack F R M) (e : detect E m0 z scenes = .ok q) (X : List Obs)
    (hX : X = fresh E.bC2 (snowBranch E 0 scenes) scenes) (hasc : Asc X) (a b : Obs) (ha : X.head? = some a)
    (hb : X.getLast? = some b) (hr : q.recs ≠ []) :
    1461 * ((q.recs.length : Int) - 1) < 4 * (b.date - a.date) := by
  obtain ⟨hc8, hq, ec⟩ := detect_call E e
  rw [hX] at hasc
  obtain ⟨h1, h4, rest, h2, h3, h5⟩ := first_call E m0 hc hc8 (some z) scenes hq hasc ec
  rw [← hX] at *
  refine recs_le h1 h4 h2 h3 hasc (h5 ?_) hr a b ha hb
  intro hn; simp [hn] at ha

/-- So a series within 40 years (14610 days) gives at most 40 records, the size of the buffer. -/
theorem C55_buffer (E : Env V F R M) (hc : 0 < E.conse) (m0 : M) (z : Model F)
    (scenes : List Scene) (q : Pack F R M) (e : detect E m0 z scenes = .ok q) (X : List Obs)
    (hX : X = fresh E.bC2 (snowBranch E 0 scenes) scenes) (hasc : Asc X) (a b : Obs) (ha : X.head? = some a)
    (hb : X.getLast? = some b) (hspan : b.date - a.date ≤ 14610) : q.recs.length ≤ 40 := by
  by_cases hr : q.recs = []
  · simp [hr]
  · have := C55_span_of_first_call E hc m0 z scenes q e X hX hasc a b ha hb hr
    omega

/-- The same for sequences of calls. -/
theorem C55_span_of_sequences (E : Env V F R M) (hc : 0 < E.conse) (hc8 : E.conse ≤ 8)
    (p : Pack F R M) (all : List Obs) (h : History E (Fits E) p all) (hasc : Asc all) (hcod : Codable all)
    (hlen : all.length ≤ 32767) (a b : Obs) (ha : all.head? = some a) (hb : all.getLast? = some b)
    (hr : p.recs ≠ []) : 1461 * ((p.recs.length : Int) - 1) < 4 * (b.date - a.date) := by
  have hP := h.promise hc hc8
  have L := h.ledger hc hc8 (fun q hq => hq) hasc hcod hlen
  have hm := hP.modes
  simp only [List.mem_cons, List.not_mem_nil, or_false] at hm
  refine recs_le L.recs L.year L.chrono (by have := L.sub; rwa [holds, List.append_assoc] at this) hasc ?_ hr a b ha hb
  intro hn
  have hn := (List.append_eq_nil_iff.mp hn).2
  by_cases hmon : p.mode = 1 ∨ p.mode = 11 ∨ p.mode = 3
  · obtain ⟨m, hmm, h8⟩ := (hP.monitor (by rcases hmon with e | e | e <;> simp [e])).1
    rw [pending_mon hmon hmm] at hn
    simp at hn; simp [hn] at h8
  · by_cases h0 : p.mode = 0
    · exact hr (hP.void h0).1
    · by_cases h4 : p.mode = 4
      · exact hr (hP.snow (by simp [h4]))
      · rw [pending_que (by omega)] at hn
        simp only [List.map_eq_nil_iff] at hn
        by_cases h5 : p.mode = 5
        · have := (hP.both h5).2.1
          rw [hn] at this; simp at this; omega
        · exact hP.waiting (by omega) hn

/-- So the buffer suffices for sequences of calls within 40 years. -/
theorem C55_buffer_sequences (E : Env V F R M) (hc : 0 < E.conse) (hc8 : E.conse ≤ 8)
    (p : Pack F R M) (all : List Obs) (h : History E (Fits E) p all) (hasc : Asc all) (hcod : Codable all)
    (hlen : all.length ≤ 32767) (a b : Obs) (ha : all.head? = some a) (hb : all.getLast? = some b)
    (hspan : b.date - a.date ≤ 14610) : p.recs.length ≤ 40 := by
  by_cases hr : p.recs = []
  · simp [hr]
  · have := C55_span_of_sequences E hc hc8 p all h hasc hcod hlen a b ha hb hr
    omega

/-! ## C56: breaks are confirmed -/

/-- Every record a call adds, except the first record of the pixel, is confirmed: `conse` consecutive
observations from the break date on are all at or above the change threshold for the model of the record,
and their mean angle is not above the limit.  (`lt` is a comparison of numbers: not below is transitive.) -/
theorem C56_confirmed (E : Env V F R M)
    (ht : ∀ rm a b c, (E.num rm).lt a b = false → (E.num rm).lt b c = false → (E.num rm).lt a c = false)
    (hc : 0 < E.conse) (hc8 : E.conse ≤ 8) (p : Pack F R M) (all : List Obs) (h : History E Any p all)
    (scenes : List Scene) (q : Pack F R M) (e : update E p scenes = .ok q) :
    ∃ new, q.recs = p.recs ++ new ∧ ∀ r ∈ (if p.recs = [] then new.tail else new),
      Confirmed (E.num q.minRmse) E.conse
        (append (pending p) (fresh E.bC2 (snowBranch E p.mode scenes) scenes)) r := by
  have hP := h.promise hc hc8
  obtain ⟨_, hq, ec⟩ := update_call E hP e
  exact confirm_call E ht hP hc hc8 p.model (fun _ => rfl) scenes hq ec

/-- The same for `sccd_detect`. -/
theorem C56_confirmed_detect (E : Env V F R M)
    (ht : ∀ rm a b c, (E.num rm).lt a b = false → (E.num rm).lt b c = false → (E.num rm).lt a c = false)
    (hc : 0 < E.conse) (m0 : M) (z : Model F) (scenes : List Scene) (q : Pack F R M)
    (e : detect E m0 z scenes = .ok q) : ∀ r ∈ q.recs.tail,
      Confirmed (E.num q.minRmse) E.conse (append [] (fresh E.bC2 (snowBranch E 0 scenes) scenes)) r := by
  obtain ⟨hc8, hq, ec⟩ := detect_call E e
  obtain ⟨new, h1, h2⟩ := confirm_call E ht (start_promise E.conse m0) hc hc8 (some z) (by simp [start]) scenes hq ec
  have h0 : (start m0 : Pack F R M).recs = [] := rfl
  rw [if_pos h0] at h2
  rw [h1, h0]
  exact h2

section
open Toy
example : ∀ rm a b c, ((env 6).num rm).lt a b = false → ((env 6).num rm).lt b c = false →
    ((env 6).num rm).lt a c = false := by
  intro _ a b c h1 h2
  simp only [env, num, decide_eq_false_iff_not] at *
  omega
end

/-! ## C57: a confirmed change and its date -/

/-- In mode 5 the model kept is the one of the last confirmed change: its anomaly count is `conse`, its first
observation has the date of the last record's break. -/
theorem C57_change_model (E : Env V F R M) (hc : 0 < E.conse) (hc8 : E.conse ≤ 8) (p : Pack F R M)
    (all : List Obs) (h : History E Any p all) (hm : p.mode = 5) :
    ∃ m r o, p.model = some m ∧ p.recs.getLast? = some r ∧ m.obs.head? = some o ∧
      o.date = toShort (r.tBreak - 723742) ∧ m.conseLast = E.conse := by
  obtain ⟨⟨m, r, o, h1, h2, h3, h4⟩, m', h5, h6⟩ := h.atBreak hc hc8 hm
  rw [h1] at h5; cases h5
  exact ⟨m, r, o, h1, h2, h3, h4, h6⟩

/-- So with `conse` = 6 `sccd_identify` returns, for a pixel whose change was just confirmed, the break date of
the last record (if that date fits in 16 bits). -/
theorem C57_identify_returns_break (E : Env V F R M) (hc : E.conse = 6) (p q : Pack F R M) (all : List Obs)
    (h : History E Any p all) (hm : p.mode = 5) (a : Ask F) (d : Int) (e : identify a p = .ok (q, d))
    (hd : d ≠ 0) (r : Rec R) (hr : p.recs.getLast? = some r)
    (hfit : -32768 ≤ r.tBreak - 723742 ∧ r.tBreak - 723742 ≤ 32767) : d = r.tBreak := by
  obtain ⟨m, r', o, h1, h2, h3, h4, h5⟩ := C57_change_model E (by omega) (by omega) p all h hm
  rw [hr] at h2; cases h2
  obtain ⟨m', o', k1, _, _, _, k2, k3⟩ := identify_date e hd
  rw [h1] at k1; cases k1
  rw [h5, hc] at k2
  have : o' = o := by
    have : m.obs.head? = m.obs[0]? := by cases m.obs <;> rfl
    rw [this] at h3
    have k2' : m.obs[0]? = some o' := k2
    rw [h3] at k2'; cases k2'; rfl
  rw [k3, this]
  simp only [decode, h4, toShort_id hfit.1 hfit.2]
  have hL : LAUNCH = 723742 := rfl
  omega

section
open Toy
-- with `conse` = 6, enough new observations and no phantom in the way: the change is reported at the break
example : isOk (detect (env 6) () zero base >>= fun p => update (env 6) p (scenesOf 730600 20 501 0 6 ++ scenesOf 730800 20 800 0 9))
    (fun p => p.mode == 5) = true := by decide +kernel
end

end Pycold.Sccd
