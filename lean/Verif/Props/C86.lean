import Verif.Proof.Pinpoint
import Verif.Props.SccdToy
/-!
# C86: pinpoint records of `sccd_detect(b_pinpoint=True)`

`detectP` returns the `SccdOutput`, the pinpoint records and the rounds (the observations compared with a
model, in monitoring).  Specification in `Spec/Pinpoint.lean`.

Hypotheses shared by the theorems: comparison of magnitudes is a strict weak order, zero is recognised, the
gate threshold is not above the change threshold, `conse > 0`, known QA values, clear observations in
ascending order and none before 1982.
-/
namespace Pycold.Sccd
open Pycold.Spec Pycold.Sccd.Spec
variable {V F R M : Type}

/-- Asking for pinpoint records changes nothing in the `SccdOutput`, if the clear observations cover at most
forty periods. -/
theorem C86_same_output (E : Env V F R M) (Z : ZeroV V) (o : ∀ rm, Ordered (E.num rm)) (z : ∀ rm, ZeroOk (E.num rm) Z)
    (hg : ∀ rm, (E.num rm).lt (E.num rm).tcg (E.num rm).gate = false) (hc : 0 < E.conse)
    (m0 : M) (zm : Model F) (scenes : List Scene) (hq : ∀ s ∈ scenes, KnownQa s.qa)
    (hasc : Asc (fresh E.bC2 (snowBranch E 0 scenes) scenes))
    (h82 : ∀ x ∈ fresh E.bC2 (snowBranch E 0 scenes) scenes, 723546 ≤ x.date)
    (h40 : ∀ a ∈ fresh E.bC2 (snowBranch E 0 scenes) scenes, ∀ b ∈ fresh E.bC2 (snowBranch E 0 scenes) scenes,
      period b.date < period a.date + 40) :
    (detectP E Z m0 zm scenes).map (·.1) = detect E m0 zm scenes := by
  rcases detectP_cases E Z o z hg hc m0 zm scenes hq hasc h82 with ⟨q, pins, log, e1, e2, _⟩ | ⟨e, e1, e2⟩ | ⟨_, hm⟩
  · rw [e1, e2]; rfl
  · rw [e1, e2]; rfl
  · exact absurd hm (not_many h40)

/-- The pinpoint records are those of the strongest anomalous rounds of their periods, one per period, in
order of time, at most forty; the rounds are in order of time, and the breaks of the `SccdOutput` are,
apart from an opening record, the rounds at which the change rule holds. -/
theorem C86_pinpoints (E : Env V F R M) (Z : ZeroV V) (o : ∀ rm, Ordered (E.num rm)) (z : ∀ rm, ZeroOk (E.num rm) Z)
    (hg : ∀ rm, (E.num rm).lt (E.num rm).tcg (E.num rm).gate = false) (hc : 0 < E.conse)
    (m0 : M) (zm : Model F) (scenes : List Scene) (hq : ∀ s ∈ scenes, KnownQa s.qa)
    (hasc : Asc (fresh E.bC2 (snowBranch E 0 scenes) scenes))
    (h82 : ∀ x ∈ fresh E.bC2 (snowBranch E 0 scenes) scenes, 723546 ≤ x.date)
    {q : Pack F R M} {pins : List (Pin V F)} {log : List (Round F)}
    (e : detectP E Z m0 zm scenes = .ok (q, pins, log)) :
    Rounds E.conse (fresh E.bC2 (snowBranch E 0 scenes) scenes) log ∧
    Pinpoints (E.num q.minRmse) Z E.conse log pins ∧
    BreaksOf (E.num q.minRmse) E.conse log q.recs ∧ pins.length ≤ 40 := by
  rcases detectP_cases E Z o z hg hc m0 zm scenes hq hasc h82 with ⟨q', pins', log', e1, e2, h⟩ | ⟨e', e1, _⟩ | ⟨e1, _⟩
  · rw [e1] at e; cases e
    exact ⟨h.rounds, h.table, h.breaks, h.cap⟩
  · rw [e1] at e; cases e
  · rw [e1] at e; cases e

/-- The call fails on the pinpoint buffer only if more than forty periods have clear observations. -/
theorem C86_fails (E : Env V F R M) (Z : ZeroV V) (o : ∀ rm, Ordered (E.num rm)) (z : ∀ rm, ZeroOk (E.num rm) Z)
    (hg : ∀ rm, (E.num rm).lt (E.num rm).tcg (E.num rm).gate = false) (hc : 0 < E.conse)
    (m0 : M) (zm : Model F) (scenes : List Scene) (hq : ∀ s ∈ scenes, KnownQa s.qa)
    (hasc : Asc (fresh E.bC2 (snowBranch E 0 scenes) scenes))
    (h82 : ∀ x ∈ fresh E.bC2 (snowBranch E 0 scenes) scenes, 723546 ≤ x.date)
    {x : Err} (e : detectP E Z m0 zm scenes = .error x) :
    detect E m0 zm scenes = .error x ∨ ManyPeriods (fresh E.bC2 (snowBranch E 0 scenes) scenes) := by
  rcases detectP_cases E Z o z hg hc m0 zm scenes hq hasc h82 with ⟨q', pins', log', e1, _⟩ | ⟨e', e1, e2⟩ | ⟨e1, h⟩
  · rw [e1] at e; cases e
  · rw [e1] at e; cases e; exact .inl e2
  · exact .inr h

/-- Pinpoint records over-detect breaks: with `conse ≥ 3` and a positive change threshold, every break of the
`SccdOutput` other than an opening record has a pinpoint record in its period, at least as strong as the
break and not below the change threshold. -/
theorem C86_overdetection (E : Env V F R M) (Z : ZeroV V) (o : ∀ rm, Ordered (E.num rm)) (z : ∀ rm, ZeroOk (E.num rm) Z)
    (hg : ∀ rm, (E.num rm).lt (E.num rm).tcg (E.num rm).gate = false) (hc : 3 ≤ E.conse)
    (ht : ∀ rm, (E.num rm).lt Z.zero (E.num rm).tcg = true)
    (m0 : M) (zm : Model F) (scenes : List Scene) (hq : ∀ s ∈ scenes, KnownQa s.qa)
    (hasc : Asc (fresh E.bC2 (snowBranch E 0 scenes) scenes))
    (h82 : ∀ x ∈ fresh E.bC2 (snowBranch E 0 scenes) scenes, 723546 ≤ x.date)
    {q : Pack F R M} {pins : List (Pin V F)} {log : List (Round F)}
    (e : detectP E Z m0 zm scenes = .ok (q, pins, log)) :
    ∃ opening breaks, q.recs = opening ++ breaks ∧ opening.length ≤ 1 ∧
      ∀ b ∈ breaks, ∃ p ∈ pins, period p.tBreak = period b.tBreak ∧
        (E.num q.minRmse).lt p.mag (E.num q.minRmse).tcg = false ∧
        ∃ r ∈ log, dateOf r = b.tBreak ∧ Change (E.num q.minRmse) E.conse r ∧
          (E.num q.minRmse).lt p.mag (strength (E.num q.minRmse) E.conse r) = false := by
  obtain ⟨_, hp, ⟨op, br, h1, h2, rs, h3, h4, h5⟩, _⟩ :=
    C86_pinpoints E Z o z hg (by omega) m0 zm scenes hq hasc h82 e
  have od := o q.minRmse
  refine ⟨op, br, h1, h2, ?_⟩
  intro b hb
  have hbm : b.tBreak ∈ rs.map dateOf := by rw [← h5]; exact List.mem_map_of_mem hb
  obtain ⟨r, hr, hrb⟩ := List.mem_map.mp hbm
  have hrl : r ∈ log := h3.subset hr
  have hch := (h4 r hrl).mp hr
  have hst : (E.num q.minRmse).lt (strength (E.num q.minRmse) E.conse r) (E.num q.minRmse).tcg = false := by
    cases hx : (E.num q.minRmse).lt (strength (E.num q.minRmse) E.conse r) (E.num q.minRmse).tcg with
    | false => rfl
    | true =>
      rcases (runMin_lt od r.filt r.numObs (r.rest.take E.conse) (E.num q.minRmse).big).mp hx with h | ⟨w, hw, h⟩
      · rw [od.bigT] at h; simp at h
      · rw [hch.1 w hw] at h; simp at h
  have han : Anomalous (E.num q.minRmse) E.conse r := by
    refine ⟨hc, fun w hw => od.negtrans _ _ _ (hch.1 w ?_) (hg _)⟩
    have : List.take 3 r.rest = (r.rest.take E.conse).take 3 := by
      rw [List.take_take, Nat.min_eq_left hc]
    rw [this] at hw
    exact List.mem_of_mem_take hw
  have hz : (E.num q.minRmse).lt Z.zero (strength (E.num q.minRmse) E.conse r) = true := by
    rcases lt_split od (strength (E.num q.minRmse) E.conse r) (ht q.minRmse) with h | h
    · exact h
    · rw [hst] at h; simp at h
  obtain ⟨p, hpm, hpp, hps⟩ := hp.complete r hrl han hz
  exact ⟨p, hpm, by rw [hpp, hrb], od.negtrans _ _ _ hps hst, r, hrl, hrb, hch, hps⟩

/-- A window of one or two observations gives no pinpoint records. -/
theorem C86_short_window (E : Env V F R M) (Z : ZeroV V) (o : ∀ rm, Ordered (E.num rm)) (z : ∀ rm, ZeroOk (E.num rm) Z)
    (hg : ∀ rm, (E.num rm).lt (E.num rm).tcg (E.num rm).gate = false) (hc : 0 < E.conse) (hc3 : E.conse < 3)
    (m0 : M) (zm : Model F) (scenes : List Scene) (hq : ∀ s ∈ scenes, KnownQa s.qa)
    (hasc : Asc (fresh E.bC2 (snowBranch E 0 scenes) scenes))
    (h82 : ∀ x ∈ fresh E.bC2 (snowBranch E 0 scenes) scenes, 723546 ≤ x.date)
    {q : Pack F R M} {pins : List (Pin V F)} {log : List (Round F)}
    (e : detectP E Z m0 zm scenes = .ok (q, pins, log)) : pins = [] := by
  obtain ⟨_, hp, _⟩ := C86_pinpoints E Z o z hg hc m0 zm scenes hq hasc h82 e
  cases pins with
  | nil => rfl
  | cons p ps =>
    obtain ⟨r, _, ha, _⟩ := hp.strongest p (by simp)
    have := ha.1
    omega

/-- With a window of seven or eight all eight stored observations are those of the round. -/
theorem C86_observations (E : Env V F R M) (Z : ZeroV V) (o : ∀ rm, Ordered (E.num rm)) (z : ∀ rm, ZeroOk (E.num rm) Z)
    (hg : ∀ rm, (E.num rm).lt (E.num rm).tcg (E.num rm).gate = false) (hc : 7 ≤ E.conse)
    (m0 : M) (zm : Model F) (scenes : List Scene) (hq : ∀ s ∈ scenes, KnownQa s.qa)
    (hasc : Asc (fresh E.bC2 (snowBranch E 0 scenes) scenes))
    (h82 : ∀ x ∈ fresh E.bC2 (snowBranch E 0 scenes) scenes, 723546 ≤ x.date)
    {q : Pack F R M} {pins : List (Pin V F)} {log : List (Round F)}
    (e : detectP E Z m0 zm scenes = .ok (q, pins, log)) :
    ∀ p ∈ pins, ∀ k, k < 8 → ∃ w ∈ fresh E.bC2 (snowBranch E 0 scenes) scenes, p.obs[k]? = some (some (encode w)) := by
  obtain ⟨hr, hp, _⟩ := C86_pinpoints E Z o z hg (by omega) m0 zm scenes hq hasc h82 e
  intro p hpm k hk
  obtain ⟨r, hrl, _, hs, _⟩ := hp.strongest p hpm
  obtain ⟨h1, h2⟩ := hr.within r hrl
  have hl : k < r.rest.length := by omega
  refine ⟨r.rest[k], h1.subset (List.getElem_mem hl), ?_⟩
  rw [hs.obs k hk, List.getElem?_eq_getElem hl]
  rfl

/-! ## Concrete cases -/

namespace Toy

def zeroInt : ZeroV Int := ⟨0, fun v => decide (v = 0)⟩

/-- The toy environment with another gate. -/
def envGate (conse : Nat) (g : Int) : Env Int Int Unit Unit := { env conse with num := fun _ => { num with gate := g } }

theorem ordered_env (conse : Nat) (rm : Unit) : Ordered ((env conse).num rm) :=
  { asymm := by intro a b h; simp [env, num] at h ⊢; omega
    negtrans := by intro a b c h1 h2; simp [env, num] at h1 h2 ⊢; omega
    big := rfl
    bigT := rfl }

theorem zeroOk_env (conse : Nat) (rm : Unit) : ZeroOk ((env conse).num rm) zeroInt :=
  { zero := by decide
    pos := by intro v h; simp [env, num, zeroInt] at h ⊢; omega }

/-- Twenty quiet observations, seventeen with a weak deviation, twelve with a strong one. -/
def series : List Scene :=
  scenesOf 730000 21 100 0 20 ++ scenesOf 730420 21 107 0 8 ++ scenesOf 730588 21 108 0 9 ++ scenesOf 730777 21 150 0 12

def view (e : Except Err (Pack Int Unit Unit × List (Pin Int Int) × List (Round Int))) :
    Option (List Int × List (Int × Int) × Nat) :=
  match e with
  | .ok (q, p, l) => some (q.recs.map (fun r => r.tBreak), p.map (fun p => (p.tBreak, p.mag)), l.length)
  | .error _ => none

set_option maxRecDepth 100000 in
/-- The hypotheses are met, and the run has a break and two pinpoint records. -/
example : (∀ s ∈ series, KnownQa s.qa) ∧ Asc (fresh true (snowBranch (env 6) 0 series) series) ∧
    (∀ x ∈ fresh true (snowBranch (env 6) 0 series) series, 723546 ≤ x.date) ∧
    (∀ a ∈ fresh true (snowBranch (env 6) 0 series) series, ∀ b ∈ fresh true (snowBranch (env 6) 0 series) series,
      period b.date < period a.date + 40) ∧
    (env 6).num () = num ∧ num.lt num.tcg num.gate = false ∧ num.lt zeroInt.zero num.tcg = true ∧
    view (detectP (env 6) zeroInt () zero series) = some ([730777], [(730420, 7), (730777, 50)], 19) := by
  refine ⟨by decide +kernel, by unfold Asc; decide +kernel, by decide +kernel, by decide +kernel, rfl, by decide, by decide, by decide +kernel⟩

set_option maxRecDepth 100000 in
/-- With a gate above the change threshold (`gate_pcg > p_cg`) asking for pinpoint records loses breaks. -/
theorem C86_gate_above_threshold :
    view (detectP (envGate 6 20) zeroInt () zero (scenesOf 730000 21 100 0 20 ++ scenesOf 730420 21 115 0 8)) =
      some ([], [], 3) ∧
    isOk (detect (envGate 6 20) () zero (scenesOf 730000 21 100 0 20 ++ scenesOf 730420 21 115 0 8))
      (fun q => decide (q.recs.map (fun r => r.tBreak) = [730420])) = true := by
  refine ⟨by decide +kernel, by decide +kernel⟩

def pinObs (e : Except Err (Pack Int Unit Unit × List (Pin Int Int) × List (Round Int))) : Option (List (List Bool)) :=
  match e with
  | .ok (_, p, _) => some (p.map (fun p => p.obs.map Option.isSome))
  | .error _ => none

set_option maxRecDepth 100000 in
/-- With a shorter window a record near the end of the series copies observations from beyond the last one. -/
theorem C86_past_the_end :
    pinObs (detectP (env 4) zeroInt () zero (scenesOf 730000 21 100 0 20 ++ scenesOf 730420 21 107 0 5)) =
      some [[true, true, true, true, true, false, false, false]] := by
  decide +kernel

set_option maxRecDepth 100000 in
/-- Forty-one years with a weak anomaly in each write past the buffer of forty records. -/
theorem C86_buffer_overflow :
    (match detectP (env 3) zeroInt () zero (scenesOf 723600 21 100 0 20 ++ scenesOf 724020 365 107 0 44) with
      | .error x => some x
      | .ok _ => none) = some .oob ∧
    isOk (detect (env 3) () zero (scenesOf 723600 21 100 0 20 ++ scenesOf 724020 365 107 0 44)) (fun _ => true) = true := by
  refine ⟨by decide +kernel, by decide +kernel⟩

end Toy
end Pycold.Sccd
