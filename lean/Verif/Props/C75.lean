import Verif.Proof.SccdTrackCall
import Verif.Proof.SccdErase
import Verif.Props.C24_C31
import Verif.Props.C74
/-!
# C75: the numbers of an S-CCD record are those of its own observations
-/
namespace Pycold.SccdNum

open Pycold.SccdNum.Spec
open Pycold.Sccd (Pack Obs History Fits Asc Codable ClosedChain ClosedBy OpenedBy FilterOf fresh snowBranch
  pending)

variable {F P B : Type}

/-- **C75, first call.**  After `sccd_detect`, whatever arithmetic, solvers and matrix routines compute: the
records are those closed by changes, possibly after one for the start of the series.  Each of the former carries
the numbers of the filter fitted to its own first observations (at least 18, over a year) and taken over its
other observations; observations passed over as noise do not enter, and of earlier segments only the filter
`prior` does.  A monitored model is the filter of its own observations, at the date of the first observation
that waits. -/
theorem C75_first_call (E : Env F P B) (junk : B → Int) (conse : Nat) (hc : 0 < conse) (bC2 : Bool)
    (snowPct : Nat → Nat → Bool) (m0 : B → Int) (z : Sccd.Model (B → BandState F P)) (scenes : List Scene)
    (q : Pack (B → BandState F P) (Body F B) (B → Int))
    (e : Sccd.detect (env E junk conse bC2 snowPct) m0 z scenes = .ok q) (all : List Obs)
    (hall : all = fresh bC2 (snowBranch (env E junk conse bC2 snowPct) 0 scenes) scenes) (hasc : Asc all) :
    ∃ op rest last, q.recs = op ++ rest ∧ (op = [] ∨ ∃ r, op = [r] ∧ OpenedBy (num E q.minRmse) conse all r) ∧
      ClosedChain (num E q.minRmse) conse all none rest last ∧
      (q.mode = 1 → ∃ m nx f, q.model = some m ∧ m.filt = (num E q.minRmse).narrow f ∧
        nx ∈ (all.drop (all.length - conse)).head? ∧ (m.seg ++ [nx]).Sublist all ∧
        FilterOf (num E q.minRmse) last m.seg nx f) := by
  subst hall
  obtain ⟨_, hq, ec⟩ := Sccd.detect_call (env E junk conse bC2 snowPct) e
  exact Sccd.first_numbers (env E junk conse bC2 snowPct) (fun rm => num_erases E rm) m0 hc (some z) scenes hq
    hasc ec

/-- **C75, any sequence of calls.**  The same for every pack a user can have (monitored modes with `conse` = 8,
because of C26), if the covariance is stored without loss. -/
theorem C75_sequences_partial (E : Env F P B) (hnar : ∀ p, E.narrowP p = p) (junk : B → Int) (conse : Nat)
    (hc : 0 < conse) (hc8 : conse ≤ 8) (bC2 : Bool) (snowPct : Nat → Nat → Bool)
    (p : Pack (B → BandState F P) (Body F B) (B → Int)) (all : List Obs)
    (h : History (env E junk conse bC2 snowPct) (Fits (env E junk conse bC2 snowPct)) p all)
    (hasc : Asc all) (hcod : Codable all) (hlen : all.length ≤ 32767) :
    (∀ r ∈ p.recs.head?, (∃ prior f, ClosedBy (num E p.minRmse) conse all prior r f) ∨
      OpenedBy (num E p.minRmse) conse all r) ∧
    (∀ r ∈ p.recs.tail, ∃ prior f, ClosedBy (num E p.minRmse) conse all prior r f) ∧
    (p.mode = 1 ∨ p.mode = 11 → ∀ m, p.model = some m →
      ∃ prior nx, (pending p).head? = some nx ∧ FilterOf (num E p.minRmse) prior m.seg nx m.filt) := by
  have A := h.accounts (fun rm => num_erases E rm) (fun rm f => by
    funext b
    simp only [env, num]
    rw [hnar]) hc hc8 (fun q hq => hq) hasc hcod hlen
  exact ⟨A.head, A.tail, A.model⟩

/-- An observation passed over leaves no trace: the filter led to it and on to the next date is the filter led
to that date at once. -/
theorem C75_passed_over (E : Env F P B) (rmin : B → Int) : Sccd.Erases (num E rmin) := num_erases E rmin

/-! ### A case -/

namespace Toy

open Pycold.ColdNum.Toy (zA mean)

/-- As `zP`, with a covariance of two entries of which only the first is set anew for a new model. -/
def zQ : Env Int (Int × Int) (Fin 6) :=
  program zA mean mean 75 100 90 0
    (fun _ y a p => ((a.getD 0 0 + (y - a.getD 0 0) / 2 + (if p.2 < 60 then 0 else 10)) :: a.drop 1,
      (p.1 + 1, p.2 + 1), y - a.getD 0 0))
    (fun p => (p.1 + 1, p.2)) (fun p => (7, p.2)) id (0, 0)

def zE2 : Sccd.Env Int (Fin 6 → BandState Int (Int × Int)) (Body Int (Fin 6)) (Fin 6 → Int) :=
  env zQ (fun _ => 0) 8 false (fun _ _ => false)

/-- Every 25 days: 24 scenes at level 500, 24 at level 2000, then 500 again. -/
def twice (k : Nat) : Scene :=
  let lev : Int := (if k < 24 then 500 else if k < 48 then 2000 else 500) + ((k % 2 : Nat) * 20 : Nat)
  ⟨726000 + 25 * k, 300, lev, lev, lev, lev, lev, 2900, 0⟩

def twice58 : List Scene := (List.range 58).map twice
def twice34 : List Scene := (List.range 34).map twice
def twiceRest : List Scene := (List.range 24).map fun k => twice (34 + k)

def void2 : Sccd.Model (Fin 6 → BandState Int (Int × Int)) :=
  ⟨fun _ => ⟨[], (0, 0), 0, 0⟩, 0, 0, [], 0, 0, 0, [], []⟩

abbrev Pack2 := Pack (Fin 6 → BandState Int (Int × Int)) (Body Int (Fin 6)) (Fin 6 → Int)

/-- Breaks, numbers of observations and coefficients of green. -/
def greens (q : Pack2) : List (Int × Nat × List Int) :=
  q.recs.map fun r => (r.tBreak, r.span.length, r.body.coefs 1)

def okGreens (x : Except Sccd.Err Pack2) : Option (List (Int × Nat × List Int)) :=
  match x with
  | .ok q => some (greens q)
  | .error _ => none

theorem okGreens_some {x : Except Sccd.Err Pack2} {l : List (Int × Nat × List Int)} (h : okGreens x = some l) :
    ∃ q, x = .ok q ∧ greens q = l := by
  cases x with
  | error e => cases h
  | ok q => exact ⟨q, rfl, Option.some.inj h⟩

set_option maxRecDepth 100000

theorem one_call : okGreens (Sccd.detect zE2 (fun _ => 0) void2 twice58) =
    some [(726600, 24, [513, 0, 0, 0, 0, 0]), (727200, 24, [2033, 0, 0, 0, 0, 0])] := by
  decide +kernel

/-- The same in two calls, with mode and length of the queue after each. -/
def okTwo : List Nat × List (Int × Nat × List Int) :=
  match Sccd.detect zE2 (fun _ => 0) void2 twice34 with
  | .error _ => ([], [])
  | .ok p =>
    match Sccd.update zE2 p twiceRest with
    | .error _ => ([], [])
    | .ok q => ([p.mode, p.queue.length, q.mode, q.queue.length], greens q)

theorem okTwo_eq : okTwo =
    ([12, 10, 12, 10], [(726600, 24, [513, 0, 0, 0, 0, 0]), (727200, 24, [2013, 0, 0, 0, 0, 0])]) := by
  decide +kernel

theorem two_calls : ∃ p q, Sccd.detect zE2 (fun _ => 0) void2 twice34 = .ok p ∧
    Sccd.update zE2 p twiceRest = .ok q ∧ p.mode = 12 ∧ p.queue.length = 10 ∧ q.queue.length = 10 ∧
    greens q = [(726600, 24, [513, 0, 0, 0, 0, 0]), (727200, 24, [2013, 0, 0, 0, 0, 0])] := by
  have h := okTwo_eq
  unfold okTwo at h
  split at h
  · cases h
  · rename_i p e
    split at h
    · cases h
    · rename_i q e'
      simp only [Prod.mk.injEq, List.cons.injEq] at h
      exact ⟨p, q, e, e', h.1.1, h.1.2.1, h.1.2.2.2.1, h.2⟩

/-- The case meets the hypotheses of C75: two records, both closed by changes or the first one opening. -/
example : ∃ q, Sccd.detect zE2 (fun _ => 0) void2 twice58 = .ok q ∧
    greens q = [(726600, 24, [513, 0, 0, 0, 0, 0]), (727200, 24, [2033, 0, 0, 0, 0, 0])] ∧
    ∃ op rest last, q.recs = op ++ rest ∧ (op = [] ∨ ∃ r, op = [r] ∧
        OpenedBy (num zQ q.minRmse) 8 (fresh false (snowBranch zE2 0 twice58) twice58) r) ∧
      ClosedChain (num zQ q.minRmse) 8 (fresh false (snowBranch zE2 0 twice58) twice58) none rest last := by
  obtain ⟨q, e, h⟩ := okGreens_some one_call
  obtain ⟨op, rest, last, h1, h2, h3, _⟩ := C75_first_call zQ (fun _ => 0) 8 (by omega) false
    (fun _ _ => false) (fun _ => 0) void2 twice58 q e _ rfl (by unfold Asc; decide +kernel)
  exact ⟨q, e, h, op, rest, last, h1, h2, h3⟩

/-- The same acquisitions in two calls meet the hypotheses of the theorem on sequences. -/
example : ∃ q, greens q = [(726600, 24, [513, 0, 0, 0, 0, 0]), (727200, 24, [2013, 0, 0, 0, 0, 0])] ∧
    ∃ all, all.length = 58 ∧ History zE2 (Fits zE2) q all ∧
      ∀ r ∈ q.recs.tail, ∃ prior f, ClosedBy (num zQ q.minRmse) 8 all prior r f := by
  obtain ⟨p, q, e1, e2, m1, l1, l2, h⟩ := two_calls
  have hH : History zE2 (Fits zE2) q (fresh false (snowBranch zE2 0 twice34) twice34 ++
      fresh false (snowBranch zE2 p.mode twiceRest) twiceRest) :=
    .update p q _ _ (.detect _ _ _ p e1 ⟨by omega, fun _ => rfl⟩) e2 ⟨by omega, fun _ => rfl⟩
  have hb : snowBranch zE2 p.mode twiceRest = false := by simp [snowBranch, m1]
  rw [hb] at hH
  exact ⟨q, h, _, by decide +kernel, hH, (C75_sequences_partial zQ (fun _ => rfl) (fun _ => 0) 8 (by omega) (by omega)
    false (fun _ _ => false) q _ hH (by unfold Asc; decide +kernel) (by unfold Codable; decide +kernel)
    (by decide +kernel)).2.1⟩

/-- **The filter of the earlier segment matters.**  A new model takes over the covariance left by the previous
one, of which only the diagonal is set anew, if both belong to the same call; in a later call it starts from
zero.  So the same acquisitions give the same breaks but other coefficients for the second segment, depending on
how they are split into calls. -/
theorem C75_leftover_covariance : ∃ q q', Sccd.detect zE2 (fun _ => 0) void2 (twice34 ++ twiceRest) = .ok q ∧
    session zE2 (fun _ => 0) void2 twice34 [twiceRest] = .ok q' ∧
    q.recs.map (fun r => (r.tBreak, r.span.length)) = q'.recs.map (fun r => (r.tBreak, r.span.length)) ∧
    q.recs.map (fun r => r.body.coefs 1) ≠ q'.recs.map (fun r => r.body.coefs 1) := by
  have hs : twice34 ++ twiceRest = twice58 := by
    unfold twice34 twiceRest twice58
    rw [show (58 : Nat) = 34 + 24 from rfl, List.range_add, List.map_append, List.map_map]
    rfl
  obtain ⟨q, e, h⟩ := okGreens_some one_call
  obtain ⟨p, q', e1, e2, _, _, _, h'⟩ := two_calls
  have e' : session zE2 (fun _ => 0) void2 twice34 [twiceRest] = .ok q' := by
    simp only [session, e1, bind, Except.bind, Sccd.feed, e2]
  have k1 : ∀ p : Pack2, p.recs.map (fun r => (r.tBreak, r.span.length)) =
      (greens p).map (fun x => (x.1, x.2.1)) := fun p => by simp [greens]
  have k2 : ∀ p : Pack2, p.recs.map (fun r => r.body.coefs 1) = (greens p).map (fun x => x.2.2) :=
    fun p => by simp [greens]
  refine ⟨q, q', by rw [hs]; exact e, e', by rw [k1, k1, h, h']; rfl, ?_⟩
  rw [k2, k2, h, h']
  decide

end Toy

end Pycold.SccdNum
