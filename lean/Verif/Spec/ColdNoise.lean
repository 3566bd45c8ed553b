import Verif.Spec.Cold
/-!
# Which observations COLD discards while it monitors

The vocabulary of `C48_monitoring` and `C48_look_back`.
-/
namespace Pycold.Cold.Spec

variable {V W : Type}

/-- The dates of the observations still in use. -/
def kept (clrx : List Int) (end_ : Int) : List Int := clrx.take end_.toNat

/-- The states at the head of the loop over the observations. -/
inductive Reached (P : Params) (N : Num V W) (ω : Oracle V W) (dates : List Int) (nCm : Nat) : St V W → Prop
  | start : Reached P N ω dates nCm (init dates nCm)
  | step {s s' : St V W} : Reached P N ω dates nCm s → s.i ≤ s.end_ - P.conse → body P N ω s = .ok s' →
      Reached P N ω dates nCm s'

/-- The round begun in state `s` monitors, from state `m` on: a model is in use, or there are twelve observations over a
year and a model has just been found. -/
def Monitors (P : Params) (N : Num V W) (ω : Oracle V W) (s m : St V W) : Prop :=
  (s.train = true ∧ m = s) ∨
  (s.train = false ∧ 12 ≤ s.i - s.iStart + 1 ∧
    1461 ≤ 4 * ((kept s.clrx s.end_).getD (s.i - 1).toNat 0 - (kept s.clrx s.end_).getD (s.iStart - 1).toNat 0) ∧
    trainPhase P N ω s = .ok (true, m))

/-- The first of the scores exceeds the limit for outliers. -/
def FirstExceeds (N : Num V W) (w : List (Score V W)) : Prop := ∃ x, w.head? = some x ∧ N.lt N.tmax x.mag = true

/-- The scores of the up to `conse` observations from position `k` backwards, not beyond position `stop`. -/
def Backwards (conse : Nat) (score : Int → Nat → V × W) (stop k : Int) (obs : List Int) (w : List (Score V W)) : Prop :=
  w.length = min (k - stop + 1).toNat conse ∧
  ∀ (j : Nat) (x : Score V W), w[j]? = some x → obs[(k - j).toNat]? = some x.date ∧ (x.mag, x.vec) = score k j

/-- Looking back from position `k` down to position `stop` on the observations `obs` leaves the observations `out`, and the
segment begins at place `start` (from 1): a confirmed break ends the search; else the observation is taken out if
its own score exceeds the limit, and joins the segment if not. -/
inductive LookBack (N : Num V W) (conse : Nat) (score : Int → Nat → V × W) (stop : Int) : Int → List Int → List Int → Int → Prop
  | done {k : Int} {obs : List Int} : k < stop → LookBack N conse score stop k obs obs (k + 2)
  | found {k : Int} {obs : List Int} {w : List (Score V W)} : stop ≤ k → Backwards conse score stop k obs w → Confirmed N w →
      LookBack N conse score stop k obs obs (k + 2)
  | noise {k : Int} {obs out : List Int} {start : Int} {w : List (Score V W)} : stop ≤ k → Backwards conse score stop k obs w →
      ¬ Confirmed N w → FirstExceeds N w →
      LookBack N conse score stop (k - 1) (obs.eraseIdx k.toNat) out start → LookBack N conse score stop k obs out start
  | joins {k : Int} {obs out : List Int} {start : Int} {w : List (Score V W)} : stop ≤ k → Backwards conse score stop k obs w →
      ¬ Confirmed N w → ¬ FirstExceeds N w →
      LookBack N conse score stop (k - 1) obs out start → LookBack N conse score stop k obs out start

/-- The place (from 1) of the first observation that the segment may reach back to: the first one at or after the last
break, or, before any break, the place `dense` after the last long gap. -/
def Earliest (recs : List (Rec V W)) (dense : Int) (obs : List Int) (place : Int) : Prop :=
  (recs = [] → place = dense) ∧
  ∀ r ∈ recs.getLast?, 1 ≤ place ∧ r.tBreak ≤ obs.getD (place - 1).toNat 0 ∧ ∀ q : Nat, q < (place - 1).toNat → obs.getD q 0 < r.tBreak

end Pycold.Cold.Spec
