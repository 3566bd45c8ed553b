import Verif.Model.Sccd
import Verif.Spec.Preprocess
/-!
# What S-CCD results should say about the observations

Independent of how the loop computes them.
-/
namespace Pycold.Sccd
variable {V F R M : Type}

/-- Strictly ascending dates. -/
def Asc (l : List Obs) : Prop := l.Pairwise (fun a b => a.date < b.date)

/-- Everything the closed records account for, in order: for each record the observations passed
over before it and the observations its model used. -/
def flat (recs : List (Rec R)) : List Obs := recs.flatMap (fun r => r.lead ++ r.span)

/-- `t_start` and `num_obs` describe the observations the model was built from, at least 18 of them. -/
structure SegOk (seg : List Obs) (tStart numObs : Int) : Prop where
  count : numObs = seg.length
  long : 18 ≤ seg.length
  first : seg.head?.map (·.date) = some tStart

/-- The observations cover at least 365.25 days from the first one on. -/
def Year (seg : List Obs) : Prop :=
  ∃ a ∈ seg.head?, ∃ b ∈ seg, 4 * (b.date - a.date) ≥ 1461

/-- A record closed by a detected change. -/
def Regular (r : Rec R) : Prop := SegOk r.span r.tStart r.numObs

/-- The record S-CCD makes for the start of the series when the first model does not reach back to
it: at least 6 observations, and `t_start` is the very first observation, which may be in `lead`. -/
structure Opening (r : Rec R) : Prop where
  count : r.numObs = r.span.length
  long : 6 ≤ r.span.length
  first : (r.lead ++ r.span).head?.map (·.date) = some r.tStart

/-- Only the first record may be an opening record. -/
def RecsOk (recs : List (Rec R)) : Prop :=
  (∀ r ∈ recs.head?, Regular r ∨ Opening r) ∧ ∀ r ∈ recs.tail, Regular r

/-- Breaks separate: everything a record accounts for lies before its break date, everything later
(the following records and `rest`) does not. -/
def Chrono (rest : List Obs) : List (Rec R) → Prop
  | [] => True
  | r :: rs => (∀ o ∈ r.lead ++ r.span, o.date < r.tBreak) ∧ (∀ o ∈ flat rs ++ rest, r.tBreak ≤ o.date) ∧
      Chrono rest rs

/-- Acquisitions S-CCD wants for a pixel: clear or water and in range; for a snow pixel, clear, water
or snow. -/
def Wanted (bC2 snow : Bool) (o : Scene) : Prop :=
  if snow then o.qa = 3 ∨ o.qa < 2 else Spec.ClearUsable bC2 o

instance (bC2 snow : Bool) (o : Scene) : Decidable (Wanted bC2 snow o) := by
  unfold Wanted Spec.ClearUsable Spec.Usable; infer_instance

/-- The observations a batch of acquisitions brings. -/
def fresh (bC2 snow : Bool) (scenes : List Scene) : List Obs :=
  (scenes.filter (fun o => decide (Wanted bC2 snow o))).map toObs

/-- Is the pixel treated as persistent snow?  Decided once, from the first batch. -/
def snowBranch (E : Env V F R M) (mode : Nat) (scenes : List Scene) : Bool :=
  if mode = 0 then E.snowPct (Spec.qaCount scenes 3) (Spec.qaCount scenes 0 + Spec.qaCount scenes 1)
  else mode = 3 || mode = 4

/-- The observations a returned pack carries unprocessed: the queue, or the tail stored with the model
(16-bit day offsets turned back into dates). -/
def pending (p : Pack F R M) : List Obs :=
  if p.mode = 4 ∨ p.mode = 2 ∨ p.mode = 12 ∨ p.mode = 5 then p.queue.map decode
  else if p.mode = 1 ∨ p.mode = 11 ∨ p.mode = 3 then
    match p.model with
    | some m => m.obs.map decode
    | none => []
  else []

/-- The observations behind the model currently monitored. -/
def monitored (p : Pack F R M) : List Obs :=
  if p.mode = 1 ∨ p.mode = 11 ∨ p.mode = 3 then
    match p.model with
    | some m => m.pre ++ m.seg
    | none => []
  else []

/-- All observations a pack stands for, oldest first: those behind closed records, those behind the
current model, those still waiting. -/
def holds (p : Pack F R M) : List Obs := flat p.recs ++ monitored p ++ pending p

/-- What each mode promises (C25, C30). -/
structure Promise (conse : Nat) (p : Pack F R M) : Prop where
  modes : p.mode ∈ [0, 1, 3, 4, 5, 11, 12]
  void : p.mode = 0 → p.recs = [] ∧ p.model = none ∧ p.queue = []
  monitor : p.mode ∈ [1, 11, 3] → (∃ m, p.model = some m ∧ m.obs.length = 8) ∧ p.queue = []
  queue : p.mode ∈ [12, 4] → p.model = none
  both : p.mode = 5 → (∃ m, p.model = some m ∧ m.obs.length = 8) ∧ conse ≤ p.queue.length ∧
    p.recs ≠ []
  waiting : p.mode = 12 → p.queue ≠ []
  snow : p.mode ∈ [3, 4] → p.recs = []
  cap : p.queue.length ≤ 240

/-- Dates within 16 bits of 1982-07-16 (day 723742) and values within 16 bits. -/
def Codable (l : List Obs) : Prop :=
  ∀ o ∈ l, (-32768 ≤ o.date - 723742 ∧ o.date - 723742 ≤ 32767) ∧ ∀ v ∈ o.vals, -32768 ≤ v ∧ v ≤ 32767

/-- A pack accounts for all observations `all` received so far: each is either discarded as noise or
held, in the order received; breaks separate what is held; the model's own figures are right. -/
structure Ledger (p : Pack F R M) (all : List Obs) : Prop where
  sub : (holds p).Sublist all
  perm : all.Perm (p.removed ++ holds p)
  recs : RecsOk p.recs
  chrono : Chrono (monitored p ++ pending p) p.recs
  year : ∀ r ∈ p.recs.tail, Year r.span
  model : p.mode = 1 ∨ p.mode = 11 → ∀ m, p.model = some m →
    SegOk m.seg (723742 + m.tStart) m.numObs ∧ Year m.seg
  void : p.mode = 0 → all = []
  snow : p.mode = 3 ∨ p.mode = 4 → holds p = all ∧ p.removed = []
  snowModel : p.mode = 3 → ∀ m, p.model = some m → m.numObs = all.length ∧
    all.head?.map (·.date) = some (723742 + m.tStart)

/-- The packs a user can have, with the observations received so far: from a void pack or
`sccd_detect`, by any number of `sccd_update` and `sccd_identify` calls, all returned packs satisfying
`ok`. -/
inductive History (E : Env V F R M) (ok : Pack F R M → Prop) : Pack F R M → List Obs → Prop
  | void (m0 : M) : History E ok ⟨0, [], m0, none, [], []⟩ []
  | detect (m0 : M) (z : Model F) (scenes : List Scene) (q : Pack F R M) :
      Sccd.detect E m0 z scenes = .ok q → ok q →
      History E ok q (fresh E.bC2 (snowBranch E 0 scenes) scenes)
  | update (p q : Pack F R M) (all : List Obs) (scenes : List Scene) :
      History E ok p all → Sccd.update E p scenes = .ok q → ok q →
      History E ok q (all ++ fresh E.bC2 (snowBranch E p.mode scenes) scenes)
  | identify (p q : Pack F R M) (all : List Obs) (a : Ask F) (d : Int) :
      History E ok p all → Sccd.identify a p = .ok (q, d) → ok q → History E ok q all

/-- Everything stored is in 16 bits, the anomaly count is at most `conse`, and a snow pack is as its
mode says. -/
structure Settled (conse : Nat) (N : M → Num V F R) (p : Pack F R M) : Prop where
  queue : ∀ o ∈ p.queue, encode (decode o) = o
  tail : ∀ m, p.model = some m → (∀ o ∈ m.obs, encode (decode o) = o) ∧ 0 ≤ m.conseLast ∧ m.conseLast ≤ conse
  snowQueue : p.mode = 4 → p.queue.length < 18
  snowModel : p.mode = 3 → ∀ m, p.model = some m →
    m.normCm = NA_VALUE ∧ m.cmAngle = NA_VALUE ∧ m.conseLast = 0 ∧ toShort m.numObs = m.numObs ∧
    (∃ f, m.filt = (N p.minRmse).narrow f)

/-- Batches given one after the other. -/
def feed (E : Env V F R M) (p : Pack F R M) : List (List Scene) → Except Err (Pack F R M)
  | [] => .ok p
  | b :: bs => do
    let q ← update E p b
    feed E q bs

/-- All batches but the last leave the mode as it was. -/
def Stays (E : Env V F R M) (p : Pack F R M) : List (List Scene) → Prop
  | [] => True
  | [_] => True
  | b :: bs => ∃ q, update E p b = .ok q ∧ q.mode = p.mode ∧ Stays E q bs

/-- `o` is where the run of anomalies reaching to the newest observation begins. -/
def FirstAnomaly (anomalous : Obs → Prop) (newest : List Obs) (o : Obs) : Prop :=
  ∃ A B, newest = A ++ o :: B ∧ (∀ x ∈ o :: B, anomalous x) ∧ ∀ x ∈ A.getLast?, ¬ anomalous x

/-- The smallest of some magnitudes, none of which exceeds `big`. -/
def smallest (lt : V → V → Bool) (big : V) (l : List V) : V :=
  l.foldl (fun a v => if lt v a then v else a) big

/-- The strength and direction stored with a model are those of the `conseLast` newest observations
(`newest` begins with the latest), and the fill value if there is none. -/
def Strength (N : Num V F R) (f : F) (n : Int) (newest : List Obs) (m : Model F) : Prop :=
  (m.conseLast = 0 → m.normCm = NA_VALUE ∧ m.cmAngle = NA_VALUE) ∧
  (m.conseLast ≠ 0 →
    m.normCm = N.scale (smallest N.lt N.big ((newest.take m.conseLast.toNat).map (N.endMag f n))) ∧
    m.cmAngle = N.scale (N.endAngle f n (newest.take m.conseLast.toNat)))

/-- The observation given to the next update in place of each missing one: all values 0, on
1982-07-16 (day 723742). -/
def phantom : Obs := ⟨723742, [0, 0, 0, 0, 0, 0]⟩

/-- The model stored with a confirmed change begins at the break of the last record. -/
def AtBreak (model : Option (Model F)) (recs : List (Rec R)) : Prop :=
  ∃ m r o, model = some m ∧ recs.getLast? = some r ∧ m.obs.head? = some o ∧
    o.date = toShort (r.tBreak - 723742)

/-- A break confirmed by `conse` consecutive observations from the break date on, all at or above the change
threshold for one and the same model, in a consistent direction. -/
def Confirmed (N : Num V F R) (conse : Nat) (obs : List Obs) (r : Rec R) : Prop :=
  ∃ f n win, win.Sublist obs ∧ win.length = conse ∧ win.head?.map (·.date) = some r.tBreak ∧
    (∀ o ∈ win, N.lt (N.mag f n o) N.tcg = false) ∧ N.lt N.nsign (N.angle f n win) = false ∧
    r.numObs = n ∧ r.body = N.changeRec f n win

end Pycold.Sccd
