import Verif.Model.ChangeMap
import Verif.Spec.Calendar
/-!
# What features and change maps should contain
-/
namespace Pycold.ChangeMap.Spec

/-- Segment number `i` covers the day: it has begun, and the next one has not (for the last one: the day is
before `fin`, a day determined by the segment). -/
def Covers (fin : Rec → Int) (plot : List Rec) (day : Int) (i : Nat) : Prop :=
  ∃ c, plot[i]? = some c ∧ c.tStart ≤ day ∧
    match plot[i + 1]? with
    | some c' => day < c'.tStart
    | none => day < fin c

/-- The segments begin one after the other. -/
def Ordered (plot : List Rec) : Prop := plot.Pairwise fun a b => a.tStart < b.tStart

/-- The day lies in the year. -/
def InYear (day y : Int) : Prop := Pycold.Spec.ordinal y 1 ≤ day ∧ day < Pycold.Spec.ordinal (y + 1) 1

/-- A confirmed break: probability 100, and there is a date. -/
def Confirmed (r : Rec) : Prop := 100 ≤ r.prob ∧ r.tBreak ≠ 0

/-- The position lies in the block, in row `i` and column `j` (from 0) of the block. -/
def At (B : Block) (pos : Int) (i j : Nat) : Prop :=
  i < B.height ∧ j < B.width ∧ (B.x - 1) * B.width + j < B.nCols ∧ 1 ≤ B.x ∧ 1 ≤ B.y ∧
    pos = (((B.y - 1) * B.height + i) * B.nCols + ((B.x - 1) * B.width + j) + 1 : Nat)

/-- Near infrared up, red and short-wave infrared down, or at least not by `t` the other way. -/
def Greening (t : ℚ) (r : Rec) : Prop := ∃ n d s, r.magnitude 3 = some n ∧ r.magnitude 2 = some d ∧ r.magnitude 4 = some s ∧
  -t < n ∧ d < t ∧ s < t

/-- The magnitudes of a band have opposite signs. -/
def Opposite (r prev : Rec) (b : Nat) : Prop := ∃ x y, r.magnitude b = some x ∧ prev.magnitude b = some y ∧ x * y < 0

/-- A break that undoes the one before it, by less than 1827 days later: the magnitudes have opposite signs
in all of the bands 1 to 5 but at most one. -/
def Undoes (r prev : Rec) : Prop :=
  r.tBreak - prev.tBreak < 1827 ∧ ∃ b0, ∀ b, 1 ≤ b → b ≤ 5 → b ≠ b0 → Opposite r prev b

/-- The trends of the three bands are stronger in the next segment, in the direction of greening. -/
def Steeper (r next : Rec) : Prop := ∃ n d s n' d' s', r.coefs 3 1 = some n ∧ r.coefs 2 1 = some d ∧ r.coefs 4 1 = some s ∧
  next.coefs 3 1 = some n' ∧ next.coefs 2 1 = some d' ∧ next.coefs 4 1 = some s' ∧ |n| < n' ∧ d' < -|d| ∧ s' < -|s|

open Classical in
/-- The kind of change at the end of a segment, given the next one: 1 disturbance, 2 regrowth, 3 afforestation. -/
noncomputable def kind (r next : Rec) : Int := if Greening 200 r then (if Steeper r next then 3 else 2) else 1

/-- Records of one pixel begin on different days. -/
def Distinct (block : List Rec) : Prop := block.Pairwise fun a b => a.pos = b.pos → a.tStart ≠ b.tStart

/-- A value of the break map of type 1: 1001 to 1366. -/
def Disturbed (v : Int) : Prop := 1000 ≤ v ∧ v < 2000

/-- The segment after `r` among the records of its pixel. -/
def Next (block : List Rec) (r next : Rec) : Prop :=
  next ∈ block ∧ next.pos = r.pos ∧ r.tStart < next.tStart ∧
    ∀ s ∈ block, s.pos = r.pos → r.tStart < s.tStart → next.tStart ≤ s.tStart

/-- The last confirmed break of the pixel of `r` before the segment `r`. -/
def LastBefore (block : List Rec) (c r : Rec) : Prop :=
  c ∈ block ∧ c.pos = r.pos ∧ Confirmed c ∧ c.tStart < r.tStart ∧
    ∀ s ∈ block, s.pos = r.pos → Confirmed s → s.tStart < r.tStart → s.tStart ≤ c.tStart

open Classical in
/-- `kinds` gives the kind of change of every confirmed break with a next segment, for OBCOLD: 2 regrowth and
3 afforestation as for COLD, with the threshold 250; otherwise 4, recovery, if the break undoes that of the segment
before and the last confirmed break of the pixel before it was of kind 1; otherwise 1, disturbance. -/
def ObKinds (block : List Rec) (kinds : Rec → Int) : Prop :=
  ∀ r ∈ block, ∀ next, Confirmed r → Next block r next →
    kinds r = if Greening 250 r then (if Steeper r next then 3 else 2)
      else if (∃ prev ∈ block, Next block prev r ∧ Undoes r prev) ∧ (∃ c, LastBefore block c r ∧ kinds c = 1) then 4
      else 1

/-- The last confirmed break of a pixel in a year. -/
def LastBreak (block : List Rec) (y : Int) (r : Rec) : Prop :=
  r ∈ block ∧ Confirmed r ∧ InYear r.tBreak y ∧
    ∀ s ∈ block, s.pos = r.pos → Confirmed s → InYear s.tBreak y → s.tStart ≤ r.tStart

/-- A break of the pack, in the year. -/
def SccdBreak (plot : Plot) (y : Int) (r : Rec) : Prop := r ∈ plot.recs ∧ r.tBreak ≠ 0 ∧ InYear r.tBreak y

/-- The last break of the pack in the year. -/
def SccdLast (plot : Plot) (y : Int) (r : Rec) : Prop :=
  SccdBreak plot y r ∧ ∀ s, SccdBreak plot y s → s.tBreak ≤ r.tBreak

open Classical in
/-- The kind of change of a break of S-CCD: 2 regrowth, 1 disturbance. -/
noncomputable def sccdKind (r : Rec) : Int := if Greening 200 r then 2 else 1

/-- The breaks of every pack are in the order of their dates. -/
def Chronological (plots : List Plot) : Prop := ∀ p ∈ plots, p.recs.Pairwise fun a b => a.tBreak < b.tBreak

/-- One pack for each pixel. -/
def OnePack (plots : List Plot) : Prop := plots.Pairwise fun a b => a.position ≠ b.position

/-- The value of a feature in a segment (0 if a coefficient is not a number). -/
def featureValue (c : Rec) (band : Nat) (day : Int) : Feature → ℚ
  | .a0 => match c.coefs band 0, c.coefs band 1 with
    | some x, some y => x + y * day / 10000
    | _, _ => 0
  | .c1 => ((c.coefs band 1).getD 0) / 10000
  | .a1 => (c.coefs band 2).getD 0
  | .b1 => (c.coefs band 3).getD 0
  | .a2 => (c.coefs band 4).getD 0
  | .b2 => (c.coefs band 5).getD 0
  | .a3 => (c.coefs band 6).getD 0
  | .b3 => (c.coefs band 7).getD 0
  | .rmse => (c.rmse band).getD 0
  | _ => 0

/-- The names documented for both versions. -/
def Named (f : Feature) : Prop := f ≠ .cv ∧ f ≠ .other

end Pycold.ChangeMap.Spec
