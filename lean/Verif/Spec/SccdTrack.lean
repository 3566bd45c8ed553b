import Verif.Spec.Sccd
/-!
# Where the numbers of S-CCD's records and models come from (C75)

The filter that belongs to a list of observations: fitted to the first ones (at least 18), then taken over the
others one by one.  Nothing here depends on the loop, and observations that were screened as noise do not occur.
-/
namespace Pycold.Sccd
variable {V F R M : Type}

/-- A filter taken over observations one by one; each step leads to the date of the next observation, the last
one to that of `nx`. -/
def follow (N : Num V F R) (f : F) : List Obs → Obs → F
  | [], _ => f
  | o :: os, nx => follow N (N.filter f o (os.headD nx).date) os nx

/-- Fitted to `w`, then taken over `rest`; the filter is at the date of `nx`. -/
def tracked (N : Num V F R) (prior : Option F) (w rest : List Obs) (nx : Obs) : F :=
  follow N (N.fit prior w (rest.headD nx)) rest nx

/-- `f` is the filter of the observations `seg` at the date of `nx`: fitted to the first ones, at least 18 of
them and covering a year, and taken over the others. -/
def FilterOf (N : Num V F R) (prior : Option F) (seg : List Obs) (nx : Obs) (f : F) : Prop :=
  ∃ k, 18 ≤ k ∧ k ≤ seg.length ∧ Year (seg.take k) ∧ f = tracked N prior (seg.take k) (seg.drop k) nx

/-- A record closed by a change: its numbers are those of the filter of its own observations, judged against
`conse` later observations among those received (`all`), the first of them at the break, which passed the
change test. -/
def ClosedBy (N : Num V F R) (conse : Nat) (all : List Obs) (prior : Option F) (r : Rec R) (f : F) : Prop :=
  ∃ nx win, (nx :: win).length = conse ∧ nx.date = r.tBreak ∧ (r.span ++ nx :: win).Sublist all ∧
    FilterOf N prior r.span nx f ∧ isChange N f r.numObs (nx :: win) = true ∧
    r.body = N.changeRec f r.numObs (nx :: win)

/-- Consecutive records closed by changes, each fitted with the filter of the one before at hand. -/
def ClosedChain (N : Num V F R) (conse : Nat) (all : List Obs) : Option F → List (Rec R) → Option F → Prop
  | prior, [], last => last = prior
  | prior, r :: rs, last => ∃ f, ClosedBy N conse all prior r f ∧ ClosedChain N conse all (some f) rs last

/-- The record of the start of the series: curve and RMSE are fitted to its observations and the one at the
break; its magnitude compares the `conse` observations before the break with the curve of `w`, at least 18
later observations. -/
def OpenedBy (N : Num V F R) (conse : Nat) (all : List Obs) (r : Rec R) : Prop :=
  ∃ nx w, nx.date = r.tBreak ∧ 18 ≤ w.length ∧ (∀ o ∈ w, r.tBreak ≤ o.date) ∧
    (r.lead ++ r.span ++ [nx]).Sublist all ∧ (r.lead ++ r.span ++ w).Sublist all ∧
    r.body = N.firstRec (r.span ++ [nx]) ((r.lead ++ r.span).drop ((r.lead ++ r.span).length - conse)) w

/-- Skipping an observation leaves the filter as if it had led to the next date from the start. -/
structure Erases (N : Num V F R) : Prop where
  filter : ∀ f x o d, x.date < o.date → o.date ≤ d → N.skip (N.filter f x o.date) o d = N.filter f x d
  fit : ∀ p w x o nx, w.getLast? = some x → x.date < o.date → o.date ≤ nx.date →
    N.skip (N.fit p w o) o nx.date = N.fit p w nx

end Pycold.Sccd
