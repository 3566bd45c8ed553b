import Verif.Model.Utils
import Verif.Spec.Utils
import Mathlib.Tactic.IntervalCases
/-!
# Property C97: dates and day numbers

* `date2matordinal` and `matordinal2date` are inverse to each other on the days of the years 1 to 9999;
* day numbers count the days: 1 January of the year 1 is day 1, and the day after a day has the next number;
* `get_anchor_days` gives the requested number of days, one interval apart.

Day numbers are those of Python, not those of MATLAB (which are 366 larger), whatever the names of the functions say.
-/
namespace Pycold.Utils
open Pycold.Utils.Spec

theorem isDay_mk {y m d : Nat} : IsDay (y, m, d) ↔ 1 ≤ y ∧ y ≤ 9999 ∧ 1 ≤ m ∧ m ≤ 12 ∧ 1 ≤ d ∧ d ≤ days y m := Iff.rfl

/-! ## Inside a year -/

theorem monthDay_spec : ∀ leap : Bool, ∀ n : Nat, n < 366 → (leap = false → n < 365) →
    1 ≤ (monthDay leap n).1 ∧ (monthDay leap n).1 ≤ 12 ∧ 1 ≤ (monthDay leap n).2 ∧
      (monthDay leap n).2 ≤ inMonth leap (monthDay leap n).1 ∧ preceding leap (monthDay leap n).1 + (monthDay leap n).2 = n + 1 := by
  decide +kernel

theorem monthDay_of : ∀ leap : Bool, ∀ m : Nat, m < 13 → ∀ d : Nat, d < 32 → 1 ≤ m ∧ 1 ≤ d ∧ d ≤ inMonth leap m →
    monthDay leap (preceding leap m + d - 1) = (m, d) ∧ preceding leap m + d ≤ (if leap then 366 else 365) := by
  decide +kernel

theorem preceding_succ : ∀ leap : Bool, ∀ m : Nat, m < 12 → 1 ≤ m → preceding leap (m + 1) = preceding leap m + inMonth leap m := by
  decide +kernel

theorem inMonth_le : ∀ leap : Bool, ∀ m : Nat, m < 13 → inMonth leap m < 32 := by decide +kernel

theorem leap_iff (y : Nat) : Stack.leap y = true ↔ IsLeap y := by
  simp only [Stack.leap, IsLeap, decide_eq_true_eq]
  omega

theorem beforeMonth_eq (y m : Nat) (h1 : 1 ≤ m) (h2 : m ≤ 12) : Stack.beforeMonth y m = preceding (Stack.leap y) m := by
  unfold Stack.beforeMonth preceding
  interval_cases m <;> simp

theorem days_eq (y m : Nat) (h1 : 1 ≤ m) (h2 : m ≤ 12) : days y m = inMonth (Stack.leap y) m ∧ Stack.monthDays y m = inMonth (Stack.leap y) m := by
  unfold days Stack.monthDays inMonth
  simp only [← leap_iff]
  cases Stack.leap y <;> interval_cases m <;> simp

/-! ## Years -/

/-- The number of days before a year. -/
def before (y : Nat) : Nat := (y - 1) * 365 + (y - 1) / 4 - (y - 1) / 100 + (y - 1) / 400

/-- The day number as a sum. -/
def number (y m d : Nat) : Nat := before y + (preceding (Stack.leap y) m + d)

theorem toOrd (y m d : Nat) : date2matordinal y m d = if IsDay (y, m, d) then some (number y m d) else none := by
  rw [date2matordinal, Stack.dayOfYear]
  by_cases h : IsDay (y, m, d)
  · obtain ⟨h1, h2, h3, h4, h5, h6⟩ := isDay_mk.1 h
    rw [(days_eq y m h3 h4).1] at h6
    rw [if_pos ⟨h1, h2, h3, h4, h5, by rw [(days_eq y m h3 h4).2]; exact h6⟩,
      if_pos ⟨h1, h2, h3, h4, h5, by rw [(days_eq y m h3 h4).1]; exact h6⟩, beforeMonth_eq y m h3 h4]
    rfl
  · rw [if_neg h, if_neg]
    · rfl
    · rintro ⟨h1, h2, h3, h4, h5, h6⟩
      refine h ⟨h1, h2, h3, h4, h5, ?_⟩
      rw [(days_eq y m h3 h4).1, ← (days_eq y m h3 h4).2]
      exact h6

theorem before_eq {a b c e : Nat} (hb : b < 4) (hc : c < 25) (he : e < 4) :
    before (400 * a + 100 * b + 4 * c + e + 1) = 146097 * a + 36524 * b + 1461 * c + 365 * e := by
  unfold before
  have e1 : 400 * a + 100 * b + 4 * c + e + 1 - 1 = 400 * a + 100 * b + 4 * c + e := by omega
  rw [e1]
  have h4 : (400 * a + 100 * b + 4 * c + e) / 4 = 100 * a + 25 * b + c := by omega
  have h100 : (400 * a + 100 * b + 4 * c + e) / 100 = 4 * a + b := by omega
  have h400 : (400 * a + 100 * b + 4 * c + e) / 400 = a := by omega
  rw [h4, h100, h400]
  omega

theorem before_succ (y : Nat) (h : 1 ≤ y) : before (y + 1) = before y + if Stack.leap y then 366 else 365 := by
  obtain ⟨x, rfl⟩ : ∃ x, y = x + 1 := ⟨y - 1, by omega⟩
  unfold before
  simp only [Nat.add_sub_cancel]
  have h4 : (x + 1) / 4 = x / 4 + if (x + 1) % 4 = 0 then 1 else 0 := by split <;> omega
  have h100 : (x + 1) / 100 = x / 100 + if (x + 1) % 100 = 0 then 1 else 0 := by split <;> omega
  have h400 : (x + 1) / 400 = x / 400 + if (x + 1) % 400 = 0 then 1 else 0 := by split <;> omega
  have hle : x / 100 ≤ x / 4 := by omega
  have k1 : (x + 1) % 100 = 0 → (x + 1) % 4 = 0 := by omega
  have k2 : (x + 1) % 400 = 0 → (x + 1) % 100 = 0 := by omega
  rw [h4, h100, h400]
  simp only [Stack.leap, decide_eq_true_eq]
  generalize x / 4 = u at *
  generalize x / 100 = v at *
  generalize x / 400 = w at *
  by_cases c1 : (x + 1) % 4 = 0
  · by_cases c2 : (x + 1) % 100 = 0
    · by_cases c3 : (x + 1) % 400 = 0
      · simp only [c1, c2, c3, if_true, ne_eq, not_true_eq_false, or_true, and_true]; omega
      · simp only [c1, c2, c3, if_true, if_false, ne_eq, not_true_eq_false, or_false, and_false]; omega
    · have c3 : ¬ (x + 1) % 400 = 0 := fun c => c2 (k2 c)
      simp only [c1, c2, c3, if_true, if_false, ne_eq, not_false_eq_true, true_or, and_true]; omega
  · have c2 : ¬ (x + 1) % 100 = 0 := fun c => c1 (k1 c)
    have c3 : ¬ (x + 1) % 400 = 0 := fun c => c2 (k2 c)
    simp only [c1, c2, c3, if_false, false_and]; omega

theorem leap_eq {a b c e : Nat} (hb : b < 4) (hc : c < 25) (he : e < 4) :
    Stack.leap (400 * a + 100 * b + 4 * c + e + 1) = decide (e = 3 ∧ (c ≠ 24 ∨ b = 3)) := by
  unfold Stack.leap
  congr 1
  apply propext
  omega

/-- CPython's algorithm on a number split into cycles. -/
theorem fromOrd {a b c e n : Nat} (hb : b < 4) (hc : c < 25) (he : e < 4) (hn : n < 366) (hn' : ¬ (e = 3 ∧ (c ≠ 24 ∨ b = 3)) → n < 365)
    (hr : 146097 * a + 36524 * b + 1461 * c + 365 * e + n + 1 ≤ 3652059) :
    matordinal2date (146097 * a + 36524 * b + 1461 * c + 365 * e + n + 1) =
      some (400 * a + 100 * b + 4 * c + e + 1, monthDay (decide (e = 3 ∧ (c ≠ 24 ∨ b = 3))) n) := by
  rw [matordinal2date, if_pos ⟨by omega, hr⟩]
  have e0 : 146097 * a + 36524 * b + 1461 * c + 365 * e + n + 1 - 1 = 146097 * a + (36524 * b + 1461 * c + 365 * e + n) := by omega
  have e1 : (146097 * a + (36524 * b + 1461 * c + 365 * e + n)) / 146097 = a := by omega
  have e2 : (146097 * a + (36524 * b + 1461 * c + 365 * e + n)) % 146097 = 36524 * b + (1461 * c + 365 * e + n) := by omega
  simp only [e0, e1, e2]
  by_cases h100 : 1461 * c + 365 * e + n = 36524
  · have hc' : c = 24 := by omega
    have he' : e = 3 := by omega
    have hn2 : n = 365 := by omega
    have hb' : b = 3 := by
      by_contra hne
      have := hn' (by omega)
      omega
    subst hc' he' hn2 hb'
    simp only [Nat.reduceMul, Nat.reduceAdd, Nat.reduceDiv, Nat.reduceMod, Nat.reduceEqDiff, or_true, if_true, true_and, or_false,
      ne_eq, not_true_eq_false, decide_true]
    have : monthDay true 365 = (12, 31) := by decide
    rw [this, show 400 * a + 300 + 96 + 3 + 1 = a * 400 + 1 + 400 - 1 by omega]
  · have f1 : (36524 * b + (1461 * c + 365 * e + n)) / 36524 = b := by omega
    have f2 : (36524 * b + (1461 * c + 365 * e + n)) % 36524 = 1461 * c + (365 * e + n) := by omega
    have f3 : (1461 * c + (365 * e + n)) / 1461 = c := by omega
    have f4 : (1461 * c + (365 * e + n)) % 1461 = 365 * e + n := by omega
    simp only [f1, f2, f3, f4]
    by_cases h365 : n = 365
    · have hL : e = 3 ∧ (c ≠ 24 ∨ b = 3) := by
        by_contra hne
        have := hn' hne
        omega
      subst h365
      obtain rfl := hL.1
      rw [if_pos (by omega)]
      have : monthDay true 365 = (12, 31) := by decide
      rw [decide_eq_true hL, this, show 400 * a + 100 * b + 4 * c + 3 + 1 = a * 400 + 1 + (b * 100 + c * 4 + (365 * 3 + 365) / 365) - 1 by omega]
    · have g1 : (365 * e + n) / 365 = e := by omega
      have g2 : (365 * e + n) % 365 = n := by omega
      rw [if_neg (by omega)]
      simp only [g1, g2]
      rw [show a * 400 + 1 + (b * 100 + c * 4 + e) = 400 * a + 100 * b + 4 * c + e + 1 by omega]

/-- Every number splits into cycles. -/
theorem split (N : Nat) : ∃ a b c e n, b < 4 ∧ c < 25 ∧ e < 4 ∧ n < 366 ∧ (¬ (e = 3 ∧ (c ≠ 24 ∨ b = 3)) → n < 365) ∧
    N = 146097 * a + 36524 * b + 1461 * c + 365 * e + n := by
  have h0 : N = 146097 * (N / 146097) + N % 146097 := by omega
  have k0 : N % 146097 < 146097 := by omega
  generalize N / 146097 = a at h0
  generalize N % 146097 = r at h0 k0
  subst h0
  by_cases h1 : r = 146096
  · exact ⟨a, 3, 24, 3, 365, by omega, by omega, by omega, by omega, by omega, by omega⟩
  · have hr : r = 36524 * (r / 36524) + r % 36524 := by omega
    have kr : r / 36524 < 4 := by omega
    have kr' : r % 36524 < 36524 := by omega
    generalize r / 36524 = b at hr kr
    generalize r % 36524 = s at hr kr'
    have hs : s = 1461 * (s / 1461) + s % 1461 := by omega
    have ks : s / 1461 < 25 := by omega
    have ks' : s % 1461 < 1461 := by omega
    have ks'' : s / 1461 = 24 → s % 1461 < 1460 := by omega
    generalize s / 1461 = c at hs ks ks''
    generalize s % 1461 = t at hs ks' ks''
    by_cases h2 : t = 1460
    · exact ⟨a, b, c, 3, 365, kr, ks, by omega, by omega, by omega, by omega⟩
    · exact ⟨a, b, c, t / 365, t % 365, kr, ks, by omega, by omega, by omega, by omega⟩

theorem isDay_number {y m d : Nat} (h : IsDay (y, m, d)) : 1 ≤ number y m d ∧ number y m d ≤ 3652059 := by
  obtain ⟨h1, h2, h3, h4, h5, h6⟩ := isDay_mk.1 h
  rw [(days_eq y m h3 h4).1] at h6
  have hd : d < 32 := lt_of_le_of_lt h6 (inMonth_le _ m (by omega))
  have := (monthDay_of (Stack.leap y) m (by omega) d hd ⟨h3, h5, h6⟩).2
  refine ⟨by unfold number; omega, ?_⟩
  unfold number
  by_cases hy : y = 9999
  · subst hy
    have hl : Stack.leap 9999 = false := by decide
    have hbf : before 9999 = 3651694 := by decide
    rw [hl] at this ⊢
    rw [hbf]
    simp at this
    omega
  · have : before y ≤ 3651329 := by unfold before; omega
    split at * <;> omega

/-! ## The theorems -/

/-- Every day of the years 1 to 9999 has a number, and is the day of that number. -/
theorem C97_there_and_back (y m d : Nat) (h : IsDay (y, m, d)) :
    ∃ o, date2matordinal y m d = some o ∧ matordinal2date o = some (y, m, d) := by
  refine ⟨number y m d, by rw [toOrd, if_pos h], ?_⟩
  have hnum := isDay_number h
  obtain ⟨h1, h2, h3, h4, h5, h6⟩ := isDay_mk.1 h
  rw [(days_eq y m h3 h4).1] at h6
  have hd : d < 32 := lt_of_le_of_lt h6 (inMonth_le _ m (by omega))
  obtain ⟨k1, k2⟩ := monthDay_of (Stack.leap y) m (by omega) d hd ⟨h3, h5, h6⟩
  obtain ⟨a, b, c, e, hb, hc, he, rfl⟩ : ∃ a b c e, b < 4 ∧ c < 25 ∧ e < 4 ∧ y = 400 * a + 100 * b + 4 * c + e + 1 :=
    ⟨(y - 1) / 400, (y - 1) % 400 / 100, (y - 1) % 100 / 4, (y - 1) % 4, by omega, by omega, by omega, by omega⟩
  rw [leap_eq hb hc he] at k1 k2
  have e1 : number (400 * a + 100 * b + 4 * c + e + 1) m d =
      146097 * a + 36524 * b + 1461 * c + 365 * e + (preceding (decide (e = 3 ∧ (c ≠ 24 ∨ b = 3))) m + d - 1) + 1 := by
    rw [number, before_eq hb hc he, leap_eq hb hc he]
    omega
  rw [e1] at hnum ⊢
  rw [fromOrd hb hc he ?_ ?_ hnum.2, k1]
  · split at k2 <;> omega
  · intro hne
    rw [if_neg (by simpa using hne)] at k2
    omega

/-- Every number from 1 to 3652059 is the number of its day; other numbers are refused. -/
theorem C97_back_and_there (o : Nat) :
    (1 ≤ o ∧ o ≤ 3652059 → ∃ y m d, matordinal2date o = some (y, m, d) ∧ IsDay (y, m, d) ∧ date2matordinal y m d = some o) ∧
    (¬ (1 ≤ o ∧ o ≤ 3652059) → matordinal2date o = none) := by
  refine ⟨fun ho => ?_, fun ho => by rw [matordinal2date, if_neg ho]⟩
  obtain ⟨a, b, c, e, n, hb, hc, he, hn, hn', hN⟩ := split (o - 1)
  obtain rfl : o = 146097 * a + 36524 * b + 1461 * c + 365 * e + n + 1 := by omega
  obtain ⟨k1, k2, k3, k4, k5⟩ := monthDay_spec (decide (e = 3 ∧ (c ≠ 24 ∨ b = 3))) n hn (fun hf => hn' (by simpa using hf))
  refine ⟨_, _, _, fromOrd hb hc he hn hn' ho.2, ?_⟩
  have hday : IsDay (400 * a + 100 * b + 4 * c + e + 1, monthDay (decide (e = 3 ∧ (c ≠ 24 ∨ b = 3))) n) := by
    refine ⟨by omega, ?_, k1, k2, k3, ?_⟩
    · omega
    · rw [(days_eq _ _ k1 k2).1, leap_eq hb hc he]
      exact k4
  refine ⟨hday, ?_⟩
  have hto := toOrd (400 * a + 100 * b + 4 * c + e + 1) (monthDay (decide (e = 3 ∧ (c ≠ 24 ∨ b = 3))) n).1
    (monthDay (decide (e = 3 ∧ (c ≠ 24 ∨ b = 3))) n).2
  rw [if_pos hday, number, before_eq hb hc he, leap_eq hb hc he] at hto
  refine hto.trans (congrArg some ?_)
  omega

/-- 1 January of the year 1 is day 1, and the day after a day has the next number. -/
theorem C97_next (y m d : Nat) (h : IsDay (y, m, d)) (hlast : (y, m, d) ≠ (9999, 12, 31)) :
    date2matordinal 1 1 1 = some 1 ∧ ∃ o, date2matordinal y m d = some o ∧
      date2matordinal (next (y, m, d)).1 (next (y, m, d)).2.1 (next (y, m, d)).2.2 = some (o + 1) := by
  refine ⟨by decide, number y m d, by rw [toOrd, if_pos h], ?_⟩
  obtain ⟨h1, h2, h3, h4, h5, h6⟩ := isDay_mk.1 h
  obtain ⟨hde, -⟩ := days_eq y m h3 h4
  unfold next
  dsimp only
  split
  · rename_i hlt
    dsimp only
    rw [toOrd, if_pos (isDay_mk.2 ⟨h1, h2, h3, h4, by omega, by omega⟩)]
    rfl
  · rename_i hge
    have hd : d = inMonth (Stack.leap y) m := by omega
    split
    · rename_i hm
      dsimp only
      have hpos : 1 ≤ days y (m + 1) := by unfold days; split_ifs <;> omega
      rw [toOrd, if_pos (isDay_mk.2 ⟨h1, h2, by omega, by omega, by omega, hpos⟩), number, number, preceding_succ _ m hm h3, hd]
      congr 1
    · obtain rfl : m = 12 := by omega
      have hd31 : d = 31 := by
        rw [hd]
        cases Stack.leap y <;> decide
      have hy : y < 9999 := by
        rcases Nat.lt_or_ge y 9999 with hy | hy
        · exact hy
        · exact absurd (by rw [hd31, show y = 9999 by omega]) hlast
      dsimp only
      rw [toOrd, if_pos (isDay_mk.2 ⟨by omega, by omega, by omega, by omega, by omega, by unfold days; simp⟩), number, number, hd31]
      have p1 : ∀ l : Bool, preceding l 1 = 0 := by decide
      have p12 : preceding (Stack.leap y) 12 = if Stack.leap y then 335 else 334 := by cases Stack.leap y <;> decide
      rw [p1, p12]
      congr 1
      rw [before_succ y h1]
      split <;> omega

/-- Day number `n + 1` is the day `n` days after 1 January of the year 1. -/
theorem C97_counts (n : Nat) (h : n < 3652059) : matordinal2date (n + 1) = some (after n) := by
  induction n with
  | zero => decide
  | succ n ih =>
    have ih := ih (by omega)
    obtain ⟨y, m, d, e1, e2, e3⟩ := (C97_back_and_there (n + 1)).1 ⟨by omega, by omega⟩
    have ha : after n = (y, m, d) := by
      rw [ih] at e1
      exact Option.some.inj e1
    have hne : (y, m, d) ≠ (9999, 12, 31) := by
      rintro hc
      obtain ⟨rfl, rfl, rfl⟩ : y = 9999 ∧ m = 12 ∧ d = 31 := by simpa using hc
      have : date2matordinal 9999 12 31 = some 3652059 := by decide
      rw [this] at e3
      have := Option.some.inj e3
      omega
    obtain ⟨-, o, o1, o2⟩ := C97_next y m d e2 hne
    rw [e3] at o1
    obtain rfl : n + 1 = o := Option.some.inj o1
    rw [after, ha]
    have hday : IsDay (next (y, m, d)) := by
      by_contra hc
      have ht := toOrd (next (y, m, d)).1 (next (y, m, d)).2.1 (next (y, m, d)).2.2
      rw [if_neg hc] at ht
      cases o2.symm.trans ht
    obtain ⟨o', q1, q2⟩ := C97_there_and_back _ _ _ hday
    obtain rfl : n + 1 + 1 = o' := Option.some.inj (o2.symm.trans q1)
    exact q2

/-- The anchor days: as many as requested, each one interval after the one before.  An interval of 0 raises. -/
theorem C97_anchors (start interval : Int) (n : Nat) :
    (interval ≠ 0 → ∃ l, anchorDays start n interval = some l ∧ l.length = n ∧ ∀ k, k < n → l[k]? = some (start + k * interval)) ∧
    anchorDays start n 0 = none := by
  refine ⟨fun hi => ?_, by simp [anchorDays, arange]⟩
  have hlen : (-((start - (start + (n : Int) * interval)) / interval)).toNat = n := by
    have : start - (start + (n : Int) * interval) = -(n : Int) * interval := by rw [Int.neg_mul]; omega
    rw [this, Int.mul_ediv_cancel _ hi]
    simp
  refine ⟨_, by rw [anchorDays, arange, if_neg hi], by rw [List.length_map, List.length_range, hlen], fun k hk => ?_⟩
  rw [List.getElem?_map, List.getElem?_range (by rw [hlen]; exact hk)]
  rfl

/-! ## Concrete cases -/

example : IsDay (2000, 2, 29) ∧ date2matordinal 2000 2 29 = some 730179 ∧ matordinal2date 730179 = some (2000, 2, 29) :=
  ⟨by unfold IsDay; decide, by decide, by decide⟩
example : date2matordinal 1900 2 29 = none ∧ next (1900, 2, 28) = (1900, 3, 1) := by decide
example : next (1999, 12, 31) = (2000, 1, 1) := by decide
example : anchorDays 724000 3 32 = some [724000, 724032, 724064] := by decide

end Pycold.Utils
