import Verif.Proof.Calendar
/-!
# C18–C20, C45: calendar conversions

Vocabulary in `Verif/Spec/Calendar.lean`.
-/
namespace Pycold
open Spec

/-- C18.  For every year after 1973 the conversion succeeds and yields the Gregorian ordinal, whatever
the output variable contained before the call. -/
theorem C18_ordinal (year doy jdayIn : Int) (h : 1973 < year) :
    convertYearDoy year doy jdayIn = (.success, ordinal year doy) := by
  unfold convertYearDoy LANDSAT_START_YEAR ORDINAL_DATE_LAST_DAY_1972
  rw [if_neg (by omega)]
  simp only [show year ≠ 1973 by omega, ne_eq, not_false_eq_true, if_true]
  rw [addYears_eq _ _ _ (by omega)]
  have : daysBeforeYear 1973 = 720258 := by decide
  rw [this]
  unfold ordinal
  congr 1
  omega

/-- C18.  Years before 1973 are refused, all of them and only them. -/
theorem C18_refused (year doy jdayIn : Int) :
    (convertYearDoy year doy jdayIn).1 = .error ↔ year < 1973 := by
  unfold convertYearDoy
  split <;> simp_all

/-- C18 fails for 1973 itself: the result is correct only if the output variable happened to hold
720258 before the call. -/
theorem C18_1973_depends_on_garbage (doy jdayIn : Int) :
    (convertYearDoy 1973 doy jdayIn).2 = ordinal 1973 doy ↔ jdayIn = 720258 := by
  have : daysBeforeYear 1973 = 720258 := by decide
  simp only [convertYearDoy, LANDSAT_START_YEAR, ordinal, this]
  simp

/-- Concrete refutation of the unrestricted C18: 1 January 1973 with a zeroed output variable. -/
theorem C18_1973_refuted : convertYearDoy 1973 1 0 = (.success, 1) ∧ ordinal 1973 1 = 720259 := by
  decide

example : convertYearDoy 2000 60 (-7) = (.success, 730179) ∧ ordinal 2000 60 = 730179 :=
  ⟨C18_ordinal 2000 60 (-7) (by decide), by decide⟩

/-- C19 (a).  Every ordinal from the last day of 1972 on converts to the unique calendar day with that
ordinal; earlier ordinals are refused. -/
theorem C19_jday_to_calendar (jday : Int) :
    (jday < 720258 → convertJday jday = none) ∧
    (720258 ≤ jday → ∃ y d, convertJday jday = some (y, d) ∧ ValidDoy y d ∧ ordinal y d = jday) := by
  constructor
  · intro h
    unfold convertJday ORDINAL_DATE_LAST_DAY_1972
    rw [if_pos h]
  · intro h
    obtain ⟨y, d, h1, h2, h3, _⟩ := convertJday_spec jday h
    exact ⟨y, d, h1, h2, h3⟩

/-- C19 (b).  (year, doy) → ordinal → (year, doy) is the identity on valid days after 1973. -/
theorem C19_round_trip (year doy jdayIn : Int) (h : 1973 < year) (hd : ValidDoy year doy) :
    convertJday (convertYearDoy year doy jdayIn).2 = some (year, doy) := by
  rw [C18_ordinal year doy jdayIn h]
  have hge : 720258 ≤ ordinal year doy := by
    have h1 := daysBeforeYear_mono h
    have h2 := yearLength_bounds 1973
    have : daysBeforeYear 1973 = 720258 := by decide
    unfold ordinal
    have := hd.1
    omega
  obtain ⟨y, d, h1, h2, h3, _⟩ := convertJday_spec _ hge
  obtain ⟨rfl, rfl⟩ := ordinal_inj h2 hd h3
  exact h1

/-- C19 (c).  ordinal → (year, doy) → ordinal is the identity from 1 January 1974 on. -/
theorem C19_round_trip_back (jday jdayIn : Int) (h : 720623 < jday) :
    ∃ y d, convertJday jday = some (y, d) ∧ convertYearDoy y d jdayIn = (.success, jday) := by
  obtain ⟨y, d, h1, h2, h3, h4⟩ := convertJday_spec jday (by omega)
  refine ⟨y, d, h1, ?_⟩
  rw [C18_ordinal, h3]
  rcases Int.lt_trichotomy y 1973 with hlt | heq | hgt
  · have h5 := daysBeforeYear_mono hlt
    have : daysBeforeYear 1973 = 720258 := by decide
    unfold ordinal ValidDoy at *
    omega
  · subst heq
    have : daysBeforeYear 1973 = 720258 := by decide
    have : yearLength 1973 = 365 := by decide
    unfold ordinal ValidDoy at *
    omega
  · exact hgt

example : ValidDoy 2020 366 ∧ convertJday 737790 = some (2020, 366) := by
  refine ⟨by unfold ValidDoy; decide, ?_⟩
  have := C19_round_trip 2020 366 0 (by decide) (by unfold ValidDoy; decide)
  rw [C18_ordinal 2020 366 0 (by decide)] at this
  simpa [ordinal, daysBeforeYear] using this

/-- C20.  For every year, month and day the result is (days in the preceding months) + day; in
particular leap years shift every month after February by one. -/
theorem C20_yearmonth2doy (year day : Int) (m : Nat) (hm : 1 ≤ m ∧ m ≤ 12) :
    yearMonth2Doy year m day = daysBeforeMonth year m + day := by
  have hm' : m = 1 ∨ m = 2 ∨ m = 3 ∨ m = 4 ∨ m = 5 ∨ m = 6 ∨ m = 7 ∨ m = 8 ∨ m = 9 ∨ m = 10 ∨
      m = 11 ∨ m = 12 := by omega
  by_cases hl : Leap year
  · have h := (isLeapYear_iff year).mpr hl
    rcases hm' with rfl | rfl | rfl | rfl | rfl | rfl | rfl | rfl | rfl | rfl | rfl | rfl <;>
      simp [yearMonth2Doy, h, daysBeforeMonth, monthLength, hl]
  · have h : isLeapYear year = false := by
      cases h' : isLeapYear year with
      | false => rfl
      | true => exact absurd ((isLeapYear_iff year).mp h') hl
    rcases hm' with rfl | rfl | rfl | rfl | rfl | rfl | rfl | rfl | rfl | rfl | rfl | rfl <;>
      simp [yearMonth2Doy, h, daysBeforeMonth, monthLength, hl]

/-- Consistency of the month table with the year length: 31 December is the last day of the year. -/
theorem C20_december (year : Int) : yearMonth2Doy year 12 31 = yearLength year := by
  have h := C20_yearmonth2doy year 31 12 (by omega)
  rw [show (12 : Int) = ((12 : Nat) : Int) from rfl, h]
  by_cases hl : Leap year <;> simp [daysBeforeMonth, monthLength, hl, yearLength]

example : yearMonth2Doy 2024 3 1 = 61 ∧ yearMonth2Doy 2023 3 1 = 60 := by decide

/-- C45.  With at least two records, the query returns the year of the first record whose magnitude has
the asked sign, and 0 if there is none. -/
theorem C45_first_degradation (recs : List DegRec) (up : Bool) (hlen : 1 < recs.length) (y : Int)
    (hdates : ∀ r ∈ recs, 720258 ≤ r.tBreak) :
    firstDegradationYear recs up = (.success, y) ↔
      ((∃ i r d, recs[i]? = some r ∧ (if up then r.up else r.down) = true ∧
          (∀ (j : Nat) s, j < i → recs[j]? = some s → (if up then s.up else s.down) = false) ∧
          ValidDoy y d ∧ ordinal y d = r.tBreak)
        ∨ ((∀ r ∈ recs, (if up then r.up else r.down) = false) ∧ y = 0)) := by
  unfold firstDegradationYear
  rw [if_pos hlen]
  clear hlen
  induction recs with
  | nil =>
    simp only [firstDegLoop]
    constructor
    · intro h; right; simp at h; exact ⟨by simp, h.symm⟩
    · rintro (⟨i, r, d, hi, _⟩ | ⟨_, rfl⟩)
      · simp at hi
      · rfl
  | cons t ts ih =>
    have ih := ih (fun r hr => hdates r (by simp [hr]))
    unfold firstDegLoop
    by_cases ht : (if up then t.up else t.down) = true
    · rw [if_pos ht]
      obtain ⟨y', d', h1, h2, h3, _⟩ := convertJday_spec t.tBreak (hdates t (by simp))
      rw [h1]
      constructor
      · intro h
        have : y' = y := by simpa using h
        subst this
        exact Or.inl ⟨0, t, d', by simp, ht, by intro j s hj; omega, h2, h3⟩
      · rintro (⟨i, r, d, hi, hr, hall, hv, ho⟩ | ⟨hall, _⟩)
        · cases i with
          | zero =>
            simp at hi; subst hi
            have := ordinal_inj h2 hv (h3.trans ho.symm)
            simp [this.1]
          | succ i =>
            have := hall 0 t (by omega) (by simp)
            rw [ht] at this
            cases this
        · have := hall t (by simp)
          rw [ht] at this
          cases this
    · rw [if_neg ht, ih]
      have ht' : (if up then t.up else t.down) = false := by simpa using ht
      constructor
      · rintro (⟨i, r, d, hi, hr, hall, hv, ho⟩ | ⟨hall, h0⟩)
        · refine Or.inl ⟨i + 1, r, d, by simpa using hi, hr, ?_, hv, ho⟩
          intro j s hj hs
          cases j with
          | zero => simp at hs; subst hs; exact ht'
          | succ j => exact hall j s (by omega) (by simpa using hs)
        · refine Or.inr ⟨?_, h0⟩
          intro r hr
          rcases List.mem_cons.mp hr with rfl | hr
          · exact ht'
          · exact hall r hr
      · rintro (⟨i, r, d, hi, hr, hall, hv, ho⟩ | ⟨hall, h0⟩)
        · cases i with
          | zero => simp at hi; subst hi; exact absurd hr ht
          | succ i =>
            refine Or.inl ⟨i, r, d, by simpa using hi, hr, ?_, hv, ho⟩
            intro j s hj hs
            exact hall (j + 1) s (by omega) (by simpa using hs)
        · exact Or.inr ⟨fun r hr => hall r (by simp [hr]), h0⟩

/-- The C45 query ignores a single record, even one that qualifies (a limitation of the program). -/
theorem C45_single_record_ignored :
    firstDegradationYear [⟨730000, true, false⟩] true = (.success, 0) := by decide

example : firstDegradationYear [⟨730000, false, true⟩, ⟨730500, true, false⟩] true =
    (.success, 2001) := by
  rw [C45_first_degradation _ _ (by decide) _ (by decide)]
  refine Or.inl ⟨1, ⟨730500, true, false⟩, 15, by simp, by simp, ?_, by unfold ValidDoy; decide, by decide⟩
  intro j s hj hs
  have : j = 0 := by omega
  subst this
  simp at hs; subst hs; rfl

end Pycold
