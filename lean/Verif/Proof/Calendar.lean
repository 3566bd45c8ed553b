import Verif.Model.Calendar
import Verif.Spec.Calendar
/-! Helper lemmas for C18–C20, C45. -/
namespace Pycold
open Spec

theorem isLeapYear_iff (y : Int) : isLeapYear y = true ↔ Leap y := by
  unfold isLeapYear Leap
  grind

theorem yearDays_eq (y : Int) : yearDays y = yearLength y := by
  unfold yearDays yearLength
  by_cases h : Leap y
  · rw [if_pos ((isLeapYear_iff y).mpr h), if_pos h]
  · rw [if_neg (fun h' => h ((isLeapYear_iff y).mp h')), if_neg h]

theorem yearLength_bounds (y : Int) : 365 ≤ yearLength y ∧ yearLength y ≤ 366 := by
  unfold yearLength; split <;> omega

theorem daysBeforeYear_succ (y : Int) : daysBeforeYear (y + 1) = daysBeforeYear y + yearLength y := by
  unfold daysBeforeYear yearLength
  by_cases h : Leap y
  · rw [if_pos h]; unfold Leap at h; omega
  · rw [if_neg h]; unfold Leap at h; omega

theorem addYears_eq (i year jday : Int) (h : i ≤ year) :
    addYears i year jday = jday + (daysBeforeYear year - daysBeforeYear i) := by
  fun_induction addYears i year jday with
  | case1 i jday hlt ih =>
    rw [ih (by omega), daysBeforeYear_succ, yearDays_eq]; omega
  | case2 i jday hlt =>
    have : i = year := by omega
    subst this; omega

theorem daysBeforeYear_strictMono_aux (y : Int) (n : Nat) :
    daysBeforeYear y + 365 * n ≤ daysBeforeYear (y + n) := by
  induction n with
  | zero => simp
  | succ n ih =>
    have h1 := daysBeforeYear_succ (y + n)
    have h2 := yearLength_bounds (y + n)
    have : y + ((n + 1 : Nat) : Int) = y + n + 1 := by omega
    rw [this]; omega

theorem daysBeforeYear_mono {y z : Int} (h : y < z) :
    daysBeforeYear y + yearLength y ≤ daysBeforeYear z := by
  have h1 := daysBeforeYear_strictMono_aux (y + 1) (z - (y + 1)).toNat
  have h2 : y + 1 + ((z - (y + 1)).toNat : Int) = z := by omega
  rw [h2, daysBeforeYear_succ] at h1
  omega

/-- A day lies in exactly one year. -/
theorem ordinal_inj {y z d e : Int} (hd : ValidDoy y d) (he : ValidDoy z e)
    (h : ordinal y d = ordinal z e) : y = z ∧ d = e := by
  unfold ordinal ValidDoy at *
  rcases Int.lt_trichotomy y z with hlt | heq | hgt
  · have := daysBeforeYear_mono hlt; omega
  · subst heq; omega
  · have := daysBeforeYear_mono hgt; omega

theorem countYears_spec (jday dc yc : Int) (hdc : dc = daysBeforeYear (yc + 1))
    (hprev : dc < jday ∨ (daysBeforeYear yc < jday ∧ jday ≤ dc)) :
    let r := countYears jday dc yc
    r.1 = daysBeforeYear (r.2 + 1) ∧ daysBeforeYear r.2 < jday ∧ jday ≤ daysBeforeYear (r.2 + 1) ∧
      yc ≤ r.2 := by
  fun_induction countYears jday dc yc with
  | case1 dc yc hlt ih =>
    have e : dc + yearDays (yc + 1) = daysBeforeYear (yc + 1 + 1) := by
      rw [daysBeforeYear_succ, yearDays_eq]; omega
    have := ih e (by omega)
    refine ⟨this.1, this.2.1, this.2.2.1, ?_⟩
    have := this.2.2.2
    omega
  | case2 dc yc hlt =>
    refine ⟨hdc, ?_, ?_, Int.le_refl _⟩
    · show daysBeforeYear yc < jday
      omega
    · show jday ≤ daysBeforeYear (yc + 1)
      omega

theorem convertJday_spec (jday : Int) (h : 720258 ≤ jday) :
    ∃ y d, convertJday jday = some (y, d) ∧ ValidDoy y d ∧ ordinal y d = jday ∧ 1972 ≤ y := by
  unfold convertJday ORDINAL_DATE_LAST_DAY_1972 LANDSAT_START_YEAR
  rw [if_neg (by omega)]
  have hs := countYears_spec jday 720258 (1973 - 1) (by decide)
    (by
      have : daysBeforeYear (1973 - 1) = 719892 := by decide
      rw [this]; omega)
  revert hs
  generalize countYears jday 720258 (1973 - 1) = r
  intro hs
  refine ⟨_, _, rfl, ?_, ?_, ?_⟩
  · rw [yearDays_eq]
    have := daysBeforeYear_succ r.2
    unfold ValidDoy
    omega
  · rw [yearDays_eq]
    have := daysBeforeYear_succ r.2
    unfold ordinal
    omega
  · have := hs.2.2.2
    omega

end Pycold
