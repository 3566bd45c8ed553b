import Verif.Spec.Single
import Mathlib.Tactic.Linarith
import Mathlib.Tactic.NormNum
/-!
# Property C102: the direction test in single precision

In exact arithmetic successive differences of the same direction always pass the test (C101).  In the program's single precision
they do not: the two norms are rounded, their product may be smaller than the dot product, and the arc cosine of a number above 1
is NaN.  COLD tests `mean_angle < NSIGN`, false for NaN, and so does not confirm a break that exceeds the threshold in every
observation; S-CCD tests `mean_angle > NSIGN`, false for NaN as well, and confirms.
-/
namespace Pycold.Single
open Pycold.Single.Spec
open Pycold.ColdNum (meanAngle angle2 Fl)

/-! ## Rounding -/

theorem rnd_eval (e : ℤ) (x : ℝ) (k : ℤ) (h : (2 : ℝ) ^ e ≤ x) (h' : x < (2 : ℝ) ^ (e + 1))
    (hk : (k : ℝ) - 1 / 2 ≤ x / (2 : ℝ) ^ (e - 23)) (hk' : x / (2 : ℝ) ^ (e - 23) < k + 1 / 2) :
    rnd x = k * (2 : ℝ) ^ (e - 23) := by
  have hx : 0 < x := lt_of_lt_of_le (zpow_pos (by norm_num) e) h
  have hlog : Int.log 2 x = e := by
    have h1 : e ≤ Int.log 2 x := (Int.zpow_le_iff_le_log (b := 2) (by norm_num) hx).1 (by exact_mod_cast h)
    have h2 : Int.log 2 x < e + 1 := (Int.lt_zpow_iff_log_lt (b := 2) (by norm_num) hx).1 (by exact_mod_cast h')
    omega
  have hr : round (x / (2 : ℝ) ^ (e - 23)) = k := by
    rw [round_eq, Int.floor_eq_iff]
    constructor <;> linarith
  rw [rnd, abs_of_pos hx, hlog, hr]

theorem rnd_zero : rnd 0 = 0 := by simp [rnd]

theorem rnd_one : rnd 1 = 1 := by
  rw [rnd_eval 0 1 8388608] <;> norm_num [zpow_neg]

theorem rnd_sixteen : rnd 16 = 16 := by
  rw [rnd_eval 4 16 8388608] <;> norm_num [zpow_neg]

theorem rnd_thirtytwo : rnd 32 = 32 := by
  rw [rnd_eval 5 32 8388608] <;> norm_num [zpow_neg]

theorem rnd_sqrt : rnd (Real.sqrt 32) = 11863283 / 2097152 := by
  have h1 : (11863282.5 / 2097152 : ℝ) ≤ Real.sqrt 32 := Real.le_sqrt_of_sq_le (by norm_num)
  have h2 : Real.sqrt 32 < 11863283.5 / 2097152 := (Real.sqrt_lt' (by norm_num)).2 (by norm_num)
  have e : (2 : ℝ) ^ ((2 : ℤ) - 23) = 1 / 2097152 := by norm_num [zpow_neg]
  have e2 : (2 : ℝ) ^ (2 : ℤ) = 4 := by norm_num
  have e3 : (2 : ℝ) ^ ((2 : ℤ) + 1) = 8 := by norm_num
  rw [rnd_eval 2 _ 11863283]
  · rw [e]; norm_num
  · rw [e2]; linarith
  · rw [e3]; linarith
  · rw [e, div_div_eq_mul_div, div_one]; push_cast; linarith
  · rw [e, div_div_eq_mul_div, div_one]; push_cast; linarith

theorem rnd_norms : rnd (11863283 / 2097152 * (11863283 / 2097152)) = 16777215 / 524288 := by
  have e : (2 : ℝ) ^ ((4 : ℤ) - 23) = 1 / 524288 := by norm_num [zpow_neg]
  rw [rnd_eval 4 _ 16777215] <;> norm_num [e]

theorem rnd_ratio : rnd (32 / (16777215 / 524288)) = 8388609 / 8388608 := by
  have e : (2 : ℝ) ^ ((0 : ℤ) - 23) = 1 / 8388608 := by norm_num [zpow_neg]
  rw [rnd_eval 0 _ 8388609] <;> norm_num [e]

theorem rnd_pi : rnd (31415926535897935 / 10000000000000000) ≠ 0 := by
  have e : (2 : ℝ) ^ ((1 : ℤ) - 23) = 1 / 4194304 := by norm_num [zpow_neg]
  rw [rnd_eval 1 _ 13176795] <;> norm_num [e]

/-! ## The angle -/

/-- A difference of four standard deviations in the first two of the five bands. -/
def four2 : List (Option ℝ) := [some 4, some 4, some 0, some 0, some 0]

theorem dot_four2 : (List.zip four2 four2).foldl (fun s p => single.add s (single.mul p.1 p.2)) single.zero = some 32 := by
  simp only [four2, List.zip_cons_cons, List.zip_nil_right, List.foldl_cons, List.foldl_nil, Fl.zero, single, op, Option.bind_some,
    Option.map_some]
  norm_num [rnd_zero, rnd_sixteen, rnd_thirtytwo]

theorem angle_four2 : angle2 single four2 four2 = none := by
  unfold angle2
  dsimp only
  rw [dot_four2]
  have hs : single.sqrt (some 32) = some (11863283 / 2097152) := by
    simp only [single, Option.bind_some]
    rw [if_neg (by norm_num), rnd_sqrt]
  have hm : single.mul (some (11863283 / 2097152)) (some (11863283 / 2097152)) = some (16777215 / 524288) := by
    simp only [single, op, Option.bind_some, Option.map_some]
    rw [rnd_norms]
  have hd : single.div (some 32) (some (16777215 / 524288)) = some (8388609 / 8388608) := by
    simp only [single, op, Option.bind_some, Option.map_some]
    rw [if_neg (by norm_num), rnd_ratio]
  have ha : single.acos (some (8388609 / 8388608)) = none := by
    simp only [single, Option.bind_some]
    rw [if_neg]
    rw [abs_of_pos (by norm_num)]
    norm_num
  rw [hs, hm, hd, ha]
  simp [single, op]

theorem fold_nan (l : List (List (Option ℝ) × List (Option ℝ))) :
    l.foldl (fun s p => single.add s (angle2 single p.1 p.2)) none = none := by
  induction l with
  | nil => rfl
  | cons p l ih =>
    rw [List.foldl_cons]
    exact ih

/-! ## The property -/

/-- Two equal differences in succession may make the mean angle NaN, whatever follows. -/
theorem C102_nan (rest : List (List (Option ℝ))) : meanAngle single (four2 :: four2 :: rest) = none := by
  have hadd : ∀ a : Option ℝ, single.add a none = none := by
    intro a
    cases a <;> rfl
  have hdiv : ∀ b : Option ℝ, single.div none b = none := by
    intro b
    simp only [single, op]
    split <;> rfl
  unfold meanAngle
  rw [if_pos (by simp), List.tail_cons, List.zip_cons_cons, List.foldl_cons, angle_four2, hadd, fold_nan, hdiv]

/-- Any number (from two on) of equal differences, whose sum of squares 32 is above the threshold (15.1 by default): COLD's test of the direction (`mean_angle < NSIGN`) fails, although in exact
arithmetic their angles are 0; S-CCD's (`mean_angle > NSIGN` rejects) does not. -/
theorem C102_refused (n : Nat) (h : 2 ≤ n) :
    single.lt (meanAngle single (List.replicate n four2)) (single.lit 45 1) = false ∧
    single.lt (single.lit 45 1) (meanAngle single (List.replicate n four2)) = false ∧
    (List.zip four2 four2).foldl (fun s p => single.add s (single.mul p.1 p.2)) single.zero = some 32 := by
  obtain ⟨m, rfl⟩ : ∃ m, n = m + 2 := ⟨n - 2, by omega⟩
  rw [List.replicate_succ, List.replicate_succ, C102_nan]
  exact ⟨rfl, rfl, dot_four2⟩

/-- What S-CCD then stores as the angle of the confirmed break: the hundredfold, at most 32767 (s_ccd.c 1966–1969), converted to
`short int`.  The conversion of NaN is undefined. -/
theorem C102_stored (n : Nat) (h : 2 ≤ n) :
    let tmp := single.mul (meanAngle single (List.replicate n four2)) (single.lit 100 1)
    ¬ Convertible (if single.lt (single.lit 32767 1) tmp then single.lit 32767 1 else tmp) := by
  obtain ⟨m, rfl⟩ : ∃ m, n = m + 2 := ⟨n - 2, by omega⟩
  rw [List.replicate_succ, List.replicate_succ, C102_nan]
  intro tmp hc
  obtain ⟨x, hx, -⟩ := hc
  have h1 : tmp = none := rfl
  have h2 : single.lt (single.lit 32767 1) none = false := rfl
  rw [h1, h2] at hx
  cases hx

/-- Rounding alone is harmless where nothing is rounded: a difference of one unit in one band passes. -/
theorem C102_one_band_partial : angle2 single [some 1, some 0, some 0, some 0, some 0] [some 1, some 0, some 0, some 0, some 0] =
    some 0 := by
  unfold angle2
  simp only [List.zip_cons_cons, List.zip_nil_right, List.foldl_cons, List.foldl_nil, Fl.zero, single, op, Option.bind_some,
    Option.map_some]
  norm_num [rnd_zero, rnd_one]
  have := rnd_pi
  norm_num at this
  exact fun h => absurd h this

/-- An angle of 45 degrees can be converted. -/
example : Convertible (some 4500) := ⟨4500, rfl, by norm_num, by norm_num⟩

end Pycold.Single
