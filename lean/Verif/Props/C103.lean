import Verif.Spec.Double
import Verif.Model.Utils
import Verif.Model.Tile
import Mathlib.Data.Int.Log
import Mathlib.Algebra.Order.Round
import Mathlib.Algebra.Order.Archimedean.Real.Basic
import Mathlib.Tactic.Linarith
import Mathlib.Tactic.NormNum
import Mathlib.Tactic.Ring
/-!
# Property C103: quotients computed in floating point

Positions, block numbers, block sizes and shares of work are computed as `int(a / b)` or `int(np.ceil(a / b))`, that is in floating
point: the quotient is rounded to a double, and then to an integer.  For numerators below 2^53 the result is the integer quotient
nevertheless, rounded down or up; for larger numerators it need not be.
-/
namespace Pycold.Double
open Pycold.Double.Spec

theorem isDouble_int (k : ℤ) (h : |k| ≤ 2 ^ 53) : IsDouble k := ⟨k, 0, h, by simp⟩

/-- There is a double near every number. -/
theorem near (x : ℝ) (hx : 0 ≤ x) : ∃ s, IsDouble s ∧ |x - s| ≤ x * (1 / 2 ^ 53) := by
  rcases hx.eq_or_lt with rfl | hx
  · exact ⟨0, ⟨0, 0, by norm_num, by simp⟩, by simp⟩
  have hlo : (2 : ℝ) ^ Int.log 2 x ≤ x := by exact_mod_cast Int.zpow_log_le_self (b := 2) (by norm_num) hx
  have hhi : x < (2 : ℝ) ^ (Int.log 2 x + 1) := by exact_mod_cast Int.lt_zpow_succ_log_self (b := 2) (by norm_num) x
  generalize Int.log 2 x = e at hlo hhi
  have hu : (0 : ℝ) < (2 : ℝ) ^ (e - 52) := zpow_pos (by norm_num) _
  have e1 : (2 : ℝ) ^ e = 2 ^ 52 * (2 : ℝ) ^ (e - 52) := by
    rw [show e = 52 + (e - 52) by ring, zpow_add₀ (by norm_num)]
    norm_num
  have e2 : (2 : ℝ) ^ (e + 1) = 2 ^ 53 * (2 : ℝ) ^ (e - 52) := by
    rw [show e + 1 = 53 + (e - 52) by ring, zpow_add₀ (by norm_num)]
    norm_num
  rw [e1] at hlo
  rw [e2] at hhi
  generalize hue : (2 : ℝ) ^ (e - 52) = u at *
  have h1 : x / u < 2 ^ 53 := (div_lt_iff₀ hu).2 hhi
  have h2 : 0 ≤ x / u := (div_pos hx hu).le
  have hr := abs_sub_round (x / u)
  have hm : |round (x / u)| ≤ 2 ^ 53 := by
    have b := abs_le.1 hr
    have c1 : ((round (x / u) : ℤ) : ℝ) < ((2 ^ 53 + 1 : ℤ) : ℝ) := by push_cast; linarith [b.1]
    have c2 : ((-1 : ℤ) : ℝ) < ((round (x / u) : ℤ) : ℝ) := by push_cast; linarith [b.2]
    rw [Int.cast_lt] at c1 c2
    rw [abs_le]
    omega
  refine ⟨(round (x / u) : ℝ) * u, ⟨round (x / u), e - 52, hm, by rw [hue]⟩, ?_⟩
  have ex : x - (round (x / u) : ℝ) * u = (x / u - round (x / u)) * u := by
    rw [sub_mul, div_mul_cancel₀ x hu.ne']
  rw [ex, abs_mul, abs_of_pos hu]
  have := mul_le_mul_of_nonneg_right hr hu.le
  have e3 : x * (1 / 2 ^ 53) = x / 2 ^ 53 := by ring
  rw [e3, le_div_iff₀ (by norm_num)]
  nlinarith

/-- `int(a / b)` is the quotient rounded down. -/
theorem C103_floor (a b : ℕ) (ha : a < 2 ^ 53) (hb : 0 < b) (r : ℝ) (hr : IsRounded ((a : ℝ) / b) r) : ⌊r⌋ = ((a / b : ℕ) : ℤ) := by
  obtain ⟨-, hr⟩ := hr
  have hb' : (0 : ℝ) < b := Nat.cast_pos.2 hb
  have ha' : (a : ℝ) < 2 ^ 53 := by exact_mod_cast ha
  set q := a / b with hq
  have hq1 : q * b ≤ a := Nat.div_mul_le_self a b
  have hq2 : a + 1 ≤ (q + 1) * b := (Nat.div_lt_iff_lt_mul hb).1 (Nat.lt_succ_self q)
  have hqa : q ≤ a := Nat.div_le_self a b
  have k1 : (q : ℝ) ≤ (a : ℝ) / b := by
    rw [le_div_iff₀ hb']
    exact_mod_cast hq1
  have k2 : (a : ℝ) / b + 1 / b ≤ q + 1 := by
    rw [← add_div, div_le_iff₀ hb']
    exact_mod_cast hq2
  rw [Int.floor_eq_iff]
  constructor
  · by_contra hc
    rw [not_le] at hc
    have h := hr q (isDouble_int q (by rw [abs_of_nonneg (by positivity)]; exact_mod_cast (lt_of_le_of_lt hqa ha).le))
    push_cast at hc
    rw [abs_of_nonneg (by linarith), abs_of_nonneg (by push_cast; linarith)] at h
    push_cast at h
    linarith
  · by_contra hc
    rw [not_lt] at hc
    push_cast at hc
    obtain ⟨s, hs, hn⟩ := near ((a : ℝ) / b) (by positivity)
    have h := hr s hs
    have hi : 0 < 1 / (b : ℝ) := by positivity
    rw [abs_of_nonpos (by linarith)] at h
    have h1 : (a : ℝ) / b * (1 / 2 ^ 53) < 1 / b := by
      rw [div_mul_eq_mul_div, div_lt_div_iff_of_pos_right hb', mul_one_div, div_lt_one (by norm_num)]
      exact ha'
    linarith

/-- `int(np.ceil(a / b))` is the quotient rounded up. -/
theorem C103_ceil (a b : ℕ) (ha : a < 2 ^ 53) (hb : 0 < b) (r : ℝ) (hr : IsRounded ((a : ℝ) / b) r) :
    ⌈r⌉ = (((a + (b - 1)) / b : ℕ) : ℤ) := by
  obtain ⟨-, hr⟩ := hr
  have hb' : (0 : ℝ) < b := Nat.cast_pos.2 hb
  have ha' : (a : ℝ) < 2 ^ 53 := by exact_mod_cast ha
  set q := (a + (b - 1)) / b with hq
  have hq1 : a ≤ q * b := by
    have := (Nat.div_lt_iff_lt_mul hb).1 (Nat.lt_succ_self q)
    rw [Nat.succ_mul] at this
    omega
  have hq2 : q * b ≤ a + (b - 1) := Nat.div_mul_le_self _ b
  have hqa : q ≤ a := by
    rcases Nat.eq_zero_or_pos a with rfl | h0
    · have : q = 0 := by rw [hq]; exact Nat.div_eq_of_lt (by omega)
      omega
    · by_contra hc
      rw [not_le] at hc
      have h1 : (a + 1) * b ≤ q * b := Nat.mul_le_mul_right b hc
      have h2 : a ≤ a * b := Nat.le_mul_of_pos_right a hb
      rw [Nat.succ_mul] at h1
      omega
  have k1 : (a : ℝ) / b ≤ q := by
    rw [div_le_iff₀ hb']
    exact_mod_cast hq1
  have k2 : (q : ℝ) - 1 + 1 / b ≤ (a : ℝ) / b := by
    rw [le_div_iff₀ hb', add_mul, one_div, inv_mul_cancel₀ hb'.ne', sub_mul, one_mul]
    have : q * b + 1 ≤ a + b := by omega
    have : ((q * b + 1 : ℕ) : ℝ) ≤ ((a + b : ℕ) : ℝ) := Nat.cast_le.2 this
    push_cast at this
    linarith
  rw [Int.ceil_eq_iff]
  constructor
  · by_contra hc
    rw [not_lt] at hc
    push_cast at hc
    obtain ⟨s, hs, hn⟩ := near ((a : ℝ) / b) (by positivity)
    have h := hr s hs
    have hi : 0 < 1 / (b : ℝ) := by positivity
    rw [abs_of_nonneg (by linarith)] at h
    have h1 : (a : ℝ) / b * (1 / 2 ^ 53) < 1 / b := by
      rw [div_mul_eq_mul_div, div_lt_div_iff_of_pos_right hb', mul_one_div, div_lt_one (by norm_num)]
      exact ha'
    linarith
  · by_contra hc
    rw [not_le] at hc
    have h := hr q (isDouble_int q (by rw [abs_of_nonneg (by positivity)]; exact_mod_cast (lt_of_le_of_lt hqa ha).le))
    push_cast at hc
    rw [abs_of_nonpos (by linarith), abs_of_nonpos (by push_cast; linarith)] at h
    push_cast at h
    linarith

theorem step_low (x r : ℝ) (hr : IsRounded x r) (k : ℕ) (hk : k ≤ 2 ^ 53) (h : (k : ℝ) ≤ x) : (k : ℝ) ≤ r := by
  by_contra hc
  rw [not_le] at hc
  have := hr.2 k (isDouble_int k (by rw [abs_of_nonneg (by positivity)]; exact_mod_cast hk))
  push_cast at this
  rw [abs_of_nonneg (by linarith), abs_of_nonneg (by linarith)] at this
  linarith

theorem step_high (x r : ℝ) (hx : 0 ≤ x) (hr : IsRounded x r) (T : ℝ) (h : x ≤ T) : r ≤ x + T * (1 / 2 ^ 53) := by
  obtain ⟨s, hs, hn⟩ := near x hx
  have h1 := (hr.2 s hs).trans hn
  have h2 := (abs_le.1 h1).1
  have h3 : x * (1 / 2 ^ 53) ≤ T * (1 / 2 ^ 53) := mul_le_mul_of_nonneg_right h (by norm_num)
  linarith

/-- `int(index / block_width + c + 1)` (the line in the tile, `get_rowcol_intile`), where the quotient and both sums are rounded. -/
theorem C103_sum (a b c : ℕ) (hb : 0 < b) (hT : 3 * (a + (c + 2) * b) < 2 ^ 53) (r₁ r₂ r₃ : ℝ)
    (h₁ : IsRounded ((a : ℝ) / b) r₁) (h₂ : IsRounded (r₁ + c) r₂) (h₃ : IsRounded (r₂ + 1) r₃) :
    ⌊r₃⌋ = ((a / b + c + 1 : ℕ) : ℤ) := by
  have hb' : (0 : ℝ) < b := Nat.cast_pos.2 hb
  set q := a / b with hq
  have hq1 : q * b ≤ a := Nat.div_mul_le_self a b
  have hq2 : a + 1 ≤ (q + 1) * b := (Nat.div_lt_iff_lt_mul hb).1 (Nat.lt_succ_self q)
  have hqa : q ≤ a := Nat.div_le_self a b
  have hcb : c + 2 ≤ (c + 2) * b := Nat.le_mul_of_pos_right _ hb
  have k1 : (q : ℝ) ≤ (a : ℝ) / b := by
    rw [le_div_iff₀ hb']
    exact_mod_cast hq1
  have k2 : (a : ℝ) / b + 1 / b ≤ q + 1 := by
    rw [← add_div, div_le_iff₀ hb']
    exact_mod_cast hq2
  have hi : 0 < 1 / (b : ℝ) := by positivity
  have hT' : 3 * (((q : ℝ) + c + 2) * (1 / 2 ^ 53)) < 1 / b := by
    rw [lt_div_iff₀ hb']
    have h : 3 * (q + c + 2) * b < 2 ^ 53 := by
      have : 3 * (q + c + 2) * b = 3 * (q * b + (c + 2) * b) := by ring
      rw [this]
      omega
    have h' : ((3 * (q + c + 2) * b : ℕ) : ℝ) < ((2 ^ 53 : ℕ) : ℝ) := Nat.cast_lt.2 h
    push_cast at h'
    have : 3 * (((q : ℝ) + c + 2) * (1 / 2 ^ 53)) * b = 3 * ((q : ℝ) + c + 2) * b / 2 ^ 53 := by ring
    rw [this, div_lt_one (by norm_num)]
    exact h'.trans_le (by norm_num)
  have hc0 : (0 : ℝ) ≤ c := Nat.cast_nonneg c
  have hq0 : (0 : ℝ) ≤ q := Nat.cast_nonneg q
  generalize hε : ((q : ℝ) + c + 2) * (1 / 2 ^ 53) = ε at hT'
  have l1 := step_low _ _ h₁ q (by omega) k1
  have u1 := step_high _ _ (by positivity) h₁ ((q : ℝ) + c + 2) (by linarith)
  rw [hε] at u1
  have hε0 : 0 ≤ ε := by rw [← hε]; positivity
  have l2 := step_low _ _ h₂ (q + c) (by omega) (by push_cast; linarith)
  have u2 := step_high _ _ (by linarith) h₂ ((q : ℝ) + c + 2) (by linarith)
  rw [hε] at u2
  push_cast at l2
  have l3 := step_low _ _ h₃ (q + c + 1) (by omega) (by push_cast; linarith)
  have u3 := step_high _ _ (by linarith) h₃ ((q : ℝ) + c + 2) (by linarith)
  rw [hε] at u3
  push_cast at l3
  rw [Int.floor_eq_iff]
  push_cast
  constructor <;> linarith

/-- The block sizes of a dataset, as computed in floating point, are those of the model. -/
theorem C103_blocks (nRows nCols nbx nby : ℕ) (hr : nRows < 2 ^ 53) (hc : nCols < 2 ^ 53) (i : Utils.DatasetInfo)
    (h : Utils.makeInfo nRows nCols nbx nby = some i) (w v : ℝ) (hw : IsRounded ((nCols : ℝ) / nbx) w)
    (hv : IsRounded ((nRows : ℝ) / nby) v) : ⌊w⌋ = (i.blockWidth : ℤ) ∧ ⌊v⌋ = (i.blockHeight : ℤ) := by
  unfold Utils.makeInfo at h
  split at h
  · cases h
  rename_i hn
  obtain rfl := Option.some.inj h
  exact ⟨C103_floor _ _ hc (by omega) w hw, C103_floor _ _ hr (by omega) v hv⟩

/-- The functions of the model for block rows, lines in blocks, lines in the tile and shares of work divide integers; the program
does so in floating point.  Both give the same: `get_block_y`, `get_row_index`, `get_rowcol_intile` (its line), the number of
blocks of a rank. -/
theorem C103_model :
    (∀ (id nbx : ℕ) (r : ℝ), 1 ≤ id → id ≤ 2 ^ 53 → 0 < nbx → IsRounded (((id - 1 : ℕ) : ℝ) / nbx) r →
      ⌊r⌋ + 1 = Tile.blockY id nbx) ∧
    (∀ (pos nCols cy h : ℕ) (r : ℝ), 1 ≤ pos → pos ≤ 2 ^ 53 → 0 < nCols → IsRounded (((pos - 1 : ℕ) : ℝ) / nCols) r →
      ⌊r⌋ - ((cy : ℤ) - 1) * h = Tile.rowIndex pos nCols cy h) ∧
    (∀ (i w h bx cy : ℕ) (r₁ r₂ r₃ : ℝ), 1 ≤ cy → 0 < w → 3 * (i + ((cy - 1) * h + 2) * w) < 2 ^ 53 →
      IsRounded ((i : ℝ) / w) r₁ → IsRounded (r₁ + ((cy - 1) * h : ℕ)) r₂ → IsRounded (r₂ + 1) r₃ →
      ⌊r₃⌋ = (Tile.rowcolInTile i w h bx cy).1) ∧
    (∀ (n cores : ℕ) (r : ℝ), n < 2 ^ 53 → 0 < cores → IsRounded ((n : ℝ) / cores) r → ⌈r⌉ = (Tile.perCore n cores : ℤ)) := by
  have hdiv : ∀ a b : ℕ, (a : ℤ).tdiv b = ((a / b : ℕ) : ℤ) := fun a b => (Int.ofNat_tdiv a b).symm
  refine ⟨fun id nbx r h1 h2 h3 hr => ?_, fun pos nCols cy h r h1 h2 h3 hr => ?_, fun i w h bx cy r₁ r₂ r₃ h1 h2 h3 a b c => ?_,
    fun n cores r h1 h2 hr => ?_⟩
  · rw [C103_floor _ _ (by omega) h3 r hr, Tile.blockY, show (id : ℤ) - 1 = ((id - 1 : ℕ) : ℤ) by omega, hdiv]
  · rw [C103_floor _ _ (by omega) h3 r hr, Tile.rowIndex, show (pos : ℤ) - 1 = ((pos - 1 : ℕ) : ℤ) by omega, hdiv]
  · rw [C103_sum i w ((cy - 1) * h) h2 h3 r₁ r₂ r₃ a b c, Tile.rowcolInTile]
    have e : (i : ℤ) + (((cy : ℤ) - 1) * h + 1) * w = ((i + ((cy - 1) * h + 1) * w : ℕ) : ℤ) := by
      have : (cy : ℤ) - 1 = ((cy - 1 : ℕ) : ℤ) := by omega
      rw [this]
      push_cast
      rfl
    dsimp only
    rw [e, hdiv, Nat.add_mul_div_right _ _ h2]
    rfl
  · rw [C103_ceil n cores h1 h2 r hr, Tile.perCore, Nat.add_sub_assoc h2]

/-- For larger numerators the result may be too large by one: (3 * 2^54 - 1) / 3 is rounded to 2^54. -/
theorem C103_large : IsRounded (((3 * 2 ^ 54 - 1 : ℕ) : ℝ) / (3 : ℕ)) (2 ^ 54) ∧ ⌊(2 ^ 54 : ℝ)⌋ ≠ (((3 * 2 ^ 54 - 1) / 3 : ℕ) : ℤ) := by
  constructor
  · refine ⟨⟨2 ^ 53, 1, by norm_num, by norm_num⟩, ?_⟩
    rintro s ⟨m, e, hm, rfl⟩
    have hx : ((3 * 2 ^ 54 - 1 : ℕ) : ℝ) / (3 : ℕ) = 2 ^ 54 - 1 / 3 := by norm_num
    rw [hx, show (2 ^ 54 - 1 / 3 - 2 ^ 54 : ℝ) = -(1 / 3) by ring, abs_neg, abs_of_pos (by norm_num)]
    by_contra hc
    rw [not_le, abs_lt] at hc
    rcases le_or_gt e 0 with he | he
    · have hp : (2 : ℝ) ^ e ≤ 1 := zpow_le_one_of_nonpos₀ (by norm_num) he
      have hp0 : (0 : ℝ) < (2 : ℝ) ^ e := zpow_pos (by norm_num) e
      have hm' : (m : ℝ) ≤ 2 ^ 53 := by exact_mod_cast (abs_le.1 hm).2
      have : (m : ℝ) * (2 : ℝ) ^ e ≤ 2 ^ 53 := by
        rcases le_total (m : ℝ) 0 with h0 | h0
        · exact (mul_nonpos_of_nonpos_of_nonneg h0 hp0.le).trans (by norm_num)
        · calc (m : ℝ) * (2 : ℝ) ^ e ≤ m * 1 := mul_le_mul_of_nonneg_left hp h0
            _ ≤ 2 ^ 53 := by linarith
      norm_num at this hc
      linarith
    · obtain ⟨n, rfl⟩ : ∃ n : ℕ, e = n + 1 := ⟨(e - 1).toNat, by omega⟩
      have e1 : (m : ℝ) * (2 : ℝ) ^ ((n : ℤ) + 1) = ((2 * (m * 2 ^ n) : ℤ) : ℝ) := by
        rw [zpow_add₀ (by norm_num), zpow_natCast, zpow_one]
        push_cast
        ring
      rw [e1] at hc
      generalize m * 2 ^ n = k at hc
      have c1 : ((2 * k : ℤ) : ℝ) < ((2 ^ 54 : ℤ) : ℝ) := by push_cast at hc ⊢; linarith [hc.1]
      have c2 : ((2 ^ 54 - 1 : ℤ) : ℝ) < ((2 * k : ℤ) : ℝ) := by push_cast at hc ⊢; linarith [hc.2]
      rw [Int.cast_lt] at c1 c2
      omega
  · have : ⌊(2 ^ 54 : ℝ)⌋ = 2 ^ 54 := by
      rw [Int.floor_eq_iff]
      norm_num
    rw [this]
    norm_num

/-! ## Concrete cases -/

/-- Every number that is not negative can be rounded, so that the hypotheses above can be met. -/
theorem rounded_exists (x : ℝ) (hx : 0 ≤ x) : ∃ r, IsRounded x r := by
  rcases hx.eq_or_lt with rfl | hx
  · exact ⟨0, ⟨0, 0, by norm_num, by simp⟩, fun s _ => by simp⟩
  have hlo : (2 : ℝ) ^ Int.log 2 x ≤ x := by exact_mod_cast Int.zpow_log_le_self (b := 2) (by norm_num) hx
  have hhi : x < (2 : ℝ) ^ (Int.log 2 x + 1) := by exact_mod_cast Int.lt_zpow_succ_log_self (b := 2) (by norm_num) x
  generalize Int.log 2 x = e at hlo hhi
  have hu : (0 : ℝ) < (2 : ℝ) ^ (e - 52) := zpow_pos (by norm_num) _
  have e1 : (2 : ℝ) ^ e = 2 ^ 52 * (2 : ℝ) ^ (e - 52) := by
    rw [show e = 52 + (e - 52) by ring, zpow_add₀ (by norm_num)]
    norm_num
  have e2 : (2 : ℝ) ^ (e + 1) = 2 ^ 53 * (2 : ℝ) ^ (e - 52) := by
    rw [show e + 1 = 53 + (e - 52) by ring, zpow_add₀ (by norm_num)]
    norm_num
  have hm : |round (x / (2 : ℝ) ^ (e - 52))| ≤ 2 ^ 53 := by
    have h1 : x / (2 : ℝ) ^ (e - 52) < 2 ^ 53 := (div_lt_iff₀ hu).2 (by rw [← e2]; exact hhi)
    have h2 : 0 ≤ x / (2 : ℝ) ^ (e - 52) := (div_pos hx hu).le
    have b := abs_le.1 (abs_sub_round (x / (2 : ℝ) ^ (e - 52)))
    have c1 : ((round (x / (2 : ℝ) ^ (e - 52)) : ℤ) : ℝ) < ((2 ^ 53 + 1 : ℤ) : ℝ) := by push_cast; linarith [b.1]
    have c2 : ((-1 : ℤ) : ℝ) < ((round (x / (2 : ℝ) ^ (e - 52)) : ℤ) : ℝ) := by push_cast; linarith [b.2]
    rw [Int.cast_lt] at c1 c2
    rw [abs_le]
    omega
  have key : ∀ z : ℤ, |x - (round (x / (2 : ℝ) ^ (e - 52)) : ℝ) * (2 : ℝ) ^ (e - 52)| ≤ |x - z * (2 : ℝ) ^ (e - 52)| := by
    intro z
    have ex : ∀ w : ℝ, x - w * (2 : ℝ) ^ (e - 52) = (x / (2 : ℝ) ^ (e - 52) - w) * (2 : ℝ) ^ (e - 52) := by
      intro w
      rw [sub_mul, div_mul_cancel₀ x hu.ne']
    rw [ex, ex, abs_mul, abs_mul]
    exact mul_le_mul_of_nonneg_right (round_le _ z) (abs_nonneg _)
  refine ⟨_, ⟨round (x / (2 : ℝ) ^ (e - 52)), e - 52, hm, rfl⟩, ?_⟩
  rintro t ⟨m, k, hmk, rfl⟩
  rcases le_or_gt (e - 52) k with hk | hk
  · obtain ⟨n, rfl⟩ : ∃ n : ℕ, k = (e - 52) + n := ⟨(k - (e - 52)).toNat, by omega⟩
    have := key (m * 2 ^ n)
    rw [zpow_add₀ (by norm_num), zpow_natCast]
    have e4 : (m : ℝ) * ((2 : ℝ) ^ (e - 52) * 2 ^ n) = ((m * 2 ^ n : ℤ) : ℝ) * (2 : ℝ) ^ (e - 52) := by push_cast; ring
    rw [e4]
    exact this
  · have h0 := key (2 ^ 52)
    have ht : (m : ℝ) * (2 : ℝ) ^ k ≤ (2 : ℝ) ^ e := by
      have hm' : (m : ℝ) ≤ 2 ^ 53 := by exact_mod_cast (abs_le.1 hmk).2
      have hk' : (2 : ℝ) ^ k ≤ (2 : ℝ) ^ (e - 53) := zpow_le_zpow_right₀ (by norm_num) (by omega)
      have e5 : (2 : ℝ) ^ e = 2 ^ 53 * (2 : ℝ) ^ (e - 53) := by
        rw [show e = 53 + (e - 53) by ring, zpow_add₀ (by norm_num)]
        norm_num
      have p0 : (0 : ℝ) < (2 : ℝ) ^ k := zpow_pos (by norm_num) k
      calc (m : ℝ) * (2 : ℝ) ^ k ≤ 2 ^ 53 * (2 : ℝ) ^ k := mul_le_mul_of_nonneg_right hm' p0.le
        _ ≤ 2 ^ 53 * (2 : ℝ) ^ (e - 53) := mul_le_mul_of_nonneg_left hk' (by norm_num)
        _ = _ := e5.symm
    rw [show (((2 ^ 52 : ℤ) : ℝ)) = 2 ^ 52 by norm_num, ← e1, abs_of_nonneg (by linarith : (0 : ℝ) ≤ x - (2 : ℝ) ^ e)] at h0
    rw [abs_of_nonneg (by linarith : (0 : ℝ) ≤ x - (m : ℝ) * (2 : ℝ) ^ k)]
    linarith

/-- The third block row of 3 × 3 blocks, block 9: `int((9 - 1) / 3) + 1` is 3, although 8/3 is rounded. -/
example : ∃ r, IsRounded (((8 : ℕ) : ℝ) / (3 : ℕ)) r ∧ ⌊r⌋ = 2 := by
  obtain ⟨r, hr⟩ := rounded_exists (((8 : ℕ) : ℝ) / (3 : ℕ)) (by positivity)
  exact ⟨r, hr, C103_floor 8 3 (by norm_num) (by norm_num) r hr⟩
/-- The last pixel of a block of 250 × 250 pixels in the twentieth block row is in line 5000. -/
example : ∃ r₁ r₂ r₃, IsRounded (((62499 : ℕ) : ℝ) / (250 : ℕ)) r₁ ∧ IsRounded (r₁ + (4750 : ℕ)) r₂ ∧ IsRounded (r₂ + 1) r₃ ∧
    ⌊r₃⌋ = 5000 := by
  obtain ⟨r₁, h₁⟩ := rounded_exists (((62499 : ℕ) : ℝ) / (250 : ℕ)) (by positivity)
  have l1 := step_low _ _ h₁ 0 (by norm_num) (by push_cast; positivity)
  push_cast at l1
  obtain ⟨r₂, h₂⟩ := rounded_exists (r₁ + (4750 : ℕ)) (by positivity)
  have l2 := step_low _ _ h₂ 0 (by norm_num) (by push_cast; linarith)
  push_cast at l2
  obtain ⟨r₃, h₃⟩ := rounded_exists (r₂ + 1) (by linarith)
  exact ⟨r₁, r₂, r₃, h₁, h₂, h₃, C103_sum 62499 250 4750 (by norm_num) (by norm_num) r₁ r₂ r₃ h₁ h₂ h₃⟩
/-- 7 / 2 is 3.5, a double. -/
example : IsRounded (((7 : ℕ) : ℝ) / (2 : ℕ)) (7 / 2) ∧ ⌊(7 / 2 : ℝ)⌋ = 3 ∧ ⌈(7 / 2 : ℝ)⌉ = 4 := by
  have h : IsRounded (((7 : ℕ) : ℝ) / (2 : ℕ)) (7 / 2) :=
    ⟨⟨7, -1, by norm_num, by norm_num⟩, fun s _ => by norm_num⟩
  exact ⟨h, C103_floor 7 2 (by norm_num) (by norm_num) _ h, C103_ceil 7 2 (by norm_num) (by norm_num) _ h⟩

end Pycold.Double
