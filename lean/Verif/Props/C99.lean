import Verif.Model.Utils
import Mathlib.Tactic.Ring
/-!
# Property C99: the dataset description read from the configuration

`class_from_dict(DatasetInfo, d)`: four entries of the dictionary decide; other entries and the order of entries do not matter;
a missing entry or a block count of 0 raises; the derived numbers are those of the blocks.
-/
namespace Pycold.Utils

theorem lookup_filter (d : Dict) (k : String) (hk : k ∈ initFields) :
    (d.filter fun kv => kv.1 ∈ initFields).lookup k = d.lookup k := by
  induction d with
  | nil => rfl
  | cons kv d ih =>
    obtain ⟨a, v⟩ := kv
    by_cases h : a ∈ initFields
    · rw [List.filter_cons_of_pos (by simpa using h), List.lookup_cons, List.lookup_cons, ih]
    · rw [List.filter_cons_of_neg (by simpa using h), List.lookup_cons, ih]
      have : (k == a) = false := by
        rw [beq_eq_false_iff_ne]
        rintro rfl
        exact h hk
      rw [this]

theorem classFromDict_eq (d : Dict) : classFromDict d =
    (d.lookup "n_rows").bind fun r => (d.lookup "n_cols").bind fun c => (d.lookup "n_block_x").bind fun x =>
      (d.lookup "n_block_y").bind fun y => makeInfo r c x y := by
  unfold classFromDict
  dsimp only
  rw [lookup_filter d "n_rows" (by decide), lookup_filter d "n_cols" (by decide), lookup_filter d "n_block_x" (by decide),
    lookup_filter d "n_block_y" (by decide)]

/-- The description that is made from a dictionary with the four entries. -/
theorem C99_made (d : Dict) (r c x y : Nat) (hr : d.lookup "n_rows" = some r) (hc : d.lookup "n_cols" = some c)
    (hx : d.lookup "n_block_x" = some x) (hy : d.lookup "n_block_y" = some y) (h : 0 < x ∧ 0 < y) :
    ∃ i, classFromDict d = some i ∧ i.nRows = r ∧ i.nCols = c ∧ i.nBlockX = x ∧ i.nBlockY = y ∧ i.nblocks = x * y ∧
      (i.blockWidth * x ≤ c ∧ c < (i.blockWidth + 1) * x) ∧ (i.blockHeight * y ≤ r ∧ r < (i.blockHeight + 1) * y) := by
  refine ⟨⟨r, c, x, y, x * y, c / x, r / y⟩, ?_, rfl, rfl, rfl, rfl, rfl, ⟨Nat.div_mul_le_self _ _, ?_⟩,
    Nat.div_mul_le_self _ _, ?_⟩
  · rw [classFromDict_eq, hr, hc, hx, hy]
    simp only [Option.bind_some]
    rw [makeInfo, if_neg (by omega)]
  · exact (Nat.div_lt_iff_lt_mul h.1).1 (Nat.lt_succ_self _)
  · exact (Nat.div_lt_iff_lt_mul h.2).1 (Nat.lt_succ_self _)

/-- It raises exactly if one of the four entries is missing or a block count is 0. -/
theorem C99_raises (d : Dict) : classFromDict d = none ↔
    d.lookup "n_rows" = none ∨ d.lookup "n_cols" = none ∨ d.lookup "n_block_x" = none ∨ d.lookup "n_block_y" = none ∨
      d.lookup "n_block_x" = some 0 ∨ d.lookup "n_block_y" = some 0 := by
  rw [classFromDict_eq]
  cases d.lookup "n_rows" <;> cases d.lookup "n_cols" <;> cases d.lookup "n_block_x" <;> cases d.lookup "n_block_y" <;>
    simp [makeInfo, Classical.or_iff_not_imp_left]

/-- Dictionaries that agree on the four entries give the same, whatever else they contain. -/
theorem C99_others (d d' : Dict) (h : ∀ k ∈ ["n_rows", "n_cols", "n_block_x", "n_block_y"], d.lookup k = d'.lookup k) :
    classFromDict d = classFromDict d' := by
  rw [classFromDict_eq, classFromDict_eq, h "n_rows" (by decide), h "n_cols" (by decide), h "n_block_x" (by decide),
    h "n_block_y" (by decide)]

/-- The blocks cover the dataset exactly if the block counts divide its sides. -/
theorem C99_cover (r c x y : Nat) (i : DatasetInfo) (h : makeInfo r c x y = some i) (hr : 0 < r) (hc : 0 < c) :
    i.nblocks * (i.blockWidth * i.blockHeight) = r * c ↔ x ∣ c ∧ y ∣ r := by
  unfold makeInfo at h
  split at h
  · cases h
  rename_i hxy
  obtain rfl := Option.some.inj h
  dsimp only
  have e : x * y * (c / x * (r / y)) = (c / x * x) * (r / y * y) := by ring
  rw [e]
  have hx := Nat.div_mul_le_self c x
  have hy := Nat.div_mul_le_self r y
  constructor
  · intro heq
    have h1 : c / x * x = c := by
      rcases Nat.lt_or_ge (c / x * x) c with hlt | hge
      · have a1 : c / x * x * (r / y * y) ≤ c / x * x * r := Nat.mul_le_mul_left _ hy
        have a2 : c / x * x * r < c * r := Nat.mul_lt_mul_of_pos_right hlt hr
        have a3 : r * c = c * r := Nat.mul_comm _ _
        omega
      · omega
    have h2 : r / y * y = r := by
      rw [h1] at heq
      have : c * (r / y * y) = c * r := by rw [heq, Nat.mul_comm]
      exact Nat.eq_of_mul_eq_mul_left hc this
    exact ⟨⟨c / x, by rw [Nat.mul_comm]; exact h1.symm⟩, ⟨r / y, by rw [Nat.mul_comm]; exact h2.symm⟩⟩
  · rintro ⟨h1, h2⟩
    rw [Nat.div_mul_cancel h1, Nat.div_mul_cancel h2, Nat.mul_comm]

/-! ## Concrete cases -/

example : classFromDict [("n_cols", 5000), ("remark", 7), ("n_rows", 5000), ("n_block_y", 20), ("n_block_x", 20)] =
    some ⟨5000, 5000, 20, 20, 400, 250, 250⟩ := by decide
example : classFromDict [("n_cols", 5000), ("n_rows", 5000), ("n_block_y", 20)] = none := by decide
example : ∃ i, makeInfo 5000 5000 20 30 = some i ∧ i.nblocks * (i.blockWidth * i.blockHeight) ≠ 5000 * 5000 :=
  ⟨_, rfl, by decide⟩

end Pycold.Utils
