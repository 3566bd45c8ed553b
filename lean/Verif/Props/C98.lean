import Verif.Model.Utils
import Verif.Spec.Utils
import Mathlib.Tactic.ByContra
/-!
# Property C98: the index image

`generate_rowcolimage` gives an image that names the line and the column of every pixel, for square reference images with one
band.  For other reference images it does not (`C98_exactly`): images that are not square raise (width and height are passed to
`Create` in the wrong order), images with several bands give an image whose other lines are 0.
-/
namespace Pycold.Utils
open Pycold.Utils.Spec

theorem int32_id {v : Int} (h : 0 ≤ v) (h' : v ≤ 2147483647) : int32 v = v := by unfold int32; omega

/-- When `generate_rowcolimage` gives the index image of its reference image: when this has as many lines as columns, and one
band (or as many bands as lines). -/
theorem C98_exactly (bands rows cols : Nat) (hr : 1 ≤ rows) (hc : 1 ≤ cols) (hb : 1 ≤ bands)
    (hfit : 10000 * rows + cols ≤ 2147483647) :
    (∃ f, rowcolImage bands rows cols = some f ∧ IsIndex f.ysize f.xsize f.pixel rows cols) ↔
      rows = cols ∧ (bands = 1 ∨ bands = rows) := by
  unfold rowcolImage shape2 writeArray
  constructor
  · rintro ⟨f, hf, h1, h2, h3⟩
    dsimp only at hf
    by_cases hb1 : bands = 1
    · refine ⟨?_, Or.inl hb1⟩
      rw [if_pos hb1] at hf
      dsimp only at hf
      split at hf
      · omega
      · cases hf
    rw [if_neg hb1] at hf
    dsimp only at hf
    split at hf
    · rename_i hle
      obtain rfl := Option.some.inj hf
      dsimp only at h1 h2 h3
      refine ⟨h2, Or.inr ?_⟩
      by_contra hb2
      have := h3 bands 0 (by omega) (by omega)
      rw [if_neg (by omega)] at this
      omega
    · cases hf
  · rintro ⟨rfl, hb'⟩
    have hs : (if bands = 1 then (rows, rows) else (bands, rows)) = (rows, rows) := by
      rcases hb' with rfl | rfl
      · rfl
      · split <;> rfl
    rw [hs]
    dsimp only
    rw [if_pos ⟨Nat.le_refl _, Nat.le_refl _⟩]
    refine ⟨_, rfl, rfl, rfl, fun i j hi hj => ?_⟩
    dsimp only
    rw [if_pos ⟨hi, hj⟩, int32_id (by omega) (by omega)]
    omega

/-- In an index image of at most 9999 columns the pixel value names the line and the column; pixels of an index image have
different values exactly if it has at most 10000 columns or only one line. -/
theorem C98_names (ysize xsize : Nat) (pixel : Nat → Nat → Int) (rows cols : Nat) (h : IsIndex ysize xsize pixel rows cols) :
    (cols ≤ 9999 → ∀ i j, i < rows → j < cols → pixel i j / 10000 = i + 1 ∧ pixel i j % 10000 = j + 1) ∧
    ((∀ i j i' j', i < rows → j < cols → i' < rows → j' < cols → pixel i j = pixel i' j' → i = i' ∧ j = j') ↔
      cols ≤ 10000 ∨ rows ≤ 1) := by
  obtain ⟨-, -, h3⟩ := h
  refine ⟨fun hc i j hi hj => ?_, fun hinj => ?_, fun hc i j i' j' hi hj hi' hj' he => ?_⟩
  · rw [h3 i j hi hj]; omega
  · by_contra hc
    have := hinj 0 10000 1 0 (by omega) (by omega) (by omega) (by omega)
      (by rw [h3 0 10000 (by omega) (by omega), h3 1 0 (by omega) (by omega)]; rfl)
    omega
  · rw [h3 i j hi hj, h3 i' j' hi' hj'] at he
    omega

/-- A reference image with one band that is not square raises. -/
theorem C98_rectangular (rows cols : Nat) (h : rows ≠ cols) : rowcolImage 1 rows cols = none := by
  unfold rowcolImage shape2 writeArray
  dsimp only
  rw [if_pos rfl, if_neg]
  dsimp only
  omega

/-- With several bands: the lines from the number of bands on are 0, if anything is written. -/
theorem C98_bands (bands rows cols : Nat) (hb : 2 ≤ bands) :
    (cols < bands → rowcolImage bands rows cols = none) ∧
    (bands ≤ cols → ∃ f, rowcolImage bands rows cols = some f ∧ f.ysize = cols ∧ f.xsize = rows ∧
      ∀ i j, bands ≤ i → f.pixel i j = 0) := by
  unfold rowcolImage shape2 writeArray
  dsimp only
  rw [if_neg (show ¬ bands = 1 by omega)]
  dsimp only
  refine ⟨fun h => if_neg (by omega), fun h => ?_⟩
  rw [if_pos ⟨Nat.le_refl _, h⟩]
  refine ⟨_, rfl, rfl, rfl, fun i j hi => ?_⟩
  dsimp only
  rw [if_neg (by omega)]

/-! ## Concrete cases -/

/-- An image of 5000 × 5000 pixels (an ARD tile): the pixel in line 4 and column 2 (from 0) is 50003. -/
example : ∃ f, rowcolImage 1 5000 5000 = some f ∧ IsIndex f.ysize f.xsize f.pixel 5000 5000 ∧ f.pixel 4 2 = 50003 :=
  have ⟨f, h, h'⟩ := (C98_exactly 1 5000 5000 (by omega) (by omega) (by omega) (by omega)).2 ⟨rfl, Or.inl rfl⟩
  ⟨f, h, h', h'.2.2 4 2 (by omega) (by omega)⟩
example : ¬ ∃ f, rowcolImage 3 5000 5000 = some f ∧ IsIndex f.ysize f.xsize f.pixel 5000 5000 := fun h =>
  absurd ((C98_exactly 3 5000 5000 (by omega) (by omega) (by omega) (by omega)).1 h) (by omega)
example : (rowcolImage 1 2 2).map (fun f => [f.pixel 0 0, f.pixel 0 1, f.pixel 1 0, f.pixel 1 1]) =
    some [10001, 10002, 20001, 20002] := by decide
example : (rowcolImage 1 2 3).isNone = true := by decide

end Pycold.Utils
