import Verif.Proof.SccdMap
import Verif.Props.C46_C61
/-!
# C84: break maps of S-CCD
-/
namespace Pycold.ChangeMap

open Spec

/-- **C84.** No break of the pixel in the year: the break map has −9999 there.  Any packs whose positions lie in
the block. -/
theorem C84_no_break (B : Block) (plots : List Plot) (hat : ∀ p ∈ plots, ∃ i j, At B p.position i j) :
    ∃ map, sccdMaps B plots = .ok map ∧ ∀ y q i j, At B q i j →
      (∀ p ∈ plots, p.position = q → ∀ r, ¬ SccdBreak p y r) → map y i j = -9999 := by
  obtain ⟨map, h1, h2, _, _⟩ := plotsSccd_ok plots 0 (fun _ _ _ => -9999) hat (Nat.zero_add _)
  exact ⟨map, h1, h2⟩

/-- **C84, partial.** Packs whose positions lie in the block, one for each pixel, with the breaks in the order of
their dates.  For every pixel but that of the last pack, the break map of a year gives the kind of the last break
of the year, times 1000, plus the day of the year.

Missing: the last pack, see `C84_last_pixel_empty`. -/
theorem C84_break_map_partial (B : Block) (plots : List Plot) (hat : ∀ p ∈ plots, ∃ i j, At B p.position i j)
    (ho : OnePack plots) (hc : Chronological plots) : ∃ map, sccdMaps B plots = .ok map ∧
      ∀ y p i j r, p ∈ plots.dropLast → At B p.position i j → B.low ≤ y → y ≤ B.upp → SccdLast p y r →
        map y i j = sccdKind r * 1000 + (r.tBreak - Pycold.Spec.ordinal y 1 + 1) := by
  obtain ⟨map, h1, _, _, h4⟩ := plotsSccd_ok plots 0 (fun _ _ _ => -9999) hat (Nat.zero_add _)
  exact ⟨map, h1, h4 ho hc⟩

/-- **C84, refuted for the last pack of every block.** Whatever its breaks, the pixel of the last pack has −9999 in
all years. -/
theorem C84_last_pixel_empty (B : Block) (plots : List Plot) (last : Plot)
    (hat : ∀ p ∈ plots ++ [last], ∃ i j, At B p.position i j) (ho : OnePack (plots ++ [last])) :
    ∃ map, sccdMaps B (plots ++ [last]) = .ok map ∧
      ∀ y i j, At B last.position i j → map y i j = -9999 := by
  obtain ⟨map, h1, _, h3, _⟩ := plotsSccd_ok (plots ++ [last]) 0 (fun _ _ _ => -9999) hat (Nat.zero_add _)
  refine ⟨map, h1, fun y i j hj => h3 last.position i j hj ?_ y⟩
  intro p hp e
  rw [List.dropLast_concat] at hp
  exact (List.pairwise_append.mp ho).2.2 p hp last (List.mem_singleton.mpr rfl) e

-- two pixels, each with two breaks, of 2001 and 2004: the first one is shown, the second one is not
def samplePlots : List Plot :=
  [⟨13, [sample 0 730200 730500 700 1, sample 0 730600 731600 100 1]⟩,
   ⟨14, [sample 0 730200 730500 700 1, sample 0 730600 731600 100 1]⟩]

example : cell (sccdMaps sampleBlock samplePlots) 2001 1 2 = 1000 + 15 ∧
    cell (sccdMaps sampleBlock samplePlots) 2004 1 2 = 2000 + 20 ∧
    cell (sccdMaps sampleBlock samplePlots) 2001 1 3 = -9999 := by
  decide +kernel

example : OnePack samplePlots ∧ Chronological samplePlots ∧
    SccdLast ⟨13, [sample 0 730200 730500 700 1, sample 0 730600 731600 100 1]⟩ 2004 (sample 0 730600 731600 100 1) ∧
    At sampleBlock 13 1 2 ∧ At sampleBlock 14 1 3 := by
  refine ⟨?_, ?_, ⟨⟨by simp, by decide, by decide, by decide⟩, ?_⟩, ?_, ?_⟩
  · simp [OnePack, samplePlots]
  · intro p hp
    rcases List.mem_pair.mp hp with rfl | rfl <;> simp [sample]
  · rintro s ⟨hs, _⟩
    rcases List.mem_pair.mp hs with rfl | rfl <;> decide
  · exact ⟨by decide, by decide, by decide, by decide, by decide, by decide⟩
  · exact ⟨by decide, by decide, by decide, by decide, by decide, by decide⟩

/-- **C84: a position to the left of the block.** COLD stops the export of the block; S-CCD only prints a message,
and writes the break into another pixel of the block: here position 15, the
last column of the first block, read with the second block, is written to the last column of that block, position 20. -/
theorem C84_left_of_block : At ⟨10, 5, 5, 2, 1, 2000, 2010⟩ 20 1 4 ∧
    cell (sccdMaps ⟨10, 5, 5, 2, 1, 2000, 2010⟩ [⟨15, [sample 0 730200 730500 700 1]⟩, ⟨16, []⟩]) 2001 1 4 = 1000 + 15 ∧
    breakMaps .cold ⟨10, 5, 5, 2, 1, 2000, 2010⟩ [sample 15 730200 730500 700 1, sample 15 730600 0 0 1] = .returned := by
  refine ⟨⟨by decide, by decide, by decide, by decide, by decide, by decide⟩, by decide +kernel, ?_⟩
  rfl

end Pycold.ChangeMap
