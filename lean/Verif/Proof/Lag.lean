import Mathlib.Data.List.GetD
import Verif.Proof.Misc
/-! The lag search of the date-gap adjusted variogram. -/
namespace Pycold.Misc

theorem lagDiffs_beyond {dates : List Int} {step : Nat} (h : dates.length ≤ step) :
    lagDiffs dates step = [] := by
  simp [lagDiffs, Nat.sub_eq_zero_of_le h]

theorem majority_last (dates : List Int) (n : Nat) (hn : dates.length = n + 2) :
    majority dates (n + 1) = ((dates.getD (n + 1) 0 - dates.getD 0 0).natAbs : Int) := by
  have : dates.length - (n + 1) = 1 := by omega
  simp [majority, lagDiffs, this, histogram, addDiff, majorityLoop]

theorem lagSearch_upto (dates : List Int) (last : Nat) (hlast : 31 ≤ majority dates last) :
    ∀ (d step f : Nat), step + d = last → d + 1 ≤ f →
      ∃ s, lagSearch dates f step = .ok s ∧ step ≤ s ∧ s ≤ last ∧ 31 ≤ majority dates s := by
  intro d
  induction d with
  | zero =>
    intro step f hs hf
    cases f with
    | zero => omega
    | succ f =>
      have : step = last := by omega
      subst this
      rw [lagSearch, if_neg (by omega)]
      exact ⟨step, rfl, Nat.le_refl _, Nat.le_refl _, hlast⟩
  | succ d ih =>
    intro step f hs hf
    cases f with
    | zero => omega
    | succ f =>
      rw [lagSearch]
      by_cases h : majority dates step < 31
      · rw [if_pos h]
        obtain ⟨s, h1, h2, h3, h4⟩ := ih (step + 1) f (by omega) (by omega)
        exact ⟨s, h1, by omega, h3, h4⟩
      · rw [if_neg h]
        exact ⟨step, rfl, Nat.le_refl _, by omega, by omega⟩

theorem lagSearch_never (dates : List Int) (h : ∀ step, majority dates step < 31) (f step : Nat) :
    lagSearch dates f step = .error .fuel := by
  induction f generalizing step with
  | zero => rfl
  | succ f ih => rw [lagSearch, if_pos (h step)]; exact ih _

theorem lagPairs_pos (dates : List Int) (hs : dates.Pairwise (· ≤ ·)) (step : Nat) (h : 31 ≤ majority dates step) :
    1 ≤ lagPairs dates step := by
  rcases majority_mem dates step with h0 | hm
  · omega
  · simp only [lagDiffs, List.mem_map, List.mem_range] at hm
    obtain ⟨j, hj, he⟩ := hm
    have hlen : j + step < dates.length := by omega
    have hle : dates.getD j 0 ≤ dates.getD (j + step) 0 := by
      rw [List.getD_eq_getElem _ _ hlen, List.getD_eq_getElem _ _ (by omega : j < dates.length)]
      rcases Nat.eq_zero_or_pos step with h0 | h0
      · subst h0; simp
      · exact (List.pairwise_iff_getElem.mp hs) j (j + step) _ _ (by omega)
    apply List.length_pos_of_mem (a := j)
    simp only [List.mem_filter, List.mem_range, decide_eq_true_eq]
    exact ⟨hj, by omega⟩

end Pycold.Misc
