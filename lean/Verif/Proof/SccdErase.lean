import Verif.Model.SccdNum
import Verif.Spec.SccdTrack
/-!
# S-CCD: an observation passed over leaves no trace in the filter
-/
namespace Pycold.SccdNum
open Pycold.Sccd (Obs Erases)
variable {F P B : Type}

theorem regular_split (E : Env F P B) (H y : F) (t u d : Int) (r : Run F P) (h1 : t < u) (h2 : u ≤ d) :
    regular E H y t d r =
      { regular E H y t u r with cov := E.missing^[(d - u).toNat] (regular E H y t u r).cov } := by
  unfold regular
  obtain ⟨a, ha⟩ : ∃ a, (u - t).toNat = a + 1 := ⟨(u - t).toNat - 1, by omega⟩
  have hd : (d - t).toNat = ((d - u).toNat + a) + 1 := by omega
  rw [ha, hd]
  simp only
  rw [Function.iterate_add_apply]

/-- The last step of the first pass leads from the last observation to the next one; the value of the next
one is not used. -/
theorem ssmRun_last (E : Env F P B) (H : F) (b n n' : Int × F) (h1 : b.1 < n.1) (h2 : n.1 ≤ n'.1) :
    ∀ (l : List (Int × F)) (k : Nat) (r : Run F P) (s : Int),
      ssmRun E H (l ++ [b, n']) k r s =
        ({ (ssmRun E H (l ++ [b, n]) k r s).1 with
            cov := E.missing^[(n'.1 - n.1).toNat] (ssmRun E H (l ++ [b, n]) k r s).1.cov },
         (ssmRun E H (l ++ [b, n]) k r s).2)
  | [], k, r, s => by
    simp only [List.nil_append, ssmRun]
    rw [regular_split E H b.2 b.1 n.1 n'.1 r h1 h2]
  | [a], k, r, s => by
    simp only [List.cons_append, List.nil_append]
    unfold ssmRun
    exact ssmRun_last E H b n n' h1 h2 [] _ _ _
  | a :: c :: l, k, r, s => by
    simp only [List.cons_append]
    unfold ssmRun
    exact ssmRun_last E H b n n' h1 h2 (c :: l) _ _ _

theorem extend_last (A : ColdNum.Fl F) {win : List (Int × F)} {b : Int × F} (h : win.getLast? = some b) :
    ∃ l, ∀ n, extend A win n = l ++ [b, n] := by
  obtain ⟨a, ha⟩ : ∃ a, win.head? = some a := by
    cases win with
    | nil => simp at h
    | cons x xs => exact ⟨x, rfl⟩
  obtain ⟨init, hw⟩ := List.getLast?_eq_some_iff.mp h
  refine ⟨win.map (fun p => (shift A (yearRange A (b.1 - a.1 + 1)) p.1, p.2)) ++ init, fun n => ?_⟩
  unfold extend
  rw [ha, h]
  simp only
  have hz : win ++ [n] = init ++ [b, n] := by
    conv => lhs; rw [hw]
    simp
  rw [List.append_assoc, hz, List.append_assoc]

/-- Passing over an observation leaves no trace: whatever arithmetic, solvers and matrix routines are. -/
theorem num_erases (E : Env F P B) (rmin : B → Int) : Erases (num E rmin) where
  filter := by
    intro f x o d h1 h2
    funext b
    simp only [num, skip, filter]
    rw [regular_split E (f b).H (value E b x) x.date o.date d _ h1 h2]
  fit := by
    intro p w x o nx hl h1 h2
    funext b
    simp only [num, skip, fit, ssmInit]
    have hs : (series E b w).getLast? = some (x.date, value E b x) := by
      unfold series
      rw [List.getLast?_map, hl]; rfl
    obtain ⟨l, hx⟩ := extend_last E.base.A hs
    rw [hx, hx]
    rw [ssmRun_last E _ (x.date, value E b x) (o.date, value E b o) (nx.date, value E b nx) h1 h2 l]

end Pycold.SccdNum
