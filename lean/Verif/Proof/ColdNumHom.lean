import Verif.Model.ColdNum
import Verif.Proof.ColdVHom
/-! Restricting the program to some of the bands. -/
namespace Pycold.ColdNum

open Pycold.ColdV (Row Kit Hom)

variable {F B B' : Type}

/-- The same solvers and settings, for the bands named by `ι`. -/
def Env.along (E : Env F B') (ι : B' → B) : Env F B :=
  { A := E.A, lasso := E.lasso, robust := E.robust, blist := E.blist.map ι, green := ι E.green,
    swir := ι E.swir, tcg := E.tcg }

theorem bandOf_restrict (ι : B' → B) (b : B') (rows : List (Row (B → F))) :
    bandOf b (rows.map (Row.map (fun y => y ∘ ι))) = bandOf (ι b) rows := by
  unfold bandOf
  rw [List.map_map]
  rfl

theorem dates_restrict (ι : B' → B) (rows : List (Row (B → F))) :
    (rows.map (Row.map (fun y => y ∘ ι))).map (·.date) = rows.map (·.date) := by
  rw [List.map_map]
  rfl

theorem fit_restrict (E : Env F B') (ι : B' → B) (c : Int) (l : List (Row (B → F))) :
    fitAll E c (l.map (Row.map (fun y => y ∘ ι))) = fitAll (E.along ι) c l ∘ ι := by
  funext b
  show fitBand E c _ _ = fitBand (E.along ι) c _ _
  rw [bandOf_restrict, dates_restrict]
  rfl

theorem mask_restrict (E : Env F B') (ι : B' → B) (rmin : B → F) (l : List (Row (B → F))) :
    mask E (rmin ∘ ι) (l.map (Row.map (fun y => y ∘ ι))) = mask (E.along ι) rmin l := by
  funext k
  unfold mask
  simp only [dates_restrict, bandOf_restrict, List.getElem?_map]
  cases l[k]? <;> rfl

/-- Forgetting bands commutes with every numerical function of the program. -/
def restrict (E : Env F B') (ι : B' → B) (rmin : B → F) (series : List (Row (B → F))) :
    Hom series (kit (E.along ι) rmin) (kit E (rmin ∘ ι)) where
  y := fun y => y ∘ ι
  m := fun m => m ∘ ι
  d := fun d => d ∘ ι
  g := fun g => g ∘ ι
  N := rfl
  fit := fun c l _ _ _ => fit_restrict E ι c l
  mask := fun l _ _ => mask_restrict E ι rmin l
  unstable := by
    intro x l
    show unstable E _ _ _ = unstable (E.along ι) rmin x l
    unfold unstable
    simp only [dates_restrict]
    show E.A.lt E.tcg _ = E.A.lt E.tcg (List.foldl _ _ (E.blist.map ι))
    rw [List.foldl_map]
    rfl
  score := by
    intro c x r
    show zColumn E _ _ _ = _
    unfold zColumn
    refine Prod.ext ?_ (Prod.ext ?_ rfl)
    · show _ = List.foldl _ _ (E.blist.map ι)
      rw [List.foldl_map]
      rfl
    · show _ = (E.blist.map ι).map _
      rw [List.map_map]
      rfl
  near := by
    intro c q x x' ds r
    show zColumn E _ _ _ = _
    unfold zColumn
    refine Prod.ext ?_ (Prod.ext ?_ rfl)
    · show _ = List.foldl _ _ (E.blist.map ι)
      rw [List.foldl_map]
      rfl
    · show _ = (E.blist.map ι).map _
      rw [List.map_map]
      rfl
  skip := rfl
  cm := rfl
  magn := by
    intro l
    funext b
    show median E.A _ = median E.A _
    rw [List.map_map]
    rfl
  magnNeg := by
    intro l
    funext b
    show E.A.neg (median E.A _) = E.A.neg (median E.A _)
    rw [List.map_map]
    rfl
  magn0 := rfl

end Pycold.ColdNum
