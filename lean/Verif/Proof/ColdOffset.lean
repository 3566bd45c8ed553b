import Verif.Proof.GlmnetOffset
import Verif.Proof.ColdStep
/-! A constant added to the values of a band (C81). -/
namespace Pycold.ColdNum

open ColdNum.Spec ColdV.Spec
open Pycold.Glmnet (getD_zero_offset getD_succ_offset)
open Pycold.ColdV (Kit Hom)

variable {B : Type}

/-- The fit of the shifted values. -/
noncomputable def Fit.offset (δ : ℝ) (f : Fit ℝ) : Fit ℝ := ⟨Glmnet.offset δ f.coefs, f.rmse, f.dif⟩

/-- The values of the bands, each with its constant added. -/
noncomputable def plus (δ : B → ℝ) (y : B → ℝ) : B → ℝ := fun b => y b + δ b

theorem bandOf_plus (δ : B → ℝ) (rows : List (ColdV.Row (B → ℝ))) (b : B) :
    bandOf b (rows.map (ColdV.Row.map (plus δ))) = (bandOf b rows).map (· + δ b) := by
  unfold bandOf
  rw [List.map_map, List.map_map]
  rfl

theorem dates_plus (δ : B → ℝ) (rows : List (ColdV.Row (B → ℝ))) :
    (rows.map (ColdV.Row.map (plus δ))).map (·.date) = rows.map (·.date) := by
  rw [List.map_map]
  rfl

theorem predict_offset (df : Int) (cf : List ℝ) (δ : ℝ) (t : Int) :
    predict exact df (Glmnet.offset δ cf) t = predict exact df cf t + δ := by
  have hz : exact.zero = (0 : ℝ) := by simp [Fl.zero, exact]
  unfold predict
  simp only [hz, getD_zero_offset, getD_succ_offset δ cf 0, getD_succ_offset δ cf 1, getD_succ_offset δ cf 2,
    getD_succ_offset δ cf 3, getD_succ_offset δ cf 4, getD_succ_offset δ cf 5, getD_succ_offset δ cf 6]
  simp only [exact]
  split
  · split <;> ring
  · ring

theorem storeCoefs_offset {df : Int} (hdf : 0 < df) (cfs : List ℝ) (δ : ℝ) :
    storeCoefs exact df (Glmnet.offset δ cfs) = Glmnet.offset δ (storeCoefs exact df cfs) := by
  have hz : exact.zero = (0 : ℝ) := by simp [Fl.zero, exact]
  unfold storeCoefs
  rw [hz]
  simp only [List.range, List.range.loop, List.map_cons, List.map_nil]
  conv_rhs => unfold Glmnet.offset
  rw [getD_zero_offset, getD_succ_offset δ cfs 0, getD_succ_offset δ cfs 1, getD_succ_offset δ cfs 2,
    getD_succ_offset δ cfs 3, getD_succ_offset δ cfs 4, getD_succ_offset δ cfs 5, getD_succ_offset δ cfs 6]
  simp [hdf]

theorem design_pos (df : Int) (t : Int) : 0 < (design exact df t).length := by
  unfold design
  simp

theorem fitBand_offset {E : Env ℝ (B)} (hA : E.A = exact) {fuel : ℕ} (hf : 200000001 ≤ fuel)
    (hE : E.lasso = Glmnet.lasso fuel) {df : Int} (hdf : 0 < df) {dates : List Int}
    (hs : dates.Pairwise (· < ·)) (h2 : 2 ≤ dates.length) {ys : List ℝ} (hl : ys.length = dates.length) (δ : ℝ) :
    fitBand E df dates (ys.map (· + δ)) = (fitBand E df dates ys).offset δ := by
  have hlasso : E.lasso (dates.map (design E.A df)) (ys.map (· + δ)) =
      Glmnet.offset δ (E.lasso (dates.map (design E.A df)) ys) := by
    rw [hA, hE]
    refine Glmnet.lasso_offset hf (by rw [List.length_map, hl]) (i := 0) (j := 1)
      (by rw [List.length_map]; omega) (by rw [List.length_map]; omega) ?_ ?_ δ
    · intro r hr
      obtain ⟨t, _, rfl⟩ := List.mem_map.1 hr
      exact design_pos df t
    · rw [List.getD_eq_getElem (dates.map _) _ (n := 0) (by rw [List.length_map]; omega),
        List.getD_eq_getElem (dates.map _) _ (n := 1) (by rw [List.length_map]; omega), List.getElem_map,
        List.getElem_map]
      have := List.pairwise_iff_getElem.1 hs 0 1 (by omega) (by omega) (by omega)
      show ((dates[0] : ℤ) : ℝ) ≠ ((dates[1] : ℤ) : ℝ)
      exact_mod_cast this.ne
  have hdif : List.zipWith (fun y t => E.A.sub y (predict E.A df
      (storeCoefs E.A df (E.lasso (dates.map (design E.A df)) (ys.map (· + δ)))) t)) (ys.map (· + δ)) dates =
      List.zipWith (fun y t => E.A.sub y (predict E.A df
        (storeCoefs E.A df (E.lasso (dates.map (design E.A df)) ys)) t)) ys dates := by
    rw [List.zipWith_map_left, hlasso, hA, storeCoefs_offset hdf]
    congr 1
    funext y t
    rw [predict_offset]
    show y + δ - _ = y - _
    ring
  unfold fitBand Fit.offset
  dsimp only
  rw [hdif, hlasso, hA, storeCoefs_offset hdf]

theorem variogram_offset (ys : List ℝ) (δ : ℝ) : variogram exact (ys.map (· + δ)) = variogram exact ys := by
  unfold variogram
  congr 1
  rw [← List.map_tail, List.zipWith_map]
  congr 1
  funext a b
  have : exact.sub (b + δ) (a + δ) = exact.sub b a := by show b + δ - (a + δ) = b - a; ring
  rw [this]

theorem difs_offset {E : Env ℝ (B)} (hA : E.A = exact) (c : Int) (δ : B → ℝ) (m : B → Fit ℝ)
    (r : ColdV.Row (B → ℝ)) : difs E c (fun b => (m b).offset (δ b)) (r.map (plus δ)) = difs E c m r := by
  funext b
  unfold difs
  show E.A.sub (r.y b + δ b) (predict E.A c (Glmnet.offset (δ b) (m b).coefs) r.date) = _
  rw [hA, predict_offset]
  show r.y b + δ b - _ = r.y b - _
  ring

/-- Adding constants to the bands commutes with every numerical function of the program, if the noise screening flags
the same observations. -/
noncomputable def shifting {E : Env ℝ (Fin 7)} (hA : E.A = exact) {fuel : ℕ} (hf : 200000001 ≤ fuel)
    (hE : E.lasso = Glmnet.lasso fuel) (rmin : Fin 7 → ℝ) (δ : Fin 7 → ℝ) (series : List (ColdV.Row (Fin 7 → ℝ)))
    (hs : series.Pairwise (fun a b => a.date < b.date))
    (hm : ∀ l, l.Sublist series → 6 ≤ l.length → mask E rmin (l.map (ColdV.Row.map (plus δ))) = mask E rmin l) :
    Hom series (kit E rmin) (kit E rmin) where
  y := plus δ
  m := fun m b => (m b).offset (δ b)
  d := id
  g := id
  N := rfl
  fit := by
    intro c l hc hl h6
    funext b
    show fitBand E c _ _ = (fitBand E c _ _).offset (δ b)
    rw [bandOf_plus, dates_plus]
    refine fitBand_offset hA hf hE (by rcases hc with rfl | rfl | rfl <;> decide) ?_ ?_ ?_ (δ b)
    · rw [List.pairwise_map]; exact hs.sublist hl
    · rw [List.length_map]; omega
    · unfold bandOf; rw [List.length_map, List.length_map]
  mask := hm
  unstable := by
    intro x l
    show unstable E _ _ _ = unstable E rmin x l
    unfold unstable
    simp only [dates_plus]
    have hz : E.A.zero = 0 := by rw [hA]; simp [Fl.zero, exact]
    simp only [Fit.offset, hz, getD_succ_offset _ _ 0]
  score := by
    intro c x r
    show zColumn E _ _ _ = _
    rw [difs_offset hA]
    rfl
  near := by
    intro c q x x' ds r
    show zColumn E _ _ _ = _
    rw [difs_offset hA]
    rfl
  skip := rfl
  cm := rfl
  magn := by intro l; rw [List.map_id]; rfl
  magnNeg := by intro l; rw [List.map_id]; rfl
  magn0 := rfl

end Pycold.ColdNum
