import Verif.Spec.Moved
import Verif.Proof.GlmnetSlide
import Verif.Proof.ColdVMove
import Verif.Proof.ColdOffsetTop
/-! The numerical functions of the program on a series moved by whole periods of four years (C83). -/
namespace Pycold.ColdNum

open ColdNum.Spec ColdV.Spec
open Pycold.Glmnet (getD_zero_offset getD_succ_offset)
open Pycold.ColdV (Kit Moving)

variable {B : Type}

theorem w_ideal : ideal.w = 2 * Real.pi / 365.25 := by
  show (((2 : ℤ) : ℝ) / ((1 : ℤ) : ℝ)) * Real.pi / (((36525 : ℤ) : ℝ) / ((100 : ℤ) : ℝ)) = _
  norm_num

theorem zero_ideal : ideal.zero = (0 : ℝ) := zero_exact

theorem lit_ideal (n d : ℤ) : ideal.lit n d = (n : ℝ) / (d : ℝ) := rfl

/-! ### The harmonics -/

theorem turn (j : ℤ) (m : ℕ) (x : ℝ) : (m : ℝ) * (2 * Real.pi / 365.25) * (x + ((1461 * j : ℤ) : ℝ)) =
    (m : ℝ) * (2 * Real.pi / 365.25) * x + ((4 * m * j : ℤ) : ℝ) * (2 * Real.pi) := by
  push_cast
  ring

theorem cos_turn (j : ℤ) (m : ℕ) (x : ℝ) : Real.cos ((m : ℝ) * (2 * Real.pi / 365.25) * (x + ((1461 * j : ℤ) : ℝ))) =
    Real.cos ((m : ℝ) * (2 * Real.pi / 365.25) * x) := by
  rw [turn, Real.cos_add_int_mul_two_pi]

theorem sin_turn (j : ℤ) (m : ℕ) (x : ℝ) : Real.sin ((m : ℝ) * (2 * Real.pi / 365.25) * (x + ((1461 * j : ℤ) : ℝ))) =
    Real.sin ((m : ℝ) * (2 * Real.pi / 365.25) * x) := by
  rw [turn, Real.sin_add_int_mul_two_pi]

/-- The regressors as multiples of the yearly cycle. -/
theorem design_ideal (df t : ℤ) : design ideal df t =
    [(t : ℝ), Real.cos (((1 : ℕ) : ℝ) * (2 * Real.pi / 365.25) * (t : ℝ)), Real.sin (((1 : ℕ) : ℝ) * (2 * Real.pi / 365.25) * (t : ℝ))] ++
    (if df ≥ 6 then [Real.cos (((2 : ℕ) : ℝ) * (2 * Real.pi / 365.25) * (t : ℝ)), Real.sin (((2 : ℕ) : ℝ) * (2 * Real.pi / 365.25) * (t : ℝ))] else []) ++
    (if df ≥ 8 then [Real.cos (((3 : ℕ) : ℝ) * (2 * Real.pi / 365.25) * (t : ℝ)), Real.sin (((3 : ℕ) : ℝ) * (2 * Real.pi / 365.25) * (t : ℝ))] else []) := by
  unfold design
  simp only [w_ideal]
  have e2 : ideal.lit 2 1 = ((2 : ℕ) : ℝ) := by rw [lit_ideal]; norm_num
  have e3 : ideal.lit 3 1 = ((3 : ℕ) : ℝ) := by rw [lit_ideal]; norm_num
  rw [e2, e3, Nat.cast_one, one_mul]
  rfl

theorem design_turn (j : ℤ) (df t : ℤ) : design ideal df (t + 1461 * j) =
    Glmnet.slidRow ((1461 * j : ℤ) : ℝ) (design ideal df t) := by
  rw [design_ideal, design_ideal]
  have e : (((t + 1461 * j : ℤ)) : ℝ) = (t : ℝ) + ((1461 * j : ℤ) : ℝ) := by push_cast; ring
  simp only [e, cos_turn, sin_turn]
  unfold Glmnet.slidRow
  simp

theorem predict_ideal (df : ℤ) (cf : List ℝ) (t : ℤ) : predict ideal df cf t =
    cf.getD 0 0 + cf.getD 1 0 * (t : ℝ) / 10000 + cf.getD 2 0 * Real.cos (((1 : ℕ) : ℝ) * (2 * Real.pi / 365.25) * (t : ℝ)) +
      cf.getD 3 0 * Real.sin (((1 : ℕ) : ℝ) * (2 * Real.pi / 365.25) * (t : ℝ)) +
    (if df ≥ 6 then cf.getD 4 0 * Real.cos (((2 : ℕ) : ℝ) * (2 * Real.pi / 365.25) * (t : ℝ)) +
      cf.getD 5 0 * Real.sin (((2 : ℕ) : ℝ) * (2 * Real.pi / 365.25) * (t : ℝ)) else 0) +
    (if df ≥ 8 then cf.getD 6 0 * Real.cos (((3 : ℕ) : ℝ) * (2 * Real.pi / 365.25) * (t : ℝ)) +
      cf.getD 7 0 * Real.sin (((3 : ℕ) : ℝ) * (2 * Real.pi / 365.25) * (t : ℝ)) else 0) := by
  have e2 : ideal.lit 2 1 = ((2 : ℕ) : ℝ) := by rw [lit_ideal]; norm_num
  have e3 : ideal.lit 3 1 = ((3 : ℕ) : ℝ) := by rw [lit_ideal]; norm_num
  have es : ideal.slopeScale = 10000 := by unfold Fl.slopeScale; rw [lit_ideal]; norm_num
  unfold predict
  simp only [zero_ideal, w_ideal, e2, e3, es]
  rw [Nat.cast_one, one_mul]
  have em : ∀ a b : ℝ, ideal.mul a b = a * b := fun _ _ => rfl
  have ea : ∀ a b : ℝ, ideal.add a b = a + b := fun _ _ => rfl
  have ed : ∀ a b : ℝ, ideal.div a b = a / b := fun _ _ => rfl
  have ec : ∀ a : ℝ, ideal.cos a = Real.cos a := fun _ => rfl
  have esn : ∀ a : ℝ, ideal.sin a = Real.sin a := fun _ => rfl
  have ei : ∀ a : ℤ, ideal.ofInt a = (a : ℝ) := fun _ => rfl
  simp only [em, ea, ed, ec, esn, ei, mul_comm ((t : ℤ) : ℝ)]
  by_cases h6 : df ≥ 6
  · by_cases h8 : df ≥ 8
    · simp only [if_pos h6, if_pos h8]; ring
    · simp only [if_pos h6, if_neg h8]; ring
  · have h8 : ¬ df ≥ 8 := by omega
    simp only [if_neg h6, if_neg h8]; ring

/-- The fit of the moved series. -/
noncomputable def Fit.slide (δ : ℝ) (f : Fit ℝ) : Fit ℝ :=
  ⟨Glmnet.offset (-(f.coefs.getD 1 0 * δ / 10000)) f.coefs, f.rmse, f.dif⟩

theorem predict_turn (j : ℤ) (df : ℤ) (cf : List ℝ) (t : ℤ) :
    predict ideal df (Glmnet.offset (-(cf.getD 1 0 * ((1461 * j : ℤ) : ℝ) / 10000)) cf) (t + 1461 * j) =
      predict ideal df cf t := by
  rw [predict_ideal, predict_ideal]
  have e : (((t + 1461 * j : ℤ)) : ℝ) = (t : ℝ) + ((1461 * j : ℤ) : ℝ) := by push_cast; ring
  simp only [e, cos_turn, sin_turn, getD_zero_offset, getD_succ_offset _ cf 0, getD_succ_offset _ cf 1,
    getD_succ_offset _ cf 2, getD_succ_offset _ cf 3, getD_succ_offset _ cf 4, getD_succ_offset _ cf 5,
    getD_succ_offset _ cf 6]
  ring

theorem storeCoefs_slide {df : Int} (hdf : 2 ≤ df) (cfs : List ℝ) (δ : ℝ) :
    storeCoefs ideal df (Glmnet.offset (-(δ * cfs.getD 1 0)) cfs) =
      Glmnet.offset (-((storeCoefs ideal df cfs).getD 1 0 * δ / 10000)) (storeCoefs ideal df cfs) := by
  have es : ideal.slopeScale = 10000 := by unfold Fl.slopeScale; rw [lit_ideal]; norm_num
  have em : ∀ a b : ℝ, ideal.mul a b = a * b := fun _ _ => rfl
  have h0 : (0 : ℤ) < df := by omega
  have h1 : (1 : ℤ) < df := by omega
  unfold storeCoefs
  rw [zero_ideal]
  simp only [List.range, List.range.loop, List.map_cons, List.map_nil]
  conv_rhs => unfold Glmnet.offset
  rw [getD_zero_offset, getD_succ_offset _ cfs 0, getD_succ_offset _ cfs 1, getD_succ_offset _ cfs 2,
    getD_succ_offset _ cfs 3, getD_succ_offset _ cfs 4, getD_succ_offset _ cfs 5, getD_succ_offset _ cfs 6]
  simp [h0, h1, em, es]
  ring

theorem dates_moved (δ : ℤ) (rows : List (ColdV.Row (B → ℝ))) :
    (rows.map (ColdV.Row.moved δ)).map (·.date) = (rows.map (·.date)).map (· + δ) := by
  rw [List.map_map, List.map_map]
  rfl

theorem bandOf_moved (δ : ℤ) (rows : List (ColdV.Row (B → ℝ))) (b : B) :
    bandOf b (rows.map (ColdV.Row.moved δ)) = bandOf b rows := by
  unfold bandOf
  rw [List.map_map]
  rfl

theorem fitBand_moved {E : Env ℝ B} (hA : E.A = ideal) {fuel : ℕ} (hf : 200000001 ≤ fuel)
    (hE : E.lasso = Glmnet.lasso fuel) {df : Int} (hdf : 2 ≤ df) {dates : List Int}
    (hs : dates.Pairwise (· < ·)) (h2 : 2 ≤ dates.length) (ys : List ℝ) (j : ℤ) :
    fitBand E df (dates.map (· + 1461 * j)) ys = (fitBand E df dates ys).slide ((1461 * j : ℤ) : ℝ) := by
  have hd : (dates.map (· + 1461 * j)).map (design ideal df) =
      (dates.map (design ideal df)).map (Glmnet.slidRow ((1461 * j : ℤ) : ℝ)) := by
    rw [List.map_map, List.map_map]
    apply List.map_congr_left
    intro t _
    exact design_turn j df t
  have hlasso : E.lasso ((dates.map (· + 1461 * j)).map (design E.A df)) ys =
      Glmnet.offset (-(((1461 * j : ℤ) : ℝ) * (E.lasso (dates.map (design E.A df)) ys).getD 1 0))
        (E.lasso (dates.map (design E.A df)) ys) := by
    rw [hA, hE, hd]
    refine Glmnet.lasso_slid hf (i := 0) (j := 1)
      (by rw [List.length_map]; omega) (by rw [List.length_map]; omega) ?_ ?_ _
    · intro r hr
      obtain ⟨t, _, rfl⟩ := List.mem_map.1 hr
      unfold design
      simp
    · rw [List.getD_eq_getElem (dates.map _) _ (n := 0) (by rw [List.length_map]; omega),
        List.getD_eq_getElem (dates.map _) _ (n := 1) (by rw [List.length_map]; omega), List.getElem_map,
        List.getElem_map]
      have := List.pairwise_iff_getElem.1 hs 0 1 (by omega) (by omega) (by omega)
      show ((dates[0] : ℤ) : ℝ) ≠ ((dates[1] : ℤ) : ℝ)
      exact_mod_cast this.ne
  generalize hcf : E.lasso (dates.map (design E.A df)) ys = cf at hlasso
  have hdif : List.zipWith (fun y t => E.A.sub y (predict E.A df
      (storeCoefs E.A df (E.lasso ((dates.map (· + 1461 * j)).map (design E.A df)) ys)) t)) ys (dates.map (· + 1461 * j)) =
      List.zipWith (fun y t => E.A.sub y (predict E.A df (storeCoefs E.A df cf) t)) ys dates := by
    rw [List.zipWith_map_right, hlasso, hA, storeCoefs_slide hdf]
    congr 1
    funext y t
    rw [predict_turn]
  unfold fitBand Fit.slide
  dsimp only
  rw [hdif, hlasso, hcf, List.length_map, hA, storeCoefs_slide hdf]

theorem difs_moved {E : Env ℝ B} (hA : E.A = ideal) (c : Int) (m : B → Fit ℝ) (r : ColdV.Row (B → ℝ)) (j : ℤ) :
    difs E c (fun b => (m b).slide ((1461 * j : ℤ) : ℝ)) (r.moved (1461 * j)) = difs E c m r := by
  funext b
  unfold difs
  show E.A.sub (r.y b) (predict E.A c (Glmnet.offset _ (m b).coefs) (r.date + 1461 * j)) = _
  rw [hA, predict_turn]

theorem span_moved (δ : ℤ) {l : List ℤ} (h : l ≠ []) :
    (l.map (· + δ)).getLast?.getD 0 - (l.map (· + δ)).head?.getD 0 = l.getLast?.getD 0 - l.head?.getD 0 := by
  rw [List.getLast?_map, List.head?_map, List.getLast?_eq_some_getLast h, List.head?_eq_some_head h]
  simp

theorem nearRmse_moved (A : Fl ℝ) (c : Int) (ds : List Int) (u : Int) (dif : List ℝ) (δ : ℤ) :
    nearRmse A c (ds.map (· + δ)) (u + δ) dif = nearRmse A c ds u dif := by
  have : (ds.map (· + δ)).map (fun t => dYr A t (u + δ)) = ds.map (fun t => dYr A t u) := by
    rw [List.map_map]
    apply List.map_congr_left
    intro t _
    show dYr A (t + δ) (u + δ) = dYr A t u
    unfold dYr
    rw [show t + δ - (u + δ) = t - u by omega]
  unfold nearRmse
  rw [this]

/-- Moving the series by whole periods of four years commutes with every numerical function of the program, if the
noise screening flags the same observations. -/
noncomputable def moving {E : Env ℝ (Fin 7)} (hA : E.A = ideal) {fuel : ℕ} (hf : 200000001 ≤ fuel)
    (hE : E.lasso = Glmnet.lasso fuel) (rmin : Fin 7 → ℝ) (j : ℤ) (series : List (ColdV.Row (Fin 7 → ℝ)))
    (hs : series.Pairwise (fun a b => a.date < b.date)) (h0 : ∀ r ∈ series, r.date ≠ 0)
    (hm : ∀ l, l.Sublist series → 6 ≤ l.length → mask E rmin (l.map (ColdV.Row.moved (1461 * j))) = mask E rmin l) :
    Moving (1461 * j) series (kit E rmin) (kit E rmin) where
  m := fun m b => (m b).slide ((1461 * j : ℤ) : ℝ)
  dates := h0
  N := rfl
  fit := by
    intro c l hc hl h6
    funext b
    show fitBand E c _ _ = (fitBand E c _ _).slide _
    rw [bandOf_moved, dates_moved]
    refine fitBand_moved hA hf hE (by rcases hc with rfl | rfl | rfl <;> decide) ?_ ?_ _ j
    · rw [List.pairwise_map]; exact hs.sublist hl
    · rw [List.length_map]; omega
  mask := hm
  unstable := by
    intro x l hl
    show unstable E _ _ _ = unstable E rmin x l
    unfold unstable
    have hz : E.A.zero = 0 := by rw [hA]; exact zero_ideal
    have hl' : l.map (·.date) ≠ [] := by simpa using hl
    simp only [dates_moved, span_moved _ hl', Fit.slide, hz, getD_succ_offset _ _ 0]
  score := by
    intro c x r _
    show zColumn E _ _ _ = _
    rw [difs_moved hA]
    rfl
  near := by
    intro c q x x' ds r _
    show zColumn E _ (fun b => nearRmse E.A q (ds.map (· + 1461 * j)) (r.date + 1461 * j) (x' b).dif) _ = _
    rw [difs_moved hA]
    simp only [nearRmse_moved]
    rfl
  skip := rfl
  cm := rfl
  magn := rfl
  magnNeg := rfl
  magn0 := rfl

/-! ### Scenes -/

variable {bC2 : Bool} {δ : Int}

theorem dateCheck_later : ∀ l : List Scene, dateCheckFails (l.map (later δ)) = dateCheckFails l
  | [] => rfl
  | [_] => rfl
  | a :: b :: l => by
    have ih := dateCheck_later (b :: l)
    simp only [List.map_cons] at ih ⊢
    unfold dateCheckFails
    rw [ih]
    have : decide ((later δ a).date > (later δ b).date) = decide (a.date > b.date) := by
      apply decide_eq_decide.2
      show a.date + δ > b.date + δ ↔ _
      omega
    first
      | rw [this]
      | (simp only [later]; congr 1; simp)

theorem preLoop_later : ∀ (l : List Scene) (s : Sums), preLoop bC2 (l.map (later δ)) s = preLoop bC2 l s
  | [], _ => rfl
  | o :: l, s => by
    rw [List.map_cons]
    unfold preLoop
    rw [show (later δ o).qa = o.qa from rfl, show idRange bC2 (later δ o) = idRange bC2 o from rfl]
    cases countQa s o.qa with
    | none => dsimp only; rw [List.map_map]; rfl
    | some s' => dsimp only; rw [preLoop_later l s']

theorem clrStep_later (o : Scene) (acc : List ClrObs) (i : Bool) :
    clrStep bC2 (acc.map (laterObs δ)) (later δ o) i = (clrStep bC2 acc o i).map (laterObs δ) := by
  unfold clrStep
  rw [show (later δ o).qa = o.qa from rfl, List.length_map,
    show clrBands bC2 (later δ o) = clrBands bC2 o from rfl, show (later δ o).date = o.date + δ from rfl,
    List.getLast?_map]
  have hl : (acc.getLast?.map (laterObs δ)).map (·.date) = (acc.getLast?.map (·.date)).map (· + δ) := by
    cases acc.getLast? <;> rfl
  rw [hl]
  have hd : ((acc.getLast?.map (·.date)).map (· + δ) = some (o.date + δ)) ↔ (acc.getLast?.map (·.date) = some o.date) := by
    cases acc.getLast?.map (·.date) with
    | none => simp
    | some v => simp
  split
  · by_cases hq : acc.length > 0 ∧ acc.getLast?.map (·.date) = some o.date
    · simp [hd, hq]
    · simp [hd]
      split <;> simp [laterObs]
  · rfl

theorem clrLoop_later : ∀ (l : List Scene) (is : List Bool) (acc : List ClrObs),
    clrLoop bC2 (l.map (later δ)) is (acc.map (laterObs δ)) = (clrLoop bC2 l is acc).map (laterObs δ)
  | [], _, _ => by cases ‹List Bool› <;> rfl
  | o :: l, [], acc => rfl
  | o :: l, i :: is, acc => by
    show clrLoop bC2 (l.map (later δ)) is (clrStep bC2 _ (later δ o) i) = (clrLoop bC2 l is (clrStep bC2 acc o i)).map _
    rw [clrStep_later, clrLoop_later]

theorem clearObs_later (l : List Scene) : clearObs bC2 (l.map (later δ)) = (clearObs bC2 l).map (laterObs δ) := by
  unfold clearObs preprocessing
  rw [preLoop_later]
  exact clrLoop_later l _ []

theorem rowsOf_later (A : Fl ℝ) (w : List ClrObs) : rowsOf A (w.map (laterObs δ)) =
    (rowsOf A w).map (ColdV.Row.moved δ) := by
  unfold rowsOf
  rw [List.map_map, List.map_map]
  rfl

theorem cold_later {P P' : Cold.Params} {E : Env ℝ (Fin 7)} {obs : List Scene} {nCm : Nat} :
    (cold P E bC2 obs nCm = .rejected ∧ cold P' E bC2 (obs.map (later δ)) nCm = .rejected) ∨
    (cold P E bC2 obs nCm = .empty ∧ cold P' E bC2 (obs.map (later δ)) nCm = .empty) ∨
    (cold P E bC2 obs nCm = .fallback ∧ cold P' E bC2 (obs.map (later δ)) nCm = .fallback) ∨
    (cold P E bC2 obs nCm = .standard (run P E (rowsOf E.A (clearObs bC2 obs)) nCm) ∧
      cold P' E bC2 (obs.map (later δ)) nCm =
        .standard (run P' E ((rowsOf E.A (clearObs bC2 obs)).map (ColdV.Row.moved δ)) nCm)) := by
  have hp : preprocessing bC2 (obs.map (later δ)) = preprocessing bC2 obs := preLoop_later obs _
  have hl : (obs.map (later δ)).isEmpty = obs.isEmpty := by cases obs <;> rfl
  unfold cold
  rw [dateCheck_later, hl, clearObs_later, rowsOf_later]
  dsimp only
  rw [hp]
  split
  · exact Or.inr (Or.inl ⟨rfl, rfl⟩)
  · split
    · exact Or.inl ⟨rfl, rfl⟩
    · split
      · exact Or.inl ⟨rfl, rfl⟩
      · split
        · exact Or.inr (Or.inr (Or.inl ⟨rfl, rfl⟩))
        · exact Or.inr (Or.inr (Or.inr ⟨rfl, rfl⟩))

/-! ### The screening -/

theorem mask_noisy {E : Env ℝ (Fin 7)} (hA : E.A = ideal) (hg : E.green = 1) (hs : E.swir = 4) (rmin : Fin 7 → ℝ)
    (w : List ClrObs) (k : ℕ) : mask E rmin (rowsOf ideal w) k = true ↔ Outlying E.robust rmin w k := by
  unfold mask
  dsimp only
  rw [hA, hg, hs]
  have hd : (rowsOf ideal w).map (·.date) = w.map (·.date) := rowsOf_dates _ _
  have hy : ideal.div ideal.w (ideal.ofInt (ideal.ceil (ideal.div (ideal.ofInt
      ((w.map (·.date)).getLast?.getD 0 - (w.map (·.date)).head?.getD 0)) (ideal.lit 36525 100)))) =
      2 * Real.pi / 365.25 / yearsOf w := by
    rw [w_ideal, lit_ideal]
    unfold yearsOf
    show 2 * Real.pi / 365.25 / (((⌈((_ : ℤ) : ℝ) / (((36525 : ℤ) : ℝ) / ((100 : ℤ) : ℝ))⌉ : ℤ)) : ℝ) = _
    norm_num
  rw [hd, hy]
  have hrow : (w.map (·.date)).map (maskRow ideal (2 * Real.pi / 365.25 / yearsOf w)) =
      w.map (fun o => cycleRow (yearsOf w) (o.date : ℝ)) := by
    rw [List.map_map]
    congr 1
    funext o
    unfold maskRow cycleRow
    dsimp only [Function.comp]
    rw [w_ideal]
    rfl
  have hb : ∀ b, bandOf b (rowsOf ideal w) = valuesOf w b := by
    intro b; unfold bandOf rowsOf valuesOf; rw [List.map_map]; rfl
  rw [hrow]
  unfold Outlying
  cases hw : w[k]? with
  | none =>
    have : (rowsOf ideal w)[k]? = none := by unfold rowsOf; rw [List.getElem?_map, hw]; rfl
    rw [this]
    constructor
    · intro h; cases h
    · rintro ⟨_, _, _, h, _⟩; cases h
  | some o =>
    have : (rowsOf ideal w)[k]? = some ⟨o.date, fun b => ideal.ofInt (o.bands.getD b 0)⟩ := by
      unfold rowsOf; rw [List.getElem?_map, hw]; rfl
    rw [this]
    have one : ∀ b, ideal.lt (ideal.mul ideal.tConst (rmin b)) (ideal.abs (ideal.sub
        (ideal.ofInt (o.bands.getD b 0)) (maskPred ideal (2 * Real.pi / 365.25 / yearsOf w)
          (E.robust (w.map (fun o => cycleRow (yearsOf w) (o.date : ℝ))) (bandOf b (rowsOf ideal w))) o.date))) = true ↔
        4.42 * rmin b < |((o.bands.getD b 0 : ℤ) : ℝ) - cycleCurve (yearsOf w)
      (E.robust (w.map fun o => cycleRow (yearsOf w) (o.date : ℝ)) (valuesOf w b)) (o.date : ℝ)| := by
      intro b
      rw [hb]
      have ep : maskPred ideal (2 * Real.pi / 365.25 / yearsOf w)
          (E.robust (w.map (fun o => cycleRow (yearsOf w) (o.date : ℝ))) (valuesOf w b)) o.date =
          cycleCurve (yearsOf w) (E.robust (w.map (fun o => cycleRow (yearsOf w) (o.date : ℝ))) (valuesOf w b)) (o.date : ℝ) := by
        generalize E.robust _ _ = cf
        unfold maskPred cycleCurve
        dsimp only
        rw [w_ideal, zero_ideal]
        show cf.getD 0 0 + cf.getD 1 0 * Real.cos ((o.date : ℝ) * _) + cf.getD 2 0 * Real.sin ((o.date : ℝ) * _) +
          cf.getD 3 0 * Real.cos ((o.date : ℝ) * _) + cf.getD 4 0 * Real.sin ((o.date : ℝ) * _) = _
        simp only [mul_comm ((o.date : ℤ) : ℝ)]
      rw [ep]
      have et : ideal.tConst = 4.42 := by
        unfold Fl.tConst; rw [lit_ideal]; norm_num
      rw [et]
      show decide (4.42 * rmin b < |((o.bands.getD b 0 : ℤ) : ℝ) - _|) = true ↔ _
      rw [decide_eq_true_eq]
    show (ideal.lt _ _ || ideal.lt _ _) = true ↔ _
    rw [Bool.or_eq_true, one 1, one 4]
    constructor
    · rintro (h | h)
      · exact ⟨1, by simp, o, rfl, h⟩
      · exact ⟨4, by simp, o, rfl, h⟩
    · rintro ⟨b, hb, o', ho, h⟩
      injection ho with ho
      subst ho
      simp only [List.mem_cons, List.not_mem_nil, or_false] at hb
      rcases hb with rfl | rfl
      · exact Or.inl h
      · exact Or.inr h

theorem yearsOf_later {w : List ClrObs} (hw : w ≠ []) : yearsOf (w.map (laterObs δ)) = yearsOf w := by
  unfold yearsOf
  have : (w.map (laterObs δ)).map (·.date) = (w.map (·.date)).map (· + δ) := by
    rw [List.map_map, List.map_map]; rfl
  rw [this, span_moved _ (by simpa using hw)]

theorem valuesOf_later (w : List ClrObs) (b : Fin 7) : valuesOf (w.map (laterObs δ)) b = valuesOf w b := by
  unfold valuesOf
  rw [List.map_map]
  rfl

theorem noisy_of_originFree {robust : List (List ℝ) → List ℝ → List ℝ} (hr : OriginFree robust) (floor : Fin 7 → ℝ)
    {w : List ClrObs} (h6 : 6 ≤ w.length) (k : ℕ) :
    Outlying robust floor (w.map (laterObs δ)) k ↔ Outlying robust floor w k := by
  have hw : w ≠ [] := by rintro rfl; simp at h6
  have key : ∀ (b : Fin 7), ∀ o ∈ w,
      cycleCurve (yearsOf (w.map (laterObs δ)))
        (robust ((w.map (laterObs δ)).map fun o => cycleRow (yearsOf (w.map (laterObs δ))) (o.date : ℝ))
          (valuesOf (w.map (laterObs δ)) b)) ((laterObs δ o).date : ℝ) =
      cycleCurve (yearsOf w) (robust (w.map fun o => cycleRow (yearsOf w) (o.date : ℝ)) (valuesOf w b)) (o.date : ℝ) := by
    intro b o ho
    rw [yearsOf_later hw, valuesOf_later]
    have e1 : (w.map (laterObs δ)).map (fun o => cycleRow (yearsOf w) (o.date : ℝ)) =
        (w.map fun o => (o.date : ℝ)).map (fun t => cycleRow (yearsOf w) (t + (δ : ℝ))) := by
      rw [List.map_map, List.map_map]
      apply List.map_congr_left
      intro q _
      show cycleRow _ (((q.date + δ : ℤ)) : ℝ) = cycleRow _ ((q.date : ℝ) + (δ : ℝ))
      push_cast
      rfl
    have e2 : w.map (fun o => cycleRow (yearsOf w) (o.date : ℝ)) =
        (w.map fun o => (o.date : ℝ)).map (fun t => cycleRow (yearsOf w) t) := by
      rw [List.map_map]; rfl
    have e3 : (((laterObs δ o).date : ℤ) : ℝ) = (o.date : ℝ) + (δ : ℝ) := by
      show ((o.date + δ : ℤ) : ℝ) = _
      push_cast; rfl
    rw [e1, e2, e3]
    refine hr _ _ _ _ (by rw [List.length_map]; exact h6) ?_ _ (List.mem_map.2 ⟨o, ho, rfl⟩)
    unfold valuesOf
    rw [List.length_map, List.length_map]
  unfold Outlying
  constructor
  · rintro ⟨b, hb, o', ho', hlt⟩
    rw [List.getElem?_map, Option.map_eq_some_iff] at ho'
    obtain ⟨o, ho, rfl⟩ := ho'
    rw [key b o (List.mem_of_getElem? ho)] at hlt
    exact ⟨b, hb, o, ho, hlt⟩
  · rintro ⟨b, hb, o, ho, hlt⟩
    refine ⟨b, hb, laterObs δ o, by rw [List.getElem?_map, ho]; rfl, ?_⟩
    rw [key b o (List.mem_of_getElem? ho)]
    exact hlt

/-- The run on the moved series. -/
theorem run_later {P : Cold.Params} {E : Env ℝ (Fin 7)} (hA : E.A = ideal) {fuel : ℕ} (hf : 200000001 ≤ fuel)
    (hE : E.lasso = Glmnet.lasso fuel) (hg : E.green = 1) (hsw : E.swir = 4) (hc : 1 ≤ P.conse)
    {w : List ClrObs} {nCm : ℕ} {out : Output ℝ (Fin 7)} {j : ℤ}
    (hs : (rowsOf ideal w).Pairwise (fun a b => a.date < b.date)) (h0 : ∀ o ∈ w, o.date ≠ 0)
    (hm : SameOutlying E.robust (fun b => variogram ideal (bandOf b (rowsOf ideal w))) (1461 * j) w)
    (hr : run P E (rowsOf E.A w) nCm = .ok out) :
    ∃ out', run (laterParams (1461 * j) P) E ((rowsOf E.A w).map (ColdV.Row.moved (1461 * j))) nCm = .ok out' ∧
      List.Forall₂ (Later (1461 * j)) out.recs out'.recs ∧ LaterCm (1461 * j) out.cm out'.cm ∧
      out'.overflow = out.overflow := by
  rw [hA] at hr ⊢
  have hmask : ∀ l, l.Sublist (rowsOf ideal w) → 6 ≤ l.length →
      mask E (fun b => variogram ideal (bandOf b (rowsOf ideal w))) (l.map (ColdV.Row.moved (1461 * j))) =
      mask E (fun b => variogram ideal (bandOf b (rowsOf ideal w))) l := by
    intro l hl h6
    obtain ⟨u, hu, rfl⟩ : ∃ u, u.Sublist w ∧ l = rowsOf ideal u := by
      unfold rowsOf at hl
      obtain ⟨u, hu, e⟩ := List.sublist_map_iff.1 hl
      exact ⟨u, hu, e⟩
    have h6' : 6 ≤ u.length := by
      unfold rowsOf at h6; rwa [List.length_map] at h6
    rw [← rowsOf_later]
    funext k
    rw [Bool.eq_iff_iff, mask_noisy hA hg hsw, mask_noisy hA hg hsw]
    exact hm u hu h6' k
  have h0' : ∀ r ∈ rowsOf ideal w, r.date ≠ 0 := by
    intro r hr
    obtain ⟨o, ho, rfl⟩ := List.mem_map.1 hr
    exact h0 o ho
  let H := moving hA hf hE (fun b => variogram ideal (bandOf b (rowsOf ideal w))) j (rowsOf ideal w) hs h0' hmask
  have hr' : ColdV.standProcedure P (kit E (fun b => variogram ideal (bandOf b (rowsOf ideal w))))
      (rowsOf ideal w) nCm = .ok out := by
    unfold run at hr
    rw [hA] at hr
    exact hr
  have hmap := ColdV.standProcedure_moved H hc hs hr'
  refine ⟨out.moved H, ?_, ?_, ⟨rfl, ?_⟩, rfl⟩
  · unfold run
    rw [← hmap, hA]
    simp only [bandOf_moved]
    rfl
  · show List.Forall₂ _ out.recs (out.recs.map (ColdV.Rec.moved H))
    rw [List.forall₂_map_right_iff, List.forall₂_same]
    intro r _
    refine ⟨rfl, rfl, rfl, rfl, rfl, rfl, rfl, ?_, ?_⟩
    · intro h
      show r.model.map _ = none
      rw [h]; rfl
    · intro m h
      refine ⟨fun b => (m b).slide ((1461 * j : ℤ) : ℝ), ?_, fun b => ⟨rfl, rfl, rfl⟩⟩
      show r.model.map _ = some _
      rw [h]; rfl
  · intro k v d hv hne hd
    show (List.zipWith _ out.cm.out out.cm.date)[k]? = _
    rw [List.getElem?_zipWith, hv, hd]
    show some (if v = -9999 then d else _) = _
    rw [if_neg hne]
    rfl

end Pycold.ColdNum
