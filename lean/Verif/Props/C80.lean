import Verif.Proof.Robust
import Verif.Proof.RobustGsl
import Verif.Proof.ColdOffsetTop
import Verif.Props.C81
/-!
# C80: the robust regression of the noise screening

`Robust.screen G x y` is `auto_robust_fit` on the regressors `x` and the values `y`; `G` are the least-squares
solvers of the GSL library.
-/
namespace Pycold.Robust

open Pycold.Robust.Spec
open Pycold.ColdNum.Spec (Flagged screenCurve screenRow yearsOf valuesOf)

/-- The rows of the regression, with the constant first. -/
abbrev withConst (x : List (List ℝ)) : List (List ℝ) := x.map fun r => 1 :: r

theorem table_const {x : List (List ℝ)} {y : List ℝ} (h : Table x y 4) : Table (withConst x) y 5 := by
  refine ⟨by simpa using h.pos, by rw [List.length_map, h.rows], ?_⟩
  intro r hr
  obtain ⟨q, hq, rfl⟩ := List.mem_map.1 hr
  rw [List.length_cons, h.cols q hq]

theorem screen_eq {G : Gsl} {x : List (List ℝ)} {y : List ℝ} (hn : 5 ≤ y.length) :
    screen G x y = multifitRobust G (withConst x) y 5 := by
  unfold screen autoRobustFit
  rw [if_neg (by omega)]
  rfl

open Classical in
/-- **C80, what the curve is.**  For five or more observations the five coefficients found by the robust regression have
the least weighted sum of squares for some weights between 0 and 1, of which at least (n + 4) / 2 are at least 0.95: a
minority of the observations cannot outvote the others. -/
theorem C80_weighted {G : Gsl} (hG : LeastSquares G) {x : List (List ℝ)} {y : List ℝ} (h : Table x y 4)
    (hn : 5 ≤ y.length) : (screen G x y).length = 5 ∧ ∃ w : List ℝ, w.length = y.length ∧ (∀ q ∈ w, 0 ≤ q ∧ q ≤ 1) ∧
      (y.length + 4) / 2 ≤ w.countP (fun q => decide (0.95 ≤ q)) ∧
      ∀ c, c.length = 5 → loss (withConst x) w y (screen G x y) ≤ loss (withConst x) w y c := by
  obtain ⟨w, h1, h2, h3, h4⟩ := robust_weighted hG (table_const h) hn
  rw [screen_eq hn, h4]
  exact ⟨hG.wlinear_length _ _ _ _ (table_const h), w, h1, h2, h3,
    fun c hc => hG.wlinear _ _ _ _ _ (table_const h) h1 (fun q hq => (h2 q hq).1) hc⟩

open Classical in
/-- **C80, close to most observations.**  If some curve of the family is within `ε` of all values, then the curve found is
within `ε √(n / 0.95)` of at least (n + 4) / 2 of them. -/
theorem C80_majority_close {G : Gsl} (hG : LeastSquares G) {x : List (List ℝ)} {y : List ℝ} (h : Table x y 4)
    (hn : 5 ≤ y.length) {c : List ℝ} (hc : c.length = 5) {ε : ℝ}
    (hε : ∀ e ∈ List.zipWith (fun r v => v - value r c) (withConst x) y, |e| ≤ ε) :
    (y.length + 4) / 2 ≤ (List.zipWith (fun r v => v - value r (screen G x y)) (withConst x) y).countP
      (fun e => decide (|e| ≤ ε * Real.sqrt (y.length / 0.95))) := by
  obtain ⟨_, w, h1, h2, h3, h4⟩ := C80_weighted hG h hn
  refine h3.trans ?_
  have hlen : ∀ c, (List.zipWith (fun r v => v - value r c) (withConst x) y).length = y.length := by
    intro c
    rw [List.length_zipWith, (table_const h).rows, Nat.min_self]
  have hε0 : 0 ≤ ε := by
    have : 0 < (List.zipWith (fun r v => v - value r c) (withConst x) y).length := by rw [hlen]; omega
    exact (abs_nonneg _).trans (hε _ (List.getElem_mem this))
  have hle : loss (withConst x) w y (screen G x y) ≤ y.length * ε ^ 2 := by
    refine (h4 c hc).trans ?_
    unfold loss
    have key : ∀ (w e : List ℝ), (∀ q ∈ w, 0 ≤ q ∧ q ≤ 1) → (∀ t ∈ e, |t| ≤ ε) →
        (List.zipWith (fun q e => q * e ^ 2) w e).sum ≤ e.length * ε ^ 2 := by
      intro w
      induction w with
      | nil => intro e _ _; simp; positivity
      | cons q w ih =>
        intro e hw he
        cases e with
        | nil => simp
        | cons t e =>
          rw [List.zipWith_cons_cons, List.sum_cons, List.length_cons]
          have a1 := ih e (fun q hq => hw q (List.mem_cons_of_mem _ hq)) (fun t ht => he t (List.mem_cons_of_mem _ ht))
          have a2 := hw q (by simp)
          have a3 : t ^ 2 ≤ ε ^ 2 := sq_le_sq' (abs_le.1 (he t (by simp))).1 (abs_le.1 (he t (by simp))).2
          have a4 : q * t ^ 2 ≤ ε ^ 2 := by nlinarith [sq_nonneg t]
          push_cast
          linarith
    have := key w _ h2 hε
    rwa [hlen] at this
  generalize hr : List.zipWith (fun r v => v - value r (screen G x y)) (withConst x) y = e at hle
  have hel : e.length = y.length := by rw [← hr, hlen]
  have hle : (List.zipWith (fun q e => q * e ^ 2) w e).sum ≤ y.length * ε ^ 2 := by
    rw [← hr]; unfold loss at hle; exact hle
  have key : ∀ (w e : List ℝ), w.length = e.length → (∀ q ∈ w, 0 ≤ q) →
      (List.zipWith (fun q e => q * e ^ 2) w e).sum ≤ y.length * ε ^ 2 →
      w.countP (fun q => decide (0.95 ≤ q)) ≤ e.countP (fun e => decide (|e| ≤ ε * Real.sqrt (y.length / 0.95))) := by
    intro w
    induction w with
    | nil => intro e _ _ _; simp
    | cons q w ih =>
      intro e hl hw hs
      cases e with
      | nil => simp at hl
      | cons t e =>
        rw [List.zipWith_cons_cons, List.sum_cons] at hs
        have hq := hw q (by simp)
        have hnn : 0 ≤ (List.zipWith (fun q e => q * e ^ 2) w e).sum := by
          apply List.sum_nonneg
          intro a ha
          obtain ⟨i, hi, rfl⟩ := List.getElem_of_mem ha
          rw [List.getElem_zipWith]
          have : 0 ≤ w[i]'(by simp at hi; omega) := hw _ (List.mem_cons_of_mem _ (List.getElem_mem _))
          positivity
        have hqt : 0 ≤ q * t ^ 2 := by positivity
        have ih' := ih e (by simpa using hl) (fun q hq => hw q (List.mem_cons_of_mem _ hq)) (by linarith)
        rw [List.countP_cons, List.countP_cons]
        by_cases h95 : 0.95 ≤ q
        · have ht : |t| ≤ ε * Real.sqrt (y.length / 0.95) := by
            apply abs_le_of_sq_le_sq _ (by positivity)
            rw [mul_pow, Real.sq_sqrt (by positivity)]
            have : 0.95 * t ^ 2 ≤ y.length * ε ^ 2 := by nlinarith [sq_nonneg t]
            rw [← mul_div_assoc, le_div_iff₀ (by norm_num)]
            linarith
          simp only [h95, ht, decide_true, if_true]
          omega
        · simp only [h95, decide_false, Bool.false_eq_true, if_false]
          omega
  exact key w e (by rw [h1, hel]) (fun q hq => (h2 q hq).1) hle

/-- **C80, values on a curve.**  If the values lie on a curve of the family, the curve found passes through all of them. -/
theorem C80_on_curve {G : Gsl} (hG : LeastSquares G) {x : List (List ℝ)} {y : List ℝ} (h : Table x y 4)
    (hn : 5 ≤ y.length) {c : List ℝ} (hc : c.length = 5)
    (h0 : ∀ (i : ℕ) r v, (withConst x)[i]? = some r → y[i]? = some v → v = value r c) :
    ∀ (i : ℕ) r v, (withConst x)[i]? = some r → y[i]? = some v → v = value r (screen G x y) := by
  have hp : Passes (withConst x) y c := by
    intro e he
    obtain ⟨i, hi, rfl⟩ := List.getElem_of_mem he
    unfold residuals at hi ⊢
    rw [List.getElem_zipWith]
    rw [List.length_zipWith] at hi
    rw [h0 i _ _ (List.getElem?_eq_getElem (by omega)) (List.getElem?_eq_getElem (by omega))]
    exact sub_self _
  have hq := robust_passes hG (table_const h) hc hp
  rw [screen_eq hn]
  intro i r v hr hv
  have hi := List.getElem?_eq_some_iff.1 hr
  have hj := List.getElem?_eq_some_iff.1 hv
  obtain ⟨hi, rfl⟩ := hi
  obtain ⟨hj, rfl⟩ := hj
  have : (withConst x)[i].length = 5 := (table_const h).cols _ (List.getElem_mem _)
  have e := hq ((residuals (withConst x) y (multifitRobust G (withConst x) y 5))[i]'(by
    rw [residuals_length (table_const h)]; exact hj)) (List.getElem_mem _)
  unfold residuals at e
  rw [List.getElem_zipWith] at e
  exact sub_eq_zero.1 e

theorem value_curve (years t : ℝ) {c : List ℝ} (hc : c.length = 5) :
    value (1 :: screenRow years t) c = screenCurve years c t := by
  match c, hc with
  | [a0, a1, a2, a3, a4], _ =>
    unfold value screenRow screenCurve
    simp only [List.zipWith_cons_cons, List.zipWith_nil_left, List.sum_cons, List.sum_nil]
    show _ = a0 + a1 * _ + a2 * _ + a3 * _ + a4 * _
    ring

theorem table_window {w : List ClrObs} (hw : w ≠ []) (b : Fin 7) :
    Table (w.map fun o => screenRow (yearsOf w) (o.date : ℝ)) (valuesOf w b) 4 := by
  refine ⟨by simpa using hw, by unfold valuesOf; rw [List.length_map, List.length_map], ?_⟩
  intro r hr
  obtain ⟨o, _, rfl⟩ := List.mem_map.1 hr
  rfl

/-- **C80, nothing regular is screened out.**  If the green and SWIR1 values of a window of five or more observations each
follow a curve made of a constant, a yearly cycle and a cycle of the length of the window, the noise screening flags no
observation, whatever the noise floor. -/
theorem C80_not_flagged {G : Gsl} (hG : LeastSquares G) {w : List ClrObs} (hn : 5 ≤ w.length) {floor : Fin 7 → ℝ}
    (hfl : ∀ b, 0 ≤ floor b)
    (hc : ∀ b ∈ ([1, 4] : List (Fin 7)), ∃ c : List ℝ, c.length = 5 ∧
      ∀ o ∈ w, ((o.bands.getD b 0 : ℤ) : ℝ) = screenCurve (yearsOf w) c (o.date : ℝ)) (k : ℕ) :
    ¬ Flagged (screen G) floor w k := by
  rintro ⟨b, hb, o, ho, hlt⟩
  obtain ⟨c, hl, hcv⟩ := hc b hb
  have hw : w ≠ [] := by rintro rfl; simp at hn
  have hT := table_window hw b
  have hlen : 5 ≤ (valuesOf w b).length := by unfold valuesOf; rwa [List.length_map]
  have key := C80_on_curve hG hT hlen hl (by
    intro i r v hr hv
    unfold withConst valuesOf at *
    rw [List.map_map, List.getElem?_map, Option.map_eq_some_iff] at hr
    rw [List.getElem?_map, Option.map_eq_some_iff] at hv
    obtain ⟨o1, h1, rfl⟩ := hr
    obtain ⟨o2, h2, rfl⟩ := hv
    rw [h1] at h2
    injection h2 with h2
    subst h2
    show _ = value (1 :: screenRow _ _) c
    rw [value_curve _ _ hl]
    exact hcv _ (List.mem_of_getElem? h1))
  have hk := key k (1 :: screenRow (yearsOf w) (o.date : ℝ)) ((o.bands.getD b 0 : ℤ) : ℝ)
    (by unfold withConst; rw [List.getElem?_map, List.getElem?_map, ho]; rfl)
    (by unfold valuesOf; rw [List.getElem?_map, ho]; rfl)
  rw [value_curve _ _ (C80_weighted hG hT hlen).1] at hk
  rw [← hk, sub_self, abs_zero] at hlt
  have := hfl b
  linarith

/-- **C80, units.**  Multiplying the values multiplies the coefficients. -/
theorem C80_scale {G : Gsl} (hG : LeastSquares G) (hH : Homogeneous G) {x : List (List ℝ)} {y : List ℝ} (h : Table x y 4)
    (hn : 5 ≤ y.length) {a : ℝ} (ha : a ≠ 0) : screen G x (y.map (a * ·)) = (screen G x y).map (a * ·) := by
  rw [screen_eq hn, screen_eq (by rwa [List.length_map])]
  exact robust_scale hG hH h (by omega) ha

/-- **C80, leverage.**  Whatever the leverage of an observation (a number between 0 and 1; 1 when the curve must pass through
it), its residual is enlarged by a factor between 1 and 100 before it is weighed: no division by zero. -/
theorem C80_leverage {h : ℝ} (h0 : 0 ≤ h) (h1 : h ≤ 1) : 1 ≤ resfac h ∧ resfac h ≤ 100 := by
  unfold resfac
  have hs : (if h > 0.9999 then (0.9999 : ℝ) else h) ≤ 0.9999 ∧ 0 ≤ (if h > 0.9999 then (0.9999 : ℝ) else h) := by
    split
    · norm_num
    · exact ⟨not_lt.1 ‹_›, h0⟩
  generalize (if h > 0.9999 then (0.9999 : ℝ) else h) = v at hs
  have a : (0.01 : ℝ) ≤ Real.sqrt (1 - v) := by
    apply Real.le_sqrt_of_sq_le
    norm_num at hs ⊢
    linarith [hs.1]
  have b : Real.sqrt (1 - v) ≤ 1 := by
    exact Real.sqrt_le_one.mpr (by linarith [hs.2])
  constructor
  · rw [le_div_iff₀ (by linarith)]
    linarith
  · rw [div_le_iff₀ (by linarith)]
    linarith

/-! ### Cases -/

/-- Solvers with the documented behaviour exist. -/
example : LeastSquares exactGsl ∧ Homogeneous exactGsl := ⟨exactGsl_leastSquares, exactGsl_homogeneous⟩

namespace Toy

/-- Seven observations in a year and a half, with a spike in the fourth. -/
def x : List (List ℝ) := [[1, 0, 1, 0], [0, 1, 1, 1], [-1, 0, 0, 1], [0, -1, -1, 1], [1, 0, -1, 0], [0, 1, -1, -1], [-1, 0, 0, -1]]

def y : List ℝ := [500, 510, 500, 3000, 500, 510, 500]

example : Table x y 4 ∧ 5 ≤ y.length := by
  refine ⟨⟨by simp [x], rfl, ?_⟩, by simp [y]⟩
  intro r hr
  simp only [x, List.mem_cons, List.not_mem_nil, or_false] at hr
  rcases hr with rfl | rfl | rfl | rfl | rfl | rfl | rfl <;> rfl

/-- A curve within 1255 of all values. -/
example : ∀ e ∈ List.zipWith (fun r v => v - value r [1755, 0, 0, 0, 0]) (withConst x) y, |e| ≤ 1255 := by
  intro e he
  simp only [x, y, withConst, value, List.map_cons, List.map_nil, List.zipWith_cons_cons, List.zipWith_nil_left,
    List.sum_cons, List.sum_nil, List.mem_cons, List.not_mem_nil, or_false] at he
  rcases he with rfl | rfl | rfl | rfl | rfl | rfl | rfl <;> norm_num [abs_le]

/-- A window on curves: green 500, SWIR1 1200. -/
def w : List ClrObs := (List.range 7).map fun (k : ℕ) => ⟨1 + 100 * (k : Int), [300, 500, 10 * (k : Int), 20, 1200, 7, 0]⟩

example : 5 ≤ w.length ∧ ∀ b ∈ ([1, 4] : List (Fin 7)), ∃ c : List ℝ, c.length = 5 ∧
    ∀ o ∈ w, ((o.bands.getD b 0 : ℤ) : ℝ) = screenCurve (yearsOf w) c (o.date : ℝ) := by
  refine ⟨by decide, ?_⟩
  intro b hb
  simp only [List.mem_cons, List.not_mem_nil, or_false] at hb
  rcases hb with rfl | rfl
  · refine ⟨[500, 0, 0, 0, 0], rfl, fun o ho => ?_⟩
    obtain ⟨k, _, rfl⟩ := List.mem_map.1 ho
    simp [screenCurve]
  · refine ⟨[1200, 0, 0, 0, 0], rfl, fun o ho => ?_⟩
    obtain ⟨k, _, rfl⟩ := List.mem_map.1 ho
    simp [screenCurve]

end Toy

end Pycold.Robust

namespace Pycold

open ColdNum ColdNum.Spec ColdV.Spec
open Pycold.ColdV (Hom)

variable {F : Type}

/-- Two programs whose robust regressions agree where they are used. -/
def sameRobust (A : Fl F) (lasso robust robust' : List (List F) → List F → List F) (tcg : F) (rmin : Fin 7 → F)
    (series : List (ColdV.Row (Fin 7 → F)))
    (h : ∀ x y, 6 ≤ y.length → x.length = y.length → robust x y = robust' x y) :
    Hom series (kit (program A lasso robust tcg) rmin) (kit (program A lasso robust' tcg) rmin) where
  y := id
  m := id
  d := id
  g := id
  N := rfl
  fit := by
    intro c l _ _ _
    have : l.map (ColdV.Row.map id) = l := List.map_id l
    rw [this]
    rfl
  mask := by
    intro l _ h6
    have e : l.map (ColdV.Row.map id) = l := List.map_id l
    rw [e]
    show mask (program A lasso robust' tcg) rmin l = mask (program A lasso robust tcg) rmin l
    funext k
    unfold mask program
    dsimp only
    rw [h _ (bandOf 1 l) (by unfold bandOf; rwa [List.length_map]) (by unfold bandOf; simp),
      h _ (bandOf 4 l) (by unfold bandOf; rwa [List.length_map]) (by unfold bandOf; simp)]
  unstable := by
    intro x l
    have e : l.map (ColdV.Row.map id) = l := List.map_id l
    rw [e]
    rfl
  score := fun _ _ _ => rfl
  near := fun _ _ _ _ _ _ => rfl
  skip := rfl
  cm := rfl
  magn := by intro l; rw [List.map_id]; rfl
  magnNeg := by intro l; rw [List.map_id]; rfl
  magn0 := rfl

/-- **C80, never too few observations.**  `cold` asks for a robust regression only with six or more observations, so that
the library never refuses it: two regressions that agree on six or more observations give the same result, whatever
they do with fewer.  For every arithmetic. -/
theorem C80_enough {P : Cold.Params} {A : Fl F} {lasso robust robust' : List (List F) → List F → List F} {tcg : F}
    {bC2 : Bool} {obs : List Scene} {nCm : ℕ} (hc : 1 ≤ P.conse) (hs : Cold.Spec.CmSized P (obs.map (·.date)) nCm)
    (h : ∀ x y, 6 ≤ y.length → x.length = y.length → robust x y = robust' x y) :
    ColdNum.cold P (program A lasso robust tcg) bC2 obs nCm = ColdNum.cold P (program A lasso robust' tcg) bC2 obs nCm := by
  unfold ColdNum.cold
  by_cases h1 : obs.isEmpty
  · rw [if_pos h1, if_pos h1]
  rw [if_neg h1, if_neg h1]
  by_cases h2 : dateCheckFails obs = true
  · rw [if_pos h2, if_pos h2]
  rw [if_neg h2, if_neg h2]
  dsimp only
  by_cases h3 : (preprocessing bC2 obs).status ≠ .success
  · rw [if_pos h3, if_pos h3]
  rw [if_neg h3, if_neg h3]
  by_cases h4 : (preprocessing bC2 obs).sums.clear < 24
  · rw [if_pos h4, if_pos h4]
  rw [if_neg h4, if_neg h4]
  congr 1
  have e : ColdNum.cold P (program A lasso robust tcg) bC2 obs nCm =
      .standard (run P (program A lasso robust tcg) (rowsOf A (clearObs bC2 obs)) nCm) := by
    unfold ColdNum.cold
    rw [if_neg h1, if_neg h2]
    dsimp only
    rw [if_neg h3, if_neg h4]
    rfl
  obtain ⟨out, ho⟩ := cold_ok hc hs e
  have hsort := rows_sorted A (cold_standard e).2.1 (cold_standard e).2.2
  have hm := ColdV.standProcedure_map (sameRobust A lasso robust robust' tcg
    (fun b => variogram A (bandOf b (rowsOf A (clearObs bC2 obs)))) (rowsOf A (clearObs bC2 obs)) h) hc hsort ho
  show run P _ (rowsOf A _) nCm = run P _ (rowsOf A _) nCm
  rw [ho]
  have hr : (rowsOf A (clearObs bC2 obs)).map (ColdV.Row.map (id : (Fin 7 → F) → Fin 7 → F)) =
      rowsOf A (clearObs bC2 obs) := List.map_id _
  have hrec : ∀ r : ColdNum.Rec F (Fin 7), ColdV.Rec.map (sameRobust A lasso robust robust' tcg
      (fun b => variogram A (bandOf b (rowsOf A (clearObs bC2 obs)))) (rowsOf A (clearObs bC2 obs)) h) r = r := by
    intro r
    unfold ColdV.Rec.map
    have a1 : ∀ l : List (ColdV.Row (Fin 7 → F)), l.map (ColdV.Row.map (id : (Fin 7 → F) → Fin 7 → F)) = l := List.map_id
    have a2 : r.model.map id = r.model := Option.map_id_apply ..
    have a3 : r.magn.map id = r.magn := Option.map_id_apply ..
    have a4 : r.window.map (ColdV.Sc.map (sameRobust A lasso robust robust' tcg
      (fun b => variogram A (bandOf b (rowsOf A (clearObs bC2 obs)))) (rowsOf A (clearObs bC2 obs)) h)) = r.window :=
      List.map_id _
    rw [a4]
    show (⟨_, _, _, _, _, _, r.model.map id, r.magn.map id, r.fitted.map (ColdV.Row.map id), r.window⟩ : ColdNum.Rec F (Fin 7)) = r
    rw [a1, a2, a3]
  have hout : out.map (sameRobust A lasso robust robust' tcg
      (fun b => variogram A (bandOf b (rowsOf A (clearObs bC2 obs)))) (rowsOf A (clearObs bC2 obs)) h) = out := by
    unfold ColdV.Output.map
    have : out.recs.map (ColdV.Rec.map (sameRobust A lasso robust robust' tcg
      (fun b => variogram A (bandOf b (rowsOf A (clearObs bC2 obs)))) (rowsOf A (clearObs bC2 obs)) h)) = out.recs := by
      rw [List.map_congr_left (g := id) (fun r _ => hrec r), List.map_id]
    rw [this]
  rw [hout] at hm
  rw [← hm]
  unfold run
  show ColdV.standProcedure P _ ((rowsOf A (clearObs bC2 obs)).map (ColdV.Row.map id)) nCm = _
  rw [hr]
  rfl

/-- The error exit of the library is not reached: the result of `cold` does not depend on what stands for it. -/
theorem C80_no_refusal {P : Cold.Params} {fuel : ℕ} {G : Robust.Gsl} {tcg : ℝ} {bC2 : Bool} {obs : List Scene} {nCm : ℕ}
    (hc : 1 ≤ P.conse) (hs : Cold.Spec.CmSized P (obs.map (·.date)) nCm) (instead : List (List ℝ) → List ℝ → List ℝ) :
    ColdNum.cold P (program exact (Glmnet.lasso fuel) (fun x y => (Robust.autoRobustFit G x y).getD (instead x y)) tcg)
      bC2 obs nCm = ColdNum.cold P (program exact (Glmnet.lasso fuel) (Robust.screen G) tcg) bC2 obs nCm := by
  refine C80_enough hc hs ?_
  intro x y h6 _
  unfold Robust.screen Robust.autoRobustFit
  rw [if_neg (by omega)]
  rfl

/-- A series on which regressions are made. -/
example (G : Robust.Gsl) : Cold.Spec.CmSized Toy.qP ((Toy.quiets 20).map (·.date)) 0 ∧ 1 ≤ Toy.qP.conse ∧
    ∃ res, ColdNum.cold Toy.qP (program exact (Glmnet.lasso 200000001) (Robust.screen G) 15.0863) false (Toy.quiets 20) 0 =
      .standard res :=
  ⟨nofun, by decide, Toy.quiet_standard 20 (Or.inl rfl) _⟩

end Pycold
