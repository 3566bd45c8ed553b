import Verif.Props.C32_C33
import Verif.Spec.SccdKalman
import Verif.Model.SccdKalman
import Verif.Proof.SccdExact
/-!
# The filter of `Model/SccdNum.lean` is that of `Model/Kalman.lean`
-/
namespace Pycold.SccdNum

open Matrix
open Pycold.Kalman (Vec Mat)
open Pycold.Kalman.Spec (curve Covariance predVar absorb nextDay dayT)
open Pycold.ColdNum.Spec (exact storedCurve)
open Pycold.ColdNum (Fl)
open Pycold.SccdNum.Spec
open Pycold.Sccd (Obs Asc follow FilterOf Codable)

theorem w_kalman : exact.w = Kalman.w := by
  rw [ColdNum.w_exact]
  unfold ColdNum.Spec.PI Kalman.w Kalman.PI
  norm_num

theorem slope_exact : exact.slopeScale = Kalman.SLOPE_SCALE := by
  unfold Fl.slopeScale Kalman.SLOPE_SCALE
  rw [ColdNum.lit_exact]; norm_num

theorem two_exact : exact.lit 2 1 = 2 := by rw [ColdNum.lit_exact]; norm_num

theorem vec_toState (c : List ℝ) (t : Int) : vec (toState exact c t) = Kalman.toState (vec c) t := by
  apply Kalman.vec_ext <;>
  · simp only [vec, toState, Kalman.toState, w_kalman, slope_exact, two_exact, ColdNum.zero_exact]
    rfl

theorem vec_toCoef (a : List ℝ) (t : Int) : vec (toCoef exact a t) = Kalman.toCoef (vec a) t := by
  apply Kalman.vec_ext <;>
  · simp only [vec, toCoef, Kalman.toCoef, w_kalman, slope_exact, two_exact, ColdNum.zero_exact]
    rfl

theorem vec_ofFn (v : Vec) : vec (List.ofFn v) = v := by
  apply Kalman.vec_ext <;> simp [vec]

theorem missing_any (H : ℝ) : Kalman.missing (Kalman.ssm H) = kalmanMissing := rfl

section
variable (lasso robust : List (List ℝ) → List ℝ → List ℝ) (tcg gate pred junk : ℝ)
local notation "K" => withKalman lasso robust tcg gate pred junk

/-- One observation: the same step. -/
theorem regular_kalman (H y : ℝ) (t next : Int) (r : Run ℝ Mat) :
    Kalman.regular (Kalman.ssm H) y t next ⟨vec r.cft, r.cov, r.vt⟩ =
      ⟨vec (regular K H y t next r).cft, (regular K H y t next r).cov, (regular K H y t next r).vt⟩ := by
  unfold regular Kalman.regular
  cases (next - t).toNat with
  | zero => rfl
  | succ n =>
    show _ = (⟨vec (toCoef exact (kalmanValid H y (toState exact r.cft t) r.cov).1 (t + 1)),
      kalmanMissing^[n] (kalmanValid H y (toState exact r.cft t) r.cov).2.1,
      some (kalmanValid H y (toState exact r.cft t) r.cov).2.2⟩ : Kalman.St)
    rw [vec_toCoef]
    unfold kalmanValid
    simp only
    rw [vec_ofFn]
    have e : (fun i : Fin 6 => (toState exact r.cft t).getD (i : Nat) 0) = Kalman.toState (vec r.cft) t :=
      vec_toState r.cft t
    rw [e, missing_any]

theorem iterate_pow (M : Mat) (x : Vec) : ∀ n : ℕ, (M.mulVec)^[n] x = (M ^ n) *ᵥ x
  | 0 => by simp
  | n + 1 => by
    rw [Function.iterate_succ', Function.comp, iterate_pow M x n, mulVec_mulVec, ← pow_succ']

theorem curve_days (c : Vec) (t : Int) (n : ℕ) :
    curve c ((t : ℝ) + n) = ![1, 0, 1, 0, 1, 0] ⬝ᵥ ((dayT ^ n) *ᵥ Kalman.toState c t) := by
  have h := Kalman.C32_days c t 0 n
  rw [iterate_pow, Kalman.T_eq] at h
  rw [h]
  have := (Kalman.C32_prediction c (t + n) 0).1
  push_cast at this
  exact this.symm

/-- One observation, in the words of the specification. -/
theorem led_step {H : ℝ} (hH : 0 ≤ H) (y : ℝ) (t next : Int) (hn : t < next) (r : Run ℝ Mat)
    (hc : Covariance r.cov) :
    Covariance (regular K H y t next r).cov ∧
    (1E-14 < predVar r.cov + H → ∀ n : ℕ, curve (vec (regular K H y t next r).cft) ((t : ℝ) + n) =
      curve (vec r.cft) ((t : ℝ) + n) + (y - curve (vec r.cft) t) / (predVar r.cov + H) * coVar n r.cov) ∧
    (¬ 1E-14 < predVar r.cov + H → vec (regular K H y t next r).cft = vec r.cft) ∧
    (regular K H y t next r).cov = nextDay^[(next - t).toNat]
      (open Classical in if 1E-14 < predVar r.cov + H then absorb H r.cov else r.cov) := by
  have e := regular_kalman lasso robust tcg gate pred junk H y t next r
  obtain ⟨_, h2, h3⟩ := Kalman.C33_textbook H hH y t next hn ⟨vec r.cft, r.cov, r.vt⟩ hc
  have h4 := (Kalman.C58_update H hH y t next hn ⟨vec r.cft, r.cov, r.vt⟩ hc).2.2
  have h5 := Kalman.regular_cov hH y t next ⟨vec r.cft, r.cov, r.vt⟩ hc
  rw [e] at h2 h3 h5
  simp only at h2 h3 h5
  simp only [e] at h4
  refine ⟨h5, fun hT n => ?_, h4, ?_⟩
  · rw [curve_days, curve_days, (h2 hT).2, mulVec_add, dotProduct_add, mulVec_smul, dotProduct_smul, coVar,
      mulVec_mulVec, smul_eq_mul]
  · by_cases hT : (1E-14 : ℝ) < predVar r.cov + H
    · rw [if_pos hT]; exact (h2 hT).1
    · rw [if_neg hT]; exact h3 hT

/-- The filter over an ascending list. -/
theorem led_run {H : ℝ} (hH : 0 ≤ H) (last : Int × ℝ) : ∀ (l : List (Int × ℝ)) (k : Nat) (r : Run ℝ Mat) (s : Int),
    Kalman.Spec.Ascending (l ++ [last]) → Covariance r.cov →
    Covariance (ssmRun K H (l ++ [last]) k r s).1.cov ∧
    Led H last.1 (vec r.cft, r.cov) l
      (vec (ssmRun K H (l ++ [last]) k r s).1.cft, (ssmRun K H (l ++ [last]) k r s).1.cov)
  | [], k, r, s, _, hc => ⟨hc, rfl⟩
  | [a], k, r, s, ha, hc => by
    have hlt : a.1 < last.1 := (List.pairwise_cons.mp ha).1 last (by simp)
    obtain ⟨q1, q2, q3, q4⟩ := led_step lasso robust tcg gate pred junk hH a.2 a.1 last.1 hlt r hc
    refine ⟨q1, hc, _, q2, q3, ?_⟩
    show _ = _
    simp only [List.map_nil, List.headD_nil]
    rw [← q4]
    rfl
  | a :: b :: l, k, r, s, ha, hc => by
    have hlt : a.1 < b.1 := (List.pairwise_cons.mp ha).1 b (by simp)
    obtain ⟨q1, q2, q3, q4⟩ := led_step lasso robust tcg gate pred junk hH a.2 a.1 b.1 hlt r hc
    obtain ⟨i1, i2⟩ := led_run hH last (b :: l) (k - 1) (regular K H a.2 a.1 b.1 r)
      (if k = 0 then s + (K).base.A.trunc ((K).base.A.mul ((regular K H a.2 a.1 b.1 r).vt.getD (K).junk)
        ((regular K H a.2 a.1 b.1 r).vt.getD (K).junk)) else s) (List.pairwise_cons.mp ha).2 q1
    refine ⟨i1, hc, _, q2, q3, ?_⟩
    simp only [List.map_cons, List.headD_cons]
    rw [← q4]
    exact i2

theorem led_append {H : ℝ} (last : Int) : ∀ (l m : List (Int × ℝ)) (s t e : Vec × Mat),
    Led H ((m.map Prod.fst).headD last) s l t → Led H last t m e → Led H last s (l ++ m) e
  | [], m, s, t, e, h1, h2 => by
    have : t = s := h1
    rw [← this]; exact h2
  | (u, y) :: l, m, (c, P), t, e, ⟨h0, c', h3, h4, h5⟩, h2 => by
    refine ⟨h0, c', h3, h4, ?_⟩
    have := led_append last l m _ t e h5 h2
    have eh : ((l.map Prod.fst).headD ((m.map Prod.fst).headD last)) = (((l ++ m).map Prod.fst).headD last) := by
      cases l <;> simp
    show Led H last (c', nextDay^[(((l ++ m).map Prod.fst).headD last - u).toNat] _) (l ++ m) e
    rw [← eh]
    exact this

/-- The filter along observations. -/
theorem led_follow (rmin : Fin 6 → Int) (b : Fin 6) (nx : Obs) : ∀ (l : List Obs) (f : Fin 6 → BandState ℝ Mat),
    Asc (l ++ [nx]) → 0 ≤ (f b).H → Covariance (f b).cov →
    Covariance (follow (num K rmin) f l nx b).cov ∧ (follow (num K rmin) f l nx b).H = (f b).H ∧
    Led (f b).H nx.date (vec (f b).cft, (f b).cov) (dated b l)
      (vec (follow (num K rmin) f l nx b).cft, (follow (num K rmin) f l nx b).cov)
  | [], f, _, _, hc => ⟨hc, rfl, rfl⟩
  | o :: os, f, ha, hH, hc => by
    have hlt : o.date < ((os.headD nx).date) := by
      rw [Asc, List.cons_append, List.pairwise_cons] at ha
      cases os with
      | nil => exact ha.1 nx (by simp)
      | cons p ps => exact ha.1 p (by simp)
    have ha' : Asc (os ++ [nx]) := by
      rw [Asc, List.cons_append, List.pairwise_cons] at ha
      exact ha.2
    obtain ⟨q1, q2, q3, q4⟩ := led_step lasso robust tcg gate pred junk hH (value K b o) o.date (os.headD nx).date hlt
      ⟨(f b).cft, (f b).cov, none⟩ hc
    obtain ⟨i1, i2, i3⟩ := led_follow rmin b nx os (filter K f o (os.headD nx).date) ha' hH q1
    refine ⟨i1, i2, hc, _, q2, q3, ?_⟩
    have eh : (((dated b os).map Prod.fst).headD nx.date) = (os.headD nx).date := by
      cases os <;> rfl
    show Led (f b).H nx.date (_, nextDay^[((((dated b os).map Prod.fst).headD nx.date) - o.date).toNat] _) (dated b os) _
    rw [eh]
    have q4' := q4
    simp only at q4'
    rw [← q4']
    exact i3

theorem startP_eq : Kalman.initP 0 = startP := by
  ext i j
  fin_cases i <;> fin_cases j <;> simp [Kalman.initP, startP, Matrix.diagonal] <;> norm_num

theorem shift_floor {k : ℕ} {t : Int} (h : (k : ℝ) * 365.25 ≤ t) : shift exact k t = ⌊(t : ℝ) - k * 365.25⌋ := by
  have e : exact.lit 36525 100 = 365.25 := by rw [ColdNum.lit_exact]; norm_num
  unfold shift
  rw [e]
  show (if 0 ≤ (t : ℝ) - ((k : ℤ) : ℝ) * 365.25 then ⌊(t : ℝ) - ((k : ℤ) : ℝ) * 365.25⌋ else _) = _
  push_cast
  rw [if_pos (by linarith)]

theorem curve_stored {c : List ℝ} (h : c.length ≤ 6) (t : ℝ) : curve (vec c) t = storedCurve c t := by
  have h6 : c.getD 6 0 = 0 := by rw [List.getD_eq_getElem?_getD, List.getElem?_eq_none (by omega)]; rfl
  have h7 : c.getD 7 0 = 0 := by rw [List.getD_eq_getElem?_getD, List.getElem?_eq_none (by omega)]; rfl
  unfold curve storedCurve ColdNum.Spec.PI
  simp only [h6, h7, vec, Fin.val_zero, Fin.val_one, Fin.val_two]
  show c.getD 0 0 + c.getD 1 0 / 10000 * t + c.getD 2 0 * _ + c.getD 3 0 * _ + c.getD 4 0 * _ + c.getD 5 0 * _ = _
  ring

/-- The first filter of a call, over its segment. -/
theorem by_kalman {rmin : Fin 6 → Int} {seg : List Obs} {nx : Obs} {f : Fin 6 → BandState ℝ Mat}
    (h : FilterOf (num K rmin) none seg nx f) (ha : Asc (seg ++ [nx])) (hcod : Codable seg) (b : Fin 6) :
    Covariance (f b).cov ∧ ByKalman lasso b seg nx (f b).cft (f b).cov := by
  obtain ⟨k, hk, hks, _, rfl⟩ := h
  set w := seg.take k with hw
  set rest := seg.drop k with hrest
  have hsplit : seg = w ++ rest := (List.take_append_drop k seg).symm
  have hwl : w.length = k := by rw [hw, List.length_take]; omega
  obtain ⟨a, tl, hat⟩ : ∃ a tl, w = a :: tl := by
    cases hwe : w with
    | nil => rw [hwe] at hwl; simp at hwl; omega
    | cons a tl => exact ⟨a, tl, rfl⟩
  have hne : w ≠ [] := by rw [hat]; simp
  set z := w.getLast hne with hz
  have hasc : Asc (w ++ rest ++ [nx]) := hsplit ▸ ha
  have haw : Asc w := List.Pairwise.sublist (by simp) hasc
  have ew : ∀ o ∈ w, a.date ≤ o.date ∧ o.date ≤ z.date := by
    intro o ho
    constructor
    · rw [hat] at ho haw
      rcases List.mem_cons.mp ho with rfl | ho
      · exact le_refl _
      · exact ((List.pairwise_cons.mp haw).1 o ho).le
    · have hd : w = w.dropLast ++ [z] := (List.dropLast_append_getLast hne).symm
      rw [hd] at ho haw
      rcases List.mem_append.mp ho with ho | ho
      · exact ((List.pairwise_append.mp haw).2.2 o ho z (by simp)).le
      · simp at ho; rw [ho]
  have haz := (ew a (by rw [hat]; simp)).2
  have hzm : z ∈ w := List.getLast_mem hne
  have hin : ∀ o ∈ w, o ∈ seg := fun o ho => by rw [hsplit]; simp [ho]
  -- the number of years
  have e365 : exact.lit 36525 100 = 365.25 := by rw [ColdNum.lit_exact]; norm_num
  have hyr : yearRange exact (z.date - a.date + 1) = ⌈(((z.date - a.date + 1 : Int)) : ℝ) / 365.25⌉ := by
    unfold yearRange
    rw [e365]
    rfl
  obtain ⟨years, hyears⟩ : ∃ years : ℕ, yearRange exact (z.date - a.date + 1) = (years : Int) := by
    refine ⟨(yearRange exact (z.date - a.date + 1)).toNat, (Int.toNat_of_nonneg ?_).symm⟩
    rw [hyr]
    apply Int.ceil_nonneg
    apply div_nonneg _ (by norm_num)
    exact_mod_cast (by omega : (0 : Int) ≤ z.date - a.date + 1)
  have hy1 : (z.date : ℝ) - a.date + 1 ≤ years * 365.25 ∧ (years : ℝ) * 365.25 < (z.date : ℝ) - a.date + 1 + 365.25 := by
    rw [hyears] at hyr
    have hc1 := Int.le_ceil ((((z.date - a.date + 1 : Int)) : ℝ) / 365.25)
    have hc2 := Int.ceil_lt_add_one ((((z.date - a.date + 1 : Int)) : ℝ) / 365.25)
    rw [← hyr] at hc1 hc2
    push_cast at hc1 hc2
    constructor
    · rw [div_le_iff₀ (by norm_num)] at hc1; linarith
    · have h3 : (years : ℝ) - 1 < ((z.date : ℝ) - a.date + 1) / 365.25 := by linarith
      rw [lt_div_iff₀ (by norm_num)] at h3
      linarith
  have hlow : ∀ o ∈ w, (years : ℝ) * 365.25 ≤ o.date := by
    intro o ho
    have h1 := (hcod o (hin o ho)).1
    have h2 := (hcod z (hin z hzm)).1
    have h3 := (hcod a (hin a (by rw [hat]; simp))).1
    have g1 : (690974 : ℝ) ≤ o.date := by exact_mod_cast (by omega : (690974 : Int) ≤ o.date)
    have g2 : (z.date : ℝ) ≤ 756509 := by exact_mod_cast (by omega : z.date ≤ (756509 : Int))
    have g3 : (690974 : ℝ) ≤ a.date := by exact_mod_cast (by omega : (690974 : Int) ≤ a.date)
    linarith [hy1.2]
  -- the series
  have hser : ∀ l, series K b l = dated b l := fun l => rfl
  have hshift : (dated b w).map (fun p => (shift exact (years : Int) p.1, p.2)) = movedBack years (dated b w) := by
    unfold movedBack dated
    rw [List.map_map, List.map_map]
    refine List.map_congr_left fun o ho => ?_
    simp only [Function.comp]
    rw [shift_floor (hlow o ho)]
  set nx' := rest.headD nx with hnx'
  have hmem : (w ++ [nx']).Sublist (w ++ rest ++ [nx]) := by
    rw [hnx']
    cases rest <;> simp
  have hawn : Asc (w ++ [nx']) := List.Pairwise.sublist hmem hasc
  have hext : extend exact (dated b w) (nx'.date, value K b nx') =
      (movedBack years (dated b w) ++ dated b w) ++ [(nx'.date, value K b nx')] := by
    unfold extend
    have e1 : (dated b w).head? = some (a.date, ((a.vals.getD b 0 : Int) : ℝ)) := by rw [hat]; rfl
    have e2 : (dated b w).getLast? = some (z.date, ((z.vals.getD b 0 : Int) : ℝ)) := by
      unfold dated
      rw [List.getLast?_map, List.getLast?_eq_some_getLast hne]
      rfl
    rw [e1, e2]
    simp only
    rw [hyears, hshift]
  have hAsc : Kalman.Spec.Ascending ((movedBack years (dated b w) ++ dated b w) ++ [(nx'.date, value K b nx')]) := by
    have hd : Kalman.Spec.Ascending (dated b w ++ [(nx'.date, value K b nx')]) := by
      have : dated b w ++ [(nx'.date, value K b nx')] = dated b (w ++ [nx']) := by
        unfold dated; rw [List.map_append]; rfl
      rw [this]
      exact List.pairwise_map.mpr hawn
    unfold Kalman.Spec.Ascending at hd ⊢
    rw [List.append_assoc]
    refine List.pairwise_append.mpr ⟨?_, hd, ?_⟩
    · unfold movedBack dated
      rw [List.map_map]
      refine List.pairwise_map.mpr (List.Pairwise.imp (fun {o p} hop => ?_) haw)
      simp only [Function.comp]
      have h1 : ((o.date : ℝ)) + 1 ≤ p.date := by exact_mod_cast (by omega : o.date + 1 ≤ p.date)
      have h2 : ⌊((o.date : ℝ) - years * 365.25) + 1⌋ ≤ ⌊(p.date : ℝ) - years * 365.25⌋ :=
        Int.floor_le_floor (by linarith)
      rw [Int.floor_add_one] at h2
      omega
    · intro p hp q hq
      unfold movedBack dated at hp
      rw [List.map_map] at hp
      obtain ⟨o, ho, rfl⟩ := List.mem_map.mp hp
      simp only [Function.comp]
      have hlt : ⌊(o.date : ℝ) - years * 365.25⌋ < a.date := by
        rw [Int.floor_lt]
        have := (ew o ho).2
        have g : (o.date : ℝ) ≤ z.date := by exact_mod_cast this
        linarith [hy1.1]
      refine lt_of_lt_of_le hlt ?_
      rcases List.mem_append.mp hq with hq | hq
      · obtain ⟨o', ho', rfl⟩ := List.mem_map.mp hq
        exact (ew o' ho').1
      · simp only [List.mem_singleton] at hq
        rw [hq]
        exact ((List.pairwise_append.mp hawn).2.2 a (by rw [hat]; simp) nx' (by simp)).le
  -- the fit
  set m := fits K 6 w b with hm
  obtain ⟨r1, r2, r3⟩ := fits_exact K rfl (fun _ => rfl) 6 (.inr rfl) w b
  have hH : exact.mul m.rmse m.rmse = squares lasso 6 b w / ((k : ℝ) - 6) := by
    have hk6 : (0 : ℝ) ≤ (k : ℝ) - 6 := by
      have : (18 : ℝ) ≤ k := by exact_mod_cast hk
      linarith
    rw [hwl] at r3
    show m.rmse * m.rmse = _
    rw [hm, r3, div_mul_div_comm, Real.mul_self_sqrt (squares_nonneg _ _ _ _)]
    push_cast
    rw [Real.mul_self_sqrt hk6]
    rfl
  have r2' : ∀ j : Nat, 6 ≤ j → m.coefs.getD j 0 = 0 := fun j hj => r2 j (by omega)
  have hH0 : 0 ≤ exact.mul m.rmse m.rmse := mul_self_nonneg m.rmse
  have hcov0 : Covariance startP := startP_eq ▸ Kalman.initP_zero_cov
  obtain ⟨c1, c2⟩ := led_run lasso robust tcg gate pred junk hH0 (nx'.date, value K b nx')
    (movedBack years (dated b w) ++ dated b w) (dated b w).length ⟨cftOf m, startP, none⟩ 0 hAsc hcov0
  have hfit : (num K rmin).fit none w nx' b =
      ⟨(ssmRun K (exact.mul m.rmse m.rmse) (movedBack years (dated b w) ++ dated b w ++ [(nx'.date, value K b nx')])
          (dated b w).length ⟨cftOf m, startP, none⟩ 0).1.cft,
       (ssmRun K (exact.mul m.rmse m.rmse) (movedBack years (dated b w) ++ dated b w ++ [(nx'.date, value K b nx')])
          (dated b w).length ⟨cftOf m, startP, none⟩ 0).1.cov, exact.mul m.rmse m.rmse,
       (ssmRun K (exact.mul m.rmse m.rmse) (movedBack years (dated b w) ++ dated b w ++ [(nx'.date, value K b nx')])
          (dated b w).length ⟨cftOf m, startP, none⟩ 0).2⟩ := by
    rw [← hext, ← startP_eq]
    rfl
  have harest : Asc (rest ++ [nx]) := List.Pairwise.sublist (by simp) hasc
  obtain ⟨d1, _, d3⟩ := led_follow lasso robust tcg gate pred junk rmin b nx rest ((num K rmin).fit none w nx') harest
    (by rw [hfit]; exact hH0) (by rw [hfit]; exact c1)
  refine ⟨d1, k, years, vec (cftOf m), hk, hks, ?_, ?_, ?_⟩
  · intro a' ha' z' hz'
    rw [← hw, hat] at ha'
    rw [← hw, List.getLast?_eq_some_getLast hne] at hz'
    cases ha'; cases hz'
    exact hy1
  · intro t
    rw [curve_stored (by simp only [cftOf, List.length_take]; omega)]
    exact (take_six r2' t).trans (r1 t)
  · rw [← hw, ← hH]
    have e : dated b seg = dated b w ++ dated b rest := by
      rw [hsplit]; exact List.map_append
    rw [e, ← List.append_assoc]
    refine led_append nx.date _ _ _ (vec ((num K rmin).fit none w nx' b).cft, ((num K rmin).fit none w nx' b).cov) _ ?_ ?_
    · have eh : (((dated b rest).map Prod.fst).headD nx.date) = nx'.date := by
        rw [hnx']; cases rest <;> rfl
      rw [eh, hfit]
      exact c2
    · have : ((num K rmin).fit none w nx' b).H = exact.mul m.rmse m.rmse := by rw [hfit]
      rw [← this]
      exact d3

end

end Pycold.SccdNum
