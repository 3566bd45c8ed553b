import Verif.Proof.SccdRunReal
/-! A concrete case for C76: a series with a change, in exact arithmetic. -/
namespace Pycold.SccdNum.Toy
open Pycold.ColdNum (Fl)
open Pycold.ColdNum.Spec (exact storedCurve Middle)
open Pycold.SccdNum.Spec
open Pycold.Sccd (Obs isChange allAbove fresh)

/-- The level 500, whatever the data. -/
noncomputable def level (_ : List (List ℝ)) (_ : List ℝ) : List ℝ := [500]

/-- The innovation of an observation; the state is kept. -/
noncomputable def inno (_ y : ℝ) (a : List ℝ) (q : Unit) : List ℝ × Unit × ℝ :=
  (a, q, y - (a.getD 0 0 + a.getD 2 0 + a.getD 4 0))

/-- The program in exact arithmetic. -/
noncomputable def rE : Env ℝ Unit (Fin 6) := program exact level level 15 35 20 0 inno id id id ()

/-- Alternating values, then a jump. -/
def jump (k : Nat) : Int := if k < 18 then 500 + 20 * ((k % 2 : Nat) : Int) else 2500

def robs : List Scene :=
  (List.range 27).map fun (k : Nat) => ⟨730000 + 25 * (k : Int), jump k, jump k, jump k, jump k, jump k, jump k, 2900, 0⟩

def rX : List Obs := (List.range 27).map fun (k : Nat) => ⟨730000 + 25 * (k : Int), List.replicate 6 (jump k)⟩

set_option maxRecDepth 100000 in
theorem fresh_robs : fresh false false robs = rX := by decide +kernel

theorem rX_get (o : Obs) (h : o ∈ rX) (b : Fin 6) : ∃ k, k < 27 ∧ o.vals.getD b 0 = jump k ∧
    o = ⟨730000 + 25 * (k : Int), List.replicate 6 (jump k)⟩ := by
  unfold rX at h
  obtain ⟨k, hk, rfl⟩ := List.mem_map.mp h
  refine ⟨k, List.mem_range.mp hk, ?_, rfl⟩
  show (List.replicate 6 (jump k)).getD b 0 = _
  rw [List.getD_eq_getElem?_getD, List.getElem?_replicate, if_pos b.isLt]
  rfl

theorem take_rX (o : Obs) (h : o ∈ rX.take 18) (b : Fin 6) : |(o.vals.getD b 0 : ℝ) - 500| ≤ 20 := by
  have : ∃ k, k < 18 ∧ o.vals.getD b 0 = jump k := by
    have e : rX.take 18 = (List.range 18).map fun (k : Nat) => ⟨730000 + 25 * (k : Int), List.replicate 6 (jump k)⟩ := by
      rfl
    rw [e] at h
    obtain ⟨k, hk, rfl⟩ := List.mem_map.mp h
    refine ⟨k, List.mem_range.mp hk, ?_⟩
    show (List.replicate 6 (jump k)).getD b 0 = _
    rw [List.getD_eq_getElem?_getD, List.getElem?_replicate, if_pos b.isLt]
    rfl
  obtain ⟨k, hk, e⟩ := this
  rw [e]
  unfold jump
  rw [if_pos hk]
  have h2 : k % 2 = 0 ∨ k % 2 = 1 := by omega
  rcases h2 with h2 | h2 <;> rw [h2] <;> norm_num

theorem drop_rX (o : Obs) (h : o ∈ (rX.drop 18)) (b : Fin 6) : o.vals.getD b 0 = 2500 := by
  have e : rX.drop 18 = (List.range 9).map fun (k : Nat) => ⟨730450 + 25 * (k : Int), List.replicate 6 2500⟩ := by
    rfl
  rw [e] at h
  obtain ⟨k, hk, rfl⟩ := List.mem_map.mp h
  show (List.replicate 6 (2500 : Int)).getD b 0 = _
  rw [List.getD_eq_getElem?_getD, List.getElem?_replicate, if_pos b.isLt]
  rfl

theorem value_rE (b : Fin 6) (o : Obs) : value rE b o = (o.vals.getD b 0 : ℝ) := rfl

/-! The noise floor. -/

theorem trunc_int (n : Int) : exact.trunc (n : ℝ) = n := by
  show (if 0 ≤ (n : ℝ) then ⌊(n : ℝ)⌋ else ⌈(n : ℝ)⌉) = n
  split <;> simp

def steps : List Int := List.replicate 17 20 ++ [1980] ++ List.replicate 8 0

theorem vario (b : Fin 6) : variogram rE (fun _ => 0) rX b = 20 := by
  have hv : ColdNum.variogram exact (rX.map (value rE b)) = 20 := by
    unfold ColdNum.variogram
    have e : List.zipWith (fun x y => exact.ofInt ((exact.trunc (exact.sub y x)).natAbs : Nat)) (rX.map (value rE b)) (rX.map (value rE b)).tail =
        steps.map (fun (n : Int) => (n : ℝ)) := by
      have e1 : rX.map (value rE b) = ((List.range 27).map jump).map (fun (n : Int) => (n : ℝ)) := by
        unfold rX
        rw [List.map_map, List.map_map]
        refine List.map_congr_left (fun k _ => ?_)
        show (((List.replicate 6 (jump k)).getD b 0 : Int) : ℝ) = _
        rw [List.getD_eq_getElem?_getD, List.getElem?_replicate, if_pos b.isLt]
        rfl
      rw [e1, ← List.map_tail, List.zipWith_map]
      have e2 : (fun (x y : Int) => exact.ofInt ((exact.trunc (exact.sub (y : ℝ) (x : ℝ))).natAbs : Nat)) =
          fun (x y : Int) => (((y - x).natAbs : Int) : ℝ) := by
        funext x y
        have : exact.sub (y : ℝ) (x : ℝ) = ((y - x : Int) : ℝ) := by
          show (y : ℝ) - x = _
          push_cast; rfl
        rw [this, trunc_int]
        rfl
      rw [e2]
      have e3 : List.zipWith (fun (x y : Int) => (((y - x).natAbs : Int) : ℝ)) ((List.range 27).map jump) ((List.range 27).map jump).tail =
          (List.zipWith (fun (x y : Int) => ((y - x).natAbs : Int)) ((List.range 27).map jump) ((List.range 27).map jump).tail).map (fun (n : Int) => (n : ℝ)) := by
        rw [List.map_zipWith]
      rw [e3]
      congr 1
    have hA : rE.base.A = exact := rfl
    rw [e]
    have hm := ColdNum.median_middle (steps.map (fun (n : Int) => (n : ℝ))) (by simp [steps])
    generalize ColdNum.median exact _ = v at *
    unfold Middle at hm
    obtain ⟨h1, h2⟩ := hm
    rw [List.length_map, List.countP_map] at h1 h2
    have hl : steps.length = 26 := by decide
    rw [hl] at h1 h2
    by_contra hne
    rcases lt_or_gt_of_ne hne with h | h
    · have : steps.countP ((fun x => decide (x ≤ v)) ∘ fun (n : Int) => (n : ℝ)) ≤ steps.countP (fun n => decide (n < 20)) := by
        apply List.countP_mono_left
        intro n _ hn
        simp only [Function.comp_apply, decide_eq_true_eq] at *
        have : (n : ℝ) < 20 := lt_of_le_of_lt hn h
        exact_mod_cast this
      have h8 : steps.countP (fun n => decide (n < 20)) = 8 := by decide
      omega
    · have : steps.countP ((fun x => decide (v ≤ x)) ∘ fun (n : Int) => (n : ℝ)) ≤ steps.countP (fun n => decide (20 < n)) := by
        apply List.countP_mono_left
        intro n _ hn
        simp only [Function.comp_apply, decide_eq_true_eq] at *
        have : (20 : ℝ) < (n : ℝ) := lt_of_lt_of_le h hn
        exact_mod_cast this
      have h8 : steps.countP (fun n => decide (20 < n)) = 1 := by decide
      omega
  unfold variogram
  rw [if_neg (by decide)]
  show Sccd.toShort (exact.trunc (ColdNum.variogram exact (rX.map (value rE b)))) = 20
  rw [hv, show (20 : ℝ) = ((20 : Int) : ℝ) by norm_num, trunc_int]
  decide

def rmin : Fin 6 → Int := fun _ => 20

theorem vario_fun : variogram rE (fun _ => 0) rX = rmin := funext vario

/-! The screening and the stability test. -/

theorem mask_none (k : Nat) (hk : k < 18) : (num rE rmin).mask (rX.take 25) k = false := by
  show ColdNum.mask rE.base (fun b => exact.ofInt (rmin b)) ((rX.take 25).map (row rE)) k = false
  unfold ColdNum.mask
  dsimp only
  split
  · rfl
  · rename_i r hr
    have ht : exact.tConst = 4.42 := by unfold Fl.tConst; rw [ColdNum.lit_exact]; norm_num
    have hr' : ∀ b, |r.y b - 500| ≤ 20 := by
      rw [List.getElem?_map, List.getElem?_take, if_pos (by omega)] at hr
      obtain ⟨o, ho, rfl⟩ := Option.map_eq_some_iff.mp hr
      have : o ∈ rX.take 18 := by
        apply List.mem_of_getElem? (i := k)
        rw [List.getElem?_take, if_pos hk]
        exact ho
      intro b
      exact take_rX o this b
    have key : ∀ b w2, exact.lt (exact.mul exact.tConst (exact.ofInt (rmin b))) (exact.abs (exact.sub (r.y b)
        (ColdNum.maskPred exact w2 [500] r.date))) = false := by
      intro b w2
      rw [ColdNum.Toy.constant_pred, ht]
      refine decide_eq_false (not_lt.2 ?_)
      show |r.y b - 500| ≤ 4.42 * ((20 : Int) : ℝ)
      refine (hr' b).trans ?_
      norm_num
    rw [Bool.or_eq_false_iff]
    exact ⟨key _ _, key _ _⟩

theorem fitted_level (n : Int) (b : Fin 6) (w : List Obs) (t : ℝ) : fitted level n b w t = 500 := by
  unfold fitted level ColdNum.Spec.solverCurve
  have : ((List.range (ColdNum.Spec.regressors n t).length).map
    (fun j => ([500] : List ℝ).getD (j + 1) 0 * (ColdNum.Spec.regressors n t).getD j 0)).sum = 0 := by
    apply List.sum_eq_zero
    intro x hx
    obtain ⟨j, _, rfl⟩ := List.mem_map.mp hx
    simp
  rw [this]
  norm_num

theorem dif_level (n : Int) (hn : n = 4 ∨ n = 6) (b : Fin 6) (w : List Obs)
    (hw : ∀ o ∈ w, |(o.vals.getD b 0 : ℝ) - 500| ≤ 20) : ∀ d ∈ (fits rE n w b).dif, |d| ≤ 20 := by
  intro d hd
  obtain ⟨_, _, _, q4, _⟩ := ColdNum.fitBand_exact rE.base rfl n (by omega) ((w.map (row rE)).map (·.date))
    (ColdNum.bandOf b (w.map (row rE)))
  have e : fits rE n w b = ColdNum.fitBand rE.base n ((w.map (row rE)).map (·.date)) (ColdNum.bandOf b (w.map (row rE))) := rfl
  rw [e, q4] at hd
  unfold ColdNum.bandOf at hd
  simp only [List.zipWith_map, List.zipWith_self, List.map_map] at hd
  obtain ⟨o, ho, rfl⟩ := List.mem_map.mp hd
  have e2 : ∀ t, ColdNum.Spec.solverCurve n (rE.base.lasso ((w.map ((fun x => x.date) ∘ row rE)).map (fun (t : Int) => ColdNum.Spec.regressors n (t : ℝ)))
      (w.map ((fun r => r.y b) ∘ row rE))) t = 500 := by
    intro t
    exact fitted_level n b w t
  simp only [Function.comp_apply, List.map_map] at *
  rw [e2]
  exact hw o ho

theorem mem_headD {l : List ℝ} (h : ∀ d ∈ l, |d| ≤ 20) : |l.headD 0| ≤ 20 ∧ |l.getLastD 0| ≤ 20 := by
  cases l with
  | nil => simp
  | cons a l =>
    refine ⟨h a (by simp), ?_⟩
    rw [List.getLastD_eq_getLast?, List.getLast?_eq_some_getLast (by simp)]
    exact h _ (List.getLast_mem _)

theorem stable18 : (num rE rmin).unstable (rX.take 18) = false := by
  show ColdNum.unstable rE.base (fun b => exact.ofInt (rmin b)) (fits rE 4 (rX.take 18)) ((rX.take 18).map (row rE)) = false
  unfold ColdNum.unstable
  dsimp only
  generalize hsp : rE.base.A.ofInt _ = span
  have hv : ∀ b : Fin 6, ∃ v : ℝ, 0 ≤ v ∧ v ≤ 1 ∧
      exact.add (exact.abs (exact.div (exact.div (exact.mul ((fits rE 4 (rX.take 18) b).coefs.getD 1 exact.zero) span)
        (exact.max (exact.ofInt (rmin b)) (fits rE 4 (rX.take 18) b).rmse)) exact.slopeScale))
        (exact.max (exact.abs (exact.div ((fits rE 4 (rX.take 18) b).dif.headD exact.zero) (exact.max (exact.ofInt (rmin b)) (fits rE 4 (rX.take 18) b).rmse)))
          (exact.abs (exact.div ((fits rE 4 (rX.take 18) b).dif.getLastD exact.zero) (exact.max (exact.ofInt (rmin b)) (fits rE 4 (rX.take 18) b).rmse)))) = v := by
    intro b
    have hc : (fits rE 4 (rX.take 18) b).coefs.getD 1 exact.zero = 0 := by
      rw [ColdNum.zero_exact]
      show (ColdNum.storeCoefs exact 4 [500]).getD 1 0 = 0
      rw [ColdNum.storeCoefs_get]
      simp
    obtain ⟨h1, h2⟩ := mem_headD (dif_level 4 (.inl rfl) b (rX.take 18) (fun o ho => take_rX o ho b))
    rw [hc, ColdNum.zero_exact, max_exact, max_exact]
    generalize (fits rE 4 (rX.take 18) b).dif.headD 0 = x at *
    generalize (fits rE 4 (rX.take 18) b).dif.getLastD 0 = y at *
    have hm : (20 : ℝ) ≤ max (exact.ofInt (rmin b)) (fits rE 4 (rX.take 18) b).rmse := by
      refine le_max_of_le_left ?_
      show (20 : ℝ) ≤ ((20 : Int) : ℝ)
      norm_num
    generalize max (exact.ofInt (rmin b)) (fits rE 4 (rX.take 18) b).rmse = m at *
    refine ⟨_, ?_, ?_, rfl⟩
    · exact add_nonneg (abs_nonneg _) (le_max_of_le_left (abs_nonneg _))
    · show |0 * span / m / exact.slopeScale| + max |x / m| |y / m| ≤ 1
      rw [zero_mul, zero_div, zero_div, abs_zero, zero_add]
      have hm0 : 0 < m := by linarith
      refine max_le ?_ ?_
      · rw [abs_div, abs_of_pos hm0, div_le_one hm0]; linarith
      · rw [abs_div, abs_of_pos hm0, div_le_one hm0]; linarith
  choose v h0 h1 he using hv
  have he' : ∀ b : Fin 6, rE.base.A.add (rE.base.A.abs (rE.base.A.div (rE.base.A.div (rE.base.A.mul ((fits rE 4 (rX.take 18) b).coefs.getD 1 rE.base.A.zero) span)
        (rE.base.A.max (exact.ofInt (rmin b)) (fits rE 4 (rX.take 18) b).rmse)) rE.base.A.slopeScale))
        (rE.base.A.max (rE.base.A.abs (rE.base.A.div ((fits rE 4 (rX.take 18) b).dif.headD rE.base.A.zero) (rE.base.A.max (exact.ofInt (rmin b)) (fits rE 4 (rX.take 18) b).rmse)))
          (rE.base.A.abs (rE.base.A.div ((fits rE 4 (rX.take 18) b).dif.getLastD rE.base.A.zero) (rE.base.A.max (exact.ofInt (rmin b)) (fits rE 4 (rX.take 18) b).rmse)))) = v b := he
  simp only [he']
  refine decide_eq_false (not_lt.2 ?_)
  show ((((exact.zero + v 1 * v 1) + v 2 * v 2) + v 3 * v 3) + v 4 * v 4) + v 5 * v 5 ≤ 15
  rw [ColdNum.zero_exact]
  have hs : ∀ b, v b * v b ≤ 1 := fun b => mul_le_one₀ (h1 b) (h0 b) (h1 b)
  have := hs 1; have := hs 2; have := hs 3; have := hs 4; have := hs 5
  linarith

/-! The filter. -/

noncomputable def const6 : List ℝ := [500, 0, 0, 0, 0, 0]

theorem keep_const (t u : Int) : toCoef exact (toState exact const6 t) u = const6 := by
  have em : ∀ a b, exact.mul a b = a * b := fun _ _ => rfl
  have ea : ∀ a b, exact.add a b = a + b := fun _ _ => rfl
  have es : ∀ a b, exact.sub a b = a - b := fun _ _ => rfl
  have ed : ∀ a b, exact.div a b = a / b := fun _ _ => rfl
  have en : ∀ a, exact.neg a = -a := fun _ => rfl
  simp [toCoef, toState, const6, em, ea, es, ed, en, ColdNum.zero_exact]

theorem regular_const (H y : ℝ) (t u : Int) (r : Run ℝ Unit) (h : r.cft = const6) :
    (regular rE H y t u r).cft = const6 ∧
    ((regular rE H y t u r).vt = r.vt ∨ (regular rE H y t u r).vt = some (y - 500)) := by
  unfold regular
  split
  · exact ⟨h, .inl rfl⟩
  · refine ⟨?_, .inr ?_⟩
    · show toCoef exact (toState exact r.cft t) (t + 1) = const6
      rw [h, keep_const]
    · show some (y - _) = some (y - 500)
      have := state_curve (c := r.cft) (by rw [h]; simp [const6]) t
      rw [show rE.base.A = exact from rfl, this, h]
      simp [storedCurve, const6]

theorem ssmRun_const (H : ℝ) : ∀ (l : List (Int × ℝ)) (k : Nat) (r : Run ℝ Unit) (s : Int), r.cft = const6 →
    |r.vt.getD 0| ≤ 20 → (∀ p ∈ l.dropLast, |p.2 - 500| ≤ 20) →
    (ssmRun rE H l k r s).1.cft = const6 ∧ (ssmRun rE H l k r s).2 ≤ s + 400 * l.length
  | [], _, r, s, h, _, _ => by unfold ssmRun; simp [h]
  | [_], _, r, s, h, _, _ => by unfold ssmRun; simp [h]
  | a :: b :: l, k, r, s, h, hv, hl => by
    obtain ⟨q1, q2⟩ := regular_const H a.2 a.1 b.1 r h
    have hv' : |(regular rE H a.2 a.1 b.1 r).vt.getD 0| ≤ 20 := by
      rcases q2 with q | q
      · rw [q]; exact hv
      · rw [q]; exact hl a (by simp)
    unfold ssmRun
    dsimp only
    have key := ssmRun_const H (b :: l) (k - 1) _ (if k = 0 then s + rE.base.A.trunc (rE.base.A.mul
      ((regular rE H a.2 a.1 b.1 r).vt.getD rE.junk) ((regular rE H a.2 a.1 b.1 r).vt.getD rE.junk)) else s) q1 hv'
      (fun p hp => hl p (by simp only [List.dropLast_cons_cons, List.mem_cons]; exact .inr hp))
    refine ⟨key.1, key.2.trans ?_⟩
    have hj : rE.junk = 0 := rfl
    have ht : rE.base.A.trunc (rE.base.A.mul ((regular rE H a.2 a.1 b.1 r).vt.getD rE.junk)
        ((regular rE H a.2 a.1 b.1 r).vt.getD rE.junk)) ≤ 400 := by
      rw [hj]
      generalize (regular rE H a.2 a.1 b.1 r).vt.getD 0 = v at *
      show exact.trunc (exact.mul v v) ≤ 400
      rw [trunc_sq]
      have h4 : v ^ 2 ≤ 400 := by
        rw [← sq_abs]
        have := abs_nonneg v
        nlinarith
      have h5 : ((⌊v ^ 2⌋ : Int) : ℝ) ≤ 400 := (Int.floor_le _).trans h4
      exact_mod_cast h5
    rw [List.length_cons, List.length_cons, List.length_cons]
    push_cast
    split <;> linarith

theorem fit18 (nx : Obs) (b : Fin 6) : ((num rE rmin).fit none (rX.take 18) nx b).cft = const6 ∧
    ((num rE rmin).fit none (rX.take 18) nx b).ssv ≤ 14800 := by
  have hcft : cftOf (fits rE 6 (rX.take 18) b) = const6 := by
    show (ColdNum.storeCoefs exact 6 [500]).take 6 = const6
    simp [ColdNum.storeCoefs, const6, List.range_succ, ColdNum.zero_exact]
    show (0 : ℝ) * _ = 0
    exact zero_mul _
  have hser : ∀ p ∈ series rE b (rX.take 18), |p.2 - 500| ≤ 20 := by
    intro p hp
    obtain ⟨o, ho, rfl⟩ := List.mem_map.mp hp
    exact take_rX o ho b
  have hx : ∀ p ∈ (extend rE.base.A (series rE b (rX.take 18)) (nx.date, value rE b nx)).dropLast, |p.2 - 500| ≤ 20 := by
    unfold extend
    split
    · rw [List.dropLast_concat]
      intro p hp
      rcases List.mem_append.mp hp with hp | hp
      · obtain ⟨q, hq, rfl⟩ := List.mem_map.mp hp
        exact hser q hq
      · exact hser p hp
    · simp
  have hlen : (extend rE.base.A (series rE b (rX.take 18)) (nx.date, value rE b nx)).length = 37 := by
    unfold extend
    split
    · simp [series, rX]
    · rename_i h
      exact absurd rfl (h _ _ rfl)
  have key := ssmRun_const (rE.base.A.mul (fits rE 6 (rX.take 18) b).rmse (fits rE 6 (rX.take 18) b).rmse)
    (extend rE.base.A (series rE b (rX.take 18)) (nx.date, value rE b nx)) (series rE b (rX.take 18)).length
    ⟨cftOf (fits rE 6 (rX.take 18) b), (), none⟩ 0 hcft (by simp) hx
  rw [hlen] at key
  exact ⟨key.1, key.2.trans (by norm_num)⟩

theorem arccos_self {u : List ℝ} (h : 0 < dot u u) : degrees u u = 0 := by
  unfold degrees
  rw [Real.mul_self_sqrt h.le, div_self h.ne', Real.arccos_one]
  simp

theorem meanTurn_same (u : List ℝ) (h : 0 < dot u u) (n : Nat) : meanTurn (List.replicate n u) = 0 := by
  unfold meanTurn
  have : (List.zipWith degrees (List.replicate n u) (List.replicate n u).tail).sum = 0 := by
    apply List.sum_eq_zero
    intro x hx
    obtain ⟨i, hi, rfl⟩ := List.mem_iff_getElem.1 hx
    rw [List.getElem_zipWith, List.getElem_tail, List.getElem_replicate, List.getElem_replicate, arccos_self h]
  rw [this, zero_div]

theorem change18 (nx : Obs) : isChange (num rE rmin) ((num rE rmin).fit none (rX.take 18) nx) 18
    ((rX.drop 18).take 8) = true := by
  generalize hf : (num rE rmin).fit none (rX.take 18) nx = f
  have hcft : ∀ b, (f b).cft = const6 := fun b => by rw [← hf]; exact (fit18 nx b).1
  have hssv : ∀ b, (f b).ssv ≤ 14800 := fun b => by rw [← hf]; exact (fit18 nx b).2
  have hshort : ∀ b, (f b).cft.length ≤ 6 := fun b => by rw [hcft]; simp [const6]
  have hy : ∀ b, 0 < max (rmin b : ℝ) (noise rE f 18 6 b) ∧ max (rmin b : ℝ) (noise rE f 18 6 b) ≤ 40 := by
    intro b
    have e20 : ((rmin b : Int) : ℝ) = 20 := by show ((20 : Int) : ℝ) = 20; norm_num
    constructor
    · exact lt_max_of_lt_left (by rw [e20]; norm_num)
    · refine max_le (by rw [e20]; norm_num) ?_
      show Real.sqrt (((f b).ssv : ℝ) / ((18 - 6 : Int) : ℝ)) ≤ 40
      rw [show (40 : ℝ) = Real.sqrt (40 ^ 2) by rw [Real.sqrt_sq]; norm_num]
      apply Real.sqrt_le_sqrt
      have : ((f b).ssv : ℝ) ≤ 14800 := by exact_mod_cast hssv b
      norm_num
      linarith
  have hr : ∀ o ∈ (rX.drop 18).take 8, ∀ b, resid (f b).cft b o = 2000 := by
    intro o ho b
    unfold resid
    rw [drop_rX o (List.mem_of_mem_take ho) b, hcft]
    simp [storedCurve, const6]
    norm_num
  let u : List ℝ := tested.map fun b => 2000 / max (rmin b : ℝ) (noise rE f 18 6 b)
  have hu : ∀ o ∈ (rX.drop 18).take 8, scaled (fun b => (f b).cft) (fun b => max (rmin b : ℝ) (noise rE f 18 6 b)) o = u := by
    intro o ho
    exact List.map_congr_left (fun b _ => by rw [hr o ho b])
  have hsc := fun o => score_exact level level 15 35 20 0 inno id id id () rmin f 18 6 o hshort
  have hbig : ∀ b, (2500 : ℝ) ≤ (2000 / max (rmin b : ℝ) (noise rE f 18 6 b)) ^ 2 := by
    intro b
    obtain ⟨h1, h2⟩ := hy b
    have : (50 : ℝ) ≤ 2000 / max (rmin b : ℝ) (noise rE f 18 6 b) := by
      rw [le_div_iff₀ h1]
      linarith
    nlinarith
  have hmag : ∀ o ∈ (rX.drop 18).take 8, 15 ≤ (num rE rmin).mag f 18 o := by
    intro o ho
    show (15 : ℝ) ≤ (score rE rmin f 18 6 o).1
    have e : (score rE rmin f 18 6 o).1 = ((scaled (fun b => (f b).cft)
        (fun b => max (rmin b : ℝ) (noise rE f 18 6 b)) o).map (· ^ 2)).sum := (hsc o).1
    rw [e, hu o ho]
    simp only [u, tested, List.map_cons, List.map_nil, List.sum_cons, List.sum_nil]
    have := hbig 1; have := hbig 2; have := hbig 3; have := hbig 4; have := hbig 5
    linarith
  have hall : ∀ (w : List Obs) (m : ℝ), (∀ o ∈ w, 15 ≤ (num rE rmin).mag f 18 o) → 15 ≤ m →
      allAbove (num rE rmin) f 18 m w = true := by
    intro w
    induction w with
    | nil => intro m _ _; rfl
    | cons o os ih =>
      intro m h hm
      unfold allAbove
      dsimp only
      have hm' : (15 : ℝ) ≤ (if (num rE rmin).lt ((num rE rmin).mag f 18 o) m = true then (num rE rmin).mag f 18 o else m) := by
        split
        · exact h o (by simp)
        · exact hm
      have hlt : (num rE rmin).lt (if (num rE rmin).lt ((num rE rmin).mag f 18 o) m = true then (num rE rmin).mag f 18 o else m) (num rE rmin).tcg = false :=
        decide_eq_false (not_lt.2 hm')
      rw [hlt]
      exact ih _ (fun x hx => h x (by simp [hx])) hm'
  unfold isChange
  rw [Bool.and_eq_true]
  refine ⟨hall _ _ hmag ?_, ?_⟩
  · show (15 : ℝ) ≤ exact.lit 9999 1
    rw [ColdNum.lit_exact]; norm_num
  · have ha : (num rE rmin).angle f 18 ((rX.drop 18).take 8) = 0 := by
      show ColdNum.meanAngle exact (((rX.drop 18).take 8).map (fun o => (score rE rmin f 18 6 o).2.1)) = 0
      have e : ((rX.drop 18).take 8).map (fun o => (score rE rmin f 18 6 o).2.1) = List.replicate 8 u := by
        rw [List.eq_replicate_iff]
        refine ⟨by simp [rX], ?_⟩
        intro x hx
        obtain ⟨o, ho, rfl⟩ := List.mem_map.mp hx
        rw [← hu o ho]
        exact (hsc o).2
      rw [e, meanAngle_exact _ (by simp), meanTurn_same]
      simp only [u, tested, dot, List.map_cons, List.map_nil, List.zipWith_cons_cons, List.zipWith_nil_left, List.sum_cons, List.sum_nil]
      have := hbig 1; have := hbig 2; have := hbig 3; have := hbig 4; have := hbig 5
      nlinarith
    rw [ha]
    show (!decide (exact.lit 45 1 < 0)) = true
    rw [ColdNum.lit_exact]
    norm_num

noncomputable def rEnv : Sccd.Env ℝ (Fin 6 → BandState ℝ Unit) (Body ℝ (Fin 6)) (Fin 6 → Int) :=
  env rE (fun _ => 0) 8 false (fun _ _ => false)

noncomputable def rVoid : Sccd.Model (Fin 6 → BandState ℝ Unit) :=
  ⟨fun _ => ⟨[], (), 0, 0⟩, 0, 0, [], 0, 0, 0, [], []⟩

set_option maxRecDepth 100000 in
/-- `sccd_detect` finds the change. -/
theorem run_real : ∃ q r, Sccd.detect rEnv (fun _ => 0) rVoid robs = .ok q ∧ q.mode = 12 ∧ q.minRmse = rmin ∧
    q.queue.length = 9 ∧ q.recs = [r] ∧ r.tBreak = 730450 ∧ r.span.length = 18 := by
  have hpre : (preprocessing false robs).status = .success := by decide +kernel
  have hacc : Sccd.append [] (Sccd.accepted false robs (preprocessing false robs).idr) = rX := by decide +kernel
  have hlast : robs.getLast? = some ⟨730650, 2500, 2500, 2500, 2500, 2500, 2500, 2900, 0⟩ := by decide +kernel
  have hhead : robs.head? = some ⟨730000, 500, 500, 500, 500, 500, 500, 2900, 0⟩ := by decide +kernel
  obtain ⟨out, r, h1, h2, h3, h4, h5, h6⟩ := Sccd.run27 (num rE rmin) (some rVoid) rX (by decide +kernel) mask_none
    stable18 (fun nx _ => change18 nx)
  have hsccd : Sccd.sccd rEnv ⟨0, [], fun _ => 0, some rVoid, [], []⟩ robs =
      .ok ⟨out.mode, out.recs, rmin, out.model, out.queue, [] ++ out.removed⟩ := by
    unfold Sccd.sccd
    rw [if_neg (by decide)]
    dsimp only
    rw [show rEnv.bC2 = false from rfl, if_neg (by rw [hpre]; simp)]
    have e1 : ∀ a b, rEnv.snowPct a b = false := fun _ _ => rfl
    have e2 : Sccd.stored 0 (some rVoid) ([] : List Obs) = .ok [] := rfl
    have e3 : rEnv.variogram rX = rmin := vario_fun
    have e4 : rX.length > ([] : List Obs).length := by decide
    have e5 : Sccd.standard (rEnv.num rmin) rEnv.conse 0 (some rVoid) [] [] rX = .ok out := h1
    simp only [e1, e2, bind, Except.bind, hacc, Bool.false_eq_true, if_false, e4, if_true, e3, e5, List.isEmpty_nil,
      Bool.true_and, decide_true]
  unfold Sccd.detect
  rw [if_neg (by decide), hhead, hlast]
  dsimp only
  rw [if_neg (by decide), hsccd]
  show ∃ q r, Sccd.packOut _ = _ ∧ _
  unfold Sccd.packOut
  rw [if_neg (by simp [h2]), if_pos (by simp [h2])]
  exact ⟨_, r, rfl, h2, rfl, h3, h4, h5, by rw [h6]; decide⟩

end Pycold.SccdNum.Toy
