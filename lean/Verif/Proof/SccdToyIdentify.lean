import Verif.Proof.SccdToyReal
import Verif.Proof.SccdIdentify
/-! A concrete case for C87: a series with six anomalies at its end, and the update that confirms the change, in exact
arithmetic. -/
namespace Pycold.Sccd

theorem list24 (X : List Obs) (hl : X.length = 24) : ∃ x0 x1 x2 x3 x4 x5 x6 x7 x8 x9 x10 x11 x12 x13 x14 x15 x16 x17 x18 x19 x20 x21 x22 x23, X = [x0, x1, x2, x3, x4, x5, x6, x7, x8, x9, x10, x11, x12, x13, x14, x15, x16, x17, x18, x19, x20, x21, x22, x23] := by
  match X, hl with
  | [x0, x1, x2, x3, x4, x5, x6, x7, x8, x9, x10, x11, x12, x13, x14, x15, x16, x17, x18, x19, x20, x21, x22, x23], _ => exact ⟨_, _, _, _, _, _, _, _, _, _, _, _, _, _, _, _, _, _, _, _, _, _, _, _, rfl⟩

/-- The model stored after 24 observations, the filter having been started with the first 18. -/
def model24 {V F R : Type} (N : Num V F R) (f : F) (X : List Obs) : Model F :=
  { filt := N.narrow f, tStart := toShort (730000 - LAUNCH), numObs := 18, obs := tail8 6 X 18,
    normCm := if leadCount N (((X.drop 18).reverse).map (N.endMag f 18)) > 0 then
      N.scale (minMag N ((((X.drop 18).reverse).map (N.endMag f 18)).take
        (leadCount N (((X.drop 18).reverse).map (N.endMag f 18))))) else NA_VALUE,
    cmAngle := if leadCount N (((X.drop 18).reverse).map (N.endMag f 18)) > 0 then
      N.scale (N.endAngle f 18 (((X.drop 18).reverse).take
        (leadCount N (((X.drop 18).reverse).map (N.endMag f 18))))) else NA_VALUE,
    conseLast := leadCount N (((X.drop 18).reverse).map (N.endMag f 18)), pre := [], seg := X.take 18 }

/-- A series of 24 observations, whatever the numbers are. -/
theorem run24 {V F R : Type} (N : Num V F R) (z : Option (Model F)) (X : List Obs)
    (hX : X.map (·.date) = (List.range 24).map (fun (k : Nat) => 730000 + 25 * (k : Int)))
    (hm : ∀ k, k < 18 → N.mask (X.take 23) k = false) (hu : N.unstable (X.take 18) = false) :
    ∃ nx, standard N 6 0 z [] [] X = .ok ⟨1, [], some (model24 N (N.fit none (X.take 18) nx) X), [], []⟩ := by
  obtain ⟨x0, x1, x2, x3, x4, x5, x6, x7, x8, x9, x10, x11, x12, x13, x14, x15, x16, x17, x18, x19, x20, x21, x22, x23, rfl⟩ := list24 X (by simpa using congrArg List.length hX)
  simp [List.range_succ] at hX
  obtain ⟨h0, h1, h2, h3, h4, h5, h6, h7, h8, h9, h10, h11, h12, h13, h14, h15, h16, h17, h18, h19, h20, h21, h22, h23⟩ := hX
  generalize hXe : [x0, x1, x2, x3, x4, x5, x6, x7, x8, x9, x10, x11, x12, x13, x14, x15, x16, x17, x18, x19, x20, x21, x22, x23] = X at *
  let s17 : St F R :=
    { obs := X, i := 17, iStart := 0, iDense := 0, prevBreak := 0, train := false, filt := none, tStart := 0,
      numObs := 0, recs := [], model := z, changed := false, pre := [], seg := [], removed := [] }
  have hwin : slice X 0 17 = X.take 18 := by subst hXe; rfl
  have hwin2 : slice X 0 22 = X.take 23 := by subst hXe; rfl
  have hgap : maxGap (X.take 18) 0 = 25 := by
    subst hXe
    simp [maxGap, h0, h1, h2, h3, h4, h5, h6, h7, h8, h9, h10, h11, h12, h13, h14, h15, h16, h17]
  have hlen : X.length = 24 := by subst hXe; rfl
  have e17 : loop N 6 0 25 { s17 with i := 0 } = loop N 6 0 8 s17 :=
    loop_wait N 6 0 17 8 { s17 with i := 0 } rfl (by simp [s17, MIN_OBS]) (by simp only [s17]; omega)
      (by simp only [s17]; omega)
  have hkeep : keep (N.mask (X.take 23)) 0 (X.take 18) = X.take 18 :=
    keep_none _ _ 0 (fun k _ hk => hm k (by rw [List.length_take, hlen] at hk; omega))
  have r0 : rd X 0 = .ok x0 := by subst hXe; rfl
  have r17 : rd X 17 = .ok x17 := by subst hXe; rfl
  have r18 : rd X 18 = .ok x18 := by subst hXe; rfl
  have hcp : X.take 0 ++ X.take 18 ++ X.drop 18 = X := by simp
  have hfl : flagged (N.mask (X.take 23)) 0 (X.take 18) = [] := by
    have : ∀ (w : List Obs) (j : Nat), (∀ k, j ≤ k → k < j + w.length → N.mask (X.take 23) k = false) →
        flagged (N.mask (X.take 23)) j w = [] := by
      intro w
      induction w with
      | nil => intro j _; rfl
      | cons o os ih =>
        intro j h
        rw [flagged, h j (le_refl _) (by simp), ih (j + 1) (fun k h1 h2 => h k (by omega) (by
          rw [List.length_cons]; omega))]
        simp
    exact this _ 0 (fun k _ hk => hm k (by rw [List.length_take, hlen] at hk; omega))
  let s18 : St F R :=
    { s17 with i := 18, train := true, filt := some (N.fit none (X.take 18) x18), tStart := 730000, numObs := 18,
               seg := X.take 18 }
  have hs1 : step1 N 6 s17 = .ok (true, s17) := by
    unfold step1
    simp only [s17, MIN_OBS, chk, hlen, hwin, hgap, bind, Except.bind, yearOrMore, firstCurve]
    simp [hwin2, hkeep, hwin, hu, hfl, r0, r17, h0, h17, hlen]
    rfl
  have hs17 : step N 6 0 s17 = .ok s18 := by
    have e : step N 6 0 s17 = trainStep N 6 s17 := rfl
    rw [e]
    unfold trainStep
    have q1 : rd s17.obs s17.iStart = .ok x0 := r0
    have q2 : rd s17.obs s17.i = .ok x17 := r17
    have q3 : rd s17.obs (s17.i + 1) = .ok x18 := r18
    have q4 : (decide (s17.iStart + MIN_OBS ≤ s17.i + 1) && yearOrMore (x17.date - x0.date)) = true := by
      rw [h0, h17]; rfl
    have q5 : slice s17.obs s17.iStart s17.i = X.take 18 := hwin
    simp only [q1, q2, q4, hs1, bind, Except.bind, if_true, q3, q5, Bool.not_true, Bool.false_eq_true, if_false]
    rw [h0]
    rfl
  have hl17 : s17.i + 6 + 1 ≤ s17.obs.length := by show 24 ≤ X.length; omega
  have hl18 : ¬ s18.i + 6 + 1 ≤ s18.obs.length := by show ¬ 25 ≤ X.length; omega
  have hloop : loop N 6 0 25 { s17 with i := 0 } = .ok s18 := by
    rw [e17, loop, if_pos hl17, hs17]
    show loop N 6 0 7 s18 = _
    rw [loop, if_neg hl18]
  have hinit : initSt 0 z [] X = .ok ({ s17 with i := 0 } : St F R) := rfl
  have hnm : newMode 6 0 s18 = .ok (1, 0) := rfl
  have hsm : storeModel N 6 1 s18 (N.fit none (X.take 18) x18) = .ok (1, model24 N (N.fit none (X.take 18) x18) X) := by
    unfold storeModel
    have q1 : s18.obs.length = 24 := hlen
    have q2 : chk s18.obs (s18.i + (min 6 NCONSE) - 1) = .ok () := by
      show chk X 23 = _
      unfold chk
      rw [hlen]
      rfl
    have q3 : s18.obs.drop (s18.obs.length - 6) = X.drop 18 := by rw [q1]
    simp only [q1, q2, bind, Except.bind]
    rw [if_neg (by omega)]
    have q4 : s18.numObs = 18 := rfl
    have q5 : toShort (18 : Int) = 18 := by decide
    simp only [q4, show ((18 : Int) > 0) = True by simp, true_and, if_true, q5]
    rfl
  refine ⟨x18, ?_⟩
  unfold standard
  rw [hinit, hlen]
  simp only [bind, Except.bind, hloop, hnm, step3]
  simp only [show s18.filt = some (N.fit none (X.take 18) x18) from rfl, hsm]
  rfl

/-- One more observation confirms the change. -/
theorem run9 {V F R : Type} (N : Num V F R) (m : Model F) (X : List Obs) (hX : X.length = 9)
    (hc : isChange N m.filt m.numObs (X.take 6) = true) :
    ∃ out, standard N 6 1 (some m) [] [] X = .ok out ∧ out.mode = 5 := by
  match X, hX with
  | [x0, x1, x2, x3, x4, x5, x6, x7, x8], _ =>
    let s0 : St F R :=
      { obs := [x0, x1, x2, x3, x4, x5, x6, x7, x8], i := 0, iStart := 0, iDense := 0, prevBreak := 0, train := true,
        filt := some m.filt, tStart := LAUNCH + m.tStart, numObs := m.numObs,
        recs := [], model := some m, changed := false, pre := m.pre, seg := m.seg, removed := [] }
    let s1 : St F R :=
      { s0 with recs := [⟨LAUNCH + m.tStart, x0.date, m.numObs, N.changeRec m.filt m.numObs [x0, x1, x2, x3, x4, x5], m.pre, m.seg⟩],
                iStart := 0, prevBreak := 0, train := false,
                model := some (snapshot N 6 s0 m.filt [x0, x1, x2, x3, x4, x5]),
                changed := true, pre := [], seg := [], i := 1 }
    have hc' : isChange N m.filt m.numObs [x0, x1, x2, x3, x4, x5] = true := hc
    have hs0 : step N 6 1 s0 = .ok s1 := by
      have e : step N 6 1 s0 = step2 N 6 1 s0 := rfl
      rw [e]
      unfold step2
      have q0 : s0.filt = some m.filt := rfl
      have q1 : chk s0.obs (s0.i + 6 - 1) = .ok () := rfl
      have q2 : rd s0.obs s0.i = .ok x0 := rfl
      have q3 : (s0.obs.drop s0.i).take 6 = [x0, x1, x2, x3, x4, x5] := rfl
      have q4 : s0.numObs = m.numObs := rfl
      simp only [q0, q1, q2, q3, q4, hc', bind, Except.bind, if_true]
      rfl
    have hloop : loop N 6 1 10 s0 = .ok { s1 with i := 3 } := by
      have hs1 : step N 6 1 s1 = .ok { s1 with i := 2 } := rfl
      have hs2 : step N 6 1 { s1 with i := 2 } = .ok { s1 with i := 3 } := rfl
      rw [loop, if_pos (show s0.i + 6 + 1 ≤ s0.obs.length by show 7 ≤ 9; omega), hs0]
      show loop N 6 1 9 s1 = _
      rw [loop, if_pos (show s1.i + 6 + 1 ≤ s1.obs.length by show 8 ≤ 9; omega), hs1]
      show loop N 6 1 8 { s1 with i := 2 } = _
      rw [loop, if_pos (show 2 + 6 + 1 ≤ s1.obs.length by show 9 ≤ 9; omega), hs2]
      show loop N 6 1 7 { s1 with i := 3 } = _
      rw [loop, if_neg (show ¬ 3 + 6 + 1 ≤ s1.obs.length by show ¬ 10 ≤ 9; omega)]
    have hnm : newMode 6 1 { s1 with i := 3 } = .ok (5, 0) := rfl
    refine ⟨?w, ?_, ?_⟩
    rotate_left
    · unfold standard
      have hinit : initSt 1 (some m) [] [x0, x1, x2, x3, x4, x5, x6, x7, x8] = .ok s0 := rfl
      rw [hinit]
      simp only [bind, Except.bind, List.length_cons, List.length_nil, Nat.zero_add, Nat.reduceAdd, hloop, hnm, step3]
      rfl
    · rfl

end Pycold.Sccd

namespace Pycold.SccdNum.Toy
open Pycold.ColdNum (Fl)
open Pycold.ColdNum.Spec (exact storedCurve Middle)
open Pycold.SccdNum.Spec
open Pycold.Sccd (Obs isChange allAbove fresh)

/-- The first 24 observations: six after the jump. -/
def tobs : List Scene := robs.take 24

def tX : List Obs := rX.take 24

def tsteps : List Int := List.replicate 17 20 ++ [1980] ++ List.replicate 5 0

theorem tvario (b : Fin 6) : variogram rE (fun _ => 0) tX b = 20 := by
  have hv : ColdNum.variogram exact (tX.map (value rE b)) = 20 := by
    unfold ColdNum.variogram
    have e : List.zipWith (fun x y => exact.ofInt ((exact.trunc (exact.sub y x)).natAbs : Nat)) (tX.map (value rE b)) (tX.map (value rE b)).tail =
        tsteps.map (fun (n : Int) => (n : ℝ)) := by
      have e1 : tX.map (value rE b) = ((List.range 24).map jump).map (fun (n : Int) => (n : ℝ)) := by
        have etX : tX = (List.range 24).map fun (k : Nat) => ⟨730000 + 25 * (k : Int), List.replicate 6 (jump k)⟩ := rfl
        rw [etX]
        rw [List.map_map, List.map_map]
        refine List.map_congr_left (fun k _ => ?_)
        show (((List.replicate 6 (jump k)).getD b 0 : Int) : ℝ) = _
        rw [List.getD_eq_getElem?_getD, List.getElem?_replicate, if_pos b.isLt]
        rfl
      rw [e1, ← List.map_tail, List.zipWith_map]
      have e2 : (fun (x y : Int) => exact.ofInt ((exact.trunc (exact.sub (y : ℝ) (x : ℝ))).natAbs : Nat)) =
          fun (x y : Int) => (((y - x).natAbs : Int) : ℝ) := by
        funext x y
        have : exact.sub (y : ℝ) (x : ℝ) = ((y - x : Int) : ℝ) := by
          show (y : ℝ) - x = _
          push_cast; rfl
        rw [this, trunc_int]
        rfl
      rw [e2]
      have e3 : List.zipWith (fun (x y : Int) => (((y - x).natAbs : Int) : ℝ)) ((List.range 24).map jump) ((List.range 24).map jump).tail =
          (List.zipWith (fun (x y : Int) => ((y - x).natAbs : Int)) ((List.range 24).map jump) ((List.range 24).map jump).tail).map (fun (n : Int) => (n : ℝ)) := by
        rw [List.map_zipWith]
      rw [e3]
      congr 1
    have hA : rE.base.A = exact := rfl
    rw [e]
    have hm := ColdNum.median_middle (tsteps.map (fun (n : Int) => (n : ℝ))) (by simp [tsteps])
    generalize ColdNum.median exact _ = v at *
    unfold Middle at hm
    obtain ⟨h1, h2⟩ := hm
    rw [List.length_map, List.countP_map] at h1 h2
    have hl : tsteps.length = 23 := by decide
    rw [hl] at h1 h2
    by_contra hne
    rcases lt_or_gt_of_ne hne with h | h
    · have : tsteps.countP ((fun x => decide (x ≤ v)) ∘ fun (n : Int) => (n : ℝ)) ≤ tsteps.countP (fun n => decide (n < 20)) := by
        apply List.countP_mono_left
        intro n _ hn
        simp only [Function.comp_apply, decide_eq_true_eq] at *
        have : (n : ℝ) < 20 := lt_of_le_of_lt hn h
        exact_mod_cast this
      have h8 : tsteps.countP (fun n => decide (n < 20)) = 5 := by decide
      omega
    · have : tsteps.countP ((fun x => decide (v ≤ x)) ∘ fun (n : Int) => (n : ℝ)) ≤ tsteps.countP (fun n => decide (20 < n)) := by
        apply List.countP_mono_left
        intro n _ hn
        simp only [Function.comp_apply, decide_eq_true_eq] at *
        have : (20 : ℝ) < (n : ℝ) := lt_of_lt_of_le h hn
        exact_mod_cast this
      have h8 : tsteps.countP (fun n => decide (20 < n)) = 1 := by decide
      omega
  unfold variogram
  rw [if_neg (by decide)]
  show Sccd.toShort (exact.trunc (ColdNum.variogram exact (tX.map (value rE b)))) = 20
  rw [hv, show (20 : ℝ) = ((20 : Int) : ℝ) by norm_num, trunc_int]
  decide

theorem tvario_fun : variogram rE (fun _ => 0) tX = rmin := funext tvario

theorem tmask_none (k : Nat) (hk : k < 18) : (num rE rmin).mask (tX.take 23) k = false := by
  show ColdNum.mask rE.base (fun b => exact.ofInt (rmin b)) ((tX.take 23).map (row rE)) k = false
  unfold ColdNum.mask
  dsimp only
  split
  · rfl
  · rename_i r hr
    have ht : exact.tConst = 4.42 := by unfold Fl.tConst; rw [ColdNum.lit_exact]; norm_num
    have hr' : ∀ b, |r.y b - 500| ≤ 20 := by
      rw [List.getElem?_map, List.getElem?_take, if_pos (by omega)] at hr
      obtain ⟨o, ho, rfl⟩ := Option.map_eq_some_iff.mp hr
      have : o ∈ rX.take 18 := by
        apply List.mem_of_getElem? (i := k)
        rw [List.getElem?_take, if_pos hk]
        have e : tX[k]? = rX[k]? := by unfold tX; rw [List.getElem?_take, if_pos (by omega)]
        rw [← e]
        exact ho
      intro b
      exact take_rX o this b
    have key : ∀ b w2, exact.lt (exact.mul exact.tConst (exact.ofInt (rmin b))) (exact.abs (exact.sub (r.y b)
        (ColdNum.maskPred exact w2 [500] r.date))) = false := by
      intro b w2
      rw [ColdNum.Toy.constant_pred, ht]
      refine decide_eq_false (not_lt.2 ?_)
      show |r.y b - 500| ≤ 4.42 * ((20 : Int) : ℝ)
      refine (hr' b).trans ?_
      norm_num
    rw [Bool.or_eq_false_iff]
    exact ⟨key _ _, key _ _⟩

theorem tchange (f : Fin 6 → BandState ℝ Unit) (hcft : ∀ b, (f b).cft = const6) (hssv : ∀ b, (f b).ssv ≤ 14800) :
    isChange (num rE rmin) f 18 ((rX.drop 18).take 6) = true ∧
    ∀ o ∈ (rX.drop 18).take 6, 12500 ≤ (num rE rmin).mag f 18 o := by
  have hshort : ∀ b, (f b).cft.length ≤ 6 := fun b => by rw [hcft]; simp [const6]
  have hy : ∀ b, 0 < max (rmin b : ℝ) (noise rE f 18 6 b) ∧ max (rmin b : ℝ) (noise rE f 18 6 b) ≤ 40 := by
    intro b
    have e20 : ((rmin b : Int) : ℝ) = 20 := by show ((20 : Int) : ℝ) = 20; norm_num
    constructor
    · exact lt_max_of_lt_left (by rw [e20]; norm_num)
    · refine max_le (by rw [e20]; norm_num) ?_
      show Real.sqrt (((f b).ssv : ℝ) / ((18 - 6 : Int) : ℝ)) ≤ 40
      rw [show (40 : ℝ) = Real.sqrt (40 ^ 2) by rw [Real.sqrt_sq]; norm_num]
      apply Real.sqrt_le_sqrt
      have : ((f b).ssv : ℝ) ≤ 14800 := by exact_mod_cast hssv b
      norm_num
      linarith
  have hr : ∀ o ∈ (rX.drop 18).take 6, ∀ b, resid (f b).cft b o = 2000 := by
    intro o ho b
    unfold resid
    rw [drop_rX o (List.mem_of_mem_take ho) b, hcft]
    simp [storedCurve, const6]
    norm_num
  let u : List ℝ := tested.map fun b => 2000 / max (rmin b : ℝ) (noise rE f 18 6 b)
  have hu : ∀ o ∈ (rX.drop 18).take 6, scaled (fun b => (f b).cft) (fun b => max (rmin b : ℝ) (noise rE f 18 6 b)) o = u := by
    intro o ho
    exact List.map_congr_left (fun b _ => by rw [hr o ho b])
  have hsc := fun o => score_exact level level 15 35 20 0 inno id id id () rmin f 18 6 o hshort
  have hbig : ∀ b, (2500 : ℝ) ≤ (2000 / max (rmin b : ℝ) (noise rE f 18 6 b)) ^ 2 := by
    intro b
    obtain ⟨h1, h2⟩ := hy b
    have : (50 : ℝ) ≤ 2000 / max (rmin b : ℝ) (noise rE f 18 6 b) := by
      rw [le_div_iff₀ h1]
      linarith
    nlinarith
  have hmag' : ∀ o ∈ (rX.drop 18).take 6, 12500 ≤ (num rE rmin).mag f 18 o := by
    intro o ho
    show (12500 : ℝ) ≤ (score rE rmin f 18 6 o).1
    have e : (score rE rmin f 18 6 o).1 = ((scaled (fun b => (f b).cft)
        (fun b => max (rmin b : ℝ) (noise rE f 18 6 b)) o).map (· ^ 2)).sum := (hsc o).1
    rw [e, hu o ho]
    simp only [u, tested, List.map_cons, List.map_nil, List.sum_cons, List.sum_nil]
    have := hbig 1; have := hbig 2; have := hbig 3; have := hbig 4; have := hbig 5
    linarith
  have hmag : ∀ o ∈ (rX.drop 18).take 6, 15 ≤ (num rE rmin).mag f 18 o := by
    intro o ho
    show (15 : ℝ) ≤ (score rE rmin f 18 6 o).1
    have e : (score rE rmin f 18 6 o).1 = ((scaled (fun b => (f b).cft)
        (fun b => max (rmin b : ℝ) (noise rE f 18 6 b)) o).map (· ^ 2)).sum := (hsc o).1
    rw [e, hu o ho]
    simp only [u, tested, List.map_cons, List.map_nil, List.sum_cons, List.sum_nil]
    have := hbig 1; have := hbig 2; have := hbig 3; have := hbig 4; have := hbig 5
    linarith
  have hall : ∀ (w : List Obs) (m : ℝ), (∀ o ∈ w, 15 ≤ (num rE rmin).mag f 18 o) → 15 ≤ m →
      allAbove (num rE rmin) f 18 m w = true := by
    intro w
    induction w with
    | nil => intro m _ _; rfl
    | cons o os ih =>
      intro m h hm
      unfold allAbove
      dsimp only
      have hm' : (15 : ℝ) ≤ (if (num rE rmin).lt ((num rE rmin).mag f 18 o) m = true then (num rE rmin).mag f 18 o else m) := by
        split
        · exact h o (by simp)
        · exact hm
      have hlt : (num rE rmin).lt (if (num rE rmin).lt ((num rE rmin).mag f 18 o) m = true then (num rE rmin).mag f 18 o else m) (num rE rmin).tcg = false :=
        decide_eq_false (not_lt.2 hm')
      rw [hlt]
      exact ih _ (fun x hx => h x (by simp [hx])) hm'
  refine ⟨?_, hmag'⟩
  unfold isChange
  rw [Bool.and_eq_true]
  refine ⟨hall _ _ hmag ?_, ?_⟩
  · show (15 : ℝ) ≤ exact.lit 9999 1
    rw [ColdNum.lit_exact]; norm_num
  · have ha : (num rE rmin).angle f 18 ((rX.drop 18).take 6) = 0 := by
      show ColdNum.meanAngle exact (((rX.drop 18).take 6).map (fun o => (score rE rmin f 18 6 o).2.1)) = 0
      have e : ((rX.drop 18).take 6).map (fun o => (score rE rmin f 18 6 o).2.1) = List.replicate 6 u := by
        rw [List.eq_replicate_iff]
        refine ⟨by simp [rX], ?_⟩
        intro x hx
        obtain ⟨o, ho, rfl⟩ := List.mem_map.mp hx
        rw [← hu o ho]
        exact (hsc o).2
      rw [e, meanAngle_exact _ (by simp), meanTurn_same]
      simp only [u, tested, dot, List.map_cons, List.map_nil, List.zipWith_cons_cons, List.zipWith_nil_left, List.sum_cons, List.sum_nil]
      have := hbig 1; have := hbig 2; have := hbig 3; have := hbig 4; have := hbig 5
      nlinarith
    rw [ha]
    show (!decide (exact.lit 45 1 < 0)) = true
    rw [ColdNum.lit_exact]
    norm_num

/-- `conse` = 6. -/
noncomputable def tEnv : Sccd.Env ℝ (Fin 6 → BandState ℝ Unit) (Body ℝ (Fin 6)) (Fin 6 → Int) :=
  env rE (fun _ => 0) 6 false (fun _ _ => false)

set_option maxRecDepth 100000 in
/-- The call on the 24 observations ends in monitor mode. -/
theorem tsccd (z : Option (Sccd.Model (Fin 6 → BandState ℝ Unit))) : ∃ nx, Sccd.sccd tEnv ⟨0, [], fun _ => 0, z, [], []⟩ tobs =
    .ok ⟨1, [], rmin, some (Sccd.model24 (num rE rmin) ((num rE rmin).fit none (rX.take 18) nx) tX), [], []⟩ := by
  have hpre : (preprocessing false tobs).status = .success := by decide +kernel
  have hacc : Sccd.append [] (Sccd.accepted false tobs (preprocessing false tobs).idr) = tX := by decide +kernel
  have h18 : tX.take 18 = rX.take 18 := by decide +kernel
  obtain ⟨nx, h1⟩ := Sccd.run24 (num rE rmin) z tX (by decide +kernel) tmask_none
    (by rw [h18]; exact stable18)
  rw [h18] at h1
  refine ⟨nx, ?_⟩
  unfold Sccd.sccd
  rw [if_neg (by show ¬ (!Sccd.validModes.contains 0) = true; decide)]
  dsimp only
  rw [show tEnv.bC2 = false from rfl, if_neg (by rw [hpre]; simp)]
  have e1 : ∀ a b, tEnv.snowPct a b = false := fun _ _ => rfl
  have e2 : Sccd.stored 0 z ([] : List Obs) = .ok [] := rfl
  have e3 : tEnv.variogram tX = rmin := tvario_fun
  have e4 : tX.length > ([] : List Obs).length := by decide
  have e5 : Sccd.standard (tEnv.num rmin) tEnv.conse 0 z [] [] tX = .ok _ := h1
  simp only [e1, e2, bind, Except.bind, hacc, Bool.false_eq_true, if_false, e4, if_true, e3, e5, List.isEmpty_nil,
    Bool.true_and, decide_true]
  rfl

/-- `sccd_detect` ends in monitor mode, with six anomalies. -/
theorem trun : ∃ nx, Sccd.detect tEnv (fun _ => 0) rVoid tobs =
    .ok ⟨1, [], rmin, some (Sccd.model24 (num rE rmin) ((num rE rmin).fit none (rX.take 18) nx) tX), [], []⟩ := by
  have hlast : tobs.getLast? = some ⟨730575, 2500, 2500, 2500, 2500, 2500, 2500, 2900, 0⟩ := by decide +kernel
  have hhead : tobs.head? = some ⟨730000, 500, 500, 500, 500, 500, 500, 2900, 0⟩ := by decide +kernel
  obtain ⟨nx, hsccd⟩ := tsccd (some rVoid)
  unfold Sccd.detect
  rw [if_neg (by decide), hhead, hlast]
  dsimp only
  rw [if_neg (by decide), hsccd]
  exact ⟨nx, rfl⟩

/-- So does `sccd_update` of the void pack. -/
theorem trun_update : ∃ nx, Sccd.update tEnv ⟨0, [], fun _ => 0, none, [], []⟩ tobs =
    .ok ⟨1, [], rmin, some (Sccd.model24 (num rE rmin) ((num rE rmin).fit none (rX.take 18) nx) tX), [], []⟩ := by
  obtain ⟨nx, hsccd⟩ := tsccd none
  unfold Sccd.update
  rw [if_neg (by simp), if_neg (by decide), if_neg (by simp), hsccd]
  exact ⟨nx, rfl⟩

theorem tfresh : fresh false (Sccd.snowBranch tEnv 0 tobs) tobs = tX := by
  have e : Sccd.snowBranch tEnv 0 tobs = false := rfl
  rw [e]
  decide +kernel

theorem tgood : Sccd.Asc tX ∧ Sccd.Codable tX := ⟨by unfold Sccd.Asc; decide +kernel, by unfold Sccd.Codable; decide +kernel⟩

/-- The stored count is 6. -/
theorem tcount (nx : Obs) :
    (Sccd.model24 (num rE rmin) ((num rE rmin).fit none (rX.take 18) nx) tX).conseLast = 6 := by
  have hd : tX.drop 18 = (rX.drop 18).take 6 := by decide +kernel
  have hmag := (tchange ((num rE rmin).fit none (rX.take 18) nx) (fun b => (fit18 nx b).1) (fun b => (fit18 nx b).2)).2
  show ((Sccd.leadCount (num rE rmin) (((tX.drop 18).reverse).map ((num rE rmin).endMag ((num rE rmin).fit none (rX.take 18) nx) 18)) : Nat) : Int) = 6
  rw [hd]
  have key : ∀ l : List Obs, (∀ o ∈ l, 12500 ≤ (num rE rmin).mag ((num rE rmin).fit none (rX.take 18) nx) 18 o) →
      Sccd.leadCount (num rE rmin) (l.map ((num rE rmin).endMag ((num rE rmin).fit none (rX.take 18) nx) 18)) = l.length := by
    intro l
    induction l with
    | nil => intro _; rfl
    | cons o os ih =>
      intro h
      rw [List.map_cons, Sccd.leadCount, ih (fun x hx => h x (by simp [hx])), if_neg]
      · rfl
      · have h1 := h o (by simp)
        have h2 : (num rE rmin).endMag ((num rE rmin).fit none (rX.take 18) nx) 18 o =
          (num rE rmin).mag ((num rE rmin).fit none (rX.take 18) nx) 18 o := rfl
        rw [h2]
        have h3 : ¬ (num rE rmin).mag ((num rE rmin).fit none (rX.take 18) nx) 18 o ≤ (35 : ℝ) := by
          intro h4; linarith
        show ¬ decide (_ ≤ (35 : ℝ)) = true
        simpa using h3
  rw [key _ (fun o ho => hmag o (List.mem_reverse.mp ho))]
  decide +kernel

/-- One more scene like the last ones. -/
def tnew : List Scene := [⟨730600, 2500, 2500, 2500, 2500, 2500, 2500, 2900, 0⟩]

def tlast : Obs := ⟨730600, [2500, 2500, 2500, 2500, 2500, 2500]⟩

set_option maxRecDepth 100000 in
/-- It confirms the change. -/
theorem tupdate (nx : Obs) : ∃ q, Sccd.update tEnv
    ⟨1, [], rmin, some (Sccd.model24 (num rE rmin) ((num rE rmin).fit none (rX.take 18) nx) tX), [], []⟩ tnew = .ok q ∧
    q.mode = 5 := by
  generalize hf : (num rE rmin).fit none (rX.take 18) nx = f
  have hobs : (Sccd.model24 (num rE rmin) f tX).obs = Sccd.tail8 6 tX 18 := rfl
  have hpre : (preprocessing false tnew).status = .success := by decide +kernel
  have hacc : Sccd.append ((Sccd.tail8 6 tX 18).map Sccd.decode) (Sccd.accepted false tnew (preprocessing false tnew).idr) =
      (Sccd.tail8 6 tX 18).map Sccd.decode ++ [tlast] := by decide +kernel
  have hw : ((Sccd.tail8 6 tX 18).map Sccd.decode ++ [tlast]).take 6 = (rX.drop 18).take 6 := by
    decide +kernel
  have hch : isChange (num rE rmin) (Sccd.model24 (num rE rmin) f tX).filt (Sccd.model24 (num rE rmin) f tX).numObs
      (((Sccd.tail8 6 tX 18).map Sccd.decode ++ [tlast]).take 6) = true := by
    rw [hw]
    exact (tchange f (fun b => by rw [← hf]; exact (fit18 nx b).1) (fun b => by rw [← hf]; exact (fit18 nx b).2)).1
  obtain ⟨out, h1, h5⟩ := Sccd.run9 (num rE rmin) (Sccd.model24 (num rE rmin) f tX) _ (by decide +kernel) hch
  have hsccd : Sccd.sccd tEnv ⟨1, [], rmin, some (Sccd.model24 (num rE rmin) f tX), [], []⟩ tnew =
      .ok ⟨out.mode, out.recs, rmin, out.model, out.queue, [] ++ out.removed⟩ := by
    unfold Sccd.sccd
    rw [if_neg (by show ¬ (!Sccd.validModes.contains 1) = true; decide)]
    dsimp only
    rw [show tEnv.bC2 = false from rfl, if_neg (by rw [hpre]; simp)]
    have e2 : Sccd.stored 1 (some (Sccd.model24 (num rE rmin) f tX)) ([] : List Obs) =
      .ok ((Sccd.tail8 6 tX 18).map Sccd.decode) := rfl
    have e4 : ((Sccd.tail8 6 tX 18).map Sccd.decode ++ [tlast]).length >
      ((Sccd.tail8 6 tX 18).map Sccd.decode).length := by decide +kernel
    have e5 : Sccd.standard (tEnv.num rmin) tEnv.conse 1 (some (Sccd.model24 (num rE rmin) f tX)) [] []
      ((Sccd.tail8 6 tX 18).map Sccd.decode ++ [tlast]) = .ok out := h1
    simp only [e2, bind, Except.bind]
    simp [hacc, e5]
  unfold Sccd.update
  rw [if_neg (by simp), if_neg (by decide)]
  rw [if_pos (by simp), hsccd]
  show ∃ q, Sccd.packOut _ = .ok q ∧ _
  unfold Sccd.packOut
  rw [if_neg (by simp [h5]), if_neg (by simp [h5]), if_pos (by simp [h5])]
  exact ⟨_, rfl, h5⟩

end Pycold.SccdNum.Toy
