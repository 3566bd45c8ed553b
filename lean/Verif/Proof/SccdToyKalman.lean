import Verif.Proof.SccdKalman
import Verif.Proof.SccdToyReal
/-! A concrete case for C77: a series without a change, with the Kalman filter. -/
namespace Pycold.Sccd

theorem list26 (X : List Obs) (hl : X.length = 26) : ∃ x0 x1 x2 x3 x4 x5 x6 x7 x8 x9 x10 x11 x12 x13 x14 x15 x16 x17 x18 x19 x20 x21 x22 x23 x24 x25, X = [x0, x1, x2, x3, x4, x5, x6, x7, x8, x9, x10, x11, x12, x13, x14, x15, x16, x17, x18, x19, x20, x21, x22, x23, x24, x25] := by
  match X, hl with
  | [x0, x1, x2, x3, x4, x5, x6, x7, x8, x9, x10, x11, x12, x13, x14, x15, x16, x17, x18, x19, x20, x21, x22, x23, x24, x25], _ => exact ⟨_, _, _, _, _, _, _, _, _, _, _, _, _, _, _, _, _, _, _, _, _, _, _, _, _, _, rfl⟩

/-- A series of 26 observations whose first 18 are stable: they are the monitored segment. -/
theorem run26 {V F R : Type} (N : Num V F R) (z : Option (Model F)) (X : List Obs)
    (hX : X.map (·.date) = (List.range 26).map (fun (k : Nat) => 730000 + 25 * (k : Int)))
    (hm : ∀ k, k < 18 → N.mask (X.take 25) k = false) (hu : N.unstable (X.take 18) = false) :
    ∃ out m, standard N 8 0 z [] [] X = .ok out ∧ out.mode = 1 ∧ out.recs = [] ∧ out.model = some m ∧
      m.seg = X.take 18 := by
  obtain ⟨x0, x1, x2, x3, x4, x5, x6, x7, x8, x9, x10, x11, x12, x13, x14, x15, x16, x17, x18, x19, x20, x21, x22, x23, x24, x25, rfl⟩ := list26 X (by simpa using congrArg List.length hX)
  simp [List.range_succ] at hX
  obtain ⟨h0, h1, h2, h3, h4, h5, h6, h7, h8, h9, h10, h11, h12, h13, h14, h15, h16, h17, h18, h19, h20, h21, h22, h23, h24, h25⟩ := hX
  generalize hXe : [x0, x1, x2, x3, x4, x5, x6, x7, x8, x9, x10, x11, x12, x13, x14, x15, x16, x17, x18, x19, x20, x21, x22, x23, x24, x25] = X at *
  let s17 : St F R :=
    { obs := X, i := 17, iStart := 0, iDense := 0, prevBreak := 0, train := false, filt := none, tStart := 0,
      numObs := 0, recs := [], model := z, changed := false, pre := [], seg := [], removed := [] }
  have hwin : slice X 0 17 = X.take 18 := by subst hXe; rfl
  have hwin2 : slice X 0 24 = X.take 25 := by subst hXe; rfl
  have hgap : maxGap (X.take 18) 0 = 25 := by
    subst hXe
    simp [maxGap, h0, h1, h2, h3, h4, h5, h6, h7, h8, h9, h10, h11, h12, h13, h14, h15, h16, h17]
  have hlen : X.length = 26 := by subst hXe; rfl
  have e17 : loop N 8 0 27 { s17 with i := 0 } = loop N 8 0 10 s17 :=
    loop_wait N 8 0 17 10 { s17 with i := 0 } rfl (by simp [s17, MIN_OBS]) (by simp only [s17]; omega)
      (by simp only [s17]; omega)
  have hkeep : keep (N.mask (X.take 25)) 0 (X.take 18) = X.take 18 :=
    keep_none _ _ 0 (fun k _ hk => hm k (by rw [List.length_take, hlen] at hk; omega))
  have r0 : rd X 0 = .ok x0 := by subst hXe; rfl
  have r17 : rd X 17 = .ok x17 := by subst hXe; rfl
  have r18 : rd X 18 = .ok x18 := by subst hXe; rfl
  have hcp : X.take 0 ++ X.take 18 ++ X.drop 18 = X := by simp
  have hfl : flagged (N.mask (X.take 25)) 0 (X.take 18) = [] := by
    have : ∀ (w : List Obs) (j : Nat), (∀ k, j ≤ k → k < j + w.length → N.mask (X.take 25) k = false) →
        flagged (N.mask (X.take 25)) j w = [] := by
      intro w
      induction w with
      | nil => intro j _; rfl
      | cons o os ih =>
        intro j h
        rw [flagged, h j (le_refl _) (by simp), ih (j + 1) (fun k h1 h2 => h k (by omega) (by
          rw [List.length_cons]; omega))]
        simp
    exact this _ 0 (fun k _ hk => hm k (by rw [List.length_take, hlen] at hk; omega))
  let s18 : St F R :=
    { s17 with i := 18, train := true, filt := some (N.fit none (X.take 18) x18), tStart := 730000, numObs := 18,
               seg := X.take 18 }
  have hs1 : step1 N 8 s17 = .ok (true, s17) := by
    unfold step1
    simp only [s17, MIN_OBS, chk, hlen, hwin, hgap, bind, Except.bind, yearOrMore, firstCurve]
    simp [hwin2, hkeep, hwin, hu, hfl, r0, r17, h0, h17, hlen]
    rfl
  have hs17 : step N 8 0 s17 = .ok s18 := by
    have e : step N 8 0 s17 = trainStep N 8 s17 := rfl
    rw [e]
    unfold trainStep
    have q1 : rd s17.obs s17.iStart = .ok x0 := r0
    have q2 : rd s17.obs s17.i = .ok x17 := r17
    have q3 : rd s17.obs (s17.i + 1) = .ok x18 := r18
    have q4 : (decide (s17.iStart + MIN_OBS ≤ s17.i + 1) && yearOrMore (x17.date - x0.date)) = true := by
      rw [h0, h17]; rfl
    have q5 : slice s17.obs s17.iStart s17.i = X.take 18 := hwin
    simp only [q1, q2, q4, hs1, bind, Except.bind, if_true, q3, q5, Bool.not_true, Bool.false_eq_true, if_false]
    rw [h0]
    rfl
  have hl17 : s17.i + 8 + 1 ≤ s17.obs.length := by show 26 ≤ X.length; omega
  have hl18 : ¬ s18.i + 8 + 1 ≤ s18.obs.length := by show ¬ 27 ≤ X.length; omega
  have hloop : loop N 8 0 27 { s17 with i := 0 } = .ok s18 := by
    rw [e17, loop, if_pos hl17, hs17]
    show loop N 8 0 9 s18 = _
    rw [loop, if_neg hl18]
  have hinit : initSt 0 z [] X = .ok ({ s17 with i := 0 } : St F R) := rfl
  have hnm : newMode 8 0 s18 = .ok (1, 0) := rfl
  obtain ⟨m, hst, hseg⟩ : ∃ m, storeModel N 8 1 s18 (N.fit none (X.take 18) x18) = .ok (1, m) ∧ m.seg = X.take 18 := by
    unfold storeModel
    have q1 : chk s18.obs (s18.i + min 8 NCONSE - 1) = .ok () := by
      show chk X 25 = _
      unfold chk
      rw [hlen]
      rfl
    have q2 : ¬ s18.obs.length < 8 := by show ¬ X.length < 8; omega
    rw [if_neg q2]
    simp only [q1, bind, Except.bind]
    rw [if_neg (by simp)]
    exact ⟨_, rfl, rfl⟩
  have hs3 : step3 N 8 1 0 [] s18 = .ok { mode := 1, recs := [], model := some m, queue := [], removed := [] } := by
    unfold step3
    have q : s18.filt = some (N.fit none (X.take 18) x18) := rfl
    simp only [q, hst, bind, Except.bind, if_true]
    rfl
  refine ⟨{ mode := 1, recs := [], model := some m, queue := [], removed := [] }, m, ?_, rfl, rfl, rfl, hseg⟩
  unfold standard
  rw [hinit, hlen]
  simp only [bind, Except.bind, hloop, hnm]
  exact hs3

end Pycold.Sccd

namespace Pycold.SccdNum.Toy
open Pycold.ColdNum.Spec (exact Middle)
open Pycold.Sccd (Obs fresh)

/-- The program with its Kalman filter. -/
noncomputable def kE : Env ℝ Kalman.Mat (Fin 6) := withKalman level level 15 35 20 0

def kobs : List Scene := robs.take 26
def kX : List Obs := rX.take 26

set_option maxRecDepth 100000 in
theorem fresh_kobs : fresh false false kobs = kX := by decide +kernel

def ksteps : List Int := List.replicate 17 20 ++ [1980] ++ List.replicate 7 0

theorem kvario (b : Fin 6) : variogram kE (fun _ => 0) kX b = 20 := by
  have hv : ColdNum.variogram exact (kX.map (value kE b)) = 20 := by
    unfold ColdNum.variogram
    have e : List.zipWith (fun x y => exact.ofInt ((exact.trunc (exact.sub y x)).natAbs : Nat)) (kX.map (value kE b)) (kX.map (value kE b)).tail =
        ksteps.map (fun (n : Int) => (n : ℝ)) := by
      have e1 : kX.map (value kE b) = ((List.range 26).map jump).map (fun (n : Int) => (n : ℝ)) := by
        rw [show kX = (List.range 26).map fun (k : Nat) => (⟨730000 + 25 * (k : Int), List.replicate 6 (jump k)⟩ : Obs) by rfl]
        rw [List.map_map, List.map_map]
        refine List.map_congr_left (fun k _ => ?_)
        show (((List.replicate 6 (jump k)).getD b 0 : Int) : ℝ) = _
        rw [List.getD_eq_getElem?_getD, List.getElem?_replicate, if_pos b.isLt]
        rfl
      rw [e1, ← List.map_tail, List.zipWith_map]
      have e2 : (fun (x y : Int) => exact.ofInt ((exact.trunc (exact.sub (y : ℝ) (x : ℝ))).natAbs : Nat)) =
          fun (x y : Int) => (((y - x).natAbs : Int) : ℝ) := by
        funext x y
        have : exact.sub (y : ℝ) (x : ℝ) = ((y - x : Int) : ℝ) := by
          show (y : ℝ) - x = _
          push_cast; rfl
        rw [this, trunc_int]
        rfl
      rw [e2]
      have e3 : List.zipWith (fun (x y : Int) => (((y - x).natAbs : Int) : ℝ)) ((List.range 26).map jump) ((List.range 26).map jump).tail =
          (List.zipWith (fun (x y : Int) => ((y - x).natAbs : Int)) ((List.range 26).map jump) ((List.range 26).map jump).tail).map (fun (n : Int) => (n : ℝ)) := by
        rw [List.map_zipWith]
      rw [e3]
      congr 1
    have hA : kE.base.A = exact := rfl
    rw [e]
    have hm := ColdNum.median_middle (ksteps.map (fun (n : Int) => (n : ℝ))) (by simp [ksteps])
    generalize ColdNum.median exact _ = v at *
    unfold Middle at hm
    obtain ⟨h1, h2⟩ := hm
    rw [List.length_map, List.countP_map] at h1 h2
    have hl : ksteps.length = 25 := by decide
    rw [hl] at h1 h2
    by_contra hne
    rcases lt_or_gt_of_ne hne with h | h
    · have : ksteps.countP ((fun x => decide (x ≤ v)) ∘ fun (n : Int) => (n : ℝ)) ≤ ksteps.countP (fun n => decide (n < 20)) := by
        apply List.countP_mono_left
        intro n _ hn
        simp only [Function.comp_apply, decide_eq_true_eq] at *
        have : (n : ℝ) < 20 := lt_of_le_of_lt hn h
        exact_mod_cast this
      have h8 : ksteps.countP (fun n => decide (n < 20)) = 7 := by decide
      omega
    · have : ksteps.countP ((fun x => decide (v ≤ x)) ∘ fun (n : Int) => (n : ℝ)) ≤ ksteps.countP (fun n => decide (20 < n)) := by
        apply List.countP_mono_left
        intro n _ hn
        simp only [Function.comp_apply, decide_eq_true_eq] at *
        have : (20 : ℝ) < (n : ℝ) := lt_of_lt_of_le h hn
        exact_mod_cast this
      have h8 : ksteps.countP (fun n => decide (20 < n)) = 1 := by decide
      omega
  unfold variogram
  rw [if_neg (by decide)]
  show Sccd.toShort (exact.trunc (ColdNum.variogram exact (kX.map (value kE b)))) = 20
  rw [hv, show (20 : ℝ) = ((20 : Int) : ℝ) by norm_num, trunc_int]
  decide

theorem kvario_fun : variogram kE (fun _ => 0) kX = rmin := funext kvario

noncomputable def kEnv : Sccd.Env ℝ (Fin 6 → BandState ℝ Kalman.Mat) (Body ℝ (Fin 6)) (Fin 6 → Int) :=
  env kE (fun _ => 0) 8 false (fun _ _ => false)

noncomputable def kVoid : Sccd.Model (Fin 6 → BandState ℝ Kalman.Mat) :=
  ⟨fun _ => ⟨[], 0, 0, 0⟩, 0, 0, [], 0, 0, 0, [], []⟩

set_option maxRecDepth 100000 in
/-- `sccd_detect` monitors the first 18 observations. -/
theorem run_kalman : ∃ q m, Sccd.detect kEnv (fun _ => 0) kVoid kobs = .ok q ∧ q.mode = 1 ∧ q.recs = [] ∧
    q.model = some m ∧ m.seg.length = 18 := by
  have hpre : (preprocessing false kobs).status = .success := by decide +kernel
  have hacc : Sccd.append [] (Sccd.accepted false kobs (preprocessing false kobs).idr) = kX := by decide +kernel
  have hlast : kobs.getLast? = some ⟨730625, 2500, 2500, 2500, 2500, 2500, 2500, 2900, 0⟩ := by decide +kernel
  have hhead : kobs.head? = some ⟨730000, 500, 500, 500, 500, 500, 500, 2900, 0⟩ := by decide +kernel
  have hm : ∀ k, k < 18 → (num kE rmin).mask (kX.take 25) k = false := fun k hk => mask_none k hk
  have hu : (num kE rmin).unstable (kX.take 18) = false := stable18
  obtain ⟨out, m, h1, h2, h3, h4, h5⟩ := Sccd.run26 (num kE rmin) (some kVoid) kX (by decide +kernel) hm hu
  have hsccd : Sccd.sccd kEnv ⟨0, [], fun _ => 0, some kVoid, [], []⟩ kobs =
      .ok ⟨out.mode, out.recs, rmin, out.model, out.queue, [] ++ out.removed⟩ := by
    unfold Sccd.sccd
    rw [if_neg (by decide)]
    dsimp only
    rw [show kEnv.bC2 = false from rfl, if_neg (by rw [hpre]; simp)]
    have e1 : ∀ a b, kEnv.snowPct a b = false := fun _ _ => rfl
    have e2 : Sccd.stored 0 (some kVoid) ([] : List Obs) = .ok [] := rfl
    have e3 : kEnv.variogram kX = rmin := kvario_fun
    have e4 : kX.length > ([] : List Obs).length := by decide
    have e5 : Sccd.standard (kEnv.num rmin) kEnv.conse 0 (some kVoid) [] [] kX = .ok out := h1
    simp only [e1, e2, bind, Except.bind, hacc, Bool.false_eq_true, if_false, e4, if_true, e3, e5, List.isEmpty_nil,
      Bool.true_and, decide_true]
  unfold Sccd.detect
  rw [if_neg (by decide), hhead, hlast]
  dsimp only
  rw [if_neg (by decide), hsccd]
  show ∃ q m, Sccd.packOut _ = _ ∧ _
  unfold Sccd.packOut
  rw [if_pos (by simp [h2])]
  exact ⟨_, m, rfl, h2, h3, h4, by rw [h5]; decide⟩

end Pycold.SccdNum.Toy
