import Verif.Proof.SccdExact
import Verif.Proof.ColdNumToyReal
/-! A concrete case for C76: a series with a change, in exact arithmetic. -/
namespace Pycold.Sccd

theorem keep_none (flag : Nat → Bool) : ∀ (w : List Obs) (j : Nat), (∀ k, j ≤ k → k < j + w.length → flag k = false) →
    keep flag j w = w
  | [], _, _ => rfl
  | o :: os, j, h => by
    rw [keep, h j (le_refl _) (by simp), keep_none flag os (j + 1) (fun k h1 h2 => h k (by omega) (by
      rw [List.length_cons]; omega))]
    simp

/-- Nothing happens before there are 18 observations. -/
theorem loop_wait {V F R : Type} (N : Num V F R) (conse m : Nat) : ∀ (j k : Nat) (s : St F R), s.train = false →
    s.i + j + 1 ≤ s.iStart + MIN_OBS → s.iStart < s.obs.length → s.i + j + conse + 1 ≤ s.obs.length →
    loop N conse m (j + k) s = loop N conse m k { s with i := s.i + j }
  | 0, k, s, _, _, _, _ => by rw [Nat.zero_add]; rfl
  | j + 1, k, s, h1, h2, h3, h4 => by
    have e : step N conse m s = .ok { s with i := s.i + 1 } := by
      have e0 : step N conse m s = trainStep N conse s := by
        unfold step
        rw [h1]
        rfl
      rw [e0]
      unfold trainStep
      obtain ⟨a, ha⟩ : ∃ a, rd s.obs s.iStart = .ok a := by
        unfold rd; rw [List.getElem?_eq_getElem h3]; exact ⟨_, rfl⟩
      obtain ⟨b, hb⟩ : ∃ b, rd s.obs s.i = .ok b := by
        unfold rd; rw [List.getElem?_eq_getElem (by omega)]; exact ⟨_, rfl⟩
      have hd : decide (s.iStart + MIN_OBS ≤ s.i + 1) = false := decide_eq_false (by omega)
      simp only [ha, hb, hd, bind, Except.bind, Bool.false_and]
      rfl
    rw [show j + 1 + k = (j + k) + 1 by omega, loop, if_pos (by omega), e]
    show loop N conse m (j + k) { s with i := s.i + 1 } = _
    rw [loop_wait N conse m j k { s with i := s.i + 1 } h1 (by simp only; omega) h3 (by simp only; omega)]
    simp only [Nat.add_assoc, Nat.add_comm 1 j]

theorem list27 (X : List Obs) (hl : X.length = 27) : ∃ x0 x1 x2 x3 x4 x5 x6 x7 x8 x9 x10 x11 x12 x13 x14 x15 x16 x17 x18 x19 x20 x21 x22 x23 x24 x25 x26, X = [x0, x1, x2, x3, x4, x5, x6, x7, x8, x9, x10, x11, x12, x13, x14, x15, x16, x17, x18, x19, x20, x21, x22, x23, x24, x25, x26] := by
  match X, hl with
  | [x0, x1, x2, x3, x4, x5, x6, x7, x8, x9, x10, x11, x12, x13, x14, x15, x16, x17, x18, x19, x20, x21, x22, x23, x24, x25, x26], _ => exact ⟨_, _, _, _, _, _, _, _, _, _, _, _, _, _, _, _, _, _, _, _, _, _, _, _, _, _, _, rfl⟩

/-- A series of 27 observations with a change after the 18th, whatever the numbers are. -/
theorem run27 {V F R : Type} (N : Num V F R) (z : Option (Model F)) (X : List Obs)
    (hX : X.map (·.date) = (List.range 27).map (fun (k : Nat) => 730000 + 25 * (k : Int)))
    (hm : ∀ k, k < 18 → N.mask (X.take 25) k = false) (hu : N.unstable (X.take 18) = false)
    (hc : ∀ nx ∈ (X.drop 18).head?, isChange N (N.fit none (X.take 18) nx) 18 ((X.drop 18).take 8) = true) :
    ∃ out r, standard N 8 0 z [] [] X = .ok out ∧ out.mode = 12 ∧ out.queue.length = 9 ∧
      out.recs = [r] ∧ r.tBreak = 730450 ∧ r.span = X.take 18 := by
  obtain ⟨x0, x1, x2, x3, x4, x5, x6, x7, x8, x9, x10, x11, x12, x13, x14, x15, x16, x17, x18, x19, x20, x21, x22, x23, x24, x25, x26, rfl⟩ := list27 X (by simpa using congrArg List.length hX)
  simp [List.range_succ] at hX
  obtain ⟨h0, h1, h2, h3, h4, h5, h6, h7, h8, h9, h10, h11, h12, h13, h14, h15, h16, h17, h18, h19, h20, h21, h22, h23, h24, h25, h26⟩ := hX
  generalize hXe : [x0, x1, x2, x3, x4, x5, x6, x7, x8, x9, x10, x11, x12, x13, x14, x15, x16, x17, x18, x19, x20, x21, x22, x23, x24, x25, x26] = X at *
  let s17 : St F R :=
    { obs := X, i := 17, iStart := 0, iDense := 0, prevBreak := 0, train := false, filt := none, tStart := 0,
      numObs := 0, recs := [], model := z, changed := false, pre := [], seg := [], removed := [] }
  have hwin : slice X 0 17 = X.take 18 := by subst hXe; rfl
  have hwin2 : slice X 0 24 = X.take 25 := by subst hXe; rfl
  have hgap : maxGap (X.take 18) 0 = 25 := by
    subst hXe
    simp [maxGap, h0, h1, h2, h3, h4, h5, h6, h7, h8, h9, h10, h11, h12, h13, h14, h15, h16, h17]
  have hlen : X.length = 27 := by subst hXe; rfl
  have e17 : loop N 8 0 28 { s17 with i := 0 } = loop N 8 0 11 s17 :=
    loop_wait N 8 0 17 11 { s17 with i := 0 } rfl (by simp [s17, MIN_OBS]) (by simp only [s17]; omega)
      (by simp only [s17]; omega)
  have hkeep : keep (N.mask (X.take 25)) 0 (X.take 18) = X.take 18 :=
    keep_none _ _ 0 (fun k _ hk => hm k (by rw [List.length_take, hlen] at hk; omega))
  have r0 : rd X 0 = .ok x0 := by subst hXe; rfl
  have r17 : rd X 17 = .ok x17 := by subst hXe; rfl
  have r18 : rd X 18 = .ok x18 := by subst hXe; rfl
  have hcp : X.take 0 ++ X.take 18 ++ X.drop 18 = X := by simp
  have hfl : flagged (N.mask (X.take 25)) 0 (X.take 18) = [] := by
    have : ∀ (w : List Obs) (j : Nat), (∀ k, j ≤ k → k < j + w.length → N.mask (X.take 25) k = false) →
        flagged (N.mask (X.take 25)) j w = [] := by
      intro w
      induction w with
      | nil => intro j _; rfl
      | cons o os ih =>
        intro j h
        rw [flagged, h j (le_refl _) (by simp), ih (j + 1) (fun k h1 h2 => h k (by omega) (by
          rw [List.length_cons]; omega))]
        simp
    exact this _ 0 (fun k _ hk => hm k (by rw [List.length_take, hlen] at hk; omega))
  let s18 : St F R :=
    { s17 with i := 18, train := true, filt := some (N.fit none (X.take 18) x18), tStart := 730000, numObs := 18,
               seg := X.take 18 }
  have hs1 : step1 N 8 s17 = .ok (true, s17) := by
    unfold step1
    simp only [s17, MIN_OBS, chk, hlen, hwin, hgap, bind, Except.bind, yearOrMore, firstCurve]
    simp [hwin2, hkeep, hwin, hu, hfl, r0, r17, h0, h17, hlen]
    rfl
  have hs17 : step N 8 0 s17 = .ok s18 := by
    have e : step N 8 0 s17 = trainStep N 8 s17 := rfl
    rw [e]
    unfold trainStep
    have q1 : rd s17.obs s17.iStart = .ok x0 := r0
    have q2 : rd s17.obs s17.i = .ok x17 := r17
    have q3 : rd s17.obs (s17.i + 1) = .ok x18 := r18
    have q4 : (decide (s17.iStart + MIN_OBS ≤ s17.i + 1) && yearOrMore (x17.date - x0.date)) = true := by
      rw [h0, h17]; rfl
    have q5 : slice s17.obs s17.iStart s17.i = X.take 18 := hwin
    simp only [q1, q2, q4, hs1, bind, Except.bind, if_true, q3, q5, Bool.not_true, Bool.false_eq_true, if_false]
    rw [h0]
    rfl
  let f := N.fit none (X.take 18) x18
  have hw8 : (s18.obs.drop s18.i).take 8 = (X.drop 18).take 8 := rfl
  have hch : isChange N f s18.numObs ((X.drop 18).take 8) = true :=
    hc x18 (by subst hXe; rfl)
  let r : Rec R :=
    { tStart := 730000, tBreak := 730450, numObs := 18, body := N.changeRec f 18 ((X.drop 18).take 8), lead := [],
      span := X.take 18 }
  let s19 : St F R :=
    { s18 with recs := [r], iStart := 18, prevBreak := 18, train := false,
               model := some (snapshot N 8 s18 f ((X.drop 18).take 8)), pre := [], seg := [], i := 19 }
  have hs18 : step N 8 0 s18 = .ok s19 := by
    have e : step N 8 0 s18 = step2 N 8 0 s18 := rfl
    rw [e]
    unfold step2
    have q0 : s18.filt = some f := rfl
    have q1 : chk s18.obs (s18.i + 8 - 1) = .ok () := by
      show chk X 25 = _
      unfold chk
      rw [hlen]
      rfl
    have q2 : rd s18.obs s18.i = .ok x18 := r18
    simp only [q0, q1, q2, hw8, hch, bind, Except.bind, if_true, h18]
    rfl
  have hl17 : s17.i + 8 + 1 ≤ s17.obs.length := by show 26 ≤ X.length; omega
  have hl18 : s18.i + 8 + 1 ≤ s18.obs.length := by show 27 ≤ X.length; omega
  have hl19 : ¬ s19.i + 8 + 1 ≤ s19.obs.length := by show ¬ 28 ≤ X.length; omega
  have hloop : loop N 8 0 28 { s17 with i := 0 } = .ok s19 := by
    rw [e17, loop, if_pos hl17, hs17]
    show loop N 8 0 10 s18 = _
    rw [loop, if_pos hl18, hs18]
    show loop N 8 0 9 s19 = _
    rw [loop, if_neg hl19]
  have hinit : initSt 0 z [] X = .ok ({ s17 with i := 0 } : St F R) := rfl
  have hnm : newMode 8 0 s19 = .ok (12, 18) := rfl
  have hst : storeQueue s19.obs 18 = .ok ((X.drop 18).map encode) := by
    unfold storeQueue
    show (if X.length - 18 > MAX_QUEUE then _ else _) = _
    rw [if_neg (by rw [hlen]; decide)]
  refine ⟨⟨12, [r], s19.model, (X.drop 18).map encode, []⟩, r, ?_, rfl, ?_, rfl, rfl, rfl⟩
  rotate_left
  · rw [List.length_map, List.length_drop, hlen]
  unfold standard
  rw [hinit, hlen]
  simp only [bind, Except.bind, hloop, hnm, step3]
  simp [hst]
  exact ⟨rfl, rfl⟩
end Pycold.Sccd
