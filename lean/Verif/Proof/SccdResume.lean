import Verif.Proof.SccdSim
/-!
# S-CCD: two updates in monitor mode equal one update
-/
namespace Pycold.Sccd
open Spec
variable {V F R M : Type}

theorem storeModel_rel (N : Num V F R) {conse mode : Nat} (hc : 0 < conse) {D rm : List Obs} {b a : St F R}
    (h : Rel D rm b a) (f : F) (r : Nat × Model F) (e : storeModel N conse mode b f = .ok r) :
    storeModel N conse mode a f = .ok r := by
  obtain ⟨h1, h2, h3, h4, h5, h6, h7, h8, h9, h10, h11, h12, h13, h14, h15⟩ := h
  unfold storeModel at e ⊢
  rw [h1, h2, h5, h6, h10, h11]
  by_cases hl : b.obs.length < conse
  · simp [hl] at e
  have hl' : ¬ (D ++ b.obs).length < conse := by simp; omega
  have hmin : 0 < min conse NCONSE := by simp [NCONSE]; omega
  simp only [hl, hl', if_false, bind, Except.bind] at e ⊢
  rw [show D.length + b.i + min conse NCONSE - 1 = D.length + (b.i + min conse NCONSE - 1) by omega,
    chk_shift]
  have e1 : tail8 conse (D ++ b.obs) (D.length + b.i) = tail8 conse b.obs b.i := by
    simp only [tail8, drop_shift]
  have e2 : (D ++ b.obs).drop ((D ++ b.obs).length - conse) = b.obs.drop (b.obs.length - conse) := by
    rw [List.length_append, show D.length + b.obs.length - conse = D.length + (b.obs.length - conse) by omega,
      drop_shift]
  simp only [e1, e2]
  exact e

theorem storeQueue_shift (D o : List Obs) (pb : Nat) (hp : pb ≤ o.length) :
    storeQueue (D ++ o) (D.length + pb) = storeQueue o pb := by
  unfold storeQueue
  have e1 : (D ++ o).length - (D.length + pb) = o.length - pb := by simp; omega
  simp only [e1, drop_shift]
  split
  · rename_i hg
    have hM : MAX_QUEUE = 240 := rfl
    rw [show (D ++ o).length - 1 - MAX_QUEUE = D.length + (o.length - 1 - MAX_QUEUE) by simp; omega, drop_shift]
  · rfl

/-- What follows the loop. -/
def finish (N : Num V F R) (conse mode0 : Nat) (queue0 : List Obs) (s : St F R) : Except Err (Out F R) := do
  let (mode, pb) ← newMode conse mode0 s
  step3 N conse mode pb queue0 s

theorem finish_rel (N : Num V F R) {conse mode0 : Nat} (hm : mode0 = 1 ∨ mode0 = 11) (hc : 0 < conse)
    {D rm : List Obs} {b a : St F R} (h : Rel D rm b a) (hpb : b.prevBreak ≤ b.obs.length)
    (queue0 : List Obs) {out : Out F R} (e : finish N conse mode0 queue0 b = .ok out) :
    finish N conse mode0 queue0 a = .ok { out with removed := rm ++ out.removed } := by
  unfold finish newMode at e ⊢
  rw [h.changed]
  have h0 : mode0 ≠ 0 := by omega
  have h2 : ¬ mode0 % 10 = 2 := by omega
  have h5 : ¬ mode0 % 10 = 5 := by omega
  simp only [h0, h2, h5, if_false] at e ⊢
  cases hch : b.changed with
  | false =>
    simp only [hch, Bool.false_eq_true, if_false, bind, Except.bind] at e ⊢
    unfold step3 at e ⊢
    have h1 : mode0 % 10 = 1 := by omega
    simp only [h1, if_true, bind, Except.bind, h.filt] at e ⊢
    cases hf : b.filt with
    | none => simp [hf] at e
    | some f =>
      simp only [hf] at e ⊢
      cases hs : storeModel N conse mode0 b f with
      | error x => simp [hs] at e
      | ok r =>
        have hs' := storeModel_rel N hc h f r hs
        simp only [hs, hs'] at e ⊢
        have hmm : r.1 = 1 ∨ r.1 = 11 := by
          unfold storeModel at hs
          by_cases hl : b.obs.length < conse
          · simp [hl] at hs
          simp only [hl, if_false, bind, Except.bind] at hs
          cases hk : chk b.obs (b.i + min conse NCONSE - 1) with
          | error x => simp [hk] at hs
          | ok _ =>
            simp only [hk] at hs
            cases hs
            simp only
            split <;> omega
        have hq : ¬ (r.1 % 10 = 2 ∨ r.1 % 10 = 5) := by omega
        simp only [hq, if_false] at e ⊢
        cases e
        rw [h.recs, h.removed]
  | true =>
    have key : ∀ mode, mode = 12 ∨ mode = 5 → step3 N conse mode b.prevBreak queue0 b = .ok out →
        step3 N conse mode a.prevBreak queue0 a = .ok { out with removed := rm ++ out.removed } := by
      intro mode hmode e
      unfold step3 at e ⊢
      have h1 : ¬ mode % 10 = 1 := by omega
      have hq : mode % 10 = 2 ∨ mode % 10 = 5 := by omega
      simp only [h1, if_false, bind, Except.bind, hq, if_true] at e ⊢
      rw [h.obs, h.prev hch, storeQueue_shift D b.obs _ hpb]
      cases hs : storeQueue b.obs b.prevBreak with
      | error x => simp [hs] at e
      | ok r =>
        simp only [hs] at e ⊢
        cases e
        rw [h.recs, h.removed, h.model hch]
    simp only [hch, if_true, bind, Except.bind] at e ⊢
    by_cases h10 : mode0 / 10 = 1
    · simp only [h10, if_true] at e ⊢
      exact key 12 (.inl rfl) e
    · simp only [h10, if_false] at e ⊢
      exact key 5 (.inr rfl) e

theorem standard_finish (N : Num V F R) {conse mode0 : Nat} {model : Option (Model F)} {recs : List (Rec R)}
    {queue0 obs : List Obs} {s0 s : St F R} (e0 : initSt mode0 model recs obs = .ok s0)
    (e1 : loop N conse mode0 (obs.length + 1) s0 = .ok s) :
    standard N conse mode0 model recs queue0 obs = finish N conse mode0 queue0 s := by
  unfold standard finish
  simp only [e0, e1, bind, Except.bind]

/-- Stopping in monitor mode and going on later is the same as not stopping. -/
theorem standard_resume (N : Num V F R) (hN : ∀ f, N.narrow f = f) {mode0 : Nat}
    (hm : mode0 = 1 ∨ mode0 = 11) {m : Model F} {recs : List (Rec R)} {X Z : List Obs}
    (g : Given True 8 mode0 (some m) recs X)
    (hcod : Codable (flat recs ++ (m.pre ++ m.seg) ++ X))
    (hlen : (flat recs ++ (m.pre ++ m.seg) ++ X).length ≤ 32767)
    {out : Out F R} (e : standard N 8 mode0 (some m) recs [] X = .ok out) (hmo : out.mode = mode0) :
    ∃ m1, out.model = some m1 ∧ out.recs = recs ∧ out.queue = [] ∧ m1.obs.length = 8 ∧
      (∀ out2, standard N 8 mode0 (some m1) recs [] (m1.obs.map decode ++ Z) = .ok out2 →
        standard N 8 mode0 (some m) recs [] (X ++ Z) =
          .ok { out2 with removed := out.removed ++ out2.removed }) := by
  have h1 : mode0 % 10 = 1 := by omega
  have h0 : mode0 ≠ 0 := by omega
  rcases standard_cases N [] (by omega) g with
    ⟨out', s, s0, eo, e0, eL, inv, run, hdr, hsh, res⟩ | ⟨eo, _⟩
  rotate_left
  · rw [e] at eo; simp at eo
  rw [e] at eo
  cases eo
  obtain ⟨s0', e0', inv0, o0, i0, r0, mm0, c0, t0, p0⟩ := initSt_inv g
  rw [e0] at e0'
  cases e0'
  obtain ⟨ht, hi, hq, hcs, f, m1, hf, hm1, hm8, hfn, hts, hno, hpre, hseg, hobs⟩ := res.mon (by rw [hmo]; exact h1)
  have hch := hcs h0
  have hr : s.recs = recs := by
    obtain ⟨_, k2, _⟩ := run.keep (by rw [hch, c0]) h0 c0
    rw [(k2 (by rw [t0]; simp [h1])).2, r0]
  have hso := inv.tseg ht trivial
  have hHs : flat recs ++ (m.pre ++ m.seg) ++ s.obs.take s.i = flat recs ++ (s.pre ++ s.seg) := by
    have := inv.tH ht
    rw [hr] at this
    simpa [openPart, h1] using this
  have hsubs : (flat recs ++ (s.pre ++ s.seg)).Sublist (flat recs ++ (m.pre ++ m.seg) ++ X) := by
    rw [← hHs]
    exact (List.Sublist.refl _).append ((List.take_sublist _ _).trans inv.sub)
  have hnum : toShort s.numObs = s.numObs := by
    have hl := hsubs.length_le
    have hcnt := hso.count
    simp only [List.length_append] at hl hlen
    exact toShort_id (by omega) (by omega)
  have hnpos : s.numObs > 0 := by
    have := hso.count; have := hso.long; omega
  have hstart : LAUNCH + toShort (s.tStart - LAUNCH) = s.tStart := by
    have hf' := hso.first
    cases hh : s.seg with
    | nil => rw [hh] at hf'; simp at hf'
    | cons o os =>
      rw [hh] at hf'
      simp only [List.head?_cons, Option.map_some, Option.some.injEq] at hf'
      have hmem : o ∈ flat recs ++ (m.pre ++ m.seg) ++ X := hsubs.subset (by simp [hh])
      obtain ⟨⟨b1, b2⟩, _⟩ := hcod o hmem
      rw [← hf', toShort_id (by simp only [LAUNCH]; omega) (by simp only [LAUNCH]; omega)]
      omega
  have hobs' : m1.obs.map decode = s.obs.drop s.i := by
    rw [hobs hnpos, tail8_full hi]
    refine decode_encode (hcod.sublist ?_)
    exact ((List.drop_sublist _ _).trans inv.sub).trans (List.sublist_append_right _ _)
  refine ⟨m1, hm1, by rw [res.recs, hr], hq, hm8, ?_⟩
  intro out2 e2
  rw [hobs'] at e2
  -- the second run
  have g2 : Given False 8 mode0 (some m1) recs (s.obs.drop s.i ++ Z) :=
    ⟨g.modes, fun _ => ⟨m1, rfl, by simp; omega, False.elim⟩, fun h => by omega, False.elim, False.elim,
      False.elim, False.elim⟩
  rcases standard_cases N [] (by omega) g2 with
    ⟨out2', b, b0, eo2, eb0, ebL, binv, brun, bdr, bsh, bres⟩ | ⟨eo2, _⟩
  rotate_left
  · rw [e2] at eo2; simp at eo2
  obtain ⟨b0', eb0', binv0, _⟩ := initSt_inv g2
  rw [eb0] at eb0'
  cases eb0'
  rw [standard_finish N eb0 ebL] at e2
  -- the run over everything
  have ea0 : initSt mode0 (some m) recs (X ++ Z) = .ok { s0 with obs := s0.obs ++ Z } := by
    have := e0
    unfold initSt at this ⊢
    simp only [h1, if_true] at this ⊢
    cases this
    rfl
  obtain ⟨n, hn, hK⟩ := loop_prefix N h0 (by omega) Z (X.length + 1) s0 s inv0 (by rw [t0]; simp [h1])
    (by rw [o0]; omega) eL hch
  have hrel : Rel (s.obs.take s.i) s.removed b0 { s with obs := s.obs ++ Z } := by
    have hlt : (s.obs.take s.i).length = s.i := by simp; omega
    have := eb0
    unfold initSt at this
    simp only [h1, if_true] at this
    cases this
    refine ⟨?_, ?_, ht, ?_, ?_, ?_, hr, hch, by simp, hpre.symm, hseg.symm, by simp, by simp, by simp, by simp⟩
    · simp only; rw [← List.append_assoc, List.take_append_drop]
    · simp only [hlt, Nat.add_zero]
    · rw [hf, hfn, hN]
    · simp only; rw [hts, hstart]
    · simp only; rw [hno, hnum]
  obtain ⟨a, eaL, harel⟩ := loop_rel N h0 (by omega) _ b0 _ b binv0 hrel ebL
  have eaL' : loop N 8 mode0 ((X ++ Z).length + 1) { s0 with obs := s0.obs ++ Z } = .ok a := by
    have hlx : (s.obs.drop s.i ++ Z).length + 1 + n ≤ (X ++ Z).length + 1 := by
      have hxl := congrArg List.length hdr
      rw [o0, i0] at hn
      obtain ⟨_, _, hx8, _⟩ := g.mon h1
      simp only [List.length_append, List.length_drop] at hxl ⊢
      omega
    have := hK ((s.obs.drop s.i ++ Z).length + 1)
    rw [eaL] at this
    exact loop_fuel N _ _ _ _ (by omega) this
  have hpb : b.prevBreak ≤ b.obs.length := by
    have h8 : b.i ≤ b.obs.length := by
      have := congrArg List.length bdr
      have h8' : (s.obs.drop s.i).length = 8 := by simp; omega
      simp only [List.length_append, List.length_drop] at this h8'
      omega
    cases hbt : b.train with
    | true => exact Nat.le_trans (binv.tprev hbt) h8
    | false => exact Nat.le_trans (Nat.le_trans (binv.nprev hbt) (binv.nstart hbt)) h8
  rw [standard_finish N ea0 eaL', res.removed]
  exact finish_rel N hm (by omega) harel hpb [] e2

end Pycold.Sccd
