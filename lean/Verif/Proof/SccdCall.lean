import Verif.Proof.SccdLoop
import Verif.Spec.Sccd
/-!
# One call of S-CCD's standard branch
-/
namespace Pycold.Sccd
variable {V F R M : Type}

/-- What the loaded model accounts for. -/
def openPart (mode : Nat) (model : Option (Model F)) : List Obs :=
  if mode % 10 = 1 then
    match model with
    | some m => m.pre ++ m.seg
    | none => []
  else []

/-- What a call of `sccd_standard` may assume. -/
structure Given (G : Prop) (conse mode0 : Nat) (model : Option (Model F)) (recs : List (Rec R))
    (obs : List Obs) : Prop where
  modes : mode0 ∈ [0, 1, 11, 2, 12, 5]
  mon : mode0 % 10 = 1 → ∃ m, model = some m ∧ conse ≤ obs.length ∧
    (G → SegOk m.seg (LAUNCH + m.tStart) m.numObs ∧ Year m.seg)
  five : mode0 = 5 → (∃ m, model = some m ∧ m.obs.length = 8) ∧ conse ≤ obs.length
  recsOk : G → RecsOk recs
  asc : G → Asc (flat recs ++ openPart mode0 model ++ obs)
  chrono : G → Chrono (openPart mode0 model ++ obs) recs
  year : G → ∀ r ∈ recs.tail, Year r.span

theorem initSt_inv {G : Prop} {conse mode0 : Nat} {model : Option (Model F)} {recs : List (Rec R)}
    {obs : List Obs} (g : Given G conse mode0 model recs obs) :
    ∃ s, initSt mode0 model recs obs = .ok s ∧ Inv G (flat recs ++ openPart mode0 model) obs s ∧
      s.obs = obs ∧ s.i = 0 ∧ s.recs = recs ∧ s.model = model ∧ s.changed = false ∧
      s.train = decide (mode0 % 10 = 1) ∧ s.prevBreak = 0 := by
  unfold initSt
  by_cases h1 : mode0 % 10 = 1
  · obtain ⟨m, hm, hl, hG⟩ := g.mon h1
    have ho : openPart mode0 model = m.pre ++ m.seg := by simp [openPart, h1, hm]
    simp only [h1, if_true, hm]
    refine ⟨_, rfl, ?_, rfl, rfl, rfl, rfl, rfl, by simp, rfl⟩
    exact
      { gasc := fun x => by have := g.asc x; rwa [hm] at this
        sub := List.Sublist.refl _
        perm := by simp
        recsOk := g.recsOk
        chronoN := by simp
        chronoT := by
          intro x _
          have := g.chrono x
          rw [ho] at this
          simpa using this
        yearR := g.year
        nstart := by simp
        nprev := by simp
        ndense := by simp
        nfirst := by simp
        nH := by simp
        ngh := by simp
        tfilt := by simp
        tprev := by simp
        tseg := fun _ x => (hG x).1
        tyear := fun _ x => (hG x).2
        tB := by
          intro _ x _
          refine .inr ⟨rfl, m.pre ++ m.seg, ?_, by rw [← ho, hm]⟩
          intro e
          have := (hG x).1.long
          simp at e
          rw [e.2] at this
          simp at this
        tH := by intro _; simp [← hm, ho] }
  · have ho : openPart mode0 model = [] := by simp [openPart, h1]
    simp only [h1, if_false]
    refine ⟨_, rfl, ?_, rfl, rfl, rfl, rfl, rfl, by simp, rfl⟩
    exact
      { gasc := fun x => g.asc x
        sub := List.Sublist.refl _
        perm := by simp
        recsOk := g.recsOk
        chronoN := by
          intro x _
          have := g.chrono x
          rw [ho] at this
          simpa using this
        chronoT := by simp
        yearR := g.year
        nstart := by simp
        nprev := by simp
        ndense := by simp
        nfirst := by simp
        nH := by simp [ho]
        ngh := by simp
        tfilt := by simp
        tprev := by simp
        tseg := by simp
        tyear := by simp
        tB := by simp
        tH := by simp }

theorem storeModel_ok (N : Num V F R) {conse mode : Nat} {s : St F R} (f : F)
    (hl : s.i + conse ≤ s.obs.length) (hc : 0 < conse) (hm : mode = 1 ∨ mode = 11) :
    ∃ mode' m, storeModel N conse mode s f = .ok (mode', m) ∧ (mode' = 1 ∨ mode' = mode) ∧
      m.obs.length = 8 ∧ m.filt = N.narrow f ∧ m.tStart = toShort (s.tStart - LAUNCH) ∧
      m.numObs = toShort s.numObs ∧ m.pre = s.pre ∧ m.seg = s.seg ∧
      (s.numObs > 0 → m.obs = tail8 conse s.obs s.i) ∧
      ((m.obs = tail8 conse s.obs s.i ∧ m.conseLast =
        leadCount N (((s.obs.drop (s.obs.length - conse)).reverse).map (N.endMag f s.numObs))) ∨
       (m.obs = List.replicate 8 padObs ∧ m.conseLast = 0)) ∧
      Strength N f s.numObs (s.obs.drop (s.obs.length - conse)).reverse m := by
  unfold storeModel
  have h1 : ¬ (s.obs.length < conse) := by omega
  have h2 : s.i + (min conse NCONSE) - 1 < s.obs.length := by
    have : min conse NCONSE ≤ conse := Nat.min_le_left _ _
    omega
  simp only [h1, if_false, chk_ok h2, bind, Except.bind]
  refine ⟨_, _, rfl, ?_, ?_, rfl, rfl, rfl, rfl, rfl, ?_, ?_, ?_⟩
  · split
    · rename_i h
      rcases hm with rfl | rfl
      · simp at h
      · exact .inl rfl
    · exact .inr rfl
  · simp only
    split
    · exact length_tail8 hl
    · simp [NCONSE]
  · intro h
    simp [h]
  · simp only
    by_cases h : s.numObs > 0
    · exact .inl (by simp [h])
    · exact .inr (by simp [h, NCONSE])
  · unfold Strength
    simp only
    by_cases h : s.numObs > 0
    · simp only [h, true_and, if_true]
      generalize (s.obs.drop (s.obs.length - conse)).reverse = nw
      generalize hk : leadCount N (nw.map (N.endMag f s.numObs)) = k
      refine ⟨fun h0 => ?_, fun h0 => ?_⟩
      · have : ¬ k > 0 := by omega
        simp only [this, if_false, and_self]
      · have : k > 0 := by omega
        simp only [this, if_true, List.map_take, Int.toNat_natCast, and_true]
        rfl
    · simp [h]

/-- Result of a call of `sccd_standard`, in terms of the state `s` the loop ends in. -/
structure Result (N : Num V F R) (conse mode0 : Nat) (queue0 obs : List Obs) (s : St F R) (out : Out F R) :
    Prop where
  recs : out.recs = s.recs
  removed : out.removed = s.removed
  modes : out.mode ∈ [1, 11, 2, 12, 5]
  from11 : out.mode = 11 → mode0 = 11
  from2 : out.mode = 2 → mode0 = 2
  mon : out.mode % 10 = 1 → s.train = true ∧ s.i + conse = s.obs.length ∧ out.queue = queue0 ∧
    (mode0 ≠ 0 → s.changed = false) ∧
    ∃ f m, s.filt = some f ∧ out.model = some m ∧ m.obs.length = 8 ∧ m.filt = N.narrow f ∧
      m.tStart = toShort (s.tStart - LAUNCH) ∧
      m.numObs = toShort s.numObs ∧ m.pre = s.pre ∧ m.seg = s.seg ∧
      (s.numObs > 0 → m.obs = tail8 conse s.obs s.i)
  que : out.mode % 10 ≠ 1 → out.model = s.model ∧
    (out.mode ≠ 5 → mode0 = 0 ∨ mode0 = 2 ∨ mode0 = 12 → s.train = false ∨ s.changed = true) ∧
    storeQueue s.obs (if mode0 = 5 ∧ s.changed = false ∧ out.mode = 5 then 0 else s.prevBreak) = .ok out.queue
  stay : mode0 % 10 = 1 → s.changed = false → ¬ out.mode % 10 ≠ 1
  five : out.mode = 5 → (∃ m, s.model = some m ∧ m.obs.length = 8) ∧ conse ≤ s.obs.length ∧
    (s.changed = true ∨ mode0 = 5)
  last : out.mode % 10 = 1 → ∃ f m, s.filt = some f ∧ out.model = some m ∧
    ((m.obs = tail8 conse s.obs s.i ∧ m.conseLast =
      leadCount N (((s.obs.drop (s.obs.length - conse)).reverse).map (N.endMag f s.numObs))) ∨
     (m.obs = List.replicate 8 padObs ∧ m.conseLast = 0)) ∧
    Strength N f s.numObs (s.obs.drop (s.obs.length - conse)).reverse m

theorem newMode_ok {G : Prop} {conse mode0 : Nat} {model : Option (Model F)}
    {recs : List (Rec R)} {obs : List Obs} (hc : 0 < conse)
    (g : Given G conse mode0 model recs obs) {s0 s : St F R} (r : Run conse mode0 s0 s)
    (c0 : s0.changed = false) (m0 : s0.model = model) (t0 : s0.train = decide (mode0 % 10 = 1))
    (hl : conse ≤ obs.length → conse ≤ s.obs.length) (hch : s.changed = true → conse ≤ obs.length) :
    ∃ mode pb, newMode conse mode0 s = .ok (mode, pb) ∧ mode ∈ [1, 11, 2, 12, 5] ∧
      (mode = 11 → mode0 = 11) ∧ (mode = 2 → mode0 = 2) ∧
      (mode % 10 = 1 → s.train = true ∧ (mode0 ≠ 0 → s.changed = false)) ∧
      (mode0 % 10 = 1 → s.changed = false → mode % 10 = 1) ∧
      (mode % 10 ≠ 1 →
        (mode ≠ 5 → mode0 = 0 ∨ mode0 = 2 ∨ mode0 = 12 → s.train = false ∨ s.changed = true) ∧
        pb = if mode0 = 5 ∧ s.changed = false ∧ mode = 5 then 0 else s.prevBreak) ∧
      (mode = 5 → (∃ m, s.model = some m ∧ m.obs.length = 8) ∧ conse ≤ s.obs.length ∧
        (s.changed = true ∨ mode0 = 5)) := by
  have hmodes := g.modes
  unfold newMode
  by_cases h0 : mode0 = 0
  · subst h0
    have hc' : s.changed = false := (r.zero rfl).trans c0
    cases ht : s.train
    · exact ⟨12, s.prevBreak, by simp, by simp [hc']⟩
    · exact ⟨1, s.prevBreak, by simp, by simp [hc']⟩
  · simp only [h0, if_false]
    cases hch' : s.changed with
    | true =>
      obtain ⟨⟨m, hm, hm8, _⟩, _⟩ := r.chg c0 hch'
      have := hl (hch hch')
      simp only [if_true]
      by_cases h1 : mode0 / 10 = 1
      · simp only [h1, if_true]
        exact ⟨_, _, rfl, by simp, by simp, by simp, by simp, by simp, by simp, by simp⟩
      · simp only [h1, if_false]
        exact ⟨_, _, rfl, by simp, by simp, by simp, by simp, by simp, by simp,
          fun _ => ⟨⟨m, hm, hm8⟩, this, .inl trivial⟩⟩
    | false =>
      obtain ⟨hm, ht, _⟩ := r.keep (hch'.trans c0.symm) h0 c0
      simp only [Bool.false_eq_true, if_false]
      simp only [List.mem_cons, List.not_mem_nil, or_false] at hmodes
      rcases hmodes with rfl | rfl | rfl | rfl | rfl | rfl
      · exact absurd rfl h0
      · have := (ht (by simp [t0])).1
        exact ⟨1, s.prevBreak, by simp, by simp [this]⟩
      · have := (ht (by simp [t0])).1
        exact ⟨11, s.prevBreak, by simp, by simp [this]⟩
      · cases hq : s.train
        · exact ⟨2, s.prevBreak, by simp, by simp⟩
        · exact ⟨1, s.prevBreak, by simp, by simp⟩
      · cases hq : s.train
        · exact ⟨12, s.prevBreak, by simp, by simp⟩
        · exact ⟨1, s.prevBreak, by simp, by simp⟩
      · obtain ⟨⟨m, hmm, hm8⟩, hlo⟩ := g.five rfl
        have hlen := hl hlo
        have hsm : s.model = some m := by rw [hm, m0, hmm]
        obtain ⟨d, ds, hd⟩ : ∃ d ds, m.obs = d :: ds := by
          cases hq : m.obs with
          | nil => simp [hq] at hm8
          | cons d ds => exact ⟨d, ds, rfl⟩
        have hrd : s.obs.length - conse < s.obs.length := by omega
        have hnl : ¬ (s.obs.length < conse) := by omega
        simp only [hsm, hd, hnl, if_false, rd_ok hrd, bind, Except.bind]
        simp only [show ¬ (5 % 10 = 2) by decide, show 5 % 10 = 5 from rfl, if_true, if_false]
        by_cases hdt : s.obs[s.obs.length - conse].date - d.date - LAUNCH < DELAY_DAYS
        · simp only [hdt, if_true]
          exact ⟨_, _, rfl, by simp, by simp, by simp, by simp, by simp, by simp,
            fun _ => ⟨⟨m, rfl, hm8⟩, hlen, .inr trivial⟩⟩
        · simp only [hdt, if_false]
          exact ⟨_, _, rfl, by simp, by simp, by simp, by simp, by simp, by simp, by simp⟩

theorem storeQueue_ok (obs : List Obs) (pb : Nat) : ∃ q, storeQueue obs pb = .ok q := by
  unfold storeQueue
  simp only
  split <;> exact ⟨_, rfl⟩

theorem standard_cases (N : Num V F R) {G : Prop} {conse mode0 : Nat} {model : Option (Model F)}
    {recs : List (Rec R)} {obs : List Obs} (queue0 : List Obs) (hc : 0 < conse)
    (g : Given G conse mode0 model recs obs) :
    (∃ out s s0, standard N conse mode0 model recs queue0 obs = .ok out ∧
      initSt mode0 model recs obs = .ok s0 ∧ loop N conse mode0 (obs.length + 1) s0 = .ok s ∧
      Inv G (flat recs ++ openPart mode0 model) obs s ∧ Run conse mode0 s0 s ∧
      s.obs.drop s.i = obs.drop (obs.length - conse) ∧ (obs.length ≤ conse → s = s0) ∧
      Result N conse mode0 queue0 obs s out) ∨
    (standard N conse mode0 model recs queue0 obs = .error .oob ∧ 6 < conse ∧ recs = [] ∧
      mode0 % 10 ≠ 1) := by
  obtain ⟨s0, e0, inv0, o0, i0, r0, m0, c0, t0, p0⟩ := initSt_inv g
  unfold standard
  simp only [e0, bind, Except.bind]
  rcases loop_inv N (mode0 := mode0) hc (obs.length + 1) s0 inv0 (by rw [o0]; omega) with
    ⟨s, e, inv, run, hend, hdr⟩ | ⟨e, h6, hr, ht⟩
  rotate_left
  · refine .inr ⟨by simp [e], h6, by rw [← r0, hr], ?_⟩
    intro h1
    rw [t0] at ht
    simp [h1] at ht
  · refine .inl ?_
    rw [o0, i0] at hdr
    have hdr' : s.obs.drop s.i = obs.drop (obs.length - conse) := by
      rw [hdr]; congr 1; omega
    have hshort : obs.length ≤ conse → s = s0 := by
      intro hle
      unfold loop at e
      rw [if_neg (by rw [o0, i0]; omega)] at e
      cases e; rfl
    have hlen : conse ≤ obs.length → s.i + conse = s.obs.length := by
      intro hle
      have := congrArg List.length hdr'
      simp at this
      omega
    have hch : s.changed = true → conse ≤ obs.length := by
      intro h
      by_cases hle : obs.length ≤ conse
      · rw [hshort hle, c0] at h; simp at h
      · omega
    have htr : s.train = true → conse ≤ obs.length := by
      intro h
      by_cases hle : obs.length ≤ conse
      · rw [hshort hle, t0] at h
        obtain ⟨_, _, h', _⟩ := g.mon (of_decide_eq_true h)
        exact h'
      · omega
    obtain ⟨mode, pb, en, hmod, h11, h2, hmon, hstay, hque, h5⟩ :=
      newMode_ok hc g run c0 m0 t0 (fun h => by have := hlen h; omega) hch
    simp only [e, en]
    unfold step3
    by_cases h1 : mode % 10 = 1
    · obtain ⟨ht, hc'⟩ := hmon h1
      obtain ⟨f, hf⟩ := Option.isSome_iff_exists.mp (inv.tfilt ht)
      have hl := hlen (htr ht)
      have hm1 : mode = 1 ∨ mode = 11 := by
        simp only [List.mem_cons, List.not_mem_nil, or_false] at hmod
        rcases hmod with rfl | rfl | rfl | rfl | rfl <;> simp at h1 ⊢
      obtain ⟨mode', m, es, hmm, k1, k2, k3, k4, k5, k6, k7, k8⟩ :=
        storeModel_ok N (conse := conse) (mode := mode) (s := s) f (by omega) hc hm1
      have hmode' : mode' = 1 ∨ mode' = 11 := by rcases hmm with h | h <;> omega
      have hq : ¬ (mode' % 10 = 2 ∨ mode' % 10 = 5) := by omega
      simp only [h1, if_true, hf, es, bind, Except.bind, hq, if_false]
      refine ⟨_, s, s0, rfl, rfl, e, inv, run, hdr', hshort, ?_⟩
      refine ⟨rfl, rfl, ?_, ?_, ?_, ?_, ?_, ?_, ?_, fun _ => ⟨f, m, hf, rfl, k8⟩⟩
      · rcases hmode' with h | h <;> simp [h]
      · intro h
        simp only at h
        rcases hmm with h' | h'
        · omega
        · exact h11 (h'.symm.trans h)
      · intro h; simp only at h; omega
      · intro _
        exact ⟨ht, hl, rfl, hc', f, m, hf, rfl, k1, k2, k3, k4, k5, k6, k7⟩
      · intro h; simp only at h; omega
      · intro _ _; simp only; omega
      · intro h; simp only at h; omega
    · obtain ⟨hq1, hpb⟩ := hque h1
      have hq : mode % 10 = 2 ∨ mode % 10 = 5 := by
        simp only [List.mem_cons, List.not_mem_nil, or_false] at hmod
        rcases hmod with rfl | rfl | rfl | rfl | rfl <;> simp at h1 ⊢
      obtain ⟨q, eq⟩ := storeQueue_ok s.obs pb
      simp only [h1, if_false, bind, Except.bind, hq, if_true, eq]
      refine ⟨_, s, s0, rfl, rfl, e, inv, run, hdr', hshort, ?_⟩
      refine ⟨rfl, rfl, hmod, h11, h2, ?_, ?_, fun a b c => c (hstay a b), h5, fun h => absurd h h1⟩
      · intro h; exact absurd h h1
      · intro _
        exact ⟨rfl, hq1, by rw [← hpb]; exact eq⟩

end Pycold.Sccd
