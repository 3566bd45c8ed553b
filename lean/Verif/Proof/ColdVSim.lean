import Verif.Model.ColdV
/-!
# The loop with data follows the loop with oracles

For every kit and every series there is an oracle with which `Cold.standProcedure` makes exactly the
steps of `ColdV.standProcedure`.  Hence whatever holds of the former for all oracles holds of the latter.
-/
namespace Pycold.ColdV

open Pycold.Cold (Err Params Num Cm Oracle)

variable {Y M V W D G : Type}

/-- Forgetting the data of a record. -/
def Rec.core (r : Rec Y M V W D G) : Cold.Rec V W :=
  { tStart := r.tStart, tEnd := r.tEnd, tBreak := r.tBreak, numObs := r.numObs,
    category := r.category, changeProb := r.changeProb, fitted := r.fitted.map (·.date),
    window := r.window.map Sc.core }

/-- Forgetting the data of a state. -/
def St.core (s : St Y M V W D G) : Cold.St V W :=
  { it := s.it, clrx := s.rows.map (·.date), end_ := s.end_, i := s.i, iStart := s.iStart,
    iDense := s.iDense, train := s.train, iCount := s.iCount, preEnd := s.preEnd,
    idsOldLen := s.idsOldLen, iSpanSkip := s.iSpanSkip, scores := s.win.map Sc.core,
    recs := s.recs.map Rec.core, cur := s.cur.core, overflow := s.overflow, cm := s.cm }

/-- Forgetting the data of a look-back state. -/
def LB.core (b : LB Y V W D) : Cold.LB V W :=
  { clrx := b.rows.map (·.date), end_ := b.end_, i := b.i, iStart := b.iStart,
    iniConse := b.iniConse, tested := b.tested.map Sc.core, cm := b.cm }

/-- Forgetting the data of the result. -/
def Output.core (o : Output Y M V W D G) : Cold.Output V W :=
  ⟨o.recs.map Rec.core, o.overflow, o.iterations, o.cm⟩

theorem rd_core (rows : List (Row Y)) (e k : Int) :
    Cold.rd (rows.map (·.date)) e k = (rd rows e k).map (·.date) := by
  unfold Cold.rd rd
  split
  · rw [List.getElem?_map]
    cases rows[k.toNat]? <;> rfl
  · rfl

theorem slice_core (rows : List (Row Y)) (lo hi : Int) :
    Cold.slice (rows.map (·.date)) lo hi = (slice rows lo hi).map (·.date) := by
  simp [Cold.slice, slice, List.map_take, List.map_drop]

theorem maxGap_core (rows : List (Row Y)) (e stop : Int) : ∀ (n : Nat) (k m : Int), (stop - k).toNat = n →
    Cold.maxGap (rows.map (·.date)) e k stop m = maxGap rows e k stop m := by
  intro n
  induction n using Nat.strongRecOn with
  | _ n ih =>
    intro k m hn
    rw [Cold.maxGap, maxGap]
    by_cases h : k < stop
    · rw [if_pos h, if_pos h, rd_core, rd_core]
      cases rd rows e (k + 1) with
      | error e => rfl
      | ok b =>
        cases rd rows e k with
        | error e => rfl
        | ok a => exact ih (stop - (k + 1)).toNat (by omega) (k + 1) _ rfl
    · rw [if_neg h, if_neg h]

theorem compact_core : ∀ (l : List (Row Y)) (k : Int) (rs : List Int),
    Cold.compact (l.map (·.date)) k rs = (compact l k rs).map (·.date)
  | [], k, rs => by simp [Cold.compact, compact]
  | x :: xs, k, [] => by simp [Cold.compact, compact, compact_core xs]
  | x :: xs, k, r :: rs => by
    simp only [List.map_cons, Cold.compact, compact]
    split
    · exact compact_core xs _ _
    · simp [compact_core xs]

theorem commit_core (a c : List (Row Y)) :
    Cold.commit (a.map (·.date)) (c.map (·.date)) = (commit a c).map (·.date) := by
  simp [Cold.commit, commit, List.map_drop]

theorem getD_core (a : List (Row Y)) (k : Nat) (d : Row Y) (hd : d.date = 0) :
    (a.map (·.date)).getD k 0 = (a.getD k d).date := by
  simp only [List.getD_eq_getElem?_getD, List.getElem?_map]
  cases a[k]? with
  | none => exact hd.symm
  | some v => rfl

theorem shiftDown_core (d : Row Y) (hd : d.date = 0) (stop : Nat) :
    ∀ (n k : Nat) (a : List (Row Y)), stop - k = n →
      Cold.shiftDown (a.map (·.date)) k stop = (shiftDown d a k stop).map (·.date) := by
  intro n
  induction n with
  | zero =>
    intro k a h
    rw [Cold.shiftDown, shiftDown, if_neg (by omega), if_neg (by omega)]
  | succ n ih =>
    intro k a h
    rw [Cold.shiftDown, shiftDown, if_pos (by omega), if_pos (by omega), getD_core a (k + 1) d hd,
      ← ih (k + 1) _ (by omega), List.map_set]

theorem findGe_core (rows : List (Row Y)) (t : Int) (stop : Nat) : ∀ (n k : Nat), stop - k = n →
    Cold.findGe (rows.map (·.date)) t stop k = findGe rows t stop k := by
  intro n
  induction n with
  | zero =>
    intro k h
    rw [Cold.findGe, findGe, if_neg (by omega), if_neg (by omega)]
  | succ n ih =>
    intro k h
    rw [Cold.findGe, findGe, if_pos (by omega), if_pos (by omega), List.getElem?_map]
    cases rows[k]? with
    | none => rfl
    | some v =>
      simp only [Option.map_some]
      split
      · rfl
      · exact ih (k + 1) (by omega)

theorem getLast_core (l : List (Rec Y M V W D G)) :
    (l.map Rec.core).getLast? = l.getLast?.map Rec.core := by
  rw [List.getLast?_map]

theorem ok_bind {A B : Type} (a : A) (f : A → Except Err B) : (Except.ok a >>= f) = f a := rfl
theorem err_bind {A B : Type} (e : Err) (f : A → Except Err B) : (Except.error e >>= f) = .error e := rfl
theorem map_ok {A B : Type} (f : A → B) (a : A) : (Except.ok a : Except Err A).map f = .ok (f a) := rfl
theorem map_err {A B : Type} (f : A → B) (e : Err) : (Except.error e : Except Err A).map f = .error e := rfl

/-- What the kit answers when observation `iIni - k` is compared with the model `m`. -/
def lbAns (K : Kit Y M V W D G) (m : M) (rows : List (Row Y)) (iIni : Int) (k : Nat) : V × W :=
  ((K.score 4 m (rows.getD (iIni - (k : Int)).toNat K.row0)).1,
    (K.score 4 m (rows.getD (iIni - (k : Int)).toNat K.row0)).2.1)

/-- The look-back loop. -/
theorem lookBack_core (P : Params) (K : Kit Y M V W D G) (m : M) (it : Nat) (iBreak : Int) :
    ∀ (n : Nat) (iIni : Int) (b : LB Y V W D), (iIni - (iBreak - 1) + 1).toNat = n →
      ∃ (g : Int → Nat → V × W) (c : Int → Int), ∀ ω : Oracle V W,
        (∀ j, j ≤ iIni → ω.lbScore it j = g j ∧ ω.cmLb it j = c j) →
        Cold.lookBack P K.N ω it iBreak iIni b.core = (lookBack P K m iBreak iIni b).map LB.core := by
  intro n
  have x0 : V × W := ((K.score 4 m K.row0).1, (K.score 4 m K.row0).2.1)
  induction n using Nat.strongRecOn with
  | _ n ih =>
    intro iIni b hn
    by_cases h : iIni ≥ iBreak - 1
    · generalize hc : (if iIni - (iBreak - 1) + 1 < P.conse then iIni - (iBreak - 1) + 1 else P.conse) = ic
      by_cases h0 : ic = 0
      · refine ⟨fun _ _ => x0, fun _ => 0, fun ω _ => ?_⟩
        rw [Cold.lookBack, lookBack, if_pos h, if_pos h]
        simp only [hc, h0]
        rfl
      · -- the scores of this step
        have step : ∀ ω : Oracle V W,
            ω.lbScore it iIni = (lbAns K m b.rows iIni) →
            ((List.range ic.toNat).map (fun (k : Nat) =>
              Cold.Score.mk (b.core.clrx.getD (iIni - (k : Int)).toNat 0) (ω.lbScore it iIni k).1
                (ω.lbScore it iIni k).2)) = (lbWindow K m b.rows iIni ic).map Sc.core := by
          intro ω hω
          unfold lbWindow
          rw [List.map_map]
          apply List.map_congr_left
          intro k _
          simp only [hω, lbAns, Function.comp, LB.core, column, Sc.core]
          rw [getD_core _ _ K.row0 rfl]
        have scm : ∀ ω : Oracle V W, ω.cmLb it iIni = cmRaw K (lbWindow K m b.rows iIni ic) →
            Cold.lbCm P ω it iIni ic b.core = lbCm P K iIni ic b (lbWindow K m b.rows iIni ic) := by
          intro ω hω
          unfold Cold.lbCm lbCm
          split
          · rw [show b.core.clrx = b.rows.map (·.date) from rfl, rd_core]
            show _ = _
            rw [show b.core.end_ = b.end_ from rfl]
            cases rd b.rows b.end_ (iIni + 1) with
            | error e => rfl
            | ok d => simp only [map_ok, ok_bind, hω]; rfl
          · rfl
        -- the oracle for this step and a continuation
        have key : ∀ (g : Int → Nat → V × W) (c : Int → Int) (b' : LB Y V W D),
            (∀ ω : Oracle V W, (∀ j, j ≤ iIni - 1 → ω.lbScore it j = g j ∧ ω.cmLb it j = c j) →
              Cold.lookBack P K.N ω it iBreak (iIni - 1) b'.core
                = (lookBack P K m iBreak (iIni - 1) b').map LB.core) →
            ∃ (g' : Int → Nat → V × W) (c' : Int → Int), ∀ ω : Oracle V W,
              (∀ j, j ≤ iIni → ω.lbScore it j = g' j ∧ ω.cmLb it j = c' j) →
              (ω.lbScore it iIni = (lbAns K m b.rows iIni)) ∧
              (ω.cmLb it iIni = cmRaw K (lbWindow K m b.rows iIni ic)) ∧
              Cold.lookBack P K.N ω it iBreak (iIni - 1) b'.core
                = (lookBack P K m iBreak (iIni - 1) b').map LB.core := by
          intro g c b' hb'
          refine ⟨fun j => if j = iIni then (lbAns K m b.rows iIni) else g j,
            fun j => if j = iIni then cmRaw K (lbWindow K m b.rows iIni ic) else c j, ?_⟩
          intro ω hω
          refine ⟨by simpa using (hω iIni (Int.le_refl _)).1, by simpa using (hω iIni (Int.le_refl _)).2, ?_⟩
          apply hb'
          intro j hj
          have := hω j (by omega)
          dsimp only at this
          rw [if_neg (by omega), if_neg (by omega)] at this
          exact this
        -- unfold one step on both sides
        by_cases hk : Cold.chk b.end_ (iIni - ic + 1) iIni = .ok ()
        · cases hl : lbCm P K iIni ic b (lbWindow K m b.rows iIni ic) with
          | error e =>
            refine ⟨fun _ => lbAns K m b.rows iIni,
              fun _ => cmRaw K (lbWindow K m b.rows iIni ic), fun ω hω => ?_⟩
            rw [Cold.lookBack, lookBack, if_pos h, if_pos h]
            simp only [hc, if_neg h0]
            rw [show b.core.end_ = b.end_ from rfl, hk, ok_bind, ok_bind, scm ω (hω iIni (Int.le_refl _)).2, hl]
            rfl
          | ok cm =>
            by_cases hbr : isBreak K (lbWindow K m b.rows iIni ic) = true
            · refine ⟨fun _ => lbAns K m b.rows iIni,
                fun _ => cmRaw K (lbWindow K m b.rows iIni ic), fun ω hω => ?_⟩
              rw [Cold.lookBack, lookBack, if_pos h, if_pos h]
              simp only [hc, if_neg h0]
              rw [show b.core.end_ = b.end_ from rfl, hk, ok_bind, ok_bind, scm ω (hω iIni (Int.le_refl _)).2, hl,
                ok_bind, ok_bind, step ω (by simpa using (hω iIni (Int.le_refl _)).1)]
              rw [show Cold.isBreak K.N ((lbWindow K m b.rows iIni ic).map Sc.core) = true from hbr, hbr]
              rfl
            · by_cases hou : isOutlier K (lbWindow K m b.rows iIni ic) = true
              · obtain ⟨g, c, hgc⟩ := ih (iIni - 1 - (iBreak - 1) + 1).toNat (by omega) (iIni - 1)
                  { rows := shiftDown K.row0 b.rows iIni.toNat (b.end_ - 1).toNat, end_ := b.end_ - 1,
                    i := b.i - 1, iStart := iIni + 1, iniConse := some ic,
                    tested := lbWindow K m b.rows iIni ic, cm := cm } rfl
                obtain ⟨g', c', hg'⟩ := key g c _ hgc
                refine ⟨g', c', fun ω hω => ?_⟩
                obtain ⟨a1, a2, a3⟩ := hg' ω hω
                rw [Cold.lookBack, lookBack, if_pos h, if_pos h]
                simp only [hc, if_neg h0]
                rw [show b.core.end_ = b.end_ from rfl, hk, ok_bind, ok_bind, scm ω a2, hl,
                  ok_bind, ok_bind, step ω a1]
                rw [if_neg (show ¬ Cold.isBreak K.N ((lbWindow K m b.rows iIni ic).map Sc.core) = true from hbr),
                  if_pos (show Cold.isOutlier K.N ((lbWindow K m b.rows iIni ic).map Sc.core) = true from hou),
                  if_neg hbr, if_pos hou, ← a3]
                congr 1
                simp only [LB.core]
                rw [shiftDown_core K.row0 rfl _ _ _ _ rfl]
              · obtain ⟨g, c, hgc⟩ := ih (iIni - 1 - (iBreak - 1) + 1).toNat (by omega) (iIni - 1)
                  { b with iStart := iIni + 1, iniConse := some ic,
                           tested := lbWindow K m b.rows iIni ic, cm := cm } rfl
                obtain ⟨g', c', hg'⟩ := key g c _ hgc
                refine ⟨g', c', fun ω hω => ?_⟩
                obtain ⟨a1, a2, a3⟩ := hg' ω hω
                rw [Cold.lookBack, lookBack, if_pos h, if_pos h]
                simp only [hc, if_neg h0]
                rw [show b.core.end_ = b.end_ from rfl, hk, ok_bind, ok_bind, scm ω a2, hl,
                  ok_bind, ok_bind, step ω a1]
                rw [if_neg (show ¬ Cold.isBreak K.N ((lbWindow K m b.rows iIni ic).map Sc.core) = true from hbr),
                  if_neg (show ¬ Cold.isOutlier K.N ((lbWindow K m b.rows iIni ic).map Sc.core) = true from hou),
                  if_neg hbr, if_neg hou, ← a3]
                rfl
        · refine ⟨fun _ _ => x0, fun _ => 0, fun ω _ => ?_⟩
          rw [Cold.lookBack, lookBack, if_pos h, if_pos h]
          simp only [hc, if_neg h0]
          rw [show b.core.end_ = b.end_ from rfl]
          cases hk' : Cold.chk b.end_ (iIni - ic + 1) iIni with
          | error e => rfl
          | ok u => exact absurd hk' hk
    · refine ⟨fun _ _ => x0, fun _ => 0, fun ω _ => ?_⟩
      rw [Cold.lookBack, lookBack, if_neg h, if_neg h]
      rfl

theorem findBreak_core (s : St Y M V W D G) : Cold.findBreak s.core = findBreak s := by
  unfold Cold.findBreak findBreak
  rw [show s.core.recs = s.recs.map Rec.core from rfl, getLast_core]
  cases s.recs.getLast? with
  | none => rfl
  | some r =>
    simp only [Option.map_some]
    rw [show s.core.clrx = s.rows.map (·.date) from rfl, findGe_core _ _ _ _ _ rfl]
    rfl

theorem doLookBack_core (P : Params) (K : Kit Y M V W D G) (m : M) (s : St Y M V W D G) (iBreak : Int) :
    ∃ (g : Int → Nat → V × W) (c : Int → Int), ∀ ω : Oracle V W, ω.lbScore s.it = g → ω.cmLb s.it = c →
      Cold.doLookBack P K.N ω s.core iBreak =
        (doLookBack P K m s iBreak).map (fun r => (r.1.core, r.2.1, r.2.2.map Sc.core)) := by
  obtain ⟨g, c, h⟩ := lookBack_core P K m s.it iBreak _ (s.iStart - 2)
    ⟨s.rows, s.end_, s.i, s.iStart, none, [], s.cm⟩ rfl
  refine ⟨g, c, fun ω h1 h2 => ?_⟩
  have := h ω (fun j _ => ⟨by rw [h1], by rw [h2]⟩)
  unfold Cold.doLookBack doLookBack
  rw [show s.core.iStart = s.iStart from rfl]
  split
  · rw [show (⟨s.core.clrx, s.core.end_, s.core.i, s.iStart, none, [], s.core.cm⟩ : Cold.LB V W)
      = LB.core ⟨s.rows, s.end_, s.i, s.iStart, none, [], s.cm⟩ from rfl]
    rw [show s.core.it = s.it from rfl, this]
    cases lookBack P K m iBreak (s.iStart - 2) ⟨s.rows, s.end_, s.i, s.iStart, none, [], s.cm⟩ with
    | error e => rfl
    | ok b => rfl
  · rfl

theorem firstCurve_core (P : Params) (K : Kit Y M V W D G) (s : St Y M V W D G) (c : Option Int)
    (t : List (Sc Y V W D)) :
    Cold.firstCurve P s.core c (t.map Sc.core) = (firstCurve P K s c t).map St.core := by
  unfold Cold.firstCurve firstCurve
  have e1 : s.core.recs.isEmpty = s.recs.isEmpty := by simp [St.core]
  rw [e1]
  show (if (s.recs.isEmpty && decide (s.iStart - s.iDense ≥ Cold.LASSO_MIN)) = true then _ else _) = _
  split
  · rw [show s.core.clrx = s.rows.map (·.date) from rfl]
    rw [show s.core.end_ = s.end_ from rfl, show s.core.iStart = s.iStart from rfl,
      show s.core.iDense = s.iDense from rfl, rd_core, rd_core, rd_core, slice_core]
    cases Cold.chk s.end_ (s.iDense - 1) (s.iStart - 2) with
    | error e => rfl
    | ok u =>
      cases rd s.rows s.end_ (s.iStart - 2) with
      | error e => rfl
      | ok a =>
        cases rd s.rows s.end_ (s.iStart - 1) with
        | error e => rfl
        | ok b =>
          cases rd s.rows s.end_ (s.iDense - 1) with
          | error e => rfl
          | ok d =>
            simp only [map_ok, ok_bind]
            cases c with
            | none => rfl
            | some c =>
              simp only
              split
              · simp [Except.map, St.core, Rec.core]
              · rfl
  · rfl

/-- The counter of iterations, and the fits once training has succeeded. -/
def Fitted (s : St Y M V W D G) : Prop := s.iCount.isSome = true → s.cft.isSome = true ∧ s.dif.isSome = true

theorem doLookBack_keeps {P : Params} {K : Kit Y M V W D G} {m : M} {s : St Y M V W D G} {iBreak : Int} {r}
    (h : doLookBack P K m s iBreak = .ok r) :
    r.1.it = s.it ∧ r.1.cft = s.cft ∧ r.1.dif = s.dif ∧ r.1.iCount = s.iCount := by
  unfold doLookBack at h
  split at h
  · cases hb : lookBack P K m iBreak (s.iStart - 2) ⟨s.rows, s.end_, s.i, s.iStart, none, [], s.cm⟩ with
    | error e => rw [hb] at h; cases h
    | ok b => rw [hb] at h; cases h; exact ⟨rfl, rfl, rfl, rfl⟩
  · cases h; exact ⟨rfl, rfl, rfl, rfl⟩

theorem firstCurve_keeps {P : Params} {K : Kit Y M V W D G} {s s' : St Y M V W D G} {c : Option Int}
    {t : List (Sc Y V W D)} (h : firstCurve P K s c t = .ok s') :
    s'.it = s.it ∧ (s.cft.isSome = true → s'.cft.isSome = true) ∧ s'.dif = s.dif ∧ s'.iCount = s.iCount := by
  unfold firstCurve at h
  split at h
  · cases h1 : Cold.chk s.end_ (s.iDense - 1) (s.iStart - 2) with
    | error e => rw [h1] at h; cases h
    | ok u =>
      cases h2 : rd s.rows s.end_ (s.iStart - 2) with
      | error e => rw [h1, h2] at h; cases h
      | ok a =>
        cases h3 : rd s.rows s.end_ (s.iStart - 1) with
        | error e => rw [h1, h2, h3] at h; cases h
        | ok b =>
          cases h4 : rd s.rows s.end_ (s.iDense - 1) with
          | error e => rw [h1, h2, h3, h4] at h; cases h
          | ok d =>
            rw [h1, h2, h3, h4] at h
            simp only [ok_bind] at h
            cases c with
            | none => cases h
            | some c =>
              simp only at h
              split at h
              · cases h; exact ⟨rfl, fun _ => rfl, rfl, rfl⟩
              · cases h
  · cases h; exact ⟨rfl, id, rfl, rfl⟩

/-- Training, with what it keeps. -/
theorem trainPhase_core (P : Params) (K : Kit Y M V W D G) (s : St Y M V W D G) (hs : Fitted s) :
    (∃ (mask : Nat → Bool) (u : Bool) (g : Int → Nat → V × W) (c : Int → Int), ∀ ω : Oracle V W,
      ω.mask s.it = mask → ω.unstable s.it = u → ω.lbScore s.it = g → ω.cmLb s.it = c →
      Cold.trainPhase P K.N ω s.core = (trainPhase P K s).map (fun r => (r.1, r.2.core))) ∧
    (∀ r, trainPhase P K s = .ok r → r.2.it = s.it ∧ Fitted r.2) := by
  have x0 : V × W := ((K.score 4 (K.fit 4 []) K.row0).1, (K.score 4 (K.fit 4 []) K.row0).2.1)
  have hgap := maxGap_core s.rows s.end_ (s.i - 1) _ (s.iStart - 1) 0 rfl
  -- the two sides, as far as they are forced
  cases hg : maxGap s.rows s.end_ (s.iStart - 1) (s.i - 1) 0 with
  | error e =>
    constructor
    · refine ⟨fun _ => false, false, fun _ _ => x0, fun _ => 0, fun ω _ _ _ _ => ?_⟩
      unfold Cold.trainPhase trainPhase
      rw [hg, show Cold.maxGap s.core.clrx s.core.end_ (s.core.iStart - 1) (s.core.i - 1) 0
        = .error e from by rw [← hg]; exact hgap]
      rfl
    · intro r hr
      unfold trainPhase at hr
      rw [hg] at hr; cases hr
  | ok gap =>
    have hgap' : Cold.maxGap s.core.clrx s.core.end_ (s.core.iStart - 1) (s.core.i - 1) 0 = .ok gap := by
      rw [← hg]; exact hgap
    by_cases hgd : P.gapExceeds gap = true
    · constructor
      · refine ⟨fun _ => false, false, fun _ _ => x0, fun _ => 0, fun ω _ _ _ _ => ?_⟩
        unfold Cold.trainPhase trainPhase
        rw [hg, hgap', ok_bind, ok_bind, if_pos hgd, if_pos hgd]
        rfl
      · intro r hr
        unfold trainPhase at hr
        rw [hg, ok_bind, if_pos hgd] at hr; cases hr
        exact ⟨rfl, hs⟩
    · cases hk : Cold.chk s.end_ (s.iStart - 1) (s.i + P.conse - 1) with
      | error e =>
        constructor
        · refine ⟨fun _ => false, false, fun _ _ => x0, fun _ => 0, fun ω _ _ _ _ => ?_⟩
          unfold Cold.trainPhase trainPhase
          rw [hg, hgap', ok_bind, ok_bind, if_neg hgd, if_neg hgd, hk]
          rw [show Cold.chk s.core.end_ (s.core.iStart - 1) (s.core.i + P.conse - 1) = .error e from hk]
          rfl
        · intro r hr
          unfold trainPhase at hr
          rw [hg, ok_bind, if_neg hgd, hk] at hr; cases hr
      | ok u =>
        have hk' : Cold.chk s.core.end_ (s.core.iStart - 1) (s.core.i + P.conse - 1) = .ok u := hk
        generalize hbl : K.mask (slice s.rows (s.iStart - 1) (s.i + P.conse - 1)) = bl
        by_cases hms : (Cold.keptCount bl (s.i - s.iStart + 1).toNat : Int) < Cold.MIN_OBS
        · constructor
          · refine ⟨bl, false, fun _ _ => x0, fun _ => 0, fun ω hm _ _ _ => ?_⟩
            unfold Cold.trainPhase trainPhase
            rw [hg, hgap', ok_bind, ok_bind, if_neg hgd, if_neg hgd, hk, hk', ok_bind, ok_bind]
            rw [show s.core.it = s.it from rfl, hm, show s.core.i = s.i from rfl,
              show s.core.iStart = s.iStart from rfl, hbl]
            simp only [if_pos hms]
            rfl
          · intro r hr
            unfold trainPhase at hr
            rw [hg, ok_bind, if_neg hgd, hk, ok_bind, hbl] at hr
            simp only [if_pos hms] at hr
            cases hr
            exact ⟨rfl, hs⟩
        · generalize hcp : compact (s.rows.take s.end_.toNat) 0
            (Cold.rmIds bl (s.iStart - 1) (s.i - s.iStart + 1).toNat) = cp
          have hcp' : Cold.compact (s.core.clrx.take s.core.end_.toNat) 0
              (Cold.rmIds bl (s.core.iStart - 1) (s.core.i - s.core.iStart + 1).toNat)
                = cp.map (·.date) := by
            rw [← hcp, ← compact_core, List.map_take]; rfl
          generalize hi' : s.iStart + (Cold.keptCount bl (s.i - s.iStart + 1).toNat : Int) - 1 = i'
          cases ha : rd cp cp.length (i' - 1) with
          | error e =>
            constructor
            · refine ⟨bl, false, fun _ _ => x0, fun _ => 0, fun ω hm _ _ _ => ?_⟩
              unfold Cold.trainPhase trainPhase
              rw [hg, hgap', ok_bind, ok_bind, if_neg hgd, if_neg hgd, hk, hk', ok_bind, ok_bind]
              rw [show s.core.it = s.it from rfl, hm, hbl]
              dsimp only
              rw [hcp', show s.core.i = s.i from rfl, show s.core.iStart = s.iStart from rfl, hcp]
              simp only [if_neg hms, hi', List.length_map, rd_core, ha]
              rfl
            · intro r hr
              unfold trainPhase at hr
              rw [hg, ok_bind, if_neg hgd, hk, ok_bind, hbl] at hr
              dsimp only at hr
              rw [hcp] at hr
              simp only [if_neg hms, hi', ha] at hr
              cases hr
          | ok a =>
            cases hb : rd cp cp.length (s.iStart - 1) with
            | error e =>
              constructor
              · refine ⟨bl, false, fun _ _ => x0, fun _ => 0, fun ω hm _ _ _ => ?_⟩
                unfold Cold.trainPhase trainPhase
                rw [hg, hgap', ok_bind, ok_bind, if_neg hgd, if_neg hgd, hk, hk', ok_bind, ok_bind]
                rw [show s.core.it = s.it from rfl, hm, hbl]
                dsimp only
                rw [hcp', show s.core.i = s.i from rfl, show s.core.iStart = s.iStart from rfl, hcp]
                simp only [if_neg hms, hi', List.length_map, rd_core, ha, hb]
                rfl
              · intro r hr
                unfold trainPhase at hr
                rw [hg, ok_bind, if_neg hgd, hk, ok_bind, hbl] at hr
                dsimp only at hr
                rw [hcp] at hr
                simp only [if_neg hms, hi', ha, hb] at hr
                cases hr
            | ok b =>
              by_cases hy : (!Cold.yearOrMore (a.date - b.date)) = true
              · constructor
                · refine ⟨bl, false, fun _ _ => x0, fun _ => 0, fun ω hm _ _ _ => ?_⟩
                  unfold Cold.trainPhase trainPhase
                  rw [hg, hgap', ok_bind, ok_bind, if_neg hgd, if_neg hgd, hk, hk', ok_bind, ok_bind]
                  rw [show s.core.it = s.it from rfl, hm, hbl]
                  dsimp only
                  rw [hcp', show s.core.i = s.i from rfl, show s.core.iStart = s.iStart from rfl, hcp]
                  simp only [if_neg hms, hi', List.length_map, rd_core, ha, hb, map_ok, ok_bind, if_pos hy]
                  rfl
                · intro r hr
                  unfold trainPhase at hr
                  rw [hg, ok_bind, if_neg hgd, hk, ok_bind, hbl] at hr
                  dsimp only at hr
                  rw [hcp] at hr
                  simp only [if_neg hms, hi', ha, hb, ok_bind, if_pos hy] at hr
                  cases hr
                  exact ⟨rfl, hs⟩
              · cases hk2 : Cold.chk cp.length (s.iStart - 1) (i' - 1) with
                | error e =>
                  constructor
                  · refine ⟨bl, false, fun _ _ => x0, fun _ => 0, fun ω hm _ _ _ => ?_⟩
                    unfold Cold.trainPhase trainPhase
                    rw [hg, hgap', ok_bind, ok_bind, if_neg hgd, if_neg hgd, hk, hk', ok_bind, ok_bind]
                    rw [show s.core.it = s.it from rfl, hm, hbl]
                    dsimp only
                    rw [hcp', show s.core.i = s.i from rfl, show s.core.iStart = s.iStart from rfl, hcp]
                    simp only [if_neg hms, hi', List.length_map, rd_core, ha, hb, map_ok, ok_bind, if_neg hy,
                      hk2]
                    rfl
                  · intro r hr
                    unfold trainPhase at hr
                    rw [hg, ok_bind, if_neg hgd, hk, ok_bind, hbl] at hr
                    dsimp only at hr
                    rw [hcp] at hr
                    simp only [if_neg hms, hi', ha, hb, ok_bind, if_neg hy, hk2] at hr
                    cases hr
                | ok u2 =>
                  generalize hobs : slice (commit s.rows cp) (s.iStart - 1) (i' - 1) = obs
                  generalize hmm : K.fit 4 obs = m
                  by_cases hu : K.unstable m obs = true
                  · constructor
                    · refine ⟨bl, true, fun _ _ => x0, fun _ => 0, fun ω hm hun _ _ => ?_⟩
                      unfold Cold.trainPhase trainPhase
                      rw [hg, hgap', ok_bind, ok_bind, if_neg hgd, if_neg hgd, hk, hk', ok_bind, ok_bind]
                      rw [show s.core.it = s.it from rfl, hm, hbl]
                      dsimp only
                      rw [hcp', show s.core.i = s.i from rfl, show s.core.iStart = s.iStart from rfl, hcp]
                      simp only [if_neg hms, hi', List.length_map, rd_core, ha, hb, map_ok, ok_bind, if_neg hy,
                        hk2, hobs, hmm, hun, hu, if_true]
                      rw [show s.core.clrx = s.rows.map (·.date) from rfl, commit_core]
                      rfl
                    · intro r hr
                      unfold trainPhase at hr
                      rw [hg, ok_bind, if_neg hgd, hk, ok_bind, hbl] at hr
                      dsimp only at hr
                      rw [hcp] at hr
                      simp only [if_neg hms, hi', ha, hb, ok_bind, if_neg hy, hk2, hobs, hmm, hu, if_true] at hr
                      cases hr
                      exact ⟨rfl, fun _ => ⟨rfl, rfl⟩⟩
                  · generalize hs1 : ({ s with rows := commit s.rows cp, end_ := cp.length, i := i', cft := some m, dif := some m, train := true, iCount := some 0 } : St Y M V W D G) = s1
                    have hs1c : ({ s.core with clrx := Cold.commit s.core.clrx (cp.map (·.date)), end_ := cp.length, i := i', train := true, iCount := some 0 } : Cold.St V W) = s1.core := by
                      rw [← hs1, show s.core.clrx = s.rows.map (·.date) from rfl, commit_core]; rfl
                    dsimp only at hs1c
                    rw [show s.core.it = s.it from rfl, show s.core.iStart = s.iStart from rfl] at hs1c
                    cases hfb : findBreak s1 with
                    | error e =>
                      constructor
                      · refine ⟨bl, false, fun _ _ => x0, fun _ => 0, fun ω hm hun _ _ => ?_⟩
                        unfold Cold.trainPhase trainPhase
                        rw [hg, hgap', ok_bind, ok_bind, if_neg hgd, if_neg hgd, hk, hk', ok_bind, ok_bind]
                        rw [show s.core.it = s.it from rfl, hm, hbl]
                        dsimp only
                        rw [hcp', show s.core.i = s.i from rfl, show s.core.iStart = s.iStart from rfl, hcp]
                        simp only [if_neg hms, hi', List.length_map, rd_core, ha, hb, map_ok, ok_bind, if_neg hy,
                          hk2, hobs, hmm, hun, if_neg hu, Bool.false_eq_true, if_false, hs1, hs1c, findBreak_core, hfb]
                        rfl
                      · intro r hr
                        unfold trainPhase at hr
                        rw [hg, ok_bind, if_neg hgd, hk, ok_bind, hbl] at hr
                        dsimp only at hr
                        rw [hcp] at hr
                        simp only [if_neg hms, hi', ha, hb, ok_bind, if_neg hy, hk2, hobs, hmm, if_neg hu, hs1,
                          hfb] at hr
                        cases hr
                    | ok iBreak =>
                      obtain ⟨g, c, hlb⟩ := doLookBack_core P K m s1 iBreak
                      have hit : s1.it = s.it := by rw [← hs1]
                      cases hd : doLookBack P K m s1 iBreak with
                      | error e =>
                        constructor
                        · refine ⟨bl, false, g, c, fun ω hm hun h1 h2 => ?_⟩
                          have := hlb ω (by rw [hit, h1]) (by rw [hit, h2])
                          unfold Cold.trainPhase trainPhase
                          rw [hg, hgap', ok_bind, ok_bind, if_neg hgd, if_neg hgd, hk, hk', ok_bind, ok_bind]
                          rw [show s.core.it = s.it from rfl, hm, hbl]
                          dsimp only
                          rw [hcp', show s.core.i = s.i from rfl, show s.core.iStart = s.iStart from rfl, hcp]
                          simp only [if_neg hms, hi', List.length_map, rd_core, ha, hb, map_ok, ok_bind, if_neg hy,
                            hk2, hobs, hmm, hun, if_neg hu, Bool.false_eq_true, if_false, hs1, hs1c, findBreak_core, hfb, this, hd]
                          rfl
                        · intro r hr
                          unfold trainPhase at hr
                          rw [hg, ok_bind, if_neg hgd, hk, ok_bind, hbl] at hr
                          dsimp only at hr
                          rw [hcp] at hr
                          simp only [if_neg hms, hi', ha, hb, ok_bind, if_neg hy, hk2, hobs, hmm, if_neg hu, hs1,
                            hfb, hd] at hr
                          cases hr
                      | ok r1 =>
                        obtain ⟨s2, ic, t⟩ := r1
                        have hkeep := doLookBack_keeps hd
                        constructor
                        · refine ⟨bl, false, g, c, fun ω hm hun h1 h2 => ?_⟩
                          have := hlb ω (by rw [hit, h1]) (by rw [hit, h2])
                          unfold Cold.trainPhase trainPhase
                          rw [hg, hgap', ok_bind, ok_bind, if_neg hgd, if_neg hgd, hk, hk', ok_bind, ok_bind]
                          rw [show s.core.it = s.it from rfl, hm, hbl]
                          dsimp only
                          rw [hcp', show s.core.i = s.i from rfl, show s.core.iStart = s.iStart from rfl, hcp]
                          simp only [if_neg hms, hi', List.length_map, rd_core, ha, hb, map_ok, ok_bind, if_neg hy,
                            hk2, hobs, hmm, hun, if_neg hu, Bool.false_eq_true, if_false, hs1, hs1c, findBreak_core, hfb, this, hd,
                            firstCurve_core P K]
                          cases firstCurve P K s2 ic t with
                          | error e => rfl
                          | ok s3 => rfl
                        · intro r hr
                          unfold trainPhase at hr
                          rw [hg, ok_bind, if_neg hgd, hk, ok_bind, hbl] at hr
                          dsimp only at hr
                          rw [hcp] at hr
                          simp only [if_neg hms, hi', ha, hb, ok_bind, if_neg hy, hk2, hobs, hmm, if_neg hu, hs1,
                            hfb, hd] at hr
                          cases hf : firstCurve P K s2 ic t with
                          | error e => rw [hf] at hr; cases hr
                          | ok s3 =>
                            rw [hf] at hr
                            cases hr
                            have h3 := firstCurve_keeps hf
                            refine ⟨by rw [h3.1, hkeep.1, hit], fun _ => ⟨?_, ?_⟩⟩
                            · apply h3.2.1; rw [hkeep.2.1, ← hs1]; rfl
                            · show s3.dif.isSome = true
                              rw [h3.2.2.1, hkeep.2.2.1, ← hs1]; rfl


theorem map_core_range (n : Nat) (f : Nat → Sc Y V W D) :
    ((List.range n).map f).map Sc.core = (List.range n).map (fun k => (f k).core) := by
  rw [List.map_map]; rfl

/-- The refit of `Cold.refresh`. -/
def coldRefit (ω : Oracle V W) (s : Cold.St V W) (iSpan updateC pe tEnd tStart : Int) : Cold.St V W :=
  if s.i - pe ≥ 1 ∧ s.i - pe > ω.skip s.iSpanSkip then
    { s with iCount := some (tEnd - tStart), preEnd := some s.i, iSpanSkip := iSpan, idsOldLen := some iSpan,
             cur := { s.cur with numObs := iSpan, category := updateC,
                                 fitted := Cold.slice s.clrx (s.iStart - 1) (s.i - 1) } }
  else s

/-- The first branch of `Cold.refresh`. -/
def coldFresh (P : Params) (ω : Oracle V W) (iSpan updateC : Int) (s : Cold.St V W) :
    Except Err (Cold.St V W) := do
  let tEnd ← Cold.rd s.clrx s.end_ (s.i - 1)
  let tStart ← Cold.rd s.clrx s.end_ (s.iStart - 1)
  Cold.chk s.end_ (s.iStart - 1) (s.i - 1)
  Cold.chk s.end_ s.i (s.i + P.conse - 1)
  .ok { s with
    iCount := some (tEnd - tStart), preEnd := some s.i, idsOldLen := some iSpan,
    cur := { tStart := tStart, tEnd := tEnd, tBreak := 0, changeProb := 0, numObs := iSpan,
             category := updateC, fitted := Cold.slice s.clrx (s.iStart - 1) (s.i - 1) },
    scores := (List.range P.conse).map (Cold.scoreAt ω s) }

/-- The end of the second branch of `Cold.refresh`. -/
def coldShift (P : Params) (ω : Oracle V W) (s : Cold.St V W) : Except Err (Cold.St V W) :=
  match s.idsOldLen with
  | none => .error .uninit
  | some l =>
    if l = 0 then .error .fail
    else do
      Cold.chk s.end_ (s.iStart - 1) (s.iStart - 1 + l - 1)
      Cold.chk s.end_ s.i (s.i + P.conse - 1)
      if 3 * s.cur.category > l then .error .stale
      else .ok { s with scores := s.scores.tail ++ [Cold.scoreAt ω s (P.conse - 1)] }

/-- The second branch of `Cold.refresh`. -/
def coldLater (P : Params) (ω : Oracle V W) (iSpan updateC : Int) (s : Cold.St V W) :
    Except Err (Cold.St V W) :=
  match s.preEnd with
  | none => .error .uninit
  | some pe => do
    let tEnd ← Cold.rd s.clrx s.end_ (s.i - 1)
    let tStart ← Cold.rd s.clrx s.end_ (s.iStart - 1)
    Cold.chk s.end_ (s.iStart - 1) (s.i - 1)
    let s := coldRefit ω s iSpan updateC pe tEnd tStart
    coldShift P ω { s with cur := { s.cur with tEnd := tEnd } }

/-- `Cold.refresh` in parts. -/
theorem coldRefresh_eq (P : Params) (ω : Oracle V W) (s : Cold.St V W) :
    Cold.refresh P ω s =
      (match s.iCount with
      | none => .error .uninit
      | some ic =>
        let iSpan := s.i - s.iStart + 1
        let s1 := { s with iSpanSkip := if s.iSpanSkip = 0 then iSpan else s.iSpanSkip }
        if ic = 0 ∨ iSpan ≤ Cold.MAX_OBS then coldFresh P ω iSpan (Cold.updateCft iSpan 3 4 6 8 8) s1
        else coldLater P ω iSpan (Cold.updateCft iSpan 3 4 6 8 8) s1) := rfl

/-- The first branch of `refresh`. -/
def fresh (P : Params) (K : Kit Y M V W D G) (iSpan updateC : Int) (s : St Y M V W D G) :
    Except Err (St Y M V W D G) := do
  let tEnd ← rd s.rows s.end_ (s.i - 1)
  let tStart ← rd s.rows s.end_ (s.iStart - 1)
  Cold.chk s.end_ (s.iStart - 1) (s.i - 1)
  Cold.chk s.end_ s.i (s.i + P.conse - 1)
  let obs := slice s.rows (s.iStart - 1) (s.i - 1)
  let m := K.fit updateC obs
  .ok { s with
    iCount := some (tEnd.date - tStart.date), preEnd := some s.i, idsOldLen := some iSpan,
    cft := some m, dif := some m,
    cur := { tStart := tStart.date, tEnd := tEnd.date, tBreak := 0, changeProb := 0,
             numObs := iSpan, category := updateC, model := some m, magn := some K.magn0,
             fitted := obs },
    win := (List.range P.conse).map (fun k => column (ahead K s k) (K.score updateC m (ahead K s k))) }

/-- The end of the second branch of `refresh`. -/
def shiftWin (P : Params) (K : Kit Y M V W D G) (updateC : Int) (s : St Y M V W D G) :
    Except Err (St Y M V W D G) :=
  match s.idsOldLen with
  | none => .error .uninit
  | some l =>
    if l = 0 then .error .fail
    else do
      Cold.chk s.end_ (s.iStart - 1) (s.iStart - 1 + l - 1)
      Cold.chk s.end_ s.i (s.i + P.conse - 1)
      if 3 * s.cur.category > l then .error .stale
      else
        match s.cft, s.dif with
        | some m, some m' =>
          let r := ahead K s (P.conse - 1)
          let near := K.near updateC s.cur.category m m'
            ((slice s.rows (s.iStart - 1) (s.iStart - 1 + l - 1)).map (·.date)) r
          .ok { s with win := s.win.tail ++ [column r near] }
        | _, _ => .error .uninit

/-- The second branch of `refresh`. -/
def later (P : Params) (K : Kit Y M V W D G) (iSpan updateC : Int) (s : St Y M V W D G) :
    Except Err (St Y M V W D G) :=
  match s.preEnd with
  | none => .error .uninit
  | some pe => do
    let tEnd ← rd s.rows s.end_ (s.i - 1)
    let tStart ← rd s.rows s.end_ (s.iStart - 1)
    Cold.chk s.end_ (s.iStart - 1) (s.i - 1)
    let s := refit K s iSpan updateC pe tEnd.date tStart.date
    shiftWin P K updateC { s with cur := { s.cur with tEnd := tEnd.date } }

/-- `refresh` in parts. -/
theorem refresh_eq (P : Params) (K : Kit Y M V W D G) (s : St Y M V W D G) :
    refresh P K s =
      (match s.iCount with
      | none => .error .uninit
      | some ic =>
        let iSpan := s.i - s.iStart + 1
        let s1 := { s with iSpanSkip := if s.iSpanSkip = 0 then iSpan else s.iSpanSkip }
        if ic = 0 ∨ iSpan ≤ Cold.MAX_OBS then fresh P K iSpan (Cold.updateCft iSpan 3 4 6 8 8) s1
        else later P K iSpan (Cold.updateCft iSpan 3 4 6 8 8) s1) := rfl

theorem refit_core (K : Kit Y M V W D G) (ω : Oracle V W) (hk : ω.skip = K.skip) (s : St Y M V W D G)
    (iSpan updateC pe tEnd tStart : Int) :
    coldRefit ω s.core iSpan updateC pe tEnd tStart = (refit K s iSpan updateC pe tEnd tStart).core := by
  unfold coldRefit refit
  rw [hk]
  show (if s.i - pe ≥ 1 ∧ s.i - pe > K.skip s.iSpanSkip then _ else _) = _
  split
  · rw [show s.core.clrx = s.rows.map (·.date) from rfl, slice_core]
    rfl
  · rfl

theorem refit_keeps (K : Kit Y M V W D G) (s : St Y M V W D G) (iSpan updateC pe tEnd tStart : Int)
    (h : s.cft.isSome = true ∧ s.dif.isSome = true) :
    (refit K s iSpan updateC pe tEnd tStart).it = s.it ∧
    (refit K s iSpan updateC pe tEnd tStart).cft.isSome = true ∧
    (refit K s iSpan updateC pe tEnd tStart).dif.isSome = true := by
  unfold refit
  split
  · exact ⟨rfl, rfl, rfl⟩
  · exact ⟨rfl, h⟩

theorem fresh_core (P : Params) (K : Kit Y M V W D G) (iSpan updateC : Int) (s : St Y M V W D G) :
    (∃ g : Nat → V × W, ∀ ω : Oracle V W, ω.score s.it = g →
      coldFresh P ω iSpan updateC s.core = (fresh P K iSpan updateC s).map St.core) ∧
    (∀ r, fresh P K iSpan updateC s = .ok r → r.it = s.it ∧ r.cft.isSome = true ∧ r.dif.isSome = true) := by
  constructor
  · refine ⟨fun k => ((K.score updateC (K.fit updateC (slice s.rows (s.iStart - 1) (s.i - 1)))
      (ahead K s k)).1, (K.score updateC (K.fit updateC (slice s.rows (s.iStart - 1) (s.i - 1)))
      (ahead K s k)).2.1), fun ω hω => ?_⟩
    unfold coldFresh fresh
    rw [show s.core.clrx = s.rows.map (·.date) from rfl,
      show s.core.end_ = s.end_ from rfl, show s.core.i = s.i from rfl,
      show s.core.iStart = s.iStart from rfl, rd_core, rd_core, slice_core]
    cases rd s.rows s.end_ (s.i - 1) with
    | error e => rfl
    | ok a =>
      cases rd s.rows s.end_ (s.iStart - 1) with
      | error e => rfl
      | ok b =>
        cases Cold.chk s.end_ (s.iStart - 1) (s.i - 1) with
        | error e => rfl
        | ok u =>
          cases Cold.chk s.end_ s.i (s.i + P.conse - 1) with
          | error e => rfl
          | ok u =>
            simp only [map_ok, ok_bind]
            congr 1
            simp only [St.core, map_core_range]
            congr 1
            apply List.map_congr_left
            intro k _
            simp only [Cold.scoreAt, hω]
            rw [show (List.map (fun x => x.date) s.rows).getD (s.i + (k : Int)).toNat 0
              = (ahead K s k).date from getD_core _ _ K.row0 rfl]
            rfl
  · intro r hr
    unfold fresh at hr
    cases h1 : rd s.rows s.end_ (s.i - 1) with
    | error e => rw [h1] at hr; cases hr
    | ok a =>
      cases h2 : rd s.rows s.end_ (s.iStart - 1) with
      | error e => rw [h1, h2] at hr; cases hr
      | ok b =>
        cases h3 : Cold.chk s.end_ (s.iStart - 1) (s.i - 1) with
        | error e => rw [h1, h2, h3] at hr; cases hr
        | ok u =>
          cases h4 : Cold.chk s.end_ s.i (s.i + P.conse - 1) with
          | error e => rw [h1, h2, h3, h4] at hr; cases hr
          | ok u =>
            rw [h1, h2, h3, h4] at hr
            cases hr
            exact ⟨rfl, rfl, rfl⟩

theorem shiftWin_core (P : Params) (K : Kit Y M V W D G) (updateC : Int) (s : St Y M V W D G)
    (hs : s.cft.isSome = true ∧ s.dif.isSome = true) :
    (∃ g : Nat → V × W, ∀ ω : Oracle V W, ω.score s.it = g →
      coldShift P ω s.core = (shiftWin P K updateC s).map St.core) ∧
    (∀ r, shiftWin P K updateC s = .ok r → r.it = s.it ∧ r.cft.isSome = true ∧ r.dif.isSome = true) := by
  obtain ⟨m, hm⟩ := Option.isSome_iff_exists.1 hs.1
  obtain ⟨m', hm'⟩ := Option.isSome_iff_exists.1 hs.2
  generalize hnr : K.near updateC s.cur.category m m'
    ((slice s.rows (s.iStart - 1) (s.iStart - 1 + s.idsOldLen.getD 0 - 1)).map (·.date))
    (ahead K s (P.conse - 1)) = near
  constructor
  · refine ⟨fun _ => (near.1, near.2.1), fun ω hω => ?_⟩
    unfold coldShift shiftWin
    rw [show s.core.idsOldLen = s.idsOldLen from rfl]
    cases hl : s.idsOldLen with
    | none => rfl
    | some l =>
      rw [hl, Option.getD_some] at hnr
      dsimp only
      rw [show s.core.end_ = s.end_ from rfl, show s.core.iStart = s.iStart from rfl,
        show s.core.i = s.i from rfl, show s.core.cur.category = s.cur.category from rfl, hm, hm']
      dsimp only
      split
      · rfl
      · cases Cold.chk s.end_ (s.iStart - 1) (s.iStart - 1 + l - 1) with
        | error e => rfl
        | ok u =>
          cases Cold.chk s.end_ s.i (s.i + P.conse - 1) with
          | error e => rfl
          | ok u =>
            simp only [ok_bind]
            split
            · rfl
            · rw [map_ok, hnr]
              congr 1
              simp only [St.core, Cold.scoreAt, hω, List.map_append, List.map_tail,
                List.map_cons, List.map_nil]
              rw [show (List.map (fun x => x.date) s.rows).getD (s.i + ((P.conse - 1 : Nat) : Int)).toNat 0
                = (ahead K s (P.conse - 1)).date from getD_core _ _ K.row0 rfl]
              rfl
  · intro r hr
    unfold shiftWin at hr
    rw [hm, hm'] at hr
    cases hl : s.idsOldLen with
    | none => rw [hl] at hr; cases hr
    | some l =>
      rw [hl] at hr
      dsimp only at hr
      split at hr
      · cases hr
      · cases h4 : Cold.chk s.end_ (s.iStart - 1) (s.iStart - 1 + l - 1) with
        | error e => rw [h4] at hr; cases hr
        | ok u =>
          cases h5 : Cold.chk s.end_ s.i (s.i + P.conse - 1) with
          | error e => rw [h4, h5] at hr; cases hr
          | ok u =>
            rw [h4, h5] at hr
            simp only [ok_bind] at hr
            split at hr
            · cases hr
            · cases hr
              exact ⟨rfl, rfl, rfl⟩

theorem later_core (P : Params) (K : Kit Y M V W D G) (iSpan updateC : Int) (s : St Y M V W D G)
    (hs : s.cft.isSome = true ∧ s.dif.isSome = true) :
    (∃ g : Nat → V × W, ∀ ω : Oracle V W, ω.score s.it = g → ω.skip = K.skip →
      coldLater P ω iSpan updateC s.core = (later P K iSpan updateC s).map St.core) ∧
    (∀ r, later P K iSpan updateC s = .ok r → r.it = s.it ∧ r.cft.isSome = true ∧ r.dif.isSome = true) := by
  have x0 : V × W := ((K.score 4 (K.fit 4 []) K.row0).1, (K.score 4 (K.fit 4 []) K.row0).2.1)
  unfold coldLater later
  rw [show s.core.preEnd = s.preEnd from rfl]
  cases s.preEnd with
  | none => exact ⟨⟨fun _ => x0, fun _ _ _ => rfl⟩, fun r hr => by cases hr⟩
  | some pe =>
    dsimp only
    rw [show s.core.clrx = s.rows.map (·.date) from rfl,
      show s.core.end_ = s.end_ from rfl, show s.core.i = s.i from rfl,
      show s.core.iStart = s.iStart from rfl, rd_core, rd_core]
    cases rd s.rows s.end_ (s.i - 1) with
    | error e => exact ⟨⟨fun _ => x0, fun _ _ _ => rfl⟩, fun r hr => by cases hr⟩
    | ok a =>
      cases rd s.rows s.end_ (s.iStart - 1) with
      | error e => exact ⟨⟨fun _ => x0, fun _ _ _ => rfl⟩, fun r hr => by cases hr⟩
      | ok b =>
        cases Cold.chk s.end_ (s.iStart - 1) (s.i - 1) with
        | error e => exact ⟨⟨fun _ => x0, fun _ _ _ => rfl⟩, fun r hr => by cases hr⟩
        | ok u =>
          simp only [map_ok, ok_bind]
          obtain ⟨k1, k2⟩ := refit_keeps K s iSpan updateC pe a.date b.date hs
          have hrc := fun ω hk => refit_core K ω hk s iSpan updateC pe a.date b.date
          generalize refit K s iSpan updateC pe a.date b.date = s1 at k1 k2 hrc
          obtain ⟨⟨g, hg⟩, hk⟩ := shiftWin_core P K updateC { s1 with cur := { s1.cur with tEnd := a.date } } k2
          refine ⟨⟨g, fun ω h1 h2 => ?_⟩, fun r hr => ?_⟩
          · rw [← hg ω (by rw [← h1, ← k1]), hrc ω h2]
            rfl
          · obtain ⟨q1, q2⟩ := hk r hr
            exact ⟨q1.trans k1, q2⟩

/-- The model refresh. -/
theorem refresh_core (P : Params) (K : Kit Y M V W D G) (s : St Y M V W D G) (hs : Fitted s) :
    (∃ g : Nat → V × W, ∀ ω : Oracle V W, ω.score s.it = g → ω.skip = K.skip →
      Cold.refresh P ω s.core = (refresh P K s).map St.core) ∧
    (∀ r, refresh P K s = .ok r → r.it = s.it ∧ r.cft.isSome = true ∧ r.dif.isSome = true) := by
  have x0 : V × W := ((K.score 4 (K.fit 4 []) K.row0).1, (K.score 4 (K.fit 4 []) K.row0).2.1)
  simp only [coldRefresh_eq, refresh_eq]
  rw [show s.core.iCount = s.iCount from rfl]
  cases hic : s.iCount with
  | none => exact ⟨⟨fun _ => x0, fun _ _ _ => rfl⟩, fun r hr => by cases hr⟩
  | some ic =>
    dsimp only
    have hfit := hs (by rw [hic]; rfl)
    rw [show s.core.i = s.i from rfl, show s.core.iStart = s.iStart from rfl]
    generalize s.i - s.iStart + 1 = iSpan
    generalize Cold.updateCft iSpan 3 4 6 8 8 = updateC
    by_cases hb : ic = 0 ∨ iSpan ≤ Cold.MAX_OBS
    · simp only [if_pos hb]
      obtain ⟨⟨g, hg⟩, hk⟩ := fresh_core P K iSpan updateC
        { s with iSpanSkip := if s.iSpanSkip = 0 then iSpan else s.iSpanSkip }
      rw [hic] at hg hk
      exact ⟨⟨g, fun ω h1 _ => hg ω h1⟩, hk⟩
    · simp only [if_neg hb]
      obtain ⟨⟨g, hg⟩, hk⟩ := later_core P K iSpan updateC
        { s with iSpanSkip := if s.iSpanSkip = 0 then iSpan else s.iSpanSkip } hfit
      rw [hic] at hg hk
      exact ⟨⟨g, fun ω h1 h2 => hg ω h1 h2⟩, hk⟩

/-- Monitoring. -/
theorem monitorPhase_core (P : Params) (K : Kit Y M V W D G) (s : St Y M V W D G) (hs : Fitted s) :
    (∃ (g : Nat → V × W) (c : Int), ∀ ω : Oracle V W, ω.score s.it = g → ω.cmMon s.it = c → ω.skip = K.skip →
      Cold.monitorPhase P K.N ω s.core = (monitorPhase P K s).map St.core) ∧
    (∀ r, monitorPhase P K s = .ok r → r.it = s.it ∧ Fitted r) := by
  obtain ⟨⟨g, hg⟩, hkeep⟩ := refresh_core P K s hs
  cases hr : refresh P K s with
  | error e =>
    constructor
    · refine ⟨g, 0, fun ω h1 _ h3 => ?_⟩
      unfold Cold.monitorPhase monitorPhase
      rw [hg ω h1 h3, hr]; rfl
    · intro r h
      unfold monitorPhase at h
      rw [hr] at h; cases h
  | ok s1 =>
    obtain ⟨k1, k2, k3⟩ := hkeep s1 hr
    constructor
    · refine ⟨g, cmRaw K s1.win, fun ω h1 h2 h3 => ?_⟩
      unfold Cold.monitorPhase monitorPhase
      rw [hg ω h1 h3, hr, map_ok, ok_bind, ok_bind, show s1.core.clrx = s1.rows.map (·.date) from rfl,
        show s1.core.end_ = s1.end_ from rfl, show s1.core.i = s1.i from rfl, rd_core]
      cases rd s1.rows s1.end_ s1.i with
      | error e => rfl
      | ok d =>
        rw [map_ok, ok_bind, ok_bind, show s1.core.it = s1.it from rfl, k1, h2,
          show s1.core.cm = s1.cm from rfl]
        cases Cold.cmPut P s1.cm d.date (cmRaw K s1.win) with
        | error e => rfl
        | ok cm =>
          rw [ok_bind, ok_bind]
          dsimp only
          rw [show Cold.isBreak K.N s1.core.scores = isBreak K s1.win from rfl,
            show Cold.isOutlier K.N s1.core.scores = isOutlier K s1.win from rfl]
          split
          · simp [Except.map, St.core, Rec.core]
          · split
            · rw [map_ok]
              simp only [St.core]
              rw [shiftDown_core K.row0 rfl _ _ _ _ rfl]
            · rfl
    · intro r h
      unfold monitorPhase at h
      rw [hr, ok_bind] at h
      cases h1 : rd s1.rows s1.end_ s1.i with
      | error e => rw [h1] at h; cases h
      | ok d =>
        rw [h1, ok_bind] at h
        cases h2 : Cold.cmPut P s1.cm d.date (cmRaw K s1.win) with
        | error e => rw [h2] at h; cases h
        | ok cm =>
          rw [h2, ok_bind] at h
          dsimp only at h
          split at h
          · cases h; exact ⟨k1, fun _ => ⟨k2, k3⟩⟩
          · split at h
            · cases h; exact ⟨k1, fun _ => ⟨k2, k3⟩⟩
            · cases h; exact ⟨k1, fun _ => ⟨k2, k3⟩⟩

/-- The oracles agree on the questions of iteration `it`. -/
def SameAt (ω ω' : Oracle V W) (it : Nat) : Prop :=
  ω.mask it = ω'.mask it ∧ ω.unstable it = ω'.unstable it ∧ ω.lbScore it = ω'.lbScore it ∧
  ω.score it = ω'.score it ∧ ω.cmLb it = ω'.cmLb it ∧ ω.cmMon it = ω'.cmMon it

/-- An oracle that answers the same at every iteration. -/
def constOracle (K : Kit Y M V W D G) (mask : Nat → Bool) (u : Bool) (lb : Int → Nat → V × W) (sc : Nat → V × W)
    (clb : Int → Int) (cmon : Int) : Oracle V W :=
  { mask := fun _ => mask, unstable := fun _ => u, lbScore := fun _ => lb, score := fun _ => sc,
    skip := K.skip, cmLb := fun _ => clb, cmMon := fun _ => cmon, endMask := fun _ => false }

/-- One iteration. -/
theorem body_core (P : Params) (K : Kit Y M V W D G) (s : St Y M V W D G) (hs : Fitted s) :
    (∃ ω' : Oracle V W, ∀ ω : Oracle V W, SameAt ω ω' s.it → ω.skip = K.skip →
      Cold.body P K.N ω s.core = (body P K s).map St.core) ∧
    (∀ r, body P K s = .ok r → r.it = s.it + 1 ∧ Fitted r) := by
  have x0 : V × W := ((K.score 4 (K.fit 4 []) K.row0).1, (K.score 4 (K.fit 4 []) K.row0).2.1)
  have ht := trainPhase_core P K s hs
  -- the state in which monitoring starts
  cases h1 : rd s.rows s.end_ (s.i - 1) with
  | error e =>
    constructor
    · refine ⟨constOracle K (fun _ => false) false (fun _ _ => x0) (fun _ => x0) (fun _ => 0) 0, fun ω _ _ => ?_⟩
      unfold Cold.body body
      dsimp only
      rw [show s.core.clrx = s.rows.map (·.date) from rfl, show s.core.end_ = s.end_ from rfl,
        show s.core.i = s.i from rfl, rd_core, h1]
      rfl
    · intro r hr
      unfold body at hr
      dsimp only at hr
      rw [h1] at hr; cases hr
  | ok a =>
    cases h2 : rd s.rows s.end_ (s.iStart - 1) with
    | error e =>
      constructor
      · refine ⟨constOracle K (fun _ => false) false (fun _ _ => x0) (fun _ => x0) (fun _ => 0) 0, fun ω _ _ => ?_⟩
        unfold Cold.body body
        dsimp only
        rw [show s.core.clrx = s.rows.map (·.date) from rfl, show s.core.end_ = s.end_ from rfl,
          show s.core.i = s.i from rfl, show s.core.iStart = s.iStart from rfl, rd_core, rd_core, h1, h2]
        rfl
      · intro r hr
        unfold body at hr
        dsimp only at hr
        rw [h1, h2] at hr; cases hr
    | ok b =>
      have eC : ∀ ω : Oracle V W, Cold.body P K.N ω s.core = (do
          let s' ← (if s.i - s.iStart + 1 ≥ Cold.MIN_OBS ∧ Cold.yearOrMore (a.date - b.date) = true then do
              let (go, s) ← (if s.train = false then Cold.trainPhase P K.N ω s.core else .ok (true, s.core))
              if go then do
                let s ← Cold.monitorPhase P K.N ω s
                .ok { s with i := s.i + 1 }
              else .ok s
            else .ok { s.core with i := s.i + 1 })
          .ok { s' with it := s.it + 1 }) := by
        intro ω
        unfold Cold.body
        dsimp only
        rw [show s.core.clrx = s.rows.map (·.date) from rfl, show s.core.end_ = s.end_ from rfl,
          show s.core.i = s.i from rfl, show s.core.iStart = s.iStart from rfl, rd_core, rd_core, h1, h2]
        rfl
      have eV : body P K s = (do
          let s' ← (if s.i - s.iStart + 1 ≥ Cold.MIN_OBS ∧ Cold.yearOrMore (a.date - b.date) = true then do
              let (go, s) ← (if s.train = false then trainPhase P K s else .ok (true, s))
              if go then do
                let s ← monitorPhase P K s
                .ok { s with i := s.i + 1 }
              else .ok s
            else .ok { s with i := s.i + 1 })
          .ok { s' with it := s.it + 1 }) := by
        unfold body
        dsimp only
        rw [h1, h2]
        rfl
      by_cases hc : s.i - s.iStart + 1 ≥ Cold.MIN_OBS ∧ Cold.yearOrMore (a.date - b.date) = true
      · rw [if_pos hc] at eV
        simp only [if_pos hc] at eC
        -- training, if necessary
        have phase : ∃ (mask : Nat → Bool) (u : Bool) (g : Int → Nat → V × W) (c : Int → Int), ∀ ω : Oracle V W,
            ω.mask s.it = mask → ω.unstable s.it = u → ω.lbScore s.it = g → ω.cmLb s.it = c →
            (if s.train = false then Cold.trainPhase P K.N ω s.core else .ok (true, s.core))
              = (if s.train = false then trainPhase P K s else .ok (true, s)).map (fun r => (r.1, r.2.core)) := by
          by_cases htr : s.train = false
          · obtain ⟨mask, u, g, c, h⟩ := ht.1
            refine ⟨mask, u, g, c, fun ω a1 a2 a3 a5 => ?_⟩
            rw [if_pos htr, if_pos htr]
            exact h ω a1 a2 a3 a5
          · refine ⟨fun _ => false, false, fun _ _ => x0, fun _ => 0, fun ω _ _ _ _ => ?_⟩
            rw [if_neg htr, if_neg htr]; rfl
        have keep : ∀ r, (if s.train = false then trainPhase P K s else .ok (true, s)) = .ok r →
            r.2.it = s.it ∧ Fitted r.2 := by
          intro r hr
          split at hr
          · exact ht.2 r hr
          · cases hr; exact ⟨rfl, hs⟩
        obtain ⟨mask, u, lb, clb, hω1⟩ := phase
        generalize (if s.train = false then trainPhase P K s else .ok (true, s)) = x at hω1 keep eV
        cases x with
        | error e =>
          constructor
          · refine ⟨constOracle K mask u lb (fun _ => x0) clb 0, fun ω ⟨a1, a2, a3, _, a5, _⟩ _ => ?_⟩
            rw [eC, eV, hω1 ω a1 a2 a3 a5]; rfl
          · intro r hr
            rw [eV] at hr; cases hr
        | ok r1 =>
          obtain ⟨go, s1⟩ := r1
          obtain ⟨k1, k2⟩ := keep _ rfl
          cases go with
          | false =>
            constructor
            · refine ⟨constOracle K mask u lb (fun _ => x0) clb 0, fun ω ⟨a1, a2, a3, _, a5, _⟩ _ => ?_⟩
              rw [eC, eV, hω1 ω a1 a2 a3 a5]; rfl
            · intro r hr
              rw [eV] at hr; cases hr
              exact ⟨rfl, k2⟩
          | true =>
            obtain ⟨⟨g, c, hm⟩, km⟩ := monitorPhase_core P K s1 k2
            constructor
            · refine ⟨constOracle K mask u lb g clb c, fun ω ⟨a1, a2, a3, a4, a5, a6⟩ hk => ?_⟩
              rw [eC, eV, hω1 ω a1 a2 a3 a5, map_ok, ok_bind, ok_bind]
              dsimp only
              rw [if_pos rfl, if_pos rfl, hm ω (by rw [k1]; exact a4) (by rw [k1]; exact a6) hk]
              cases monitorPhase P K s1 with
              | error e => rfl
              | ok s2 => rfl
            · intro r hr
              rw [eV, ok_bind] at hr
              dsimp only at hr
              rw [if_pos rfl] at hr
              cases h4 : monitorPhase P K s1 with
              | error e => rw [h4] at hr; cases hr
              | ok s2 =>
                rw [h4] at hr
                cases hr
                exact ⟨rfl, (km s2 h4).2⟩
      · rw [if_neg hc] at eV
        simp only [if_neg hc] at eC
        constructor
        · refine ⟨constOracle K (fun _ => false) false (fun _ _ => x0) (fun _ => x0) (fun _ => 0) 0,
            fun ω _ _ => ?_⟩
          rw [eC, eV]; rfl
        · intro r hr
          rw [eV] at hr; cases hr
          exact ⟨rfl, hs⟩


/-- The oracle that answers as `ω1` at iteration `n` and as `ω2` otherwise. -/
def splice (n : Nat) (ω1 ω2 : Oracle V W) : Oracle V W :=
  { mask := fun it => if it = n then ω1.mask it else ω2.mask it,
    unstable := fun it => if it = n then ω1.unstable it else ω2.unstable it,
    lbScore := fun it => if it = n then ω1.lbScore it else ω2.lbScore it,
    score := fun it => if it = n then ω1.score it else ω2.score it,
    skip := ω2.skip,
    cmLb := fun it => if it = n then ω1.cmLb it else ω2.cmLb it,
    cmMon := fun it => if it = n then ω1.cmMon it else ω2.cmMon it,
    endMask := ω2.endMask }

/-- The loop. -/
theorem loop_core (P : Params) (K : Kit Y M V W D G) : ∀ (f : Nat) (s : St Y M V W D G), Fitted s →
    ∃ ω' : Oracle V W, ∀ ω : Oracle V W, (∀ n, s.it ≤ n → SameAt ω ω' n) → ω.skip = K.skip →
      Cold.loop P K.N ω f s.core = (loop P K f s).map St.core := by
  intro f
  induction f with
  | zero =>
    intro s hs
    obtain ⟨⟨ω', _⟩, _⟩ := body_core P K s hs
    refine ⟨ω', fun ω _ _ => ?_⟩
    unfold Cold.loop loop
    show (if s.i ≤ s.end_ - P.conse then _ else _) = _
    split <;> rfl
  | succ f ih =>
    intro s hs
    obtain ⟨⟨ω1, h1⟩, k⟩ := body_core P K s hs
    by_cases hc : s.i ≤ s.end_ - P.conse
    · cases hb : body P K s with
      | error e =>
        refine ⟨ω1, fun ω h hk => ?_⟩
        unfold Cold.loop loop
        rw [if_pos hc, if_pos (show s.core.i ≤ s.core.end_ - P.conse from hc),
          h1 ω (h s.it (Nat.le_refl _)) hk, hb]
        rfl
      | ok s' =>
        obtain ⟨k1, k2⟩ := k s' hb
        obtain ⟨ω2, h2⟩ := ih s' k2
        refine ⟨splice s.it ω1 ω2, fun ω h hk => ?_⟩
        unfold Cold.loop loop
        have e1 : SameAt ω ω1 s.it := by
          have := h s.it (Nat.le_refl _)
          simpa [SameAt, splice] using this
        have e2 : ∀ n, s'.it ≤ n → SameAt ω ω2 n := by
          intro n hn
          have := h n (by omega)
          have hne : n ≠ s.it := by omega
          simpa [SameAt, splice, hne] using this
        rw [if_pos hc, if_pos (show s.core.i ≤ s.core.end_ - P.conse from hc),
          h1 ω e1 hk, hb, map_ok, ok_bind, ok_bind, h2 ω e2 hk]
    · refine ⟨ω1, fun ω _ _ => ?_⟩
      unfold Cold.loop loop
      rw [if_neg hc, if_neg (show ¬ s.core.i ≤ s.core.end_ - P.conse from hc)]
      rfl

theorem finishTrained_core (P : Params) (K : Kit Y M V W D G) (s : St Y M V W D G) :
    Cold.finishTrained P K.N s.core = (finishTrained P K s).map St.core := by
  unfold Cold.finishTrained finishTrained
  rw [show s.core.scores = s.win.map Sc.core from rfl]
  cases Cold.scanLast K.N (s.win.map Sc.core) P.conse P.conse with
  | error e => rfl
  | ok n =>
    simp only [ok_bind]
    rw [show s.core.clrx = s.rows.map (·.date) from rfl, show s.core.end_ = s.end_ from rfl, rd_core, rd_core]
    cases rd s.rows s.end_ (s.end_ - 1 - P.conse + n) with
    | error e => rfl
    | ok a =>
      simp only [map_ok, ok_bind]
      split
      · cases rd s.rows s.end_ (s.end_ - P.conse + n) with
        | error e => rfl
        | ok b => simp [Except.map, St.core, Rec.core, List.map_drop, ok_bind]
      · simp [Except.map, St.core, Rec.core]

theorem endStart_core (s : St Y M V W D G) : Cold.endStart s.core = endStart s := by
  unfold Cold.endStart endStart
  rw [show s.core.recs = s.recs.map Rec.core from rfl, getLast_core]
  cases s.recs.getLast? with
  | none => rfl
  | some r =>
    simp only [Option.map_some]
    rw [show s.core.clrx = s.rows.map (·.date) from rfl, List.length_map, findGe_core _ _ _ _ _ rfl]
    rfl

theorem finishUntrained_core (K : Kit Y M V W D G) (s : St Y M V W D G) (ω : Oracle V W)
    (h : ω.endMask = K.mask (slice s.rows (endStart s - 1) (s.end_ - 1))) :
    Cold.finishUntrained ω s.core = (finishUntrained K s).map St.core := by
  -- the second half, from the state after the removal of noise
  have tail : ∀ s2 : St Y M V W D G,
      (if s2.core.end_ - s2.core.iStart + 1 ≥ Cold.LASSO_MIN then do
        Cold.chk s2.core.end_ (s2.core.iStart - 1) (s2.core.end_ - 1)
        let tStart ← (match s2.core.recs.getLast? with
          | none => Cold.rd s2.core.clrx s2.core.end_ 0
          | some r => .ok r.tBreak)
        let tEnd ← Cold.rd s2.core.clrx s2.core.end_ (s2.core.end_ - 1)
        let r : Cold.Rec V W :=
          { tStart := tStart, tEnd := tEnd, tBreak := 0, changeProb := 0,
            numObs := s2.core.end_ - s2.core.iStart + 1, category := 20 + 4,
            fitted := Cold.slice s2.core.clrx (s2.core.iStart - 1) (s2.core.end_ - 1) }
        .ok { s2.core with recs := s2.core.recs ++ [r],
                           overflow := s2.core.overflow || decide (s2.core.recs.length ≥ Cold.NUM_FC) }
      else .ok s2.core) = ((if s2.end_ - s2.iStart + 1 ≥ Cold.LASSO_MIN then do
        Cold.chk s2.end_ (s2.iStart - 1) (s2.end_ - 1)
        let tStart ← (match s2.recs.getLast? with
          | none => (rd s2.rows s2.end_ 0).map (·.date)
          | some r => .ok r.tBreak)
        let tEnd ← rd s2.rows s2.end_ (s2.end_ - 1)
        let obs := slice s2.rows (s2.iStart - 1) (s2.end_ - 1)
        let r : Rec Y M V W D G :=
          { tStart := tStart, tEnd := tEnd.date, tBreak := 0, changeProb := 0,
            numObs := s2.end_ - s2.iStart + 1, category := 20 + 4,
            model := some (K.fit 4 obs), magn := some K.magn0, fitted := obs }
        .ok { s2 with recs := s2.recs ++ [r],
                      overflow := s2.overflow || decide (s2.recs.length ≥ Cold.NUM_FC) }
      else .ok s2) : Except Err (St Y M V W D G)).map St.core := by
    intro s2
    rw [show s2.core.end_ = s2.end_ from rfl, show s2.core.iStart = s2.iStart from rfl,
      show s2.core.clrx = s2.rows.map (·.date) from rfl]
    by_cases hc : s2.end_ - s2.iStart + 1 ≥ Cold.LASSO_MIN
    · rw [if_pos hc, if_pos hc]
      cases Cold.chk s2.end_ (s2.iStart - 1) (s2.end_ - 1) with
      | error e => rfl
      | ok u =>
        simp only [ok_bind]
        rw [show s2.core.recs = s2.recs.map Rec.core from rfl, getLast_core]
        have : (match s2.recs.getLast?.map Rec.core with
            | none => Cold.rd (s2.rows.map (fun (x : Row Y) => x.date)) s2.end_ 0
            | some r => .ok r.tBreak) = (match s2.recs.getLast? with
            | none => (rd s2.rows s2.end_ 0).map (fun (x : Row Y) => x.date)
            | some r => .ok r.tBreak) := by
          cases s2.recs.getLast? with
          | none => exact rd_core _ _ _
          | some r => rfl
        rw [this]
        cases (match s2.recs.getLast? with
            | none => (rd s2.rows s2.end_ 0).map (fun (x : Row Y) => x.date)
            | some r => .ok r.tBreak : Except Err Int) with
        | error e => rfl
        | ok a =>
          simp only [ok_bind]
          rw [rd_core, slice_core]
          cases rd s2.rows s2.end_ (s2.end_ - 1) with
          | error e => rfl
          | ok b => simp [Except.map, St.core, Rec.core, ok_bind]
    · rw [if_neg hc, if_neg hc]; rfl
  unfold Cold.finishUntrained finishUntrained
  dsimp only
  rw [endStart_core, h]
  generalize hst : endStart s = st
  rw [show s.core.end_ = s.end_ from rfl, show s.core.clrx = s.rows.map (·.date) from rfl]
  by_cases hc : s.end_ - st + 1 ≥ Cold.LASSO_MIN
  · rw [if_pos hc, if_pos hc]
    cases Cold.chk s.end_ (st - 1) (s.end_ - 1) with
    | error e => rfl
    | ok u =>
      simp only [ok_bind]
      rw [← List.map_take, compact_core, commit_core, List.length_map]
      exact tail { s with
        iStart := st,
        rows := commit s.rows (compact (s.rows.take s.end_.toNat) 0
          (Cold.rmIds (K.mask (slice s.rows (st - 1) (s.end_ - 1))) (st - 1) (s.end_ - st + 1).toNat)),
        end_ := (compact (s.rows.take s.end_.toNat) 0
          (Cold.rmIds (K.mask (slice s.rows (st - 1) (s.end_ - 1))) (st - 1) (s.end_ - st + 1).toNat)).length }
  · rw [if_neg hc, if_neg hc]
    exact tail { s with iStart := st }

/-- The program with data makes the steps of the program with a suitable oracle. -/
theorem standProcedure_core (P : Params) (K : Kit Y M V W D G) (rows : List (Row Y)) (nCm : Nat) :
    ∃ ω : Oracle V W, ω.skip = K.skip ∧
      Cold.standProcedure P K.N ω (rows.map (·.date)) nCm = (standProcedure P K rows nCm).map Output.core := by
  have hf : Fitted (init rows nCm : St Y M V W D G) := by intro h; cases h
  obtain ⟨ω', hω'⟩ := loop_core P K rows.length (init rows nCm) hf
  have hc : (init rows nCm : St Y M V W D G).core = Cold.init (rows.map (·.date)) nCm := by
    simp [St.core, init, Cold.init, Rec.core]
  cases hl : loop P K rows.length (init rows nCm : St Y M V W D G) with
  | error e =>
    refine ⟨{ ω' with skip := K.skip }, rfl, ?_⟩
    unfold Cold.standProcedure standProcedure
    rw [← hc, List.length_map, hω' { ω' with skip := K.skip } (fun n _ => ⟨rfl, rfl, rfl, rfl, rfl, rfl⟩) rfl, hl]
    rfl
  | ok s =>
    refine ⟨{ ω' with skip := K.skip, endMask := K.mask (slice s.rows (endStart s - 1) (s.end_ - 1)) },
      rfl, ?_⟩
    unfold Cold.standProcedure standProcedure
    rw [← hc, List.length_map, hω' { ω' with skip := K.skip, endMask := K.mask (slice s.rows (endStart s - 1) (s.end_ - 1)) }
      (fun n _ => ⟨rfl, rfl, rfl, rfl, rfl, rfl⟩) rfl, hl, map_ok, ok_bind,
      ok_bind, show s.core.train = s.train from rfl, finishTrained_core, finishUntrained_core K s _ rfl]
    cases s.train with
    | true =>
      rw [if_pos rfl, if_pos rfl]
      cases finishTrained P K s with
      | error e => rfl
      | ok f => rfl
    | false =>
      rw [if_neg (by decide), if_neg (by decide)]
      cases finishUntrained K s with
      | error e => rfl
      | ok f => rfl

end Pycold.ColdV
