import Verif.Proof.SccdHom
/-! S-CCD on a series and on a changed one, where the numerical functions agree on windows of the series (C82). -/
namespace Pycold.Sccd

variable {V F R M : Type}

def Model.move (o oe : Obs → Obs) (f : F → F) (m : Model F) : Model F :=
  { filt := f m.filt, tStart := m.tStart, numObs := m.numObs, obs := m.obs.map oe, normCm := m.normCm,
    cmAngle := m.cmAngle, conseLast := m.conseLast, pre := m.pre.map o, seg := m.seg.map o }

/-- The numerical functions answer a change `o` of the observations, `oe` of the stored ones, with `f` and `r`, on the
windows of six or more observations of a series. -/
structure Moved (series : List Obs) (o oe : Obs → Obs) (f : F → F) (r : R → R) (g : Model F → Model F)
    (N : Num V F R) : Prop where
  /-- models of a change are changed like others; a void one need not be -/
  closed : ∀ m, 1 ≤ m.conseLast → g m = Model.move o oe f m
  dates : ∀ m, (g m).obs.map (·.date) = m.obs.map (·.date)
  date : ∀ x, (o x).date = x.date
  edate : ∀ x, (oe x).date = x.date
  enc : ∀ x ∈ series, oe (encode x) = encode (o x)
  pad : oe padObs = padObs
  mask : ∀ w, w.Sublist series → 6 ≤ w.length → N.mask (w.map o) = N.mask w
  unstable : ∀ w, w.Sublist series → 6 ≤ w.length → N.unstable (w.map o) = N.unstable w
  lbMag : ∀ w x, w.Sublist series → 6 ≤ w.length → N.lbMag (w.map o) (o x) = N.lbMag w x
  lbAngle : ∀ w l, w.Sublist series → 6 ≤ w.length → N.lbAngle (w.map o) (l.map o) = N.lbAngle w l
  firstRec : ∀ a b c, a.Sublist series → 6 ≤ a.length → c.Sublist series → 6 ≤ c.length →
    N.firstRec (a.map o) (b.map o) (c.map o) = r (N.firstRec a b c)
  fit : ∀ p w x, w.Sublist series → 6 ≤ w.length → N.fit (p.map f) (w.map o) (o x) = f (N.fit p w x)
  mag : ∀ x n y, N.mag (f x) n (o y) = N.mag x n y
  angle : ∀ x n l, N.angle (f x) n (l.map o) = N.angle x n l
  changeRec : ∀ x n l, N.changeRec (f x) n (l.map o) = r (N.changeRec x n l)
  filter : ∀ x y t, N.filter (f x) (o y) t = f (N.filter x y t)
  skip : ∀ x y t, N.skip (f x) (o y) t = f (N.skip x y t)
  endMag : ∀ x n y, N.endMag (f x) n (o y) = N.endMag x n y
  endAngle : ∀ x n l, N.endAngle (f x) n (l.map o) = N.endAngle x n l
  narrow : ∀ x, N.narrow (f x) = f (N.narrow x)

def St.move (o : Obs → Obs) (f : F → F) (r : R → R) (g : Model F → Model F) (s : St F R) : St F R :=
  { obs := s.obs.map o, i := s.i, iStart := s.iStart, iDense := s.iDense, prevBreak := s.prevBreak,
    train := s.train, filt := s.filt.map f, tStart := s.tStart, numObs := s.numObs,
    recs := s.recs.map (Rec.map o r), model := s.model.map g, changed := s.changed,
    pre := s.pre.map o, seg := s.seg.map o, removed := s.removed.map o }

def Out.move (o oe : Obs → Obs) (r : R → R) (g : Model F → Model F) (x : Out F R) : Out F R :=
  { mode := x.mode, recs := x.recs.map (Rec.map o r), model := x.model.map g,
    queue := x.queue.map oe, removed := x.removed.map o }

def Pack.move (o oe : Obs → Obs) (f : F → F) (r : R → R) (p : Pack F R M) : Pack F R M :=
  { mode := p.mode, recs := p.recs.map (Rec.map o r), minRmse := p.minRmse,
    model := p.model.map (Model.move o oe f), queue := p.queue.map oe, removed := p.removed.map o }

variable {series : List Obs} {o oe : Obs → Obs} {f : F → F} {r : R → R} {g : Model F → Model F} {N : Num V F R}

theorem maxGap_move (h : Moved series o oe f r g N) : ∀ (l : List Obs) (g : Int), maxGap (l.map o) g = maxGap l g
  | [], _ => rfl
  | [_], _ => rfl
  | a :: b :: l, g => by
    have ih := maxGap_move h (b :: l)
    simp only [List.map_cons] at ih
    simp only [List.map_cons, maxGap, h.date, ih]

theorem slice_sub {l l' : List Obs} (h : l.Sublist l') (a b : Nat) : (slice l a b).Sublist l' := by
  unfold slice
  exact ((List.take_sublist _ _).trans (List.drop_sublist _ _)).trans h

theorem slice_len {l : List Obs} {a b : Nat} (hb : b < l.length) (hab : a ≤ b) : (slice l a b).length = b + 1 - a := by
  unfold slice
  rw [List.length_take, List.length_drop]
  omega

theorem keep_sub (flag : Nat → Bool) : ∀ (l : List Obs) (k : Nat), (keep flag k l).Sublist l
  | [], _ => List.Sublist.refl _
  | x :: l, k => by
    unfold keep
    split
    · exact (keep_sub flag l _).cons x
    · exact (keep_sub flag l _).cons_cons x

theorem rd_lt {l : List Obs} {k : Nat} {x : Obs} (h : rd l k = .ok x) : k < l.length := by
  unfold rd at h
  cases e : l[k]? with
  | none => rw [e] at h; cases h
  | some y => exact (List.getElem?_eq_some_iff.1 e).1

theorem chk_lt {l : List Obs} {k : Nat} {u : Unit} (h : chk l k = .ok u) : k < l.length := by
  unfold chk at h
  split at h
  · assumption
  · cases h

theorem lookBack_sub (N : Num V F R) (conse : Nat) (w : List Obs) (prev : Nat) : ∀ (k : Nat) (b b' : LB),
    lookBack N conse w prev k b = .ok b' → b'.obs.Sublist b.obs
  | 0, b, b', e => by cases e; exact List.Sublist.refl _
  | k + 1, b, b', e => by
    have ih := lookBack_sub N conse w prev k
    unfold lookBack at e
    dsimp only at e
    generalize (if k + 1 < conse then k + 1 else conse) = c at e
    split at e
    · cases e
    · cases h1 : chk b.obs (prev + k) with
      | error _ => rw [h1] at e; cases e
      | ok _ =>
        rw [h1] at e
        cases h2 : rd b.obs (prev + k) with
        | error _ => rw [h2] at e; cases e
        | ok x =>
          rw [h2] at e
          simp only [bind, Except.bind] at e
          split at e
          · cases e; exact List.Sublist.refl _
          · split at e
            · split at e
              · cases e
              · exact (ih _ _ e).trans (List.eraseIdx_sublist _ _)
            · exact ih { b with iStart := prev + k } _ e

theorem lookBack_long (N : Num V F R) (conse : Nat) (w : List Obs) (prev : Nat) : ∀ (k : Nat) (b b' : LB),
    prev + k ≤ b.iStart ∨ k = 0 → lookBack N conse w prev k b = .ok b' → b.i + b'.iStart ≤ b'.i + b.iStart
  | 0, b, b', _, e => by cases e; exact Nat.le_refl _
  | k + 1, b, b', hb, e => by
    have ih := lookBack_long N conse w prev k
    unfold lookBack at e
    dsimp only at e
    generalize (if k + 1 < conse then k + 1 else conse) = c at e
    split at e
    · cases e
    · cases h1 : chk b.obs (prev + k) with
      | error _ => rw [h1] at e; cases e
      | ok _ =>
        rw [h1] at e
        cases h2 : rd b.obs (prev + k) with
        | error _ => rw [h2] at e; cases e
        | ok x =>
          rw [h2] at e
          simp only [bind, Except.bind] at e
          split at e
          · cases e; exact Nat.le_refl _
          · split at e
            · split at e
              · cases e
              · have := ih _ _ (by left; exact Nat.le_refl _) e
                dsimp only at this
                omega
            · have := ih { b with iStart := prev + k } _ (by left; exact Nat.le_refl _) e
              dsimp only at this
              omega

theorem lookBack_move (h : Moved series o oe f r g N) (conse : Nat) {w : List Obs} (hw : w.Sublist series)
    (h6 : 6 ≤ w.length) (prev : Nat) :
    ∀ (k : Nat) (b : LB), lookBack N conse (w.map o) prev k (b.map o) =
      (lookBack N conse w prev k b).map (LB.map o)
  | 0, b => rfl
  | k + 1, b => by
    have ih := lookBack_move h conse hw h6 prev k
    unfold lookBack
    dsimp only
    generalize hc : (if k + 1 < conse then k + 1 else conse) = c
    split
    · rfl
    · show (do chk (b.obs.map o) _; _) = _
      rw [chk_map]
      cases chk b.obs (prev + k) with
      | error e => rfl
      | ok _ =>
        show (do let x ← rd (b.obs.map o) _; _) = Except.map _ (do let x ← rd b.obs _; _)
        rw [rd_map]
        cases hx : rd b.obs (prev + k) with
        | error e => rfl
        | ok x =>
          show (if _ then _ else _) = Except.map _ (if _ then _ else _)
          have hs : (slice (LB.map o b).obs (prev + k + 1 - c) (prev + k)).reverse =
              ((slice b.obs (prev + k + 1 - c) (prev + k)).reverse).map o := by
            show (slice (b.obs.map o) _ _).reverse = _
            rw [slice_map, List.map_reverse]
          have hl : ((slice b.obs (prev + k + 1 - c) (prev + k)).reverse.map o).map (N.lbMag (w.map o)) =
              (slice b.obs (prev + k + 1 - c) (prev + k)).reverse.map (N.lbMag w) := by
            rw [List.map_map]
            exact List.map_congr_left fun y _ => h.lbMag w y hw h6
          rw [hs, hl, h.lbAngle _ _ hw h6]
          split
          · rfl
          · rw [h.lbMag _ _ hw h6]
            split
            · show (if b.i = 0 then _ else _) = Except.map _ (if b.i = 0 then _ else _)
              split
              · rfl
              · rw [← ih]
                congr 1
                show LB.mk _ _ _ _ = LB.mk _ _ _ _
                simp only [LB.map, eraseIdx_map', List.map_append, List.map_cons, List.map_nil]
            · rw [← ih]
              rfl

theorem firstCurve_obs {conse : Nat} {w : List Obs} {prev oldPrev : Nat} {s s' : St F R}
    (e : firstCurve N conse w prev oldPrev s = .ok s') : s'.obs = s.obs ∧ s'.i = s.i ∧ s'.iStart = s.iStart := by
  unfold firstCurve at e
  split at e
  · cases h1 : rd s.obs s.iStart with
    | error _ => rw [h1] at e; cases e
    | ok x =>
      rw [h1] at e
      cases h2 : rd s.obs 0 with
      | error _ => rw [h2] at e; cases e
      | ok x0 =>
        rw [h2] at e
        simp only [bind, Except.bind] at e
        split at e
        · cases e
        · cases e; exact ⟨rfl, rfl, rfl⟩
  · cases e; exact ⟨rfl, rfl, rfl⟩

theorem firstCurve_move (h : Moved series o oe f r g N) (conse : Nat) {w : List Obs} (hw : w.Sublist series)
    (h6 : 6 ≤ w.length) (prev oldPrev : Nat) (s : St F R) (hs : s.obs.Sublist series) :
    firstCurve N conse (w.map o) prev oldPrev (s.move o f r g) =
      (firstCurve N conse w prev oldPrev s).map (St.move o f r g) := by
  unfold firstCurve
  have hr : (St.move o f r g s).recs.isEmpty = s.recs.isEmpty := by simp [St.move]
  rw [hr]
  show (if (s.recs.isEmpty && decide (s.iDense + LASSO_MIN ≤ s.iStart)) = true then _ else _) = _
  split
  · rename_i hcond
    rw [Bool.and_eq_true, decide_eq_true_eq] at hcond
    show (do let x ← rd (s.obs.map o) s.iStart; _) = _
    rw [rd_map]
    cases hx : rd s.obs s.iStart with
    | error e => rfl
    | ok x =>
      show (do let x0 ← rd (s.obs.map o) 0; _) = Except.map _ (do let x0 ← rd s.obs 0; _)
      rw [rd_map]
      cases rd s.obs 0 with
      | error e => rfl
      | ok x0 =>
        show (if s.iStart < conse then _ else _) = Except.map _ (if s.iStart < conse then _ else _)
        split
        · rfl
        · show Except.ok _ = Except.ok _
          congr 1
          have hl := rd_lt hx
          have := hcond.2
          unfold LASSO_MIN at this
          simp only [St.move, h.date, slice_map, ← List.map_drop, ← List.map_take,
            h.firstRec _ _ _ (slice_sub hs s.iDense s.iStart) (by rw [slice_len hl (by omega)]; omega) hw h6,
            List.map_append, List.map_cons, List.map_nil, Rec.map]
  · show Except.ok _ = Except.ok _
    congr 1
    simp only [St.move, List.map_drop, List.map_take]

theorem cut_sub {l kept : List Obs} {a b : Nat} (hab : a ≤ b + 1) (hk : kept.Sublist (slice l a b)) :
    (l.take a ++ kept ++ l.drop (b + 1)).Sublist l := by
  have e : l = l.take a ++ slice l a b ++ l.drop (b + 1) := by
    unfold slice
    have h2 : l.drop (b + 1) = (l.drop a).drop (b + 1 - a) := by
      rw [List.drop_drop]; congr 1; omega
    rw [h2, List.append_assoc, List.take_append_drop, List.take_append_drop]
  conv_rhs => rw [e]
  exact (((List.Sublist.refl _).append hk).append (List.Sublist.refl _))

theorem step1_sub {conse : Nat} {s s' : St F R} {b : Bool} (hi : s.iStart ≤ s.i + 1)
    (e : step1 N conse s = .ok (b, s')) : s'.obs.Sublist s.obs := by
  unfold step1 at e
  split at e
  · cases e; exact List.Sublist.refl _
  · cases h1 : chk s.obs s.i with
    | error _ => rw [h1] at e; cases e
    | ok _ =>
      rw [h1] at e
      simp only [bind, Except.bind] at e
      split at e
      · cases e; exact List.Sublist.refl _
      · split at e
        · cases e
        · split at e
          · cases e; exact List.Sublist.refl _
          · split at e
            · cases e
            · split at e
              · cases e
              · split at e
                · cases e; exact List.Sublist.refl _
                · split at e
                  · cases e
                    exact cut_sub hi (keep_sub _ _ _)
                  · split at e
                    · cases e
                    · rename_i lb hlb
                      split at e
                      · cases e
                      · rename_i s2 hfc
                        cases e
                        rw [(firstCurve_obs hfc).1]
                        exact (lookBack_sub N conse _ _ _ _ _ hlb).trans (cut_sub hi (keep_sub _ _ _))

theorem step1_move (h : Moved series o oe f r g N) {conse : Nat} (hc : 1 ≤ conse) (s : St F R)
    (hs : s.obs.Sublist series) (hi : s.iStart + MIN_OBS ≤ s.i + 1) :
    step1 N conse (s.move o f r g) =
      (step1 N conse s).map (fun x => (x.1, x.2.move o f r g)) := by
  unfold MIN_OBS at hi
  unfold step1
  show (if s.i < MIN_OBS - 1 then _ else _) = _
  split
  · rfl
  · show (do chk (s.obs.map o) s.i; _) = _
    rw [chk_map]
    cases hci : chk s.obs s.i with
    | error e => rfl
    | ok _ =>
      have hle := chk_lt hci
      show (if 4 * maxGap (slice (s.obs.map o) s.iStart s.i) 0 > 1461 then _ else _) =
        Except.map _ (if _ then _ else _)
      rw [slice_map, maxGap_move h]
      split
      · rfl
      · show (do chk (s.obs.map o) (min (s.i + conse - 1) ((s.obs.map o).length - 1)); _) = _
        rw [chk_map, List.length_map]
        generalize hte : min (s.i + conse - 1) (s.obs.length - 1) = te
        cases hch : chk s.obs te with
        | error e => rfl
        | ok _ =>
          have hlt := chk_lt hch
          show (if (keep (N.mask (slice (s.obs.map o) s.iStart (min (s.i + conse - 1)
              ((s.obs.map o).length - 1)))) 0
            (slice (s.obs.map o) s.iStart s.i)).length < MIN_OBS then _ else _) =
            Except.map _ (if (keep (N.mask (slice s.obs s.iStart te)) 0
              (slice s.obs s.iStart s.i)).length < MIN_OBS then _ else _)
          simp only [St.move]
          have hm : N.mask ((slice s.obs s.iStart te).map o) = N.mask (slice s.obs s.iStart te) :=
            h.mask _ (slice_sub hs _ _) (by rw [slice_len hlt (by omega)]; omega)
          simp only [List.length_map, hte, slice_map, hm, keep_map, flagged_map]
          generalize hk : keep (N.mask (slice s.obs s.iStart te)) 0 (slice s.obs s.iStart s.i) = kept
          split
          · rfl
          · rename_i hkl
            generalize hfl : flagged (N.mask (slice s.obs s.iStart te)) 0 (slice s.obs s.iStart s.i) = fl
            have hcp : (s.obs.map o).take s.iStart ++ kept.map o ++ (s.obs.map o).drop (s.i + 1) =
                (s.obs.take s.iStart ++ kept ++ s.obs.drop (s.i + 1)).map o := by
              rw [List.map_append, List.map_append, List.map_take, List.map_drop]
            have hsub : (s.obs.take s.iStart ++ kept ++ s.obs.drop (s.i + 1)).Sublist series :=
              (cut_sub (by omega) (hk ▸ keep_sub _ _ _)).trans hs
            rw [hcp]
            generalize s.obs.take s.iStart ++ kept ++ s.obs.drop (s.i + 1) = cp at hsub
            generalize hi' : s.iStart + kept.length - 1 = i'
            simp only [rd_map, slice_map]
            cases rd cp s.iStart with
            | error e => rfl
            | ok a =>
              cases hb : rd cp i' with
              | error e => rfl
              | ok b =>
                have hbl := rd_lt hb
                unfold MIN_OBS at hkl
                have hw : (slice cp s.iStart i').Sublist series := slice_sub hsub _ _
                have h6 : 6 ≤ (slice cp s.iStart i').length := by
                  rw [slice_len hbl (by omega)]; omega
                show (if (!yearOrMore ((o b).date - (o a).date)) = true then _ else _) =
                  Except.map _ (if (!yearOrMore (b.date - a.date)) = true then _ else _)
                rw [h.date, h.date]
                split
                · rfl
                · rw [h.unstable _ hw h6]
                  split
                  · show Except.ok _ = Except.ok _
                    simp only [List.map_append]
                  · have hr : (s.recs.map (Rec.map o r)).isEmpty = s.recs.isEmpty := by simp
                    simp only [hr]
                    generalize (if s.recs.isEmpty then s.iDense else s.prevBreak) = prev
                    have hlb := lookBack_move h conse hw h6 prev (s.iStart - prev)
                      ⟨cp, i', s.iStart, s.removed ++ fl⟩
                    simp only [LB.map, List.map_append] at hlb
                    rw [hlb]
                    cases hlk : lookBack N conse (slice cp s.iStart i') prev (s.iStart - prev)
                      ⟨cp, i', s.iStart, s.removed ++ fl⟩ with
                    | error e => rfl
                    | ok lb =>
                      have hf := firstCurve_move h conse hw h6 prev s.prevBreak
                        { s with obs := lb.obs, i := lb.i, iStart := lb.iStart, removed := lb.removed }
                        ((lookBack_sub N conse _ _ _ _ _ hlk).trans hsub)
                      simp only [St.move] at hf
                      show (do let s'' ← firstCurve N conse ((slice cp s.iStart i').map o) prev s.prevBreak _
                               _) = _
                      simp only [LB.map]
                      rw [hf]
                      show _ = Except.map _ (do
                        let s'' ← firstCurve N conse (slice cp s.iStart i') prev s.prevBreak
                          { s with obs := lb.obs, i := lb.i, iStart := lb.iStart, removed := lb.removed }
                        Except.ok (true, s''))
                      cases firstCurve N conse (slice cp s.iStart i') prev s.prevBreak
                          { s with obs := lb.obs, i := lb.i, iStart := lb.iStart, removed := lb.removed } with
                      | error e => rfl
                      | ok x => rfl

theorem map_encode_move (h : Moved series o oe f r g N) {l : List Obs} (hl : l.Sublist series) :
    (l.map o).map encode = (l.map encode).map oe := by
  rw [List.map_map, List.map_map]
  exact List.map_congr_left fun x hx => (h.enc x (hl.subset hx)).symm

theorem tail8_move (h : Moved series o oe f r g N) (conse : Nat) {l : List Obs} (hl : l.Sublist series) (i : Nat) :
    tail8 conse (l.map o) i = (tail8 conse l i).map oe := by
  unfold tail8
  have hs : ((l.drop i).take conse).Sublist series :=
    ((List.take_sublist _ _).trans (List.drop_sublist _ _)).trans hl
  simp only [← List.map_drop, ← List.map_take, map_encode_move h hs]
  rw [List.map_take (f := oe) (i := NCONSE), List.map_append, List.map_replicate, h.pad]

theorem snapshot_move (h : Moved series o oe f r g N) (conse : Nat) (s : St F R) (hs : s.obs.Sublist series) (x : F)
    (w : List Obs) :
    snapshot N conse (s.move o f r g) (f x) (w.map o) = (snapshot N conse s x w).move o oe f := by
  have hm : (w.map o).map (N.mag (f x) s.numObs) = w.map (N.mag x s.numObs) := by
    rw [List.map_map]
    exact List.map_congr_left fun y _ => h.mag x _ y
  simp only [snapshot, Model.move, St.move, h.narrow, tail8_move h conse hs, h.angle, hm]

theorem allAbove_move (h : Moved series o oe f r g N) (x : F) (n : Int) : ∀ (l : List Obs) (v : V),
    allAbove N (f x) n v (l.map o) = allAbove N x n v l
  | [], _ => rfl
  | y :: l, v => by
    have ih := allAbove_move h x n l
    simp only [List.map_cons, allAbove, h.mag, ih]

theorem isChange_move (h : Moved series o oe f r g N) (x : F) (n : Int) (l : List Obs) :
    isChange N (f x) n (l.map o) = isChange N x n l := by
  simp only [isChange, allAbove_move h, h.angle]

theorem step2_sub {conse mode0 : Nat} {s s' : St F R} (e : step2 N conse mode0 s = .ok s') :
    s'.obs.Sublist s.obs := by
  unfold step2 at e
  split at e
  · cases e
  · simp only [bind, Except.bind] at e
    split at e
    · cases e
    · split at e
      · cases e
      · split at e
        · cases e; exact List.Sublist.refl _
        · split at e
          · cases e
          · split at e
            · cases e; exact List.eraseIdx_sublist _ _
            · cases e; exact List.Sublist.refl _

theorem step2_move (h : Moved series o oe f r g N) {conse : Nat} (hc : 1 ≤ conse) (mode0 : Nat) (s : St F R) (hs : s.obs.Sublist series) :
    step2 N conse mode0 (s.move o f r g) = (step2 N conse mode0 s).map (St.move o f r g) := by
  unfold step2
  show (match s.filt.map f with | none => _ | some f => _) = _
  cases hf : s.filt with
  | none => rfl
  | some x =>
    show (do chk (s.obs.map o) (s.i + conse - 1); _) = _
    rw [chk_map]
    cases chk s.obs (s.i + conse - 1) with
    | error e => rfl
    | ok _ =>
      show (do let y ← rd (s.obs.map o) s.i; _) = Except.map _ (do let y ← rd s.obs s.i; _)
      rw [rd_map]
      cases rd s.obs s.i with
      | error e => rfl
      | ok y =>
        have hw : ((s.move o f r g).obs.drop s.i).take conse = ((s.obs.drop s.i).take conse).map o := by
          show ((s.obs.map o).drop s.i).take conse = _
          rw [List.map_take, List.map_drop]
        show (if isChange N (f x) s.numObs (((s.move o f r g).obs.drop s.i).take conse) = true then _ else _) =
          Except.map _ (if _ then _ else _)
        rw [hw, isChange_move h]
        split
        · show Except.ok _ = Except.ok _
          congr 1
          have hw' : ((s.move o f r g).obs.drop (s.move o f r g).i).take conse =
            ((s.obs.drop s.i).take conse).map o := hw
          have hg : g (snapshot N conse s x ((s.obs.drop s.i).take conse)) =
              (snapshot N conse s x ((s.obs.drop s.i).take conse)).move o oe f := by
            refine h.closed _ ?_
            show (1 : Int) ≤ (conse : Int)
            omega
          rw [hw', snapshot_move h conse s hs, ← hg]
          simp only [St.move, Rec.map, h.date, h.changeRec, List.map_append, List.map_cons, List.map_nil,
            Option.map_some, hf]
        · show (do let nx ← rd (s.obs.map o) (s.i + 1); _) = Except.map _ (do let nx ← rd s.obs (s.i + 1); _)
          rw [rd_map]
          cases rd s.obs (s.i + 1) with
          | error e => rfl
          | ok nx =>
            show (if N.lt N.tmax (N.mag (f x) s.numObs (o y)) = true then _ else _) =
              Except.map _ (if _ then _ else _)
            rw [h.mag]
            split
            · show Except.ok _ = Except.ok _
              congr 1
              simp only [St.move, h.date, h.skip, eraseIdx_map', List.map_append, List.map_cons, List.map_nil,
                Option.map_some]
            · show Except.ok _ = Except.ok _
              congr 1
              simp only [St.move, h.date, h.filter, List.map_append, List.map_cons, List.map_nil,
                Option.map_some]

/-- Success of the initialisation leaves a window of six or more observations. -/
theorem step1_long {conse : Nat} {s s' : St F R} (e : step1 N conse s = .ok (true, s')) :
    s'.iStart + MIN_OBS ≤ s'.i + 1 := by
  unfold step1 at e
  split at e
  · cases e
  · cases h1 : chk s.obs s.i with
    | error _ => rw [h1] at e; cases e
    | ok _ =>
      rw [h1] at e
      simp only [bind, Except.bind] at e
      split at e
      · cases e
      · split at e
        · cases e
        · split at e
          · cases e
          · rename_i hk
            split at e
            · cases e
            · split at e
              · cases e
              · split at e
                · cases e
                · split at e
                  · cases e
                  · split at e
                    · cases e
                    · rename_i lb hlb
                      split at e
                      · cases e
                      · rename_i s2 hfc
                        cases e
                        obtain ⟨_, f1, f2⟩ := firstCurve_obs hfc
                        rw [f1, f2]
                        have := lookBack_long N conse _ _ _ _ _ (by dsimp only; omega) hlb
                        dsimp only at this ⊢
                        unfold MIN_OBS at hk ⊢
                        omega

theorem trainStep_sub {conse : Nat} {s s' : St F R} (e : trainStep N conse s = .ok s') : s'.obs.Sublist s.obs := by
  unfold trainStep at e
  simp only [bind, Except.bind] at e
  split at e
  · cases e
  · split at e
    · cases e
    · split at e
      · cases e
      · rename_i x hx
        have hsub : x.2.obs.Sublist s.obs := by
          split at hx
          · rename_i hcond
            rw [Bool.and_eq_true, decide_eq_true_eq] at hcond
            have := hcond.1
            unfold MIN_OBS at this
            exact step1_sub (b := x.1) (s' := x.2) (by omega) hx
          · cases hx; exact List.Sublist.refl _
        split at e
        · cases e; exact hsub
        · split at e
          · cases e
          · split at e
            · cases e
            · cases e; exact hsub

theorem trainStep_move (h : Moved series o oe f r g N) {conse : Nat} (hc : 1 ≤ conse) (s : St F R)
    (hs : s.obs.Sublist series) :
    trainStep N conse (s.move o f r g) = (trainStep N conse s).map (St.move o f r g) := by
  unfold trainStep
  show (do let a ← rd (s.obs.map o) s.iStart; _) = _
  rw [rd_map]
  cases rd s.obs s.iStart with
  | error e => rfl
  | ok a =>
    show (do let b ← rd (s.obs.map o) s.i; _) = Except.map _ (do let b ← rd s.obs s.i; _)
    rw [rd_map]
    cases rd s.obs s.i with
    | error e => rfl
    | ok b =>
      show (do
        let (done, s1) ← (if decide (s.iStart + MIN_OBS ≤ s.i + 1) && yearOrMore ((o b).date - (o a).date)
          then step1 N conse (s.move o f r g) else .ok (false, s.move o f r g)); _) = _
      rw [h.date, h.date]
      have e : (if (decide (s.iStart + MIN_OBS ≤ s.i + 1) && yearOrMore (b.date - a.date)) = true
          then step1 N conse (s.move o f r g) else .ok (false, s.move o f r g)) =
          (if (decide (s.iStart + MIN_OBS ≤ s.i + 1) && yearOrMore (b.date - a.date)) = true
          then step1 N conse s else .ok (false, s)).map (fun x => (x.1, x.2.move o f r g)) := by
        split
        · rename_i hcond
          rw [Bool.and_eq_true, decide_eq_true_eq] at hcond
          exact step1_move h hc s hs hcond.1
        · rfl
      rw [e]
      show _ = Except.map _ (do
        let (done, s1) ← (if decide (s.iStart + MIN_OBS ≤ s.i + 1) && yearOrMore (b.date - a.date)
          then step1 N conse s else .ok (false, s)); _)
      cases hx : (if (decide (s.iStart + MIN_OBS ≤ s.i + 1) && yearOrMore (b.date - a.date)) = true
          then step1 N conse s else .ok (false, s)) with
      | error e => rfl
      | ok x =>
        obtain ⟨d, s1⟩ := x
        cases d with
        | false => rfl
        | true =>
          obtain ⟨hsub, hlong⟩ : s1.obs.Sublist series ∧ s1.iStart + MIN_OBS ≤ s1.i + 1 := by
            split at hx
            · rename_i hcond
              rw [Bool.and_eq_true, decide_eq_true_eq] at hcond
              have := hcond.1
              unfold MIN_OBS at this
              exact ⟨(step1_sub (by omega) hx).trans hs, step1_long hx⟩
            · cases hx
          show (do let nx ← rd (s1.obs.map o) (s1.i + 1); _) =
            Except.map _ (do let nx ← rd s1.obs (s1.i + 1); _)
          rw [rd_map]
          cases hnx : rd s1.obs (s1.i + 1) with
          | error e => rfl
          | ok nx =>
            show (do let a ← rd (s1.obs.map o) s1.iStart; _) = Except.map _ (do let a ← rd s1.obs s1.iStart; _)
            rw [rd_map]
            cases rd s1.obs s1.iStart with
            | error e => rfl
            | ok a1 =>
              have hl := rd_lt hnx
              unfold MIN_OBS at hlong
              show Except.ok _ = Except.ok _
              congr 1
              simp only [St.move, slice_map,
                h.fit _ _ _ (slice_sub hsub s1.iStart s1.i) (by rw [slice_len (by omega) (by omega)]; omega),
                h.date, Option.map_some]

theorem step_sub {conse mode0 : Nat} {s s' : St F R} (e : step N conse mode0 s = .ok s') : s'.obs.Sublist s.obs := by
  unfold step at e
  split at e
  · exact step2_sub e
  · exact trainStep_sub e

theorem step_move (h : Moved series o oe f r g N) {conse : Nat} (hc : 1 ≤ conse) (mode0 : Nat) (s : St F R)
    (hs : s.obs.Sublist series) :
    step N conse mode0 (s.move o f r g) = (step N conse mode0 s).map (St.move o f r g) := by
  unfold step
  show (if s.train = true then _ else _) = _
  split
  · exact step2_move h hc mode0 s hs
  · exact trainStep_move h hc s hs

theorem loop_sub {conse mode0 : Nat} : ∀ (k : Nat) {s s' : St F R}, loop N conse mode0 k s = .ok s' →
    s'.obs.Sublist s.obs
  | 0, s, s', e => by
    unfold loop at e
    split at e
    · cases e
    · cases e; exact List.Sublist.refl _
  | k + 1, s, s', e => by
    unfold loop at e
    split at e
    · cases h1 : step N conse mode0 s with
      | error _ => rw [h1] at e; cases e
      | ok s1 =>
        rw [h1] at e
        exact (loop_sub k e).trans (step_sub h1)
    · cases e; exact List.Sublist.refl _

theorem loop_move (h : Moved series o oe f r g N) {conse : Nat} (hc : 1 ≤ conse) (mode0 : Nat) :
    ∀ (k : Nat) (s : St F R), s.obs.Sublist series →
    loop N conse mode0 k (s.move o f r g) = (loop N conse mode0 k s).map (St.move o f r g)
  | 0, s, _ => by
    unfold loop
    show (if s.i + conse + 1 ≤ (s.obs.map o).length then _ else _) = _
    rw [List.length_map]
    split <;> rfl
  | k + 1, s, hs => by
    unfold loop
    show (if s.i + conse + 1 ≤ (s.obs.map o).length then _ else _) = _
    rw [List.length_map]
    split
    · rw [step_move h hc mode0 s hs]
      cases h1 : step N conse mode0 s with
      | error e => rfl
      | ok s' => exact loop_move h hc mode0 k s' ((step_sub h1).trans hs)
    · rfl

theorem newMode_move (h : Moved series o oe f r g N) (conse mode0 : Nat) (s : St F R) :
    newMode conse mode0 (s.move o f r g) = newMode conse mode0 s := by
  unfold newMode
  show (if mode0 = 0 then if s.train then _ else _ else if s.changed then _ else
    if _ then if s.train then _ else _ else if _ then _ else _) = _
  split
  · rfl
  split
  · rfl
  split
  · rfl
  split
  · show (match s.model.map g with | none => _ | some m => _) = _
    cases s.model with
    | none => rfl
    | some mm =>
      show (match (g mm).obs with | [] => _ | d :: _ => _) = (match mm.obs with | [] => _ | d :: _ => _)
      have hd := h.dates mm
      cases h1 : (g mm).obs <;> cases h2 : mm.obs <;> rw [h1, h2] at hd
      · cases hd
      · cases hd
      · rename_i d' l' d l
        have hdd : d'.date = d.date := by
          rw [List.map_cons, List.map_cons] at hd
          injection hd
        show (if (s.obs.map o).length < conse then _ else _) = _
        rw [List.length_map]
        show _ = (if s.obs.length < conse then _ else _)
        split
        · rfl
        · show (do let x ← rd (s.obs.map o) ((s.obs.map o).length - conse); _) = _
          rw [rd_map, List.length_map]
          cases rd s.obs (s.obs.length - conse) with
          | error e => rfl
          | ok x =>
            show (if (o x).date - d'.date - LAUNCH < DELAY_DAYS then _ else _) = _
            rw [h.date, hdd]
            rfl
  · rfl

theorem storeModel_move (h : Moved series o oe f r g N) (conse mode : Nat) (s : St F R) (hs : s.obs.Sublist series)
    (x : F) :
    storeModel N conse mode (s.move o f r g) (f x) =
      (storeModel N conse mode s x).map (fun y => (y.1, y.2.move o oe f)) := by
  unfold storeModel
  show (if (s.obs.map o).length < conse then _ else _) = _
  rw [List.length_map]
  split
  · rfl
  · show (do chk (s.obs.map o) (s.i + min conse NCONSE - 1); _) = _
    rw [chk_map]
    cases chk s.obs (s.i + min conse NCONSE - 1) with
    | error e => rfl
    | ok _ =>
      show Except.ok _ = Except.ok _
      have hn : ((s.obs.map o).drop (s.obs.length - conse)).reverse =
          ((s.obs.drop (s.obs.length - conse)).reverse).map o := by
        rw [← List.map_drop, ← List.map_reverse]
      have hm : ∀ l : List Obs, (l.map o).map (N.endMag (f x) s.numObs) = l.map (N.endMag x s.numObs) := by
        intro l
        rw [List.map_map]
        exact List.map_congr_left fun y _ => h.endMag x _ y
      simp only [St.move, List.length_map, hn, hm, h.narrow,
        tail8_move h conse hs, ← List.map_take, h.endAngle, Model.move]
      congr 3
      split
      · rfl
      · rw [List.map_replicate, h.pad]

theorem storeQueue_move (h : Moved series o oe f r g N) {l : List Obs} (hl : l.Sublist series) (pb : Nat) :
    storeQueue (l.map o) pb = (storeQueue l pb).map (List.map oe) := by
  unfold storeQueue
  have h1 : ((l.drop (l.length - 1 - MAX_QUEUE)).take MAX_QUEUE).Sublist series :=
    ((List.take_sublist _ _).trans (List.drop_sublist _ _)).trans hl
  have h2 : (l.drop pb).Sublist series := (List.drop_sublist _ _).trans hl
  simp only [List.length_map, ← List.map_drop, ← List.map_take, map_encode_move h h1, map_encode_move h h2]
  split <;> rfl

theorem step3_move (h : Moved series o oe f r g N) (conse mode pb : Nat) (q : List Obs) (s : St F R)
    (hs : s.obs.Sublist series) :
    step3 N conse mode pb (q.map oe) (s.move o f r g) = (step3 N conse mode pb q s).map
      (Out.move o oe r (if mode % 10 = 1 then Model.move o oe f else g)) := by
  unfold step3
  have fin : ∀ (g : Model F → Model F) (mode' : Nat) (model : Option (Model F)),
      (do let queue ← (if mode' % 10 = 2 ∨ mode' % 10 = 5 then storeQueue (s.obs.map o) pb
            else .ok (q.map oe))
          .ok { mode := mode', recs := s.recs.map (Rec.map o r), model := model.map g,
                queue := queue, removed := s.removed.map o } : Except Err (Out F R)) =
      (do let queue ← (if mode' % 10 = 2 ∨ mode' % 10 = 5 then storeQueue s.obs pb else .ok q)
          .ok { mode := mode', recs := s.recs, model := model, queue := queue,
                removed := s.removed } : Except Err (Out F R)).map (Out.move o oe r g) := by
    intro g mode' model
    rw [storeQueue_move h hs]
    split
    · cases storeQueue s.obs pb <;> rfl
    · rfl
  split
  · have hsf : (s.move o f r g).filt = s.filt.map f := rfl
    rw [hsf]
    cases s.filt with
    | none => rfl
    | some x =>
      simp only [Option.map_some]
      rw [storeModel_move h _ _ _ hs]
      cases storeModel N conse mode s x with
      | error e => rfl
      | ok y => exact fin (Model.move o oe f) y.1 (some y.2)
  · exact fin _ mode s.model

theorem step3_mode {conse mode pb : Nat} {q : List Obs} {s : St F R} : ∀ x, step3 N conse mode pb q s = .ok x →
    (mode % 10 = 1 → x.mode % 10 = 1) ∧ (mode % 10 ≠ 1 → x.mode = mode) := by
  intro x e
  unfold step3 at e
  split at e
  · rename_i hm
    refine ⟨fun _ => ?_, fun hn => absurd hm hn⟩
    split at e
    · cases e
    · rename_i y hf
      cases hst : storeModel N conse mode s y with
      | error _ => rw [hst] at e; cases e
      | ok w =>
        rw [hst] at e
        have hw : w.1 % 10 = 1 := by
          unfold storeModel at hst
          split at hst
          · cases hst
          · simp only [bind, Except.bind] at hst
            split at hst
            · cases hst
            · cases hst
              dsimp only
              split
              · omega
              · exact hm
        simp only [bind, Except.bind] at e
        split at e
        · cases e
        · cases e; exact hw
  · rename_i hm
    refine ⟨fun h => absurd h hm, fun _ => ?_⟩
    simp only [bind, Except.bind] at e
    split at e
    · cases e
    · cases e; rfl

theorem standard_move (h : Moved series o oe f r g N) {conse : Nat} (hc : 1 ≤ conse) (mode0 : Nat)
    (model : Option (Model F)) (hm : mode0 % 10 = 1 → ∀ m, model = some m → g m = m.move o oe f)
    (recs : List (Rec R)) (q : List Obs) :
    ∃ k : Nat, (∀ x, standard N conse mode0 model recs q series = .ok x → k % 10 = 1 → x.mode % 10 = 1) ∧
    (∀ x, standard N conse mode0 model recs q series = .ok x → k % 10 ≠ 1 → x.mode = k) ∧
    standard N conse mode0 (model.map g) (recs.map (Rec.map o r)) (q.map oe) (series.map o) =
      (standard N conse mode0 model recs q series).map
        (Out.move o oe r (if k % 10 = 1 then Model.move o oe f else g)) := by
  unfold standard
  have hinit : initSt mode0 (model.map g) (recs.map (Rec.map o r)) (series.map o) =
      (initSt mode0 model recs series).map (St.move o f r g) := by
    unfold initSt
    split
    · rename_i h1
      cases hmo : model with
      | none => rfl
      | some m =>
        have := hm h1 m hmo
        simp only [Option.map_some]
        show Except.ok _ = Except.ok _
        rw [this]
        simp only [St.move, Model.move, Option.map_some, List.map_nil, this]
    · rfl
  rw [hinit, List.length_map]
  cases h0 : initSt mode0 model recs series with
  | error e => exact ⟨0, nofun, nofun, rfl⟩
  | ok s0 =>
    have e0 : s0.obs = series := by
      unfold initSt at h0
      split at h0
      · split at h0
        · cases h0
        · cases h0; rfl
      · cases h0; rfl
    have e1 : (do let s ← loop N conse mode0 (series.length + 1) (s0.move o f r g)
                  let (mode, pb) ← newMode conse mode0 s
                  step3 N conse mode pb (q.map oe) s : Except Err (Out F R)) =
        (do let s ← (loop N conse mode0 (series.length + 1) s0).map (St.move o f r g)
            let (mode, pb) ← newMode conse mode0 s
            step3 N conse mode pb (q.map oe) s : Except Err (Out F R)) := by
      rw [loop_move h hc mode0 _ s0 (by rw [e0]; exact List.Sublist.refl _)]
    cases h1 : loop N conse mode0 (series.length + 1) s0 with
    | error e =>
      rw [h1] at e1
      refine ⟨0, ?_, ?_, e1.trans ?_⟩
      · simp only [bind, Except.bind, h1]; nofun
      · simp only [bind, Except.bind, h1]; nofun
      · simp only [bind, Except.bind, h1]; rfl
    | ok s =>
      rw [h1] at e1
      have hs : s.obs.Sublist series := by
        have := loop_sub _ h1
        rwa [e0] at this
      have e2 : (do let (mode, pb) ← newMode conse mode0 (s.move o f r g)
                    step3 N conse mode pb (q.map oe) (s.move o f r g) : Except Err (Out F R)) =
          (do let (mode, pb) ← newMode conse mode0 s
              step3 N conse mode pb (q.map oe) (s.move o f r g) : Except Err (Out F R)) := by
        rw [newMode_move h]
      cases h2 : newMode conse mode0 s with
      | error e =>
        rw [h2] at e2
        refine ⟨0, ?_, ?_, e1.trans (e2.trans ?_)⟩
        · simp only [bind, Except.bind, h1, h2]; nofun
        · simp only [bind, Except.bind, h1, h2]; nofun
        · simp only [bind, Except.bind, h1, h2]; rfl
      | ok x =>
        rw [h2] at e2
        have hk := step3_mode (N := N) (conse := conse) (mode := x.1) (pb := x.2) (q := q) (s := s)
        refine ⟨x.1, ?_, ?_, e1.trans (e2.trans ?_)⟩
        · simp only [bind, Except.bind, h1, h2]; exact fun y hy => (hk y hy).1
        · simp only [bind, Except.bind, h1, h2]; exact fun y hy => (hk y hy).2
        · simp only [bind, Except.bind, h1, h2]; exact step3_move h conse x.1 x.2 q s hs

end Pycold.Sccd
