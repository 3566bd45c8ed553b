import Mathlib.Data.List.InsertIdx
import Verif.Model.Sccd
/-! S-CCD commutes with forgetting part of the data. -/
namespace Pycold.Sccd

variable {V F R M F' R' M' : Type}

/-- Forgetting part of the values of an observation. -/
structure ObsMap (o : Obs → Obs) : Prop where
  date : ∀ x, (o x).date = x.date
  enc : ∀ x, o (encode x) = encode (o x)
  dec : ∀ x, o (decode x) = decode (o x)
  pad : o padObs = padObs

/-- `N'` computes from the remaining data what `N` computes from all of it. -/
structure Hom (o : Obs → Obs) (f : F → F') (r : R → R') (N : Num V F R) (N' : Num V F' R') : Prop where
  lt : N'.lt = N.lt
  le : N'.le = N.le
  big : N'.big = N.big
  tcg : N'.tcg = N.tcg
  tmax : N'.tmax = N.tmax
  tmaxLb : N'.tmaxLb = N.tmaxLb
  nsign : N'.nsign = N.nsign
  gate : N'.gate = N.gate
  pred : N'.pred = N.pred
  mask : ∀ w, N'.mask (w.map o) = N.mask w
  unstable : ∀ w, N'.unstable (w.map o) = N.unstable w
  lbMag : ∀ w x, N'.lbMag (w.map o) (o x) = N.lbMag w x
  lbAngle : ∀ w l, N'.lbAngle (w.map o) (l.map o) = N.lbAngle w l
  firstRec : ∀ a b c, N'.firstRec (a.map o) (b.map o) (c.map o) = r (N.firstRec a b c)
  fit : ∀ p w x, N'.fit (p.map f) (w.map o) (o x) = f (N.fit p w x)
  mag : ∀ x n y, N'.mag (f x) n (o y) = N.mag x n y
  angle : ∀ x n l, N'.angle (f x) n (l.map o) = N.angle x n l
  changeRec : ∀ x n l, N'.changeRec (f x) n (l.map o) = r (N.changeRec x n l)
  filter : ∀ x y t, N'.filter (f x) (o y) t = f (N.filter x y t)
  skip : ∀ x y t, N'.skip (f x) (o y) t = f (N.skip x y t)
  endMag : ∀ x n y, N'.endMag (f x) n (o y) = N.endMag x n y
  endAngle : ∀ x n l, N'.endAngle (f x) n (l.map o) = N.endAngle x n l
  scale : N'.scale = N.scale
  narrow : ∀ x, N'.narrow (f x) = f (N.narrow x)
  snowFit : ∀ w, N'.snowFit (w.map o) = f (N.snowFit w)
  snowFilter : ∀ x y t, N'.snowFilter (f x) (o y) t = f (N.snowFilter x y t)

def Rec.map (o : Obs → Obs) (r : R → R') (x : Rec R) : Rec R' :=
  { tStart := x.tStart, tBreak := x.tBreak, numObs := x.numObs, body := r x.body, lead := x.lead.map o,
    span := x.span.map o }

def Model.map (o : Obs → Obs) (f : F → F') (m : Model F) : Model F' :=
  { filt := f m.filt, tStart := m.tStart, numObs := m.numObs, obs := m.obs.map o, normCm := m.normCm,
    cmAngle := m.cmAngle, conseLast := m.conseLast, pre := m.pre.map o, seg := m.seg.map o }

def St.map (o : Obs → Obs) (f : F → F') (r : R → R') (s : St F R) : St F' R' :=
  { obs := s.obs.map o, i := s.i, iStart := s.iStart, iDense := s.iDense, prevBreak := s.prevBreak,
    train := s.train, filt := s.filt.map f, tStart := s.tStart, numObs := s.numObs,
    recs := s.recs.map (Rec.map o r), model := s.model.map (Model.map o f), changed := s.changed,
    pre := s.pre.map o, seg := s.seg.map o, removed := s.removed.map o }

def LB.map (o : Obs → Obs) (b : LB) : LB :=
  { obs := b.obs.map o, i := b.i, iStart := b.iStart, removed := b.removed.map o }

def Out.map (o : Obs → Obs) (f : F → F') (r : R → R') (x : Out F R) : Out F' R' :=
  { mode := x.mode, recs := x.recs.map (Rec.map o r), model := x.model.map (Model.map o f),
    queue := x.queue.map o, removed := x.removed.map o }

def Pack.map (o : Obs → Obs) (f : F → F') (r : R → R') (m : M → M') (p : Pack F R M) : Pack F' R' M' :=
  { mode := p.mode, recs := p.recs.map (Rec.map o r), minRmse := m p.minRmse,
    model := p.model.map (Model.map o f), queue := p.queue.map o, removed := p.removed.map o }

variable {o : Obs → Obs} {f : F → F'} {r : R → R'} {m : M → M'} {N : Num V F R} {N' : Num V F' R'}

theorem rd_map (l : List Obs) (k : Nat) : rd (l.map o) k = (rd l k).map o := by
  unfold rd
  rw [List.getElem?_map]
  cases l[k]? <;> rfl

theorem chk_map (l : List Obs) (k : Nat) : chk (l.map o) k = chk l k := by
  unfold chk
  rw [List.length_map]

theorem slice_map (l : List Obs) (a b : Nat) : slice (l.map o) a b = (slice l a b).map o := by
  unfold slice
  rw [List.map_take, List.map_drop]

theorem keep_map (flag : Nat → Bool) : ∀ (l : List Obs) (k : Nat),
    keep flag k (l.map o) = (keep flag k l).map o
  | [], _ => rfl
  | x :: l, k => by
    simp only [List.map_cons, keep, keep_map flag l]
    split <;> simp

theorem flagged_map (flag : Nat → Bool) : ∀ (l : List Obs) (k : Nat),
    flagged flag k (l.map o) = (flagged flag k l).map o
  | [], _ => rfl
  | x :: l, k => by
    simp only [List.map_cons, flagged, flagged_map flag l]
    split <;> simp

theorem maxGap_map (ho : ObsMap o) : ∀ (l : List Obs) (g : Int), maxGap (l.map o) g = maxGap l g
  | [], _ => rfl
  | [_], _ => rfl
  | a :: b :: l, g => by
    have ih := maxGap_map ho (b :: l)
    simp only [List.map_cons] at ih
    simp only [List.map_cons, maxGap, ho.date, ih]

theorem eraseIdx_map' (l : List Obs) (k : Nat) : (l.map o).eraseIdx k = (l.eraseIdx k).map o := by
  rw [List.eraseIdx_map]

theorem minMag_hom (h : Hom o f r N N') (l : List V) : minMag N' l = minMag N l := by
  unfold minMag
  rw [h.lt, h.big]

theorem lookBack_hom (h : Hom o f r N N') (conse : Nat) (w : List Obs) (prev : Nat) :
    ∀ (k : Nat) (b : LB), lookBack N' conse (w.map o) prev k (b.map o) =
      (lookBack N conse w prev k b).map (LB.map o)
  | 0, b => rfl
  | k + 1, b => by
    have ih := lookBack_hom h conse w prev k
    unfold lookBack
    dsimp only
    generalize hc : (if k + 1 < conse then k + 1 else conse) = c
    split
    · rfl
    · show (do chk (b.obs.map o) _; _) = _
      rw [chk_map]
      cases chk b.obs (prev + k) with
      | error e => rfl
      | ok _ =>
        show (do let x ← rd (b.obs.map o) _; _) = Except.map _ (do let x ← rd b.obs _; _)
        rw [rd_map]
        cases hx : rd b.obs (prev + k) with
        | error e => rfl
        | ok x =>
          show (if _ then _ else _) = Except.map _ (if _ then _ else _)
          have hs : (slice (LB.map o b).obs (prev + k + 1 - c) (prev + k)).reverse =
              ((slice b.obs (prev + k + 1 - c) (prev + k)).reverse).map o := by
            show (slice (b.obs.map o) _ _).reverse = _
            rw [slice_map, List.map_reverse]
          have hl : ((slice b.obs (prev + k + 1 - c) (prev + k)).reverse.map o).map (N'.lbMag (w.map o)) =
              (slice b.obs (prev + k + 1 - c) (prev + k)).reverse.map (N.lbMag w) := by
            rw [List.map_map]
            exact List.map_congr_left fun y _ => h.lbMag w y
          rw [hs, hl, minMag_hom h, h.lbAngle, h.lt, h.tcg, h.nsign]
          split
          · rfl
          · rw [h.tmaxLb, h.lbMag]
            split
            · show (if b.i = 0 then _ else _) = Except.map _ (if b.i = 0 then _ else _)
              split
              · rfl
              · rw [← ih]
                congr 1
                show LB.mk _ _ _ _ = LB.mk _ _ _ _
                simp only [LB.map, eraseIdx_map', List.map_append, List.map_cons, List.map_nil]
            · rw [← ih]
              rfl

theorem firstCurve_hom (ho : ObsMap o) (h : Hom o f r N N') (conse : Nat) (w : List Obs) (prev oldPrev : Nat)
    (s : St F R) : firstCurve N' conse (w.map o) prev oldPrev (s.map o f r) =
      (firstCurve N conse w prev oldPrev s).map (St.map o f r) := by
  unfold firstCurve
  have hr : (St.map o f r s).recs.isEmpty = s.recs.isEmpty := by simp [St.map]
  rw [hr]
  show (if (s.recs.isEmpty && decide (s.iDense + LASSO_MIN ≤ s.iStart)) = true then _ else _) = _
  split
  · show (do let x ← rd (s.obs.map o) s.iStart; _) = _
    rw [rd_map]
    cases rd s.obs s.iStart with
    | error e => rfl
    | ok x =>
      show (do let x0 ← rd (s.obs.map o) 0; _) = Except.map _ (do let x0 ← rd s.obs 0; _)
      rw [rd_map]
      cases rd s.obs 0 with
      | error e => rfl
      | ok x0 =>
        show (if s.iStart < conse then _ else _) = Except.map _ (if s.iStart < conse then _ else _)
        split
        · rfl
        · show Except.ok _ = Except.ok _
          congr 1
          simp only [St.map, ho.date, slice_map, ← List.map_drop, ← List.map_take, h.firstRec,
            List.map_append, List.map_cons, List.map_nil, Rec.map]
  · show Except.ok _ = Except.ok _
    congr 1
    simp only [St.map, List.map_drop, List.map_take]

theorem step1_hom (ho : ObsMap o) (h : Hom o f r N N') (conse : Nat) (s : St F R) :
    step1 N' conse (s.map o f r) =
      (step1 N conse s).map (fun x => (x.1, x.2.map o f r)) := by
  unfold step1
  show (if s.i < MIN_OBS - 1 then _ else _) = _
  split
  · rfl
  · show (do chk (s.obs.map o) s.i; _) = _
    rw [chk_map]
    cases chk s.obs s.i with
    | error e => rfl
    | ok _ =>
      show (if 4 * maxGap (slice (s.obs.map o) s.iStart s.i) 0 > 1461 then _ else _) =
        Except.map _ (if _ then _ else _)
      rw [slice_map, maxGap_map ho]
      split
      · rfl
      · show (do chk (s.obs.map o) (min (s.i + conse - 1) ((s.obs.map o).length - 1)); _) = _
        rw [chk_map, List.length_map]
        generalize hte : min (s.i + conse - 1) (s.obs.length - 1) = te
        cases chk s.obs te with
        | error e => rfl
        | ok _ =>
          show (if (keep (N'.mask (slice (s.obs.map o) s.iStart (min (s.i + conse - 1)
              ((s.obs.map o).length - 1)))) 0
            (slice (s.obs.map o) s.iStart s.i)).length < MIN_OBS then _ else _) =
            Except.map _ (if (keep (N.mask (slice s.obs s.iStart te)) 0
              (slice s.obs s.iStart s.i)).length < MIN_OBS then _ else _)
          simp only [St.map]
          simp only [List.length_map, hte, slice_map, h.mask, keep_map, flagged_map]
          generalize hk : keep (N.mask (slice s.obs s.iStart te)) 0 (slice s.obs s.iStart s.i) = kept
          split
          · rfl
          · generalize hfl : flagged (N.mask (slice s.obs s.iStart te)) 0 (slice s.obs s.iStart s.i) = fl
            have hcp : (s.obs.map o).take s.iStart ++ kept.map o ++ (s.obs.map o).drop (s.i + 1) =
                (s.obs.take s.iStart ++ kept ++ s.obs.drop (s.i + 1)).map o := by
              rw [List.map_append, List.map_append, List.map_take, List.map_drop]
            rw [hcp]
            generalize s.obs.take s.iStart ++ kept ++ s.obs.drop (s.i + 1) = cp
            generalize s.iStart + kept.length - 1 = i'
            simp only [rd_map, slice_map]
            cases rd cp s.iStart with
            | error e => rfl
            | ok a =>
              cases rd cp i' with
              | error e => rfl
              | ok b =>
                show (if (!yearOrMore ((o b).date - (o a).date)) = true then _ else _) =
                  Except.map _ (if (!yearOrMore (b.date - a.date)) = true then _ else _)
                rw [ho.date, ho.date]
                split
                · rfl
                · rw [h.unstable]
                  split
                  · show Except.ok _ = Except.ok _
                    simp only [List.map_append]
                  · have hr : (s.recs.map (Rec.map o r)).isEmpty = s.recs.isEmpty := by simp
                    simp only [hr]
                    generalize (if s.recs.isEmpty then s.iDense else s.prevBreak) = prev
                    have hlb := lookBack_hom h conse (slice cp s.iStart i') prev (s.iStart - prev)
                      ⟨cp, i', s.iStart, s.removed ++ fl⟩
                    simp only [LB.map, List.map_append] at hlb
                    rw [hlb]
                    cases lookBack N conse (slice cp s.iStart i') prev (s.iStart - prev)
                      ⟨cp, i', s.iStart, s.removed ++ fl⟩ with
                    | error e => rfl
                    | ok lb =>
                      have hf := firstCurve_hom ho h conse (slice cp s.iStart i') prev s.prevBreak
                        { s with obs := lb.obs, i := lb.i, iStart := lb.iStart, removed := lb.removed }
                      simp only [St.map] at hf
                      show (do let s'' ← firstCurve N' conse ((slice cp s.iStart i').map o) prev s.prevBreak _
                               _) = _
                      simp only [LB.map]
                      rw [hf]
                      show _ = Except.map _ (do
                        let s'' ← firstCurve N conse (slice cp s.iStart i') prev s.prevBreak
                          { s with obs := lb.obs, i := lb.i, iStart := lb.iStart, removed := lb.removed }
                        Except.ok (true, s''))
                      cases firstCurve N conse (slice cp s.iStart i') prev s.prevBreak
                          { s with obs := lb.obs, i := lb.i, iStart := lb.iStart, removed := lb.removed } with
                      | error e => rfl
                      | ok x => rfl

theorem map_encode (ho : ObsMap o) (l : List Obs) : (l.map o).map encode = (l.map encode).map o := by
  rw [List.map_map, List.map_map]
  exact List.map_congr_left fun x _ => (ho.enc x).symm

theorem tail8_map (ho : ObsMap o) (conse : Nat) (l : List Obs) (i : Nat) :
    tail8 conse (l.map o) i = (tail8 conse l i).map o := by
  unfold tail8
  simp only [← List.map_drop, ← List.map_take, map_encode ho]
  rw [List.map_take (f := o) (i := NCONSE), List.map_append, List.map_replicate, ho.pad]

theorem snapshot_hom (ho : ObsMap o) (h : Hom o f r N N') (conse : Nat) (s : St F R) (x : F) (w : List Obs) :
    snapshot N' conse (s.map o f r) (f x) (w.map o) = (snapshot N conse s x w).map o f := by
  have hm : (w.map o).map (N'.mag (f x) s.numObs) = w.map (N.mag x s.numObs) := by
    rw [List.map_map]
    exact List.map_congr_left fun y _ => h.mag x _ y
  simp only [snapshot, Model.map, St.map, h.narrow, h.scale, tail8_map ho, h.angle, minMag_hom h, hm]

theorem allAbove_hom (h : Hom o f r N N') (x : F) (n : Int) : ∀ (l : List Obs) (v : V),
    allAbove N' (f x) n v (l.map o) = allAbove N x n v l
  | [], _ => rfl
  | y :: l, v => by
    have ih := allAbove_hom h x n l
    simp only [List.map_cons, allAbove, h.mag, h.lt, h.tcg, ih]

theorem isChange_hom (h : Hom o f r N N') (x : F) (n : Int) (l : List Obs) :
    isChange N' (f x) n (l.map o) = isChange N x n l := by
  simp only [isChange, allAbove_hom h, h.big, h.lt, h.nsign, h.angle]

theorem step2_hom (ho : ObsMap o) (h : Hom o f r N N') (conse mode0 : Nat) (s : St F R) :
    step2 N' conse mode0 (s.map o f r) = (step2 N conse mode0 s).map (St.map o f r) := by
  unfold step2
  show (match s.filt.map f with | none => _ | some f => _) = _
  cases hf : s.filt with
  | none => rfl
  | some x =>
    show (do chk (s.obs.map o) (s.i + conse - 1); _) = _
    rw [chk_map]
    cases chk s.obs (s.i + conse - 1) with
    | error e => rfl
    | ok _ =>
      show (do let y ← rd (s.obs.map o) s.i; _) = Except.map _ (do let y ← rd s.obs s.i; _)
      rw [rd_map]
      cases rd s.obs s.i with
      | error e => rfl
      | ok y =>
        have hw : ((s.map o f r).obs.drop s.i).take conse = ((s.obs.drop s.i).take conse).map o := by
          show ((s.obs.map o).drop s.i).take conse = _
          rw [List.map_take, List.map_drop]
        show (if isChange N' (f x) s.numObs (((s.map o f r).obs.drop s.i).take conse) = true then _ else _) =
          Except.map _ (if _ then _ else _)
        rw [hw, isChange_hom h]
        split
        · show Except.ok _ = Except.ok _
          congr 1
          have hw' : ((s.map o f r).obs.drop (s.map o f r).i).take conse =
            ((s.obs.drop s.i).take conse).map o := hw
          rw [hw', snapshot_hom ho h]
          simp only [St.map, Rec.map, ho.date, h.changeRec, List.map_append, List.map_cons, List.map_nil,
            Option.map_some, hf]
        · show (do let nx ← rd (s.obs.map o) (s.i + 1); _) = Except.map _ (do let nx ← rd s.obs (s.i + 1); _)
          rw [rd_map]
          cases rd s.obs (s.i + 1) with
          | error e => rfl
          | ok nx =>
            show (if N'.lt N'.tmax (N'.mag (f x) s.numObs (o y)) = true then _ else _) =
              Except.map _ (if _ then _ else _)
            rw [h.lt, h.tmax, h.mag]
            split
            · show Except.ok _ = Except.ok _
              congr 1
              simp only [St.map, ho.date, h.skip, eraseIdx_map', List.map_append, List.map_cons, List.map_nil,
                Option.map_some]
            · show Except.ok _ = Except.ok _
              congr 1
              simp only [St.map, ho.date, h.filter, List.map_append, List.map_cons, List.map_nil,
                Option.map_some]

theorem trainStep_hom (ho : ObsMap o) (h : Hom o f r N N') (conse : Nat) (s : St F R) :
    trainStep N' conse (s.map o f r) = (trainStep N conse s).map (St.map o f r) := by
  unfold trainStep
  show (do let a ← rd (s.obs.map o) s.iStart; _) = _
  rw [rd_map]
  cases rd s.obs s.iStart with
  | error e => rfl
  | ok a =>
    show (do let b ← rd (s.obs.map o) s.i; _) = Except.map _ (do let b ← rd s.obs s.i; _)
    rw [rd_map]
    cases rd s.obs s.i with
    | error e => rfl
    | ok b =>
      show (do
        let (done, s1) ← (if decide (s.iStart + MIN_OBS ≤ s.i + 1) && yearOrMore ((o b).date - (o a).date)
          then step1 N' conse (s.map o f r) else .ok (false, s.map o f r)); _) = _
      rw [ho.date, ho.date, step1_hom ho h]
      have e : (if (decide (s.iStart + MIN_OBS ≤ s.i + 1) && yearOrMore (b.date - a.date)) = true
          then (step1 N conse s).map (fun x => (x.1, x.2.map o f r)) else .ok (false, s.map o f r)) =
          (if (decide (s.iStart + MIN_OBS ≤ s.i + 1) && yearOrMore (b.date - a.date)) = true
          then step1 N conse s else .ok (false, s)).map (fun x => (x.1, x.2.map o f r)) := by
        split <;> rfl
      rw [e]
      show _ = Except.map _ (do
        let (done, s1) ← (if decide (s.iStart + MIN_OBS ≤ s.i + 1) && yearOrMore (b.date - a.date)
          then step1 N conse s else .ok (false, s)); _)
      cases (if (decide (s.iStart + MIN_OBS ≤ s.i + 1) && yearOrMore (b.date - a.date)) = true
          then step1 N conse s else .ok (false, s)) with
      | error e => rfl
      | ok x =>
        obtain ⟨d, s1⟩ := x
        cases d with
        | false => rfl
        | true =>
          show (do let nx ← rd (s1.obs.map o) (s1.i + 1); _) =
            Except.map _ (do let nx ← rd s1.obs (s1.i + 1); _)
          rw [rd_map]
          cases rd s1.obs (s1.i + 1) with
          | error e => rfl
          | ok nx =>
            show (do let a ← rd (s1.obs.map o) s1.iStart; _) = Except.map _ (do let a ← rd s1.obs s1.iStart; _)
            rw [rd_map]
            cases rd s1.obs s1.iStart with
            | error e => rfl
            | ok a1 =>
              show Except.ok _ = Except.ok _
              congr 1
              simp only [St.map, slice_map, h.fit, ho.date, Option.map_some]

theorem step_hom (ho : ObsMap o) (h : Hom o f r N N') (conse mode0 : Nat) (s : St F R) :
    step N' conse mode0 (s.map o f r) = (step N conse mode0 s).map (St.map o f r) := by
  unfold step
  show (if s.train = true then _ else _) = _
  split
  · exact step2_hom ho h conse mode0 s
  · exact trainStep_hom ho h conse s

theorem loop_hom (ho : ObsMap o) (h : Hom o f r N N') (conse mode0 : Nat) : ∀ (k : Nat) (s : St F R),
    loop N' conse mode0 k (s.map o f r) = (loop N conse mode0 k s).map (St.map o f r)
  | 0, s => by
    unfold loop
    show (if s.i + conse + 1 ≤ (s.obs.map o).length then _ else _) = _
    rw [List.length_map]
    split <;> rfl
  | k + 1, s => by
    unfold loop
    show (if s.i + conse + 1 ≤ (s.obs.map o).length then _ else _) = _
    rw [List.length_map]
    split
    · rw [step_hom ho h]
      cases step N conse mode0 s with
      | error e => rfl
      | ok s' => exact loop_hom ho h conse mode0 k s'
    · rfl

theorem newMode_hom (ho : ObsMap o) (conse mode0 : Nat) (s : St F R) :
    newMode conse mode0 (s.map o f r) = newMode conse mode0 s := by
  unfold newMode
  show (if mode0 = 0 then if s.train then _ else _ else if s.changed then _ else
    if _ then if s.train then _ else _ else if _ then _ else _) = _
  split
  · rfl
  split
  · rfl
  split
  · rfl
  split
  · show (match s.model.map (Model.map o f) with | none => _ | some m => _) = _
    cases s.model with
    | none => rfl
    | some mm =>
      show (match mm.obs.map o with | [] => _ | d :: _ => _) = (match mm.obs with | [] => _ | d :: _ => _)
      cases mm.obs with
      | nil => rfl
      | cons d l =>
        show (if (s.obs.map o).length < conse then _ else _) = _
        rw [List.length_map]
        show _ = (if s.obs.length < conse then _ else _)
        split
        · rfl
        · show (do let x ← rd (s.obs.map o) ((s.obs.map o).length - conse); _) = _
          rw [rd_map, List.length_map]
          cases rd s.obs (s.obs.length - conse) with
          | error e => rfl
          | ok x =>
            show (if (o x).date - (o d).date - LAUNCH < DELAY_DAYS then _ else _) = _
            rw [ho.date, ho.date]
            rfl
  · rfl

theorem leadCount_hom (h : Hom o f r N N') : ∀ l : List V, leadCount N' l = leadCount N l
  | [] => rfl
  | v :: l => by simp only [leadCount, h.le, h.gate, leadCount_hom h l]

theorem storeModel_hom (ho : ObsMap o) (h : Hom o f r N N') (conse mode : Nat) (s : St F R) (x : F) :
    storeModel N' conse mode (s.map o f r) (f x) =
      (storeModel N conse mode s x).map (fun y => (y.1, y.2.map o f)) := by
  unfold storeModel
  show (if (s.obs.map o).length < conse then _ else _) = _
  rw [List.length_map]
  split
  · rfl
  · show (do chk (s.obs.map o) (s.i + min conse NCONSE - 1); _) = _
    rw [chk_map]
    cases chk s.obs (s.i + min conse NCONSE - 1) with
    | error e => rfl
    | ok _ =>
      show Except.ok _ = Except.ok _
      have hn : ((s.obs.map o).drop (s.obs.length - conse)).reverse =
          ((s.obs.drop (s.obs.length - conse)).reverse).map o := by
        rw [← List.map_drop, ← List.map_reverse]
      have hm : ∀ l : List Obs, (l.map o).map (N'.endMag (f x) s.numObs) = l.map (N.endMag x s.numObs) := by
        intro l
        rw [List.map_map]
        exact List.map_congr_left fun y _ => h.endMag x _ y
      simp only [St.map, List.length_map, hn, hm, leadCount_hom h, minMag_hom h, h.scale, h.narrow,
        tail8_map ho, ← List.map_take, h.endAngle, h.lt, h.pred, Model.map]
      congr 3
      split
      · rfl
      · rw [List.map_replicate, ho.pad]

theorem map_decode (ho : ObsMap o) (l : List Obs) : (l.map o).map decode = (l.map decode).map o := by
  rw [List.map_map, List.map_map]
  exact List.map_congr_left fun x _ => (ho.dec x).symm

theorem storeQueue_hom (ho : ObsMap o) (l : List Obs) (pb : Nat) :
    storeQueue (l.map o) pb = (storeQueue l pb).map (List.map o) := by
  unfold storeQueue
  simp only [List.length_map, ← List.map_drop, ← List.map_take, map_encode ho]
  split <;> rfl

theorem step3_hom (ho : ObsMap o) (h : Hom o f r N N') (conse mode pb : Nat) (q : List Obs) (s : St F R) :
    step3 N' conse mode pb (q.map o) (s.map o f r) = (step3 N conse mode pb q s).map (Out.map o f r) := by
  unfold step3
  have fin : ∀ (mode' : Nat) (model : Option (Model F)),
      (do let queue ← (if mode' % 10 = 2 ∨ mode' % 10 = 5 then storeQueue (s.obs.map o) pb
            else .ok (q.map o))
          .ok { mode := mode', recs := s.recs.map (Rec.map o r), model := model.map (Model.map o f),
                queue := queue, removed := s.removed.map o } : Except Err (Out F' R')) =
      (do let queue ← (if mode' % 10 = 2 ∨ mode' % 10 = 5 then storeQueue s.obs pb else .ok q)
          .ok { mode := mode', recs := s.recs, model := model, queue := queue,
                removed := s.removed } : Except Err (Out F R)).map (Out.map o f r) := by
    intro mode' model
    rw [storeQueue_hom ho]
    split
    · cases storeQueue s.obs pb <;> rfl
    · rfl
  split
  · have hsf : (s.map o f r).filt = s.filt.map f := rfl
    rw [hsf]
    cases s.filt with
    | none => rfl
    | some x =>
      simp only [Option.map_some]
      rw [storeModel_hom ho h]
      cases storeModel N conse mode s x with
      | error e => rfl
      | ok y => exact fin y.1 (some y.2)
  · exact fin mode s.model

theorem initSt_hom (mode0 : Nat) (model : Option (Model F)) (recs : List (Rec R)) (obs : List Obs) :
    initSt mode0 (model.map (Model.map o f)) (recs.map (Rec.map o r)) (obs.map o) =
      (initSt mode0 model recs obs).map (St.map o f r) := by
  unfold initSt
  split
  · cases model <;> rfl
  · rfl

theorem standard_hom (ho : ObsMap o) (h : Hom o f r N N') (conse mode0 : Nat) (model : Option (Model F))
    (recs : List (Rec R)) (q obs : List Obs) :
    standard N' conse mode0 (model.map (Model.map o f)) (recs.map (Rec.map o r)) (q.map o) (obs.map o) =
      (standard N conse mode0 model recs q obs).map (Out.map o f r) := by
  unfold standard
  rw [initSt_hom, List.length_map]
  cases initSt mode0 model recs obs with
  | error e => rfl
  | ok s0 =>
    show (do let s ← loop N' conse mode0 (obs.length + 1) (s0.map o f r); _) =
      Except.map _ (do let s ← loop N conse mode0 (obs.length + 1) s0; _)
    rw [loop_hom ho h]
    cases loop N conse mode0 (obs.length + 1) s0 with
    | error e => rfl
    | ok s =>
      show (do let (mode, pb) ← newMode conse mode0 (s.map o f r)
               step3 N' conse mode pb (q.map o) (s.map o f r)) =
        Except.map _ (do let (mode, pb) ← newMode conse mode0 s; _)
      rw [newMode_hom ho]
      cases newMode conse mode0 s with
      | error e => rfl
      | ok x => exact step3_hom ho h conse x.1 x.2 q s

theorem snowFilters_hom (ho : ObsMap o) (h : Hom o f r N N') : ∀ (l t : List Obs) (x : F),
    snowFilters N' (f x) (l.map o) (t.map o) = f (snowFilters N x l t)
  | [], _, _ => rfl
  | _ :: _, [], _ => rfl
  | a :: l, b :: t, x => by
    simp only [List.map_cons, snowFilters, ho.date, h.snowFilter]
    exact snowFilters_hom ho h l t _

theorem snow_hom (ho : ObsMap o) (h : Hom o f r N N') (mode0 : Nat) (model : Option (Model F))
    (recs : List (Rec R)) (q obs : List Obs) :
    snow N' mode0 (model.map (Model.map o f)) (recs.map (Rec.map o r)) (q.map o) (obs.map o) =
      (snow N mode0 model recs q obs).map (Out.map o f r) := by
  unfold snow
  rw [List.length_map]
  split
  · split
    · show Except.ok _ = Except.ok _
      rw [map_encode ho]
      rfl
    · cases obs with
      | nil => rfl
      | cons a l =>
        have e1 : (((a :: l).map o).drop ((a :: l).length - NCONSE)).map encode =
            (((a :: l).drop ((a :: l).length - NCONSE)).map encode).map o := by
          rw [← List.map_drop, map_encode ho]
        have e2 : N'.snowFit ((a :: l).map o) = f (N.snowFit (a :: l)) := h.snowFit (a :: l)
        have e3 : ((a :: l).map o).take ((a :: l).length - NCONSE) =
            ((a :: l).take ((a :: l).length - NCONSE)).map o := by rw [List.map_take]
        show Except.ok (Out.mk _ _ (some (Model.mk (N'.narrow (N'.snowFit ((a :: l).map o)))
          (toShort ((o a).date - LAUNCH)) _ ((((a :: l).map o).drop ((a :: l).length - NCONSE)).map encode)
          _ _ _ _ (((a :: l).map o).take ((a :: l).length - NCONSE)))) _ _) = Except.ok _
        rw [e1, e2, e3, h.narrow, ho.date]
        simp only [Out.map, Option.map_some, Model.map, List.map_nil]
  · cases model with
    | none => rfl
    | some mm =>
      show (if obs.length < NCONSE then _ else _) = _
      split
      · rfl
      · show Except.ok _ = Except.ok _
        congr 1
        simp only [Out.map, Option.map_some, Model.map, List.map_nil, List.map_append, ← List.map_take,
          ← List.map_drop, map_encode ho, ← List.map_tail, snowFilters_hom ho h, h.narrow]

/-! ### Whole calls -/

/-- `E'` is `E` without the forgotten data. -/
structure EnvHom (o : Obs → Obs) (f : F → F') (r : R → R') (m : M → M') (E : Env V F R M)
    (E' : Env V F' R' M') : Prop where
  conse : E'.conse = E.conse
  bC2 : E'.bC2 = E.bC2
  snowPct : E'.snowPct = E.snowPct
  num : ∀ x, Hom o f r (E.num x) (E'.num (m x))
  variogram : ∀ w, E'.variogram (w.map o) = m (E.variogram w)

variable {E : Env V F R M} {E' : Env V F' R' M'}

theorem stored_hom (ho : ObsMap o) (mode : Nat) (model : Option (Model F)) (q : List Obs) :
    stored mode (model.map (Model.map o f)) (q.map o) = (stored mode model q).map (List.map o) := by
  unfold stored
  split
  · rw [map_decode ho]; rfl
  · split
    · cases model with
      | none => rfl
      | some x =>
        show Except.ok _ = Except.ok _
        simp only [Model.map]
        rw [map_decode ho]
    · rfl

theorem append_map (ho : ObsMap o) : ∀ (l acc : List Obs),
    append (acc.map o) (l.map o) = (append acc l).map o
  | [], _ => rfl
  | x :: l, acc => by
    have hl : (acc.map o).getLast?.map (·.date) = acc.getLast?.map (·.date) := by
      rw [List.getLast?_map, Option.map_map]
      congr 1
      funext y
      exact ho.date y
    simp only [List.map_cons, append, List.length_map, hl, ho.date]
    split
    · exact append_map ho l acc
    · rw [← append_map ho l (acc ++ [x])]
      simp

/-- `sccd` on the results of screening the scenes. -/
def sccdOn (E : Env V F R M) (p : Pack F R M) (pr : PreResult) (acc : Bool → List Obs) :
    Except Err (Pack F R M) :=
  if !(validModes.contains p.mode) then .error .fail
  else
    if pr.status ≠ .success then .error .fail
    else do
      let bSnow := if p.mode = 0 then E.snowPct pr.sums.snow pr.sums.clear
        else p.mode = 4 || p.mode = 3
      let old ← stored p.mode p.model p.queue
      let obs := append old (acc bSnow)
      if bSnow then do
        let r ← snow (E.num p.minRmse) p.mode p.model p.recs p.queue obs
        .ok ⟨r.mode, r.recs, p.minRmse, r.model, r.queue, p.removed ++ r.removed⟩
      else if obs.length > old.length then do
        let rm := if p.recs.isEmpty && p.mode = 0 then E.variogram obs else p.minRmse
        let r ← standard (E.num rm) E.conse p.mode p.model p.recs p.queue obs
        .ok ⟨r.mode, r.recs, rm, r.model, r.queue, p.removed ++ r.removed⟩
      else .ok p

theorem sccd_on_eq (E : Env V F R M) (p : Pack F R M) (l : List Scene) :
    sccd E p l = sccdOn E p (preprocessing E.bC2 l) (fun s => accepted s l (preprocessing E.bC2 l).idr) := rfl

theorem sccdOn_hom (ho : ObsMap o) (h : EnvHom o f r m E E') (p : Pack F R M) (pr : PreResult)
    (acc : Bool → List Obs) :
    sccdOn E' (p.map o f r m) pr (fun s => (acc s).map o) = (sccdOn E p pr acc).map (Pack.map o f r m) := by
  unfold sccdOn
  show (if (!validModes.contains p.mode) = true then _ else _) = _
  split
  · rfl
  · dsimp only
    rw [h.snowPct]
    split
    · rfl
    · show (do let old ← stored p.mode (p.model.map (Model.map o f)) (p.queue.map o); _) = _
      rw [stored_hom ho]
      cases stored p.mode p.model p.queue with
      | error e => rfl
      | ok old =>
        have fin : ∀ (bSnow : Bool) (obs : List Obs),
            (if bSnow = true then (do
                let r' ← snow (E'.num (m p.minRmse)) p.mode (p.model.map (Model.map o f))
                  (p.recs.map (Rec.map o r)) (p.queue.map o) (obs.map o)
                .ok ⟨r'.mode, r'.recs, m p.minRmse, r'.model, r'.queue, p.removed.map o ++ r'.removed⟩)
              else if (obs.map o).length > (old.map o).length then (do
                let rm := if (p.recs.map (Rec.map o r)).isEmpty && decide (p.mode = 0)
                  then E'.variogram (obs.map o) else m p.minRmse
                let r' ← standard (E'.num rm) E'.conse p.mode (p.model.map (Model.map o f))
                  (p.recs.map (Rec.map o r)) (p.queue.map o) (obs.map o)
                .ok ⟨r'.mode, r'.recs, rm, r'.model, r'.queue, p.removed.map o ++ r'.removed⟩)
              else .ok (p.map o f r m) : Except Err (Pack F' R' M')) =
            Except.map (Pack.map o f r m) (if bSnow = true then (do
                let r' ← snow (E.num p.minRmse) p.mode p.model p.recs p.queue obs
                .ok ⟨r'.mode, r'.recs, p.minRmse, r'.model, r'.queue, p.removed ++ r'.removed⟩)
              else if obs.length > old.length then (do
                let rm := if p.recs.isEmpty && decide (p.mode = 0) then E.variogram obs else p.minRmse
                let r' ← standard (E.num rm) E.conse p.mode p.model p.recs p.queue obs
                .ok ⟨r'.mode, r'.recs, rm, r'.model, r'.queue, p.removed ++ r'.removed⟩)
              else .ok p) := by
          intro bSnow obs
          cases bSnow with
          | true =>
            show (do let r ← snow _ _ _ _ _ _; _) = Except.map _ (do let r ← snow _ _ _ _ _ _; _)
            rw [snow_hom ho (h.num p.minRmse)]
            cases snow (E.num p.minRmse) p.mode p.model p.recs p.queue obs with
            | error e => rfl
            | ok x =>
              show Except.ok _ = Except.ok _
              simp only [Out.map, Pack.map, List.map_append]
          | false =>
            simp only [Bool.false_eq_true, if_false, List.length_map]
            split
            · have e : (p.recs.map (Rec.map o r)).isEmpty = p.recs.isEmpty := by simp
              have em : (if (p.recs.map (Rec.map o r)).isEmpty && decide (p.mode = 0) then
                  E'.variogram (obs.map o) else m p.minRmse) =
                  m (if p.recs.isEmpty && decide (p.mode = 0) then E.variogram obs else p.minRmse) := by
                rw [e, h.variogram]
                split <;> rfl
              simp only [em, h.conse]
              generalize (if (p.recs.isEmpty && decide (p.mode = 0)) = true then E.variogram obs
                else p.minRmse) = rm
              rw [standard_hom ho (h.num rm)]
              cases standard (E.num rm) E.conse p.mode p.model p.recs p.queue obs with
              | error e => rfl
              | ok x =>
                show Except.ok _ = Except.ok _
                simp only [Out.map, Pack.map, List.map_append]
            · rfl
        simp only [Except.map]
        show (if _ then _ else _) = _
        simp only [append_map ho]
        exact fin _ _

theorem packOut_hom (p : Pack F R M) :
    packOut (p.map o f r m) = (packOut p).map (Pack.map o f r m) := by
  unfold packOut
  show (if p.mode % 10 = 1 ∨ p.mode = 3 then _ else if p.mode % 10 = 2 ∨ p.mode = 4 then _ else
    if p.mode % 10 = 5 then _ else if p.mode = 0 then _ else _) = _
  repeat' split
  all_goals rfl

/-- Two series that agree on everything but what `o` forgets. -/
structure Alike (o : Obs → Obs) (bC2 : Bool) (l l' : List Scene) : Prop where
  dates : l.map (·.date) = l'.map (·.date)
  pre : preprocessing bC2 l = preprocessing bC2 l'
  acc : ∀ s vs, (accepted s l vs).map o = (accepted s l' vs).map o

/-- Two calls that see the same data, except for what `o` forgets, have the same outcome, except for what
`f`, `r`, `m` and `o` forget. -/
theorem sccd_congr (ho : ObsMap o) (h : EnvHom o f r m E E') {l l' : List Scene} {p p' : Pack F R M}
    (hp : p.map o f r m = p'.map o f r m) (hl : Alike o E.bC2 l l') :
    (sccd E p l).map (Pack.map o f r m) = (sccd E p' l').map (Pack.map o f r m) := by
  rw [sccd_on_eq, sccd_on_eq, ← sccdOn_hom ho h, ← sccdOn_hom ho h, hp, hl.pre]
  simp only [hl.acc]

theorem bind_packOut (x : Except Err (Pack F R M)) :
    (do let y ← x; packOut y : Except Err (Pack F R M)).map (Pack.map o f r m) =
      (do let y ← x.map (Pack.map o f r m); packOut y) := by
  cases x with
  | error e => rfl
  | ok y => exact (packOut_hom y).symm

theorem detect_congr (ho : ObsMap o) (h : EnvHom o f r m E E') {m0 m0' : M} {z z' : Model F} {l l' : List Scene}
    (hm : m m0 = m m0') (hz : z.map o f = z'.map o f) (hl : Alike o E.bC2 l l') :
    (detect E m0 z l).map (Pack.map o f r m) = (detect E m0' z' l').map (Pack.map o f r m) := by
  unfold detect
  split
  · rfl
  · have e1 : l.head?.map (·.date) = l'.head?.map (·.date) := by
      rw [← List.head?_map, hl.dates, List.head?_map]
    have e2 : l.getLast?.map (·.date) = l'.getLast?.map (·.date) := by
      rw [← List.getLast?_map, hl.dates, List.getLast?_map]
    have hs := sccd_congr (p := ⟨0, [], m0, some z, [], []⟩) (p' := ⟨0, [], m0', some z', [], []⟩) ho h
      (by simp only [Pack.map, Option.map_some, hm, hz]) hl
    cases h1 : l.head? <;> cases h2 : l'.head? <;> cases h3 : l.getLast? <;> cases h4 : l'.getLast? <;>
      simp only [h1, h2, h3, h4, Option.map_some, Option.map_none, reduceCtorEq, Option.some.injEq] at e1 e2
      <;> first | rfl | skip
    simp only [e1, e2]
    split
    · rfl
    · rw [bind_packOut, bind_packOut, hs]

theorem update_congr (ho : ObsMap o) (h : EnvHom o f r m E E') {l l' : List Scene} {p p' : Pack F R M}
    (hp : p.map o f r m = p'.map o f r m) (hl : Alike o E.bC2 l l') :
    (update E p l).map (Pack.map o f r m) = (update E p' l').map (Pack.map o f r m) := by
  have hmode : p.mode = p'.mode := congrArg (fun x : Pack F' R' M' => x.mode) hp
  have hmodel : p.model.map (Model.map o f) = p'.model.map (Model.map o f) := congrArg Pack.model hp
  have hrecs : p.recs.map (Rec.map o r) = p'.recs.map (Rec.map o r) := congrArg Pack.recs hp
  have hmin : m p.minRmse = m p'.minRmse := congrArg Pack.minRmse hp
  have hq : p.queue.map o = p'.queue.map o := congrArg Pack.queue hp
  have hr : p.removed.map o = p'.removed.map o := congrArg Pack.removed hp
  unfold update
  rw [hmode]
  split
  · rfl
  · have hn : l = [] ↔ l' = [] := by
      rw [← List.length_eq_zero_iff, ← List.length_eq_zero_iff, ← List.length_map (as := l) (·.date), hl.dates,
        List.length_map]
    by_cases h0 : l = []
    · rw [if_pos h0, if_pos (hn.mp h0)]
    · rw [if_neg h0, if_neg (fun e => h0 (hn.mpr e)), bind_packOut, bind_packOut]
      congr 1
      refine sccd_congr ho h ?_ hl
      by_cases hc : p'.mode % 10 = 1 ∨ p'.mode = 3 ∨ p'.mode % 10 = 5
      · simp only [Pack.map, if_pos hc, hmodel, hrecs, hmin, hq, hr]
      · simp only [Pack.map, if_neg hc, hrecs, hmin, hq, hr]

end Pycold.Sccd
