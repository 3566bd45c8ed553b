import Verif.Proof.ColdVHom
/-! All dates moved by a number of days: if the numerical functions do not notice, the procedure gives the same result,
moved. -/
namespace Pycold.ColdV

open Pycold.Cold (Err Params Num Cm)
open Spec

variable {Y M V W D G : Type}

/-- An observation, moved by `δ` days. -/
def Row.moved (δ : Int) (r : Row Y) : Row Y := ⟨r.date + δ, r.y⟩

/-- A date in a record, moved; 0 stands for no date. -/
def movedDate (δ t : Int) : Int := if t = 0 then 0 else t + δ

/-- A map of fits that commutes with the numerical functions when the dates are moved; those that are
given whole windows need only commute on sub-series of `series` of at least six observations. -/
structure Moving (δ : Int) (series : List (Row Y)) (K K' : Kit Y M V W D G) where
  m : M → M
  dates : ∀ r ∈ series, r.date ≠ 0
  N : K'.N = K.N
  fit : ∀ c l, Order c → l.Sublist series → 6 ≤ l.length → K'.fit c (l.map (Row.moved δ)) = m (K.fit c l)
  mask : ∀ l, l.Sublist series → 6 ≤ l.length → K'.mask (l.map (Row.moved δ)) = K.mask l
  unstable : ∀ x l, l ≠ [] → K'.unstable (m x) (l.map (Row.moved δ)) = K.unstable x l
  score : ∀ c x r, Order c → K'.score c (m x) (r.moved δ) = K.score c x r
  near : ∀ c q x x' ds r, Order c → K'.near c q (m x) (m x') (ds.map (· + δ)) (r.moved δ) = K.near c q x x' ds r
  skip : K'.skip = K.skip
  cm : K'.cm = K.cm
  magn : K'.magn = K.magn
  magnNeg : K'.magnNeg = K.magnNeg
  magn0 : K'.magn0 = K.magn0

variable {δ : Int} {series : List (Row Y)} {K K' : Kit Y M V W D G}

/-- The parameters of the run on the moved series: the change-magnitude output starts that many days later. -/
def movedParams (δ : Int) (P : Params) : Params := { P with startingDate := P.startingDate + δ }

/-- The change-magnitude output, moved: the dates of the slots that were written. -/
def movedCm (δ : Int) (c : Cm) : Cm :=
  ⟨c.out, List.zipWith (fun o d => if o = -9999 then d else Cold.toShort (d + δ)) c.out c.date,
    c.log.map fun p => (p.1 + δ, p.2)⟩

def Sc.moved (δ : Int) (x : Sc Y V W D) : Sc Y V W D := ⟨x.row.moved δ, x.mag, x.vec, x.dif⟩

def Rec.moved (h : Moving δ series K K') (r : Rec Y M V W D G) : Rec Y M V W D G :=
  ⟨movedDate δ r.tStart, movedDate δ r.tEnd, movedDate δ r.tBreak, r.numObs, r.category, r.changeProb, r.model.map h.m,
    r.magn, r.fitted.map (Row.moved δ), r.window.map (Sc.moved δ)⟩

def St.moved (h : Moving δ series K K') (s : St Y M V W D G) : St Y M V W D G :=
  ⟨s.it, s.rows.map (Row.moved δ), s.end_, s.i, s.iStart, s.iDense, s.train, s.iCount, s.preEnd,
    s.idsOldLen, s.iSpanSkip, s.cft.map h.m, s.dif.map h.m, s.win.map (Sc.moved δ), s.recs.map (Rec.moved h),
    s.cur.moved h, s.overflow, movedCm δ s.cm⟩

def LB.moved (δ : Int) (b : LB Y V W D) : LB Y V W D :=
  ⟨b.rows.map (Row.moved δ), b.end_, b.i, b.iStart, b.iniConse, b.tested.map (Sc.moved δ), movedCm δ b.cm⟩

def Output.moved (h : Moving δ series K K') (o : Output Y M V W D G) : Output Y M V W D G :=
  ⟨o.recs.map (Rec.moved h), o.overflow, o.iterations, movedCm δ o.cm⟩

/-- Slots of the change-magnitude output are never below their initial value. -/
def CmFine (c : Cm) : Prop := ∀ o ∈ c.out, -9999 ≤ o

/-- Every stored record has a break date. -/
def Fine (s : St Y M V W D G) : Prop := CmFine s.cm ∧ ∀ r ∈ s.recs, r.tBreak ≠ 0

theorem toShort_add (a δ : Int) : Cold.toShort (Cold.toShort a + δ) = Cold.toShort (a + δ) := by
  unfold Cold.toShort
  rw [Int.bmod_add_bmod]

theorem zipWith_set {A B C : Type} (f : A → B → C) : ∀ (l : List A) (l' : List B) (n : Nat) (a : A) (b : B),
    List.zipWith f (l.set n a) (l'.set n b) = (List.zipWith f l l').set n (f a b)
  | [], _, _, _, _ => by simp
  | _ :: _, [], _, _, _ => by simp
  | x :: xs, y :: ys, 0, a, b => rfl
  | x :: xs, y :: ys, n + 1, a, b => by
    simp only [List.set_cons_succ, List.zipWith_cons_cons, zipWith_set f xs ys n a b]

theorem cmPut_moved {P : Params} {c c' : Cm} {date raw : Int} (hc : CmFine c)
    (h : Cold.cmPut P c date raw = .ok c') :
    Cold.cmPut (movedParams δ P) (movedCm δ c) (date + δ) raw = .ok (movedCm δ c') ∧ CmFine c' := by
  unfold Cold.cmPut at h ⊢
  rw [show (movedParams δ P).bOutputCM = P.bOutputCM from rfl, show (movedParams δ P).interval = P.interval from rfl,
    show date + δ - (movedParams δ P).startingDate = date - P.startingDate by
      show date + δ - (P.startingDate + δ) = _; omega]
  split at h
  · rename_i hb
    rw [if_pos hb]
    dsimp only at h ⊢
    generalize Cold.toShort (if raw > Cold.MAX_SHORT then Cold.MAX_SHORT else raw) = val at h ⊢
    generalize (date - P.startingDate).tdiv P.interval = n at h ⊢
    rw [show (movedCm δ c).out = c.out from rfl]
    split at h
    · rename_i hn
      rw [if_pos hn]
      cases ho : c.out[n.toNat]? with
      | none => rw [ho] at h; cases h
      | some old =>
        rw [ho] at h
        dsimp only at h ⊢
        have hold := hc old (List.mem_of_getElem? ho)
        split at h
        · rename_i hv
          rw [if_pos hv]
          cases h
          refine ⟨?_, ?_⟩
          · congr 1
            unfold movedCm
            dsimp only
            congr 1
            · rw [zipWith_set, if_neg (by omega), toShort_add]
              congr 2
              omega
            · simp
          · intro o hm
            rcases List.mem_or_eq_of_mem_set hm with hm | rfl
            · exact hc o hm
            · omega
        · rename_i hv
          rw [if_neg hv]
          cases h
          refine ⟨?_, hc⟩
          unfold movedCm
          simp
    · cases h
  · rename_i hb
    rw [if_neg hb]
    cases h
    exact ⟨rfl, hc⟩

theorem minMag_cores (w : List (Sc Y V W D)) :
    ((w.map (Sc.moved δ)).map Sc.core).map (fun x => x.mag) = (w.map Sc.core).map (fun x => x.mag) := by
  rw [List.map_map, List.map_map, List.map_map]; rfl

theorem vec_cores (w : List (Sc Y V W D)) :
    ((w.map (Sc.moved δ)).map Sc.core).map (fun x => x.vec) = (w.map Sc.core).map (fun x => x.vec) := by
  rw [List.map_map, List.map_map, List.map_map]; rfl

theorem movedDate_of {t : Int} (h : t ≠ 0) : movedDate δ t = t + δ := if_neg h

theorem rd_moved {rows : List (Row Y)} {e k : Int} {v : Row Y} (h : rd rows e k = .ok v) :
    rd (rows.map (Row.moved δ)) e k = .ok (v.moved δ) := by
  unfold rd at h ⊢
  split at h
  · rename_i hk
    rw [if_pos hk, List.getElem?_map]
    cases hr : rows[k.toNat]? with
    | none => rw [hr] at h; cases h
    | some w => rw [hr] at h; cases h; rfl
  · cases h

theorem slice_moved (rows : List (Row Y)) (lo hi : Int) :
    slice (rows.map (Row.moved δ)) lo hi = (slice rows lo hi).map (Row.moved δ) := by
  unfold slice
  rw [List.map_take, List.map_drop]

theorem maxGap_moved {rows : List (Row Y)} {e : Int} (k stop m : Int)
    {g : Int} (hg : maxGap rows e k stop m = .ok g) : maxGap (rows.map (Row.moved δ)) e k stop m = .ok g := by
  fun_induction ColdV.maxGap rows e k stop m with
  | case1 k m hk ih =>
    rw [ColdV.maxGap, if_pos hk]
    obtain ⟨b, h1, hg⟩ := bind_ok hg
    obtain ⟨a, h2, hg⟩ := bind_ok hg
    rw [rd_moved h1, ok_bind, rd_moved h2, ok_bind]
    have e : (b.moved δ).date - (a.moved δ).date = b.date - a.date := by
      show b.date + δ - (a.date + δ) = _; omega
    rw [e]
    exact ih b a hg
  | case2 k m hk =>
    rw [ColdV.maxGap, if_neg hk]
    exact hg

theorem compact_moved : ∀ (l : List (Row Y)) (k : Int) (rs : List Int),
    compact (l.map (Row.moved δ)) k rs = (compact l k rs).map (Row.moved δ)
  | [], _, rs => by simp [compact]
  | x :: xs, k, [] => by simp only [List.map_cons, compact]; rw [compact_moved xs]
  | x :: xs, k, r :: rs => by
    simp only [List.map_cons, compact]
    split
    · exact compact_moved xs _ _
    · rw [compact_moved xs, List.map_cons]

theorem commit_moved (rows cp : List (Row Y)) :
    commit (rows.map (Row.moved δ)) (cp.map (Row.moved δ)) = (commit rows cp).map (Row.moved δ) := by
  simp [commit, List.map_drop]

theorem getD_moved {rows : List (Row Y)} {k : Nat} (d : Row Y) (d' : Row Y) (hk : k < rows.length) :
    (rows.map (Row.moved δ)).getD k d' = (rows.getD k d).moved δ := by
  simp only [List.getD_eq_getElem?_getD, List.getElem?_map, List.getElem?_eq_getElem hk]
  rfl

theorem shiftDown_moved (d : Row Y) (d' : Row Y) (a : List (Row Y)) (k stop : Nat)
    (hs : stop < a.length) :
    shiftDown d' (a.map (Row.moved δ)) k stop = (shiftDown d a k stop).map (Row.moved δ) := by
  fun_induction shiftDown d a k stop with
  | case1 a k h ih =>
    rw [shiftDown, if_pos h, getD_moved d d' (by omega), ← List.map_set]
    exact ih (by rw [List.length_set]; exact hs)
  | case2 a k h => rw [shiftDown, if_neg h]

theorem findGe_moved (rows : List (Row Y)) (t : Int) (stop k : Nat) :
    findGe (rows.map (Row.moved δ)) (t + δ) stop k = findGe rows t stop k := by
  fun_induction findGe rows t stop k with
  | case1 k hk hn => rw [findGe, if_pos hk, List.getElem?_map, hn]; rfl
  | case2 k hk v hv hge =>
    rw [findGe, if_pos hk, List.getElem?_map, hv]
    show (if v.date + δ ≥ t + δ then _ else _) = _
    rw [if_pos (by omega)]
  | case3 k hk v hv hge ih =>
    rw [findGe, if_pos hk, List.getElem?_map, hv]
    show (if v.date + δ ≥ t + δ then _ else _) = _
    rw [if_neg (by omega), ih]
  | case4 k hk => rw [findGe, if_neg hk]

theorem isBreak_moved (h : Moving δ series K K') (w : List (Sc Y V W D)) :
    isBreak K' (w.map (Sc.moved δ)) = isBreak K w := by
  unfold isBreak Cold.isBreak
  rw [h.N, minMag_cores, vec_cores]

theorem isOutlier_moved (h : Moving δ series K K') (w : List (Sc Y V W D)) :
    isOutlier K' (w.map (Sc.moved δ)) = isOutlier K w := by
  unfold isOutlier
  rw [h.N]
  cases w <;> rfl

theorem cmRaw_moved (h : Moving δ series K K') (w : List (Sc Y V W D)) :
    cmRaw K' (w.map (Sc.moved δ)) = cmRaw K w := by
  unfold cmRaw
  rw [h.N, h.cm, List.map_map, List.map_map]
  rfl

theorem difs_moved (w : List (Sc Y V W D)) :
    (w.map (Sc.moved δ)).map (fun x => x.dif) = w.map (fun x => x.dif) := by
  rw [List.map_map]; rfl

theorem scanLast_moved (N : Num V W) (w : List (Sc Y V W D)) (conse : Nat) : ∀ n,
    Cold.scanLast N ((w.map (Sc.moved δ)).map Sc.core) conse n = Cold.scanLast N (w.map Sc.core) conse n := by
  intro n
  induction n with
  | zero => rfl
  | succ n ih =>
    unfold Cold.scanLast
    rw [ih, ← List.map_drop, ← List.map_drop, vec_cores, List.map_drop, List.map_map, List.getElem?_map, List.getElem?_map]
    cases w[n]? <;> rfl

theorem Arr.date_ne {rows : List (Row Y)} {e j : Int} {v : Row Y} (h : Moving δ series K K') (ha : Arr series rows e)
    (hv : rd rows e j = .ok v) : v.date ≠ 0 :=
  h.dates v (ha.sub.subset (rd_mem hv))

theorem conse_moved (P : Params) : (movedParams δ P).conse = P.conse := rfl

theorem gap_moved (P : Params) : (movedParams δ P).gapExceeds = P.gapExceeds := rfl

theorem lbWindow_moved (h : Moving δ series K K') (m : M) (rows : List (Row Y)) (iIni c : Int)
    (hi : iIni < rows.length) (h0 : 0 ≤ iIni) :
    lbWindow K' (h.m m) (rows.map (Row.moved δ)) iIni c = (lbWindow K m rows iIni c).map (Sc.moved δ) := by
  unfold lbWindow
  rw [List.map_map]
  apply List.map_congr_left
  intro k _
  show column _ _ = Sc.moved δ (column _ _)
  rw [getD_moved K.row0 K'.row0 (by omega), h.score _ _ _ (Or.inl rfl)]
  rfl

theorem lbCm_moved (h : Moving δ series K K') {P : Params} {iIni c : Int} {b : LB Y V W D} {sc : List (Sc Y V W D)}
    {cm : Cm} (hc : CmFine b.cm) (hp : lbCm P K iIni c b sc = .ok cm) :
    lbCm (movedParams δ P) K' iIni c (b.moved δ) (sc.map (Sc.moved δ)) = .ok (movedCm δ cm) ∧ CmFine cm := by
  unfold lbCm at hp ⊢
  rw [conse_moved]
  split at hp
  · rename_i hge
    rw [if_pos hge]
    obtain ⟨d, hd, hp⟩ := bind_ok hp
    have := rd_moved (δ := δ) hd
    obtain ⟨e1, e2⟩ := cmPut_moved (δ := δ) hc hp
    refine ⟨?_, e2⟩
    show (rd (b.rows.map (Row.moved δ)) b.end_ (iIni + 1) >>= _) = _
    rw [this, ok_bind, cmRaw_moved h]
    exact e1
  · rename_i hge
    rw [if_neg hge]
    cases hp
    exact ⟨rfl, hc⟩

theorem lookBack_moved (h : Moving δ series K K') (P : Params) (m : M) (iBreak : Int) :
    ∀ (n : Nat) (iIni : Int) (b b' : LB Y V W D), (iIni - (iBreak - 1) + 1).toNat = n →
      Arr series b.rows b.end_ → CmFine b.cm → lookBack P K m iBreak iIni b = .ok b' →
      lookBack (movedParams δ P) K' (h.m m) iBreak iIni (b.moved δ) = .ok (b'.moved δ) ∧ CmFine b'.cm := by
  intro n
  induction n using Nat.strongRecOn with
  | _ n ih =>
    intro iIni b b' hn ha hc0 hr
    rw [lookBack] at hr ⊢
    rw [conse_moved]
    by_cases hc : iIni ≥ iBreak - 1
    · rw [if_pos hc] at hr ⊢
      dsimp only at hr ⊢
      generalize hic : (if iIni - (iBreak - 1) + 1 < P.conse then iIni - (iBreak - 1) + 1 else P.conse) = ic at hr ⊢
      split at hr
      · cases hr
      · rename_i hne
        rw [if_neg hne]
        obtain ⟨u, hk, hr⟩ := bind_ok hr
        obtain ⟨cm, hp, hr⟩ := bind_ok hr
        have hk' : Cold.chk (b.moved δ).end_ (iIni - ic + 1) iIni = .ok u := hk
        obtain ⟨k0, k1⟩ := chk_ok hk
        have hle := ha.le
        have hi0 : 0 ≤ iIni := by
          by_cases hneg : iIni < 0
          · exfalso; omega
          · omega
        obtain ⟨p1, p2⟩ := lbCm_moved h hc0 hp
        rw [hk', ok_bind, show (b.moved δ).rows = b.rows.map (Row.moved δ) from rfl,
          lbWindow_moved h m b.rows iIni ic (by omega) hi0, p1, ok_bind, isBreak_moved h, isOutlier_moved h]
        split at hr
        · rename_i hb
          rw [if_pos hb]
          cases hr
          exact ⟨rfl, p2⟩
        · rename_i hb
          rw [if_neg hb]
          split at hr
          · rename_i ho
            rw [if_pos ho]
            have := ih (iIni - 1 - (iBreak - 1) + 1).toNat (by omega) (iIni - 1) _ b' rfl
              (ha.shift K.row0 hi0 (by omega)) p2 hr
            rw [show (b.moved δ).end_ = b.end_ from rfl, shiftDown_moved K.row0 K'.row0 _ _ _ (by omega)]
            exact this
          · rename_i ho
            rw [if_neg ho]
            exact ih (iIni - 1 - (iBreak - 1) + 1).toNat (by omega) (iIni - 1) _ b' rfl (by exact ha) p2 hr
    · rw [if_neg hc] at hr ⊢
      cases hr
      exact ⟨rfl, hc0⟩

theorem getLast_moved (h : Moving δ series K K') (l : List (Rec Y M V W D G)) :
    (l.map (Rec.moved h)).getLast? = l.getLast?.map (Rec.moved h) := by
  rw [List.getLast?_map]

theorem findBreak_moved (h : Moving δ series K K') {s : St Y M V W D G} {k : Int} (hf0 : Fine s)
    (hf : findBreak s = .ok k) : findBreak (s.moved h) = .ok k := by
  unfold findBreak at hf ⊢
  rw [show (s.moved h).recs = s.recs.map (Rec.moved h) from rfl, getLast_moved]
  cases hl : s.recs.getLast? with
  | none => rw [hl] at hf; exact hf
  | some r =>
    rw [hl] at hf
    have hne := hf0.2 r (List.mem_of_getLast? hl)
    show (match findGe (s.rows.map (Row.moved δ)) (movedDate δ r.tBreak) s.end_.toNat 0 with
      | some k => _ | none => _) = _
    rw [movedDate_of hne, findGe_moved]
    exact hf

theorem doLookBack_moved (h : Moving δ series K K') {P : Params} {m : M} {s : St Y M V W D G} {iBreak : Int} {r}
    (ha : Arr series s.rows s.end_) (hf : Fine s) (hr : doLookBack P K m s iBreak = .ok r) :
    doLookBack (movedParams δ P) K' (h.m m) (s.moved h) iBreak = .ok (r.1.moved h, r.2.1, r.2.2.map (Sc.moved δ)) ∧
      Fine r.1 := by
  unfold doLookBack at hr ⊢
  show (if s.iStart > iBreak then _ else _) = _ ∧ _
  split at hr
  · rename_i hgt
    rw [if_pos hgt]
    obtain ⟨b, hb, hr⟩ := bind_ok hr
    cases hr
    obtain ⟨this, p2⟩ := lookBack_moved h P m iBreak _ (s.iStart - 2) _ b rfl (by exact ha) hf.1 hb
    have e : (LB.moved δ ⟨s.rows, s.end_, s.i, s.iStart, none, [], s.cm⟩ : LB Y V W D) =
      ⟨(s.moved h).rows, (s.moved h).end_, (s.moved h).i, (s.moved h).iStart, none, [], (s.moved h).cm⟩ := rfl
    rw [e] at this
    refine ⟨?_, p2, hf.2⟩
    show (lookBack (movedParams δ P) K' (h.m m) iBreak ((s.moved h).iStart - 2) _ >>= _) = _
    rw [show (s.moved h).iStart - 2 = s.iStart - 2 from rfl, this, ok_bind]
    rfl
  · rename_i hgt
    rw [if_neg hgt]
    cases hr
    exact ⟨rfl, hf⟩

theorem firstCurve_moved (h : Moving δ series K K') {P : Params} {s r : St Y M V W D G}
    {c : Option Int} {tested : List (Sc Y V W D)} (ha : Arr series s.rows s.end_) (hf : Fine s)
    (hr : firstCurve P K s c tested = .ok r) :
    firstCurve (movedParams δ P) K' (s.moved h) c (tested.map (Sc.moved δ)) = .ok (r.moved h) ∧ Fine r := by
  unfold firstCurve at hr ⊢
  have e : (s.moved h).recs.isEmpty = s.recs.isEmpty := by
    show (s.recs.map _).isEmpty = _
    cases s.recs <;> rfl
  rw [e, show (s.moved h).iStart = s.iStart from rfl, show (s.moved h).iDense = s.iDense from rfl,
    show (s.moved h).end_ = s.end_ from rfl, show (s.moved h).rows = s.rows.map (Row.moved δ) from rfl, conse_moved]
  split at hr
  · rename_i hc
    rw [if_pos hc]
    obtain ⟨u, h1, hr⟩ := bind_ok hr
    obtain ⟨te, h2, hr⟩ := bind_ok hr
    obtain ⟨tb, h3, hr⟩ := bind_ok hr
    obtain ⟨ts, h4, hr⟩ := bind_ok hr
    rw [h1, ok_bind, rd_moved h2, ok_bind, rd_moved h3, ok_bind, rd_moved h4, ok_bind]
    have n2 := Arr.date_ne h ha h2
    have n3 := Arr.date_ne h ha h3
    have n4 := Arr.date_ne h ha h4
    cases c with
    | none => cases hr
    | some c =>
      dsimp only at hr ⊢
      split at hr
      · rename_i hcc
        obtain ⟨c1, c2⟩ := chk_ok h1
        have hl6 : Cold.LASSO_MIN = 6 := rfl
        have hc' : s.iStart - s.iDense ≥ Cold.LASSO_MIN := by
          have := Bool.and_eq_true _ _ ▸ hc
          exact of_decide_eq_true this.2
        rw [if_pos hcc, slice_moved, h.fit _ _ (Or.inl rfl) (ha.slice_sub c1 c2) (ha.slice_six c1 c2 (by omega)),
          difs_moved, h.magnNeg]
        cases hr
        refine ⟨?_, hf.1, ?_⟩
        · simp only [St.moved, Rec.moved, List.map_append, List.map_cons, List.map_nil, Option.map_some,
            List.length_append, List.length_map, List.length_cons, List.length_nil, movedDate_of n2, movedDate_of n3,
            movedDate_of n4]
          rfl
        · intro x hx
          rcases List.mem_append.1 hx with hx | hx
          · exact hf.2 x hx
          · rw [List.mem_singleton] at hx
            subst hx
            exact n3
      · cases hr
  · rename_i hc
    rw [if_neg hc]
    cases hr
    exact ⟨rfl, hf⟩

theorem trainPhase_moved (h : Moving δ series K K') {P : Params} {s : St Y M V W D G}
    {r : Bool × St Y M V W D G} (hs : series.Pairwise (fun a b => a.date < b.date))
    (ha : Arr series s.rows s.end_) (hf : Fine s) (hpos : s.iStart + 11 ≤ s.i) (hr : trainPhase P K s = .ok r) :
    trainPhase (movedParams δ P) K' (s.moved h) = .ok (r.1, r.2.moved h) ∧ Fine r.2 := by
  unfold trainPhase at hr ⊢
  obtain ⟨g, h1, hr⟩ := bind_ok hr
  have h1' := maxGap_moved (δ := δ) _ _ _ h1
  rw [show (s.moved h).iStart = s.iStart from rfl, show (s.moved h).i = s.i from rfl,
    show (s.moved h).end_ = s.end_ from rfl, show (s.moved h).rows = s.rows.map (Row.moved δ) from rfl,
    h1', ok_bind, gap_moved, conse_moved]
  split at hr
  · rename_i hg
    rw [if_pos hg]
    cases hr
    exact ⟨rfl, hf⟩
  · rename_i hg
    rw [if_neg hg]
    obtain ⟨u, h2, hr⟩ := bind_ok hr
    obtain ⟨c1, c2⟩ := chk_ok h2
    rw [h2, ok_bind, slice_moved, h.mask _ (ha.slice_sub c1 c2) (ha.slice_six c1 c2 (by omega))]
    dsimp only at hr ⊢
    split at hr
    · rename_i hsp
      rw [if_pos hsp]
      cases hr
      exact ⟨rfl, hf⟩
    · rename_i hsp
      rw [if_neg hsp, ← List.map_take, compact_moved]
      generalize (Cold.keptCount (K.mask (slice s.rows (s.iStart - 1) (s.i + P.conse - 1)))
          (s.i - s.iStart + 1).toNat : Int) = iSpan at hr hsp ⊢
      have ha' := ha.commit 0
          (Cold.rmIds (K.mask (slice s.rows (s.iStart - 1) (s.i + P.conse - 1))) (s.iStart - 1) (s.i - s.iStart + 1).toNat)
      generalize compact (s.rows.take s.end_.toNat) 0
          (Cold.rmIds (K.mask (slice s.rows (s.iStart - 1) (s.i + P.conse - 1))) (s.iStart - 1)
          (s.i - s.iStart + 1).toNat) = cp at hr ha' ⊢
      obtain ⟨a, h3, hr⟩ := bind_ok hr
      obtain ⟨b, h4, hr⟩ := bind_ok hr
      rw [List.length_map, rd_moved h3, ok_bind, rd_moved h4, ok_bind,
        show (a.moved δ).date - (b.moved δ).date = a.date - b.date by
          show a.date + δ - (b.date + δ) = _; omega]
      split at hr
      · rename_i hy
        rw [if_pos hy]
        cases hr
        exact ⟨rfl, hf⟩
      · rename_i hy
        rw [if_neg hy]
        obtain ⟨u', h5, hr⟩ := bind_ok hr
        obtain ⟨d1, d2⟩ := chk_ok h5
        have hml : Cold.MIN_OBS = 12 := rfl
        have h6l := ha'.slice_six d1 d2 (by omega)
        rw [h5, ok_bind, commit_moved, slice_moved,
          h.fit _ _ (Or.inl rfl) (ha'.slice_sub d1 d2) h6l,
          h.unstable _ _ (by intro e; rw [e] at h6l; simp at h6l)]
        split at hr
        · rename_i hu
          rw [if_pos hu]
          cases hr
          exact ⟨rfl, hf⟩
        · rename_i hu
          rw [if_neg hu]
          obtain ⟨ib, h6, hr⟩ := bind_ok hr
          obtain ⟨⟨s1, ic, te⟩, h7, hr⟩ := bind_ok hr
          obtain ⟨s2, h8, hr⟩ := bind_ok hr
          cases hr
          have k6 := findBreak_moved h (by exact hf) h6
          obtain ⟨k7, f7⟩ := doLookBack_moved h (by exact ha') (by exact hf) h7
          obtain ⟨q1, _, _, _⟩ := by
            refine doLookBack_data hs ?_ ?_ ?_ ?_ h7
            · exact ha'
            · exact d1
            · exact d2
            · dsimp only; omega
          obtain ⟨k8, f8⟩ := firstCurve_moved h q1 f7 h8
          dsimp only at k7 k8
          refine ⟨?_, f8⟩
          refine Eq.trans (congrArg (fun x => x >>= _) k6) ?_
          rw [ok_bind]
          refine Eq.trans (congrArg (fun x => x >>= _) k7) ?_
          rw [ok_bind]
          dsimp only
          rw [k8]
          rfl

theorem refit_moved (h : Moving δ series K K') (s : St Y M V W D G) (a b c d e : Int) (ha : Arr series s.rows s.end_)
    (hpos : s.iStart + 11 ≤ s.i) (hb : Order b) (c1 : 0 ≤ s.iStart - 1) (c2 : s.i - 1 < s.end_) :
    refit K' (s.moved h) a b c (d + δ) (e + δ) = (refit K s a b c d e).moved h := by
  unfold refit
  rw [h.skip, show (s.moved h).iSpanSkip = s.iSpanSkip from rfl, show (s.moved h).i = s.i from rfl,
    show (s.moved h).iStart = s.iStart from rfl, show (s.moved h).rows = s.rows.map (Row.moved δ) from rfl,
    show d + δ - (e + δ) = d - e by omega]
  split
  · dsimp only
    rw [slice_moved, h.fit _ _ hb (ha.slice_sub c1 c2) (ha.slice_six c1 c2 (by omega))]
    rfl
  · rfl

theorem ahead_moved (h : Moving δ series K K') (s : St Y M V W D G) (k : Nat)
    (hk : (s.i + (k : Int)).toNat < s.rows.length) : ahead K' (s.moved h) k = (ahead K s k).moved δ := by
  unfold ahead
  rw [← getD_moved K.row0 K'.row0 hk]
  rfl

theorem fresh_moved (h : Moving δ series K K') {P : Params} {a b : Int} {s r : St Y M V W D G}
    (ha : Arr series s.rows s.end_) (hpos : s.iStart + 11 ≤ s.i) (hb : Order b)
    (hr : fresh P K a b s = .ok r) :
    fresh (movedParams δ P) K' a b (s.moved h) = .ok (r.moved h) ∧ r.cm = s.cm ∧ r.recs = s.recs := by
  unfold fresh at hr ⊢
  obtain ⟨te, h1, hr⟩ := bind_ok hr
  obtain ⟨ts, h2, hr⟩ := bind_ok hr
  obtain ⟨u, h3, hr⟩ := bind_ok hr
  obtain ⟨u', h4, hr⟩ := bind_ok hr
  have n1 := Arr.date_ne h ha h1
  have n2 := Arr.date_ne h ha h2
  rw [conse_moved, show (s.moved h).iStart = s.iStart from rfl, show (s.moved h).i = s.i from rfl,
    show (s.moved h).end_ = s.end_ from rfl, show (s.moved h).rows = s.rows.map (Row.moved δ) from rfl,
    rd_moved h1, ok_bind, rd_moved h2, ok_bind, h3, ok_bind, h4, ok_bind, slice_moved]
  dsimp only
  obtain ⟨c1, c2⟩ := chk_ok h3
  obtain ⟨d1, d2⟩ := chk_ok h4
  have hle := ha.le
  rw [h.fit _ _ hb (ha.slice_sub c1 c2) (ha.slice_six c1 c2 (by omega))]
  cases hr
  refine ⟨?_, rfl, rfl⟩
  have hw : (List.range P.conse).map (fun k => column (ahead K' (s.moved h) k)
      (K'.score b (h.m (K.fit b (slice s.rows (s.iStart - 1) (s.i - 1)))) (ahead K' (s.moved h) k))) =
      (List.range P.conse).map (fun k => Sc.moved δ (column (ahead K s k)
        (K.score b (K.fit b (slice s.rows (s.iStart - 1) (s.i - 1))) (ahead K s k)))) := by
    apply List.map_congr_left
    intro k hk
    have := List.mem_range.1 hk
    rw [ahead_moved h s k (by omega), h.score _ _ _ hb]
    rfl
  rw [hw]
  unfold St.moved Rec.moved
  dsimp only
  rw [List.map_map, h.magn0, movedDate_of n1, movedDate_of n2,
    show (te.moved δ).date - (ts.moved δ).date = te.date - ts.date by show te.date + δ - (ts.date + δ) = _; omega]
  rfl

theorem shiftWin_moved (h : Moving δ series K K') {P : Params} {a : Int} {s r : St Y M V W D G}
    (hP : 1 ≤ P.conse) (ha : Arr series s.rows s.end_) (hord : Order a) (hr : shiftWin P K a s = .ok r) :
    shiftWin (movedParams δ P) K' a (s.moved h) = .ok (r.moved h) ∧ r.cm = s.cm ∧ r.recs = s.recs := by
  unfold shiftWin at hr ⊢
  rw [conse_moved, show (s.moved h).idsOldLen = s.idsOldLen from rfl]
  cases hid : s.idsOldLen with
  | none => rw [hid] at hr; cases hr
  | some l =>
    rw [hid] at hr
    dsimp only at hr ⊢
    split at hr
    · cases hr
    · rename_i hl0
      rw [if_neg hl0]
      obtain ⟨u, h5, hr⟩ := bind_ok hr
      obtain ⟨u', h6, hr⟩ := bind_ok hr
      rw [show (s.moved h).iStart = s.iStart from rfl, show (s.moved h).i = s.i from rfl,
        show (s.moved h).end_ = s.end_ from rfl, show (s.moved h).rows = s.rows.map (Row.moved δ) from rfl,
        show (s.moved h).cur.category = s.cur.category from rfl, h5, ok_bind, h6, ok_bind]
      split at hr
      · cases hr
      · rename_i hst
        rw [if_neg hst, show (s.moved h).cft = s.cft.map h.m from rfl, show (s.moved h).dif = s.dif.map h.m from rfl]
        cases hm : s.cft with
        | none => rw [hm] at hr; cases hr
        | some m =>
          cases hm' : s.dif with
          | none => rw [hm, hm'] at hr; cases hr
          | some m' =>
            rw [hm, hm'] at hr
            simp only [Option.map_some]
            obtain ⟨d1, d2⟩ := chk_ok h6
            have hle := ha.le
            rw [slice_moved, ahead_moved h s _ (by omega), List.map_map]
            have e : ((slice s.rows (s.iStart - 1) (s.iStart - 1 + l - 1)).map
                ((fun x : Row Y => x.date) ∘ Row.moved δ)) =
                ((slice s.rows (s.iStart - 1) (s.iStart - 1 + l - 1)).map (fun x : Row Y => x.date)).map (· + δ) := by
              rw [List.map_map]; rfl
            rw [e, h.near _ _ _ _ _ _ hord]
            cases hr
            refine ⟨?_, rfl, rfl⟩
            simp only [St.moved, List.map_append, List.map_tail, List.map_cons, List.map_nil, hm, hm', hid]
            rfl

theorem refit_frame' (K : Kit Y M V W D G) (s : St Y M V W D G) (a b c d e : Int) :
    (refit K s a b c d e).cm = s.cm ∧ (refit K s a b c d e).recs = s.recs := by
  unfold refit
  split <;> exact ⟨rfl, rfl⟩

theorem later_moved (h : Moving δ series K K') {P : Params} {a b : Int} {s r : St Y M V W D G}
    (hP : 1 ≤ P.conse) (ha : Arr series s.rows s.end_) (hpos : s.iStart + 11 ≤ s.i) (hb : Order b)
    (hr : later P K a b s = .ok r) :
    later (movedParams δ P) K' a b (s.moved h) = .ok (r.moved h) ∧ r.cm = s.cm ∧ r.recs = s.recs := by
  unfold later at hr ⊢
  rw [show (s.moved h).preEnd = s.preEnd from rfl]
  cases hpe : s.preEnd with
  | none => rw [hpe] at hr; cases hr
  | some pe =>
    rw [hpe] at hr
    dsimp only at hr ⊢
    obtain ⟨te, h1, hr⟩ := bind_ok hr
    obtain ⟨ts, h2, hr⟩ := bind_ok hr
    obtain ⟨u, h3, hr⟩ := bind_ok hr
    have n1 := Arr.date_ne h ha h1
    rw [show (s.moved h).iStart = s.iStart from rfl, show (s.moved h).i = s.i from rfl,
      show (s.moved h).end_ = s.end_ from rfl, show (s.moved h).rows = s.rows.map (Row.moved δ) from rfl,
      rd_moved h1, ok_bind, rd_moved h2, ok_bind, h3, ok_bind,
      show (te.moved δ).date = te.date + δ from rfl, show (ts.moved δ).date = ts.date + δ from rfl,
      refit_moved h s _ _ _ _ _ ha hpos hb (chk_ok h3).1 (chk_ok h3).2]
    have hf := refit_frame K s a b pe te.date ts.date
    have hf' := refit_frame' K s a b pe te.date ts.date
    have k := fun ha => shiftWin_moved h hP ha hb hr
    obtain ⟨k1, k2, k3⟩ := k (by dsimp only; rw [hf.1, hf.2.1]; exact ha)
    refine ⟨?_, k2.trans hf'.1, k3.trans hf'.2⟩
    rw [← k1]
    congr 1
    unfold St.moved Rec.moved
    dsimp only
    rw [movedDate_of n1]

theorem refresh_moved (h : Moving δ series K K') {P : Params} {s r : St Y M V W D G}
    (hP : 1 ≤ P.conse) (ha : Arr series s.rows s.end_) (hpos : s.iStart + 11 ≤ s.i) (hr : refresh P K s = .ok r) :
    refresh (movedParams δ P) K' (s.moved h) = .ok (r.moved h) ∧ r.cm = s.cm ∧ r.recs = s.recs := by
  rw [refresh_eq] at hr ⊢
  rw [show (s.moved h).iCount = s.iCount from rfl]
  cases hic : s.iCount with
  | none => rw [hic] at hr; cases hr
  | some ic =>
    rw [hic] at hr
    dsimp only at hr ⊢
    rw [show (s.moved h).iStart = s.iStart from rfl, show (s.moved h).i = s.i from rfl]
    split at hr
    · rename_i hc
      rw [if_pos hc]
      have k := fun ha hpos => fresh_moved h ha hpos (updateCft_order _) hr
      exact k ha hpos
    · rename_i hc
      rw [if_neg hc]
      have k := fun ha hpos => later_moved h hP ha hpos (updateCft_order _) hr
      exact k ha hpos

theorem monitorPhase_moved (h : Moving δ series K K') {P : Params} {s r : St Y M V W D G}
    (hP : 1 ≤ P.conse) (hs : series.Pairwise (fun a b => a.date < b.date)) (hf : Fine s)
    (ha : Arr series s.rows s.end_) (hr' : ∀ x ∈ s.recs, RecData K series x)
    (hcur : s.iCount ≠ some 0 → Cur K series s s.i ∧ s.win.length = P.conse) (hpos : s.iStart + 11 ≤ s.i)
    (hr : monitorPhase P K s = .ok r) :
    monitorPhase (movedParams δ P) K' (s.moved h) = .ok (r.moved h) ∧ Fine r := by
  unfold monitorPhase at hr ⊢
  obtain ⟨s1, h1, hr⟩ := bind_ok hr
  obtain ⟨d, h2, hr⟩ := bind_ok hr
  obtain ⟨cm, h3, hr⟩ := bind_ok hr
  obtain ⟨f1, f2, _⟩ := refresh_data hP hs ha hr' (fun h => (hcur h).1) hpos h1
  have ha1 : Arr series s1.rows s1.end_ := by rw [f1, f2]; exact ha
  obtain ⟨k1, k2, k3⟩ := refresh_moved h hP ha hpos h1
  have nd := Arr.date_ne h ha1 h2
  obtain ⟨p1, p2⟩ := cmPut_moved (δ := δ) (by rw [k2]; exact hf.1) h3
  rw [k1, ok_bind, show (s1.moved h).i = s1.i from rfl, show (s1.moved h).cm = movedCm δ s1.cm from rfl,
    show (s1.moved h).end_ = s1.end_ from rfl, show (s1.moved h).rows = s1.rows.map (Row.moved δ) from rfl,
    rd_moved h2, ok_bind, show (s1.moved h).win = s1.win.map (Sc.moved δ) from rfl, cmRaw_moved h,
    show (d.moved δ).date = d.date + δ from rfl, p1, ok_bind]
  dsimp only at hr ⊢
  rw [isBreak_moved h, isOutlier_moved h]
  split at hr
  · rename_i hb
    rw [if_pos hb, difs_moved, h.magn]
    cases hr
    refine ⟨?_, p2, ?_⟩
    · simp only [St.moved, Rec.moved, List.map_append, List.map_cons, List.map_nil,
        List.length_append, List.length_map, List.length_cons, List.length_nil, movedDate_of nd]
    · intro x hx
      rcases List.mem_append.1 hx with hx | hx
      · rw [k3] at hx
        exact hf.2 x hx
      · rw [List.mem_singleton] at hx
        subst hx
        exact nd
  · rename_i hb
    rw [if_neg hb]
    split at hr
    · rename_i ho
      obtain ⟨r0, r1, _⟩ := rd_some h2
      have hle := ha1.le
      rw [if_pos ho, shiftDown_moved K.row0 K'.row0 _ _ _ (by omega)]
      cases hr
      exact ⟨rfl, p2, by rw [k3]; exact hf.2⟩
    · rename_i ho
      rw [if_neg ho]
      cases hr
      exact ⟨rfl, p2, by rw [k3]; exact hf.2⟩

theorem body_moved (h : Moving δ series K K') {P : Params} {s r : St Y M V W D G}
    (hP : 1 ≤ P.conse) (hs : series.Pairwise (fun a b => a.date < b.date)) (hd : Data P K series s) (hf : Fine s)
    (hr : body P K s = .ok r) : body (movedParams δ P) K' (s.moved h) = .ok (r.moved h) ∧ Fine r := by
  unfold body at hr ⊢
  obtain ⟨s', h1, hr⟩ := bind_ok hr
  cases hr
  dsimp only at h1 ⊢
  obtain ⟨a, h2, h1⟩ := bind_ok h1
  obtain ⟨b, h3, h1⟩ := bind_ok h1
  rw [show (s.moved h).iStart = s.iStart from rfl, show (s.moved h).i = s.i from rfl,
    show (s.moved h).end_ = s.end_ from rfl, show (s.moved h).rows = s.rows.map (Row.moved δ) from rfl,
    show (s.moved h).train = s.train from rfl, show (s.moved h).it = s.it from rfl,
    rd_moved h2, ok_bind, rd_moved h3, ok_bind,
    show (a.moved δ).date - (b.moved δ).date = a.date - b.date by show a.date + δ - (b.date + δ) = _; omega]
  split at h1
  · rename_i hcond
    rw [if_pos hcond]
    have hml : Cold.MIN_OBS = 12 := rfl
    have hpos : s.iStart + 11 ≤ s.i := by omega
    obtain ⟨⟨go, s1⟩, h4, h1⟩ := bind_ok h1
    dsimp only at h1
    have k4 : (if s.train = false then trainPhase (movedParams δ P) K' (s.moved h) else .ok (true, s.moved h)) =
        .ok (go, s1.moved h) ∧ Fine s1 := by
      split at h4
      · rename_i ht
        rw [if_pos ht]
        exact trainPhase_moved h hs hd.arr hf hpos h4
      · rename_i ht
        rw [if_neg ht]
        cases h4
        exact ⟨rfl, hf⟩
    rw [k4.1, ok_bind]
    dsimp only
    split at h1
    · rename_i hgo
      rw [if_pos hgo]
      obtain ⟨s2, h5, h1⟩ := bind_ok h1
      cases h1
      have hm : Arr series s1.rows s1.end_ ∧ (∀ x ∈ s1.recs, RecData K series x) ∧
          (s1.iCount ≠ some 0 → Cur K series s1 s1.i ∧ s1.win.length = P.conse) ∧ s1.iStart + 11 ≤ s1.i := by
        split at h4
        · rename_i ht
          obtain ⟨q1, q2, q3⟩ := trainPhase_data hs hd ht h4
          rcases q3 with ⟨q3, _⟩ | ⟨q3, q4, _⟩
          · dsimp only at q3; rw [q3] at hgo; cases hgo
          · exact ⟨q1, q2, fun hh => absurd q3 hh, q4⟩
        · rename_i ht
          cases h4
          refine ⟨hd.arr, hd.recs, fun _ => hd.cur (by revert ht; cases s.train <;> simp), hpos⟩
      obtain ⟨k5, f5⟩ := monitorPhase_moved h hP hs k4.2 hm.1 hm.2.1 hm.2.2.1 hm.2.2.2 h5
      rw [k5]
      exact ⟨rfl, f5⟩
    · rename_i hgo
      rw [if_neg hgo]
      cases h1
      exact ⟨rfl, k4.2⟩
  · rename_i hcond
    rw [if_neg hcond]
    cases h1
    exact ⟨rfl, hf⟩

theorem loop_moved (h : Moving δ series K K') {P : Params} (hP : 1 ≤ P.conse)
    (hs : series.Pairwise (fun a b => a.date < b.date)) : ∀ (f : Nat) {s r : St Y M V W D G}, Data P K series s →
    Fine s → loop P K f s = .ok r → loop (movedParams δ P) K' f (s.moved h) = .ok (r.moved h) ∧ Fine r := by
  intro f
  induction f with
  | zero =>
    intro s r hd hf hr
    unfold loop at hr ⊢
    split at hr
    · cases hr
    · rename_i hi
      cases hr
      exact ⟨if_neg hi, hf⟩
  | succ f ih =>
    intro s r hd hf hr
    unfold loop at hr ⊢
    split at hr
    · rename_i hi
      obtain ⟨s', h1, hr⟩ := bind_ok hr
      obtain ⟨b1, b2⟩ := body_moved h hP hs hd hf h1
      rw [if_pos (by exact hi), b1, ok_bind]
      exact ih (body_data hP hs hd h1) b2 hr
    · rename_i hi
      cases hr
      exact ⟨if_neg hi, hf⟩

theorem finishTrained_moved (h : Moving δ series K K') {P : Params} {s r : St Y M V W D G}
    (ha : Arr series s.rows s.end_) (hr : finishTrained P K s = .ok r) :
    finishTrained (movedParams δ P) K' (s.moved h) = .ok (r.moved h) := by
  unfold finishTrained at hr ⊢
  obtain ⟨n, hn, hr⟩ := bind_ok hr
  dsimp only at hr
  obtain ⟨a, h1, hr⟩ := bind_ok hr
  rw [conse_moved, show (s.moved h).win = s.win.map (Sc.moved δ) from rfl, scanLast_moved, h.N, hn, ok_bind]
  dsimp only
  rw [show (s.moved h).end_ = s.end_ from rfl, show (s.moved h).rows = s.rows.map (Row.moved δ) from rfl,
    rd_moved h1, ok_bind]
  have n1 := Arr.date_ne h ha h1
  split at hr
  · rename_i hc
    rw [if_pos hc]
    obtain ⟨b, h2, hr⟩ := bind_ok hr
    have n2 := Arr.date_ne h ha h2
    rw [rd_moved h2, ok_bind, ← List.map_drop, difs_moved, h.magn]
    cases hr
    simp only [St.moved, Rec.moved, List.map_append, List.map_cons, List.map_nil, movedDate_of n1, movedDate_of n2]
    rfl
  · rename_i hc
    rw [if_neg hc]
    cases hr
    simp only [St.moved, Rec.moved, List.map_append, List.map_cons, List.map_nil, movedDate_of n1]
    rfl

theorem endStart_moved (h : Moving δ series K K') {s : St Y M V W D G} (hf : Fine s) :
    endStart (s.moved h) = endStart s := by
  unfold endStart
  rw [show (s.moved h).recs = s.recs.map (Rec.moved h) from rfl, getLast_moved]
  cases hl : s.recs.getLast? with
  | none => rfl
  | some r =>
    have hne := hf.2 r (List.mem_of_getLast? hl)
    show (match findGe (s.rows.map (Row.moved δ)) (movedDate δ r.tBreak) (s.rows.map (Row.moved δ)).length 0 with
      | some k => _ | none => _) = _
    rw [movedDate_of hne, findGe_moved, List.length_map]
    rfl

theorem screenEnd_moved (h : Moving δ series K K') {s r : St Y M V W D G}
    (ha : Arr series s.rows s.end_) (hr : screenEnd K s = .ok r) : screenEnd K' (s.moved h) = .ok (r.moved h) := by
  unfold screenEnd at hr ⊢
  rw [show (s.moved h).end_ = s.end_ from rfl, show (s.moved h).rows = s.rows.map (Row.moved δ) from rfl,
    show (s.moved h).iStart = s.iStart from rfl]
  split at hr
  · rename_i hc
    rw [if_pos hc]
    obtain ⟨u, h1, hr⟩ := bind_ok hr
    obtain ⟨c1, c2⟩ := chk_ok h1
    have hl6 : Cold.LASSO_MIN = 6 := rfl
    rw [h1, ok_bind, slice_moved, h.mask _ (ha.slice_sub c1 c2) (ha.slice_six c1 c2 (by omega))]
    dsimp only
    rw [← List.map_take, compact_moved, commit_moved, List.length_map]
    cases hr
    rfl
  · rename_i hc
    rw [if_neg hc]
    cases hr
    rfl

theorem closeEnd_moved (h : Moving δ series K K') {s r : St Y M V W D G}
    (ha : Arr series s.rows s.end_) (hr : closeEnd K s = .ok r) : closeEnd K' (s.moved h) = .ok (r.moved h) := by
  unfold closeEnd at hr ⊢
  rw [show (s.moved h).end_ = s.end_ from rfl, show (s.moved h).rows = s.rows.map (Row.moved δ) from rfl,
    show (s.moved h).iStart = s.iStart from rfl, show (s.moved h).recs = s.recs.map (Rec.moved h) from rfl,
    getLast_moved]
  split at hr
  · rename_i hc
    rw [if_pos hc]
    obtain ⟨u, h1, hr⟩ := bind_ok hr
    obtain ⟨a, h2, hr⟩ := bind_ok hr
    obtain ⟨b, h3, hr⟩ := bind_ok hr
    rw [h1, ok_bind]
    obtain ⟨c1, c2⟩ := chk_ok h1
    have hl6 : Cold.LASSO_MIN = 6 := rfl
    have n3 := Arr.date_ne h ha h3
    have hfit : K'.fit 4 ((slice s.rows (s.iStart - 1) (s.end_ - 1)).map (Row.moved δ)) =
        h.m (K.fit 4 (slice s.rows (s.iStart - 1) (s.end_ - 1))) :=
      h.fit _ _ (Or.inl rfl) (ha.slice_sub c1 c2) (ha.slice_six c1 c2 (by omega))
    have fin : ∀ {s' : St Y M V W D G}, s' = r.moved h → (Except.ok s' : Except Err _) = .ok (r.moved h) :=
      fun e => by rw [e]
    cases hl : s.recs.getLast? with
    | none =>
      rw [hl] at h2
      dsimp only at h2
      cases hrd : rd s.rows s.end_ 0 with
      | error e => rw [hrd] at h2; cases h2
      | ok v =>
        rw [hrd] at h2
        cases h2
        have nv := Arr.date_ne h ha hrd
        simp only [Option.map_none]
        rw [rd_moved hrd]
        simp only [Except.map, ok_bind]
        rw [rd_moved h3, ok_bind]
        apply fin
        cases hr
        simp only [St.moved, Rec.moved, List.map_append, List.map_cons, List.map_nil, Option.map_some,
          slice_moved, hfit, List.length_map, h.magn0, movedDate_of n3, movedDate_of nv]
        rfl
    | some q =>
      rw [hl] at h2
      cases h2
      simp only [Option.map_some, ok_bind]
      rw [rd_moved h3, ok_bind]
      apply fin
      cases hr
      simp only [St.moved, Rec.moved, List.map_append, List.map_cons, List.map_nil, Option.map_some,
        slice_moved, hfit, List.length_map, h.magn0, movedDate_of n3]
      rfl
  · rename_i hc
    rw [if_neg hc]
    cases hr
    rfl

theorem finishUntrained_moved (h : Moving δ series K K') {s r : St Y M V W D G} (ha : Arr series s.rows s.end_)
    (hf : Fine s) (hr : finishUntrained K s = .ok r) : finishUntrained K' (s.moved h) = .ok (r.moved h) := by
  rw [finishUntrained_eq] at hr ⊢
  obtain ⟨s1, h1, hr⟩ := bind_ok hr
  have := screenEnd_moved h (by exact ha) h1
  have ha1 : Arr series s1.rows s1.end_ := by
    unfold screenEnd at h1
    split at h1
    · obtain ⟨_, _, h1⟩ := bind_ok h1
      cases h1
      exact ha.commit 0 _
    · cases h1
      exact ha
  rw [endStart_moved h hf]
  refine Eq.trans (congrArg (fun x => x >>= _) this) ?_
  rw [ok_bind]
  exact closeEnd_moved h ha1 hr

theorem zipWith_replicate (n : Nat) :
    List.zipWith (fun o d : Int => if o = -9999 then d else Cold.toShort (d + δ)) (List.replicate n (-9999))
      (List.replicate n (-9999)) = List.replicate n (-9999) := by
  rw [List.zipWith_replicate, if_pos rfl, Nat.min_self]

/-- The procedure on the moved series. -/
theorem standProcedure_moved {P : Params} {rows : List (Row Y)} (h : Moving δ rows K K') {nCm : Nat} (hP : 1 ≤ P.conse)
    (hs : rows.Pairwise (fun a b => a.date < b.date)) {out : Output Y M V W D G}
    (hr : standProcedure P K rows nCm = .ok out) :
    standProcedure (movedParams δ P) K' (rows.map (Row.moved δ)) nCm = .ok (out.moved h) := by
  unfold standProcedure at hr ⊢
  obtain ⟨s, h1, hr⟩ := bind_ok hr
  have hd0 : Data P K rows (init rows nCm) :=
    ⟨⟨by simp [init], by simp [init], by simp [init, live]⟩, by simp [init], by simp [init]⟩
  have hf0 : Fine (init rows nCm : St Y M V W D G) := by
    refine ⟨?_, by simp [init]⟩
    intro o ho
    have := List.eq_of_mem_replicate ho
    omega
  have hd := loop_data hP hs _ hd0 h1
  obtain ⟨k1, hf⟩ := loop_moved h hP hs _ hd0 hf0 h1
  have e : (init rows nCm : St Y M V W D G).moved h = init (rows.map (Row.moved δ)) nCm := by
    simp only [init, St.moved, List.length_map, movedCm, zipWith_replicate]
    rfl
  rw [e] at k1
  rw [List.length_map, k1, ok_bind]
  dsimp only at hr ⊢
  rw [show (s.moved h).train = s.train from rfl]
  split at hr
  · rename_i ht
    rw [if_pos ht]
    obtain ⟨f, h2, hr⟩ := bind_ok hr
    cases hr
    rw [finishTrained_moved h hd.arr h2]
    rfl
  · rename_i ht
    rw [if_neg ht]
    obtain ⟨f, h2, hr⟩ := bind_ok hr
    cases hr
    rw [finishUntrained_moved h hd.arr hf h2]
    rfl

end Pycold.ColdV
