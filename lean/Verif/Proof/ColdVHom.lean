import Verif.Proof.ColdVPrefix
/-! Maps between kits: if the numerical functions commute with a map of the data, as far as they are used on sub-series
of the input of at least six observations, so does the procedure. -/
namespace Pycold.ColdV

open Pycold.Cold (Err Params Num Cm)
open Spec

variable {Y M V W D G Y' M' D' G' : Type}

/-- The value part of an observation, mapped. -/
def Row.map (f : Y → Y') (r : Row Y) : Row Y' := ⟨r.date, f r.y⟩

/-- A map of band values, fits, differences and magnitudes that commutes with the numerical functions; those that are
given whole windows need only commute on sub-series of `series` of at least six observations. -/
structure Hom (series : List (Row Y)) (K : Kit Y M V W D G) (K' : Kit Y' M' V W D' G') where
  y : Y → Y'
  m : M → M'
  d : D → D'
  g : G → G'
  N : K'.N = K.N
  fit : ∀ c l, Order c → l.Sublist series → 6 ≤ l.length → K'.fit c (l.map (Row.map y)) = m (K.fit c l)
  mask : ∀ l, l.Sublist series → 6 ≤ l.length → K'.mask (l.map (Row.map y)) = K.mask l
  unstable : ∀ x l, K'.unstable (m x) (l.map (Row.map y)) = K.unstable x l
  score : ∀ c x r, K'.score c (m x) (r.map y) =
    ((K.score c x r).1, (K.score c x r).2.1, d (K.score c x r).2.2)
  near : ∀ c q x x' ds r, K'.near c q (m x) (m x') ds (r.map y) =
    ((K.near c q x x' ds r).1, (K.near c q x x' ds r).2.1, d (K.near c q x x' ds r).2.2)
  skip : K'.skip = K.skip
  cm : K'.cm = K.cm
  magn : ∀ l, K'.magn (l.map d) = g (K.magn l)
  magnNeg : ∀ l, K'.magnNeg (l.map d) = g (K.magnNeg l)
  magn0 : K'.magn0 = g K.magn0

variable {series : List (Row Y)} {K : Kit Y M V W D G} {K' : Kit Y' M' V W D' G'}

def Sc.map (h : Hom series K K') (x : Sc Y V W D) : Sc Y' V W D' := ⟨x.row.map h.y, x.mag, x.vec, h.d x.dif⟩

def Rec.map (h : Hom series K K') (r : Rec Y M V W D G) : Rec Y' M' V W D' G' :=
  ⟨r.tStart, r.tEnd, r.tBreak, r.numObs, r.category, r.changeProb, r.model.map h.m, r.magn.map h.g,
    r.fitted.map (Row.map h.y), r.window.map (Sc.map h)⟩

def St.map (h : Hom series K K') (s : St Y M V W D G) : St Y' M' V W D' G' :=
  ⟨s.it, s.rows.map (Row.map h.y), s.end_, s.i, s.iStart, s.iDense, s.train, s.iCount, s.preEnd,
    s.idsOldLen, s.iSpanSkip, s.cft.map h.m, s.dif.map h.m, s.win.map (Sc.map h), s.recs.map (Rec.map h),
    s.cur.map h, s.overflow, s.cm⟩

def LB.map (h : Hom series K K') (b : LB Y V W D) : LB Y' V W D' :=
  ⟨b.rows.map (Row.map h.y), b.end_, b.i, b.iStart, b.iniConse, b.tested.map (Sc.map h), b.cm⟩

def Output.map (h : Hom series K K') (o : Output Y M V W D G) : Output Y' M' V W D' G' :=
  ⟨o.recs.map (Rec.map h), o.overflow, o.iterations, o.cm⟩

theorem rd_map (f : Y → Y') {rows : List (Row Y)} {e k : Int} {v : Row Y} (h : rd rows e k = .ok v) :
    rd (rows.map (Row.map f)) e k = .ok (v.map f) := by
  unfold rd at h ⊢
  split at h
  · rename_i hk
    rw [if_pos hk, List.getElem?_map]
    cases hr : rows[k.toNat]? with
    | none => rw [hr] at h; cases h
    | some w => rw [hr] at h; cases h; rfl
  · cases h

theorem slice_map (f : Y → Y') (rows : List (Row Y)) (lo hi : Int) :
    slice (rows.map (Row.map f)) lo hi = (slice rows lo hi).map (Row.map f) := by
  unfold slice
  rw [List.map_take, List.map_drop]

theorem maxGap_map (f : Y → Y') {rows : List (Row Y)} {e : Int} (k stop m : Int)
    {g : Int} (hg : maxGap rows e k stop m = .ok g) : maxGap (rows.map (Row.map f)) e k stop m = .ok g := by
  fun_induction ColdV.maxGap rows e k stop m with
  | case1 k m hk ih =>
    rw [ColdV.maxGap, if_pos hk]
    obtain ⟨b, h1, hg⟩ := bind_ok hg
    obtain ⟨a, h2, hg⟩ := bind_ok hg
    rw [rd_map f h1, ok_bind, rd_map f h2, ok_bind]
    exact ih b a hg
  | case2 k m hk =>
    rw [ColdV.maxGap, if_neg hk]
    exact hg

theorem compact_map (f : Y → Y') : ∀ (l : List (Row Y)) (k : Int) (rs : List Int),
    compact (l.map (Row.map f)) k rs = (compact l k rs).map (Row.map f)
  | [], _, rs => by simp [compact]
  | x :: xs, k, [] => by simp only [List.map_cons, compact]; rw [compact_map f xs]
  | x :: xs, k, r :: rs => by
    simp only [List.map_cons, compact]
    split
    · exact compact_map f xs _ _
    · rw [compact_map f xs, List.map_cons]

theorem commit_map (f : Y → Y') (rows cp : List (Row Y)) :
    commit (rows.map (Row.map f)) (cp.map (Row.map f)) = (commit rows cp).map (Row.map f) := by
  simp [commit, List.map_drop]

theorem getD_map (f : Y → Y') {rows : List (Row Y)} {k : Nat} (d : Row Y) (d' : Row Y') (hk : k < rows.length) :
    (rows.map (Row.map f)).getD k d' = (rows.getD k d).map f := by
  simp only [List.getD_eq_getElem?_getD, List.getElem?_map, List.getElem?_eq_getElem hk]
  rfl

theorem shiftDown_map (f : Y → Y') (d : Row Y) (d' : Row Y') (a : List (Row Y)) (k stop : Nat)
    (hs : stop < a.length) :
    shiftDown d' (a.map (Row.map f)) k stop = (shiftDown d a k stop).map (Row.map f) := by
  fun_induction shiftDown d a k stop with
  | case1 a k h ih =>
    rw [shiftDown, if_pos h, getD_map f d d' (by omega), ← List.map_set]
    exact ih (by rw [List.length_set]; exact hs)
  | case2 a k h => rw [shiftDown, if_neg h]

theorem findGe_map (f : Y → Y') (rows : List (Row Y)) (t : Int) (stop k : Nat) :
    findGe (rows.map (Row.map f)) t stop k = findGe rows t stop k := by
  fun_induction findGe rows t stop k with
  | case1 k hk hn => rw [findGe, if_pos hk, List.getElem?_map, hn]; rfl
  | case2 k hk v hv hge =>
    rw [findGe, if_pos hk, List.getElem?_map, hv]
    show (if v.date ≥ t then _ else _) = _
    rw [if_pos hge]
  | case3 k hk v hv hge ih =>
    rw [findGe, if_pos hk, List.getElem?_map, hv]
    show (if v.date ≥ t then _ else _) = _
    rw [if_neg hge, ih]
  | case4 k hk => rw [findGe, if_neg hk]

theorem cores_map (h : Hom series K K') (w : List (Sc Y V W D)) :
    (w.map (Sc.map h)).map Sc.core = w.map Sc.core := by
  rw [List.map_map]; rfl

theorem isBreak_map (h : Hom series K K') (w : List (Sc Y V W D)) : isBreak K' (w.map (Sc.map h)) = isBreak K w := by
  unfold isBreak
  rw [h.N, cores_map]

theorem isOutlier_map (h : Hom series K K') (w : List (Sc Y V W D)) :
    isOutlier K' (w.map (Sc.map h)) = isOutlier K w := by
  unfold isOutlier
  rw [h.N, cores_map]

theorem cmRaw_map (h : Hom series K K') (w : List (Sc Y V W D)) : cmRaw K' (w.map (Sc.map h)) = cmRaw K w := by
  unfold cmRaw
  rw [h.N, h.cm, List.map_map, List.map_map]
  rfl

theorem difs_map (h : Hom series K K') (w : List (Sc Y V W D)) :
    (w.map (Sc.map h)).map (fun x => x.dif) = (w.map (fun x => x.dif)).map h.d := by
  rw [List.map_map, List.map_map]; rfl

theorem Arr.slice_six {series rows : List (Row Y)} {e lo hi : Int} (h : Arr series rows e) (h0 : 0 ≤ lo)
    (h1 : hi < e) (h6 : lo + 5 ≤ hi) : 6 ≤ (slice rows lo hi).length := by
  have := h.le
  unfold slice
  rw [List.length_take, List.length_drop]
  omega

theorem lbWindow_map (h : Hom series K K') (m : M) (rows : List (Row Y)) (iIni c : Int)
    (hi : iIni < rows.length) (h0 : 0 ≤ iIni) :
    lbWindow K' (h.m m) (rows.map (Row.map h.y)) iIni c = (lbWindow K m rows iIni c).map (Sc.map h) := by
  unfold lbWindow
  rw [List.map_map]
  apply List.map_congr_left
  intro k _
  show column _ _ = Sc.map h (column _ _)
  rw [getD_map h.y K.row0 K'.row0 (by omega), h.score]
  rfl

theorem lbCm_map (h : Hom series K K') {P : Params} {iIni c : Int} {b : LB Y V W D} {sc : List (Sc Y V W D)} {cm : Cm}
    (hp : lbCm P K iIni c b sc = .ok cm) : lbCm P K' iIni c (b.map h) (sc.map (Sc.map h)) = .ok cm := by
  unfold lbCm at hp ⊢
  split at hp
  · rename_i hge
    rw [if_pos hge]
    obtain ⟨d, hd, hp⟩ := bind_ok hp
    have := rd_map h.y hd
    show (rd (b.rows.map (Row.map h.y)) b.end_ (iIni + 1) >>= _) = _
    rw [this, ok_bind, cmRaw_map]
    exact hp
  · rename_i hge
    rw [if_neg hge]
    exact hp

theorem lookBack_map (h : Hom series K K') (P : Params) (m : M) (iBreak : Int) :
    ∀ (n : Nat) (iIni : Int) (b b' : LB Y V W D), (iIni - (iBreak - 1) + 1).toNat = n →
      Arr series b.rows b.end_ → lookBack P K m iBreak iIni b = .ok b' →
      lookBack P K' (h.m m) iBreak iIni (b.map h) = .ok (b'.map h) := by
  intro n
  induction n using Nat.strongRecOn with
  | _ n ih =>
    intro iIni b b' hn ha hr
    rw [lookBack] at hr ⊢
    by_cases hc : iIni ≥ iBreak - 1
    · rw [if_pos hc] at hr ⊢
      dsimp only at hr ⊢
      generalize hic : (if iIni - (iBreak - 1) + 1 < P.conse then iIni - (iBreak - 1) + 1 else P.conse) = ic at hr ⊢
      split at hr
      · cases hr
      · rename_i hne
        rw [if_neg hne]
        obtain ⟨u, hk, hr⟩ := bind_ok hr
        obtain ⟨cm, hp, hr⟩ := bind_ok hr
        have hk' : Cold.chk (b.map h).end_ (iIni - ic + 1) iIni = .ok u := hk
        obtain ⟨k0, k1⟩ := chk_ok hk
        have hle := ha.le
        have hi0 : 0 ≤ iIni := by
          by_cases hneg : iIni < 0
          · exfalso; omega
          · omega
        rw [hk', ok_bind, show (b.map h).rows = b.rows.map (Row.map h.y) from rfl,
          lbWindow_map h m b.rows iIni ic (by omega) hi0, lbCm_map h hp,
          ok_bind, isBreak_map, isOutlier_map]
        split at hr
        · rename_i hb
          rw [if_pos hb]
          cases hr
          rfl
        · rename_i hb
          rw [if_neg hb]
          split at hr
          · rename_i ho
            rw [if_pos ho]
            have := ih (iIni - 1 - (iBreak - 1) + 1).toNat (by omega) (iIni - 1) _ b' rfl
              (ha.shift K.row0 hi0 (by omega)) hr
            rw [show (b.map h).end_ = b.end_ from rfl, shiftDown_map h.y K.row0 K'.row0 _ _ _ (by omega)]
            exact this
          · rename_i ho
            rw [if_neg ho]
            exact ih (iIni - 1 - (iBreak - 1) + 1).toNat (by omega) (iIni - 1) _ b' rfl (by exact ha) hr
    · rw [if_neg hc] at hr ⊢
      cases hr
      rfl

theorem getLast_map (h : Hom series K K') (l : List (Rec Y M V W D G)) :
    (l.map (Rec.map h)).getLast? = l.getLast?.map (Rec.map h) := by
  rw [List.getLast?_map]

theorem findBreak_map (h : Hom series K K') {s : St Y M V W D G} {k : Int} (hf : findBreak s = .ok k) :
    findBreak (s.map h) = .ok k := by
  unfold findBreak at hf ⊢
  rw [show (s.map h).recs = s.recs.map (Rec.map h) from rfl, getLast_map]
  cases hl : s.recs.getLast? with
  | none => rw [hl] at hf; exact hf
  | some r =>
    rw [hl] at hf
    show (match findGe (s.rows.map (Row.map h.y)) r.tBreak s.end_.toNat 0 with
      | some k => _ | none => _) = _
    rw [findGe_map]
    exact hf

theorem doLookBack_map (h : Hom series K K') {P : Params} {m : M} {s : St Y M V W D G} {iBreak : Int} {r}
    (ha : Arr series s.rows s.end_) (hr : doLookBack P K m s iBreak = .ok r) :
    doLookBack P K' (h.m m) (s.map h) iBreak = .ok (r.1.map h, r.2.1, r.2.2.map (Sc.map h)) := by
  unfold doLookBack at hr ⊢
  show (if s.iStart > iBreak then _ else _) = _
  split at hr
  · rename_i hgt
    rw [if_pos hgt]
    obtain ⟨b, hb, hr⟩ := bind_ok hr
    cases hr
    have := lookBack_map h P m iBreak _ (s.iStart - 2) _ b rfl (by exact ha) hb
    have e : (LB.map h ⟨s.rows, s.end_, s.i, s.iStart, none, [], s.cm⟩) =
      ⟨(s.map h).rows, (s.map h).end_, (s.map h).i, (s.map h).iStart, none, [], (s.map h).cm⟩ := rfl
    rw [e] at this
    show (lookBack P K' (h.m m) iBreak ((s.map h).iStart - 2) _ >>= _) = _
    rw [show (s.map h).iStart - 2 = s.iStart - 2 from rfl, this, ok_bind]
    rfl
  · rename_i hgt
    rw [if_neg hgt]
    cases hr
    rfl

theorem firstCurve_map (h : Hom series K K') {P : Params} {s r : St Y M V W D G}
    {c : Option Int} {tested : List (Sc Y V W D)} (ha : Arr series s.rows s.end_) (hr : firstCurve P K s c tested = .ok r) :
    firstCurve P K' (s.map h) c (tested.map (Sc.map h)) = .ok (r.map h) := by
  unfold firstCurve at hr ⊢
  have e : (s.map h).recs.isEmpty = s.recs.isEmpty := by
    show (s.recs.map _).isEmpty = _
    cases s.recs <;> rfl
  rw [e, show (s.map h).iStart = s.iStart from rfl, show (s.map h).iDense = s.iDense from rfl,
    show (s.map h).end_ = s.end_ from rfl, show (s.map h).rows = s.rows.map (Row.map h.y) from rfl]
  split at hr
  · rename_i hc
    rw [if_pos hc]
    obtain ⟨u, h1, hr⟩ := bind_ok hr
    obtain ⟨te, h2, hr⟩ := bind_ok hr
    obtain ⟨tb, h3, hr⟩ := bind_ok hr
    obtain ⟨ts, h4, hr⟩ := bind_ok hr
    rw [h1, ok_bind, rd_map h.y h2, ok_bind, rd_map h.y h3, ok_bind, rd_map h.y h4, ok_bind]
    cases c with
    | none => cases hr
    | some c =>
      dsimp only at hr ⊢
      split at hr
      · rename_i hcc
        obtain ⟨c1, c2⟩ := chk_ok h1
        have hl6 : Cold.LASSO_MIN = 6 := rfl
        have hc' : s.iStart - s.iDense ≥ Cold.LASSO_MIN := by
          have := Bool.and_eq_true _ _ ▸ hc
          exact of_decide_eq_true this.2
        rw [if_pos hcc, slice_map, h.fit _ _ (Or.inl rfl) (ha.slice_sub c1 c2) (ha.slice_six c1 c2 (by omega)), difs_map,
          h.magnNeg]
        cases hr
        simp only [St.map, Rec.map, List.map_append, List.map_cons, List.map_nil, Option.map_some,
          List.length_append, List.length_map, List.length_cons, List.length_nil]
        rfl
      · cases hr
  · rename_i hc
    rw [if_neg hc]
    cases hr
    rfl

theorem trainPhase_map (h : Hom series K K') {P : Params} {s : St Y M V W D G}
    {r : Bool × St Y M V W D G} (hs : series.Pairwise (fun a b => a.date < b.date))
    (ha : Arr series s.rows s.end_) (hpos : s.iStart + 11 ≤ s.i) (hr : trainPhase P K s = .ok r) :
    trainPhase P K' (s.map h) = .ok (r.1, r.2.map h) := by
  unfold trainPhase at hr ⊢
  obtain ⟨g, h1, hr⟩ := bind_ok hr
  have h1' := maxGap_map h.y _ _ _ h1
  rw [show (s.map h).iStart = s.iStart from rfl, show (s.map h).i = s.i from rfl,
    show (s.map h).end_ = s.end_ from rfl, show (s.map h).rows = s.rows.map (Row.map h.y) from rfl,
    h1', ok_bind]
  split at hr
  · rename_i hg
    rw [if_pos hg]
    cases hr
    rfl
  · rename_i hg
    rw [if_neg hg]
    obtain ⟨u, h2, hr⟩ := bind_ok hr
    obtain ⟨c1, c2⟩ := chk_ok h2
    rw [h2, ok_bind, slice_map, h.mask _ (ha.slice_sub c1 c2) (ha.slice_six c1 c2 (by omega))]
    dsimp only at hr ⊢
    split at hr
    · rename_i hsp
      rw [if_pos hsp]
      cases hr
      rfl
    · rename_i hsp
      rw [if_neg hsp, ← List.map_take, compact_map]
      generalize (Cold.keptCount (K.mask (slice s.rows (s.iStart - 1) (s.i + P.conse - 1)))
          (s.i - s.iStart + 1).toNat : Int) = iSpan at hr hsp ⊢
      have ha' := ha.commit 0
          (Cold.rmIds (K.mask (slice s.rows (s.iStart - 1) (s.i + P.conse - 1))) (s.iStart - 1) (s.i - s.iStart + 1).toNat)
      generalize compact (s.rows.take s.end_.toNat) 0
          (Cold.rmIds (K.mask (slice s.rows (s.iStart - 1) (s.i + P.conse - 1))) (s.iStart - 1)
          (s.i - s.iStart + 1).toNat) = cp at hr ha' ⊢
      obtain ⟨a, h3, hr⟩ := bind_ok hr
      obtain ⟨b, h4, hr⟩ := bind_ok hr
      rw [List.length_map, rd_map h.y h3, ok_bind, rd_map h.y h4, ok_bind,
        show (a.map h.y).date = a.date from rfl, show (b.map h.y).date = b.date from rfl]
      split at hr
      · rename_i hy
        rw [if_pos hy]
        cases hr
        rfl
      · rename_i hy
        rw [if_neg hy]
        obtain ⟨u', h5, hr⟩ := bind_ok hr
        obtain ⟨d1, d2⟩ := chk_ok h5
        have hml : Cold.MIN_OBS = 12 := rfl
        rw [h5, ok_bind, commit_map, slice_map,
          h.fit _ _ (Or.inl rfl) (ha'.slice_sub d1 d2) (ha'.slice_six d1 d2 (by omega)), h.unstable]
        split at hr
        · rename_i hu
          rw [if_pos hu]
          cases hr
          rfl
        · rename_i hu
          rw [if_neg hu]
          obtain ⟨ib, h6, hr⟩ := bind_ok hr
          obtain ⟨⟨s1, ic, te⟩, h7, hr⟩ := bind_ok hr
          obtain ⟨s2, h8, hr⟩ := bind_ok hr
          cases hr
          have k6 := findBreak_map h h6
          have k7 := doLookBack_map h (by exact ha') h7
          obtain ⟨q1, _, _, _⟩ := by
            refine doLookBack_data hs ?_ ?_ ?_ ?_ h7
            · exact ha'
            · exact d1
            · exact d2
            · dsimp only; omega
          have k8 := firstCurve_map h q1 h8
          dsimp only at k7 k8
          refine Eq.trans (congrArg (fun x => x >>= _) k6) ?_
          rw [ok_bind]
          refine Eq.trans (congrArg (fun x => x >>= _) k7) ?_
          rw [ok_bind]
          dsimp only
          rw [k8]
          rfl

theorem refit_map (h : Hom series K K') (s : St Y M V W D G) (a b c d e : Int) (ha : Arr series s.rows s.end_)
    (hpos : s.iStart + 11 ≤ s.i) (hb : Order b) (c1 : 0 ≤ s.iStart - 1) (c2 : s.i - 1 < s.end_) :
    refit K' (s.map h) a b c d e = (refit K s a b c d e).map h := by
  unfold refit
  rw [h.skip, show (s.map h).iSpanSkip = s.iSpanSkip from rfl, show (s.map h).i = s.i from rfl,
    show (s.map h).iStart = s.iStart from rfl, show (s.map h).rows = s.rows.map (Row.map h.y) from rfl]
  split
  · dsimp only
    rw [slice_map, h.fit _ _ hb (ha.slice_sub c1 c2) (ha.slice_six c1 c2 (by omega))]
    rfl
  · rfl

theorem ahead_map (h : Hom series K K') (s : St Y M V W D G) (k : Nat) (hk : (s.i + (k : Int)).toNat < s.rows.length) :
    ahead K' (s.map h) k = (ahead K s k).map h.y := by
  unfold ahead
  rw [← getD_map h.y K.row0 K'.row0 hk]
  rfl

theorem fresh_map (h : Hom series K K') {P : Params} {a b : Int} {s r : St Y M V W D G}
    (ha : Arr series s.rows s.end_) (hpos : s.iStart + 11 ≤ s.i) (hb : Order b)
    (hr : fresh P K a b s = .ok r) : fresh P K' a b (s.map h) = .ok (r.map h) := by
  unfold fresh at hr ⊢
  obtain ⟨te, h1, hr⟩ := bind_ok hr
  obtain ⟨ts, h2, hr⟩ := bind_ok hr
  obtain ⟨u, h3, hr⟩ := bind_ok hr
  obtain ⟨u', h4, hr⟩ := bind_ok hr
  rw [show (s.map h).iStart = s.iStart from rfl, show (s.map h).i = s.i from rfl,
    show (s.map h).end_ = s.end_ from rfl, show (s.map h).rows = s.rows.map (Row.map h.y) from rfl,
    rd_map h.y h1, ok_bind, rd_map h.y h2, ok_bind, h3, ok_bind, h4, ok_bind, slice_map]
  dsimp only
  obtain ⟨c1, c2⟩ := chk_ok h3
  obtain ⟨d1, d2⟩ := chk_ok h4
  have hle := ha.le
  rw [h.fit _ _ hb (ha.slice_sub c1 c2) (ha.slice_six c1 c2 (by omega))]
  cases hr
  have hw : (List.range P.conse).map (fun k => column (ahead K' (s.map h) k)
      (K'.score b (h.m (K.fit b (slice s.rows (s.iStart - 1) (s.i - 1)))) (ahead K' (s.map h) k))) =
      (List.range P.conse).map (fun k => Sc.map h (column (ahead K s k)
        (K.score b (K.fit b (slice s.rows (s.iStart - 1) (s.i - 1))) (ahead K s k)))) := by
    apply List.map_congr_left
    intro k hk
    have := List.mem_range.1 hk
    rw [ahead_map h s k (by omega), h.score]
    rfl
  rw [hw]
  unfold St.map Rec.map
  dsimp only
  rw [List.map_map, h.magn0]
  rfl

theorem shiftWin_map (h : Hom series K K') {P : Params} {a : Int} {s r : St Y M V W D G}
    (hP : 1 ≤ P.conse) (ha : Arr series s.rows s.end_) (hr : shiftWin P K a s = .ok r) : shiftWin P K' a (s.map h) = .ok (r.map h) := by
  unfold shiftWin at hr ⊢
  rw [show (s.map h).idsOldLen = s.idsOldLen from rfl]
  cases hid : s.idsOldLen with
  | none => rw [hid] at hr; cases hr
  | some l =>
    rw [hid] at hr
    dsimp only at hr ⊢
    split at hr
    · cases hr
    · rename_i hl0
      rw [if_neg hl0]
      obtain ⟨u, h5, hr⟩ := bind_ok hr
      obtain ⟨u', h6, hr⟩ := bind_ok hr
      rw [show (s.map h).iStart = s.iStart from rfl, show (s.map h).i = s.i from rfl,
        show (s.map h).end_ = s.end_ from rfl, show (s.map h).rows = s.rows.map (Row.map h.y) from rfl,
        show (s.map h).cur.category = s.cur.category from rfl, h5, ok_bind, h6, ok_bind]
      split at hr
      · cases hr
      · rename_i hst
        rw [if_neg hst, show (s.map h).cft = s.cft.map h.m from rfl, show (s.map h).dif = s.dif.map h.m from rfl]
        cases hm : s.cft with
        | none => rw [hm] at hr; cases hr
        | some m =>
          cases hm' : s.dif with
          | none => rw [hm, hm'] at hr; cases hr
          | some m' =>
            rw [hm, hm'] at hr
            simp only [Option.map_some]
            obtain ⟨d1, d2⟩ := chk_ok h6
            have hle := ha.le
            rw [slice_map, ahead_map h s _ (by omega), List.map_map]
            have e : ((fun x : Row Y' => x.date) ∘ Row.map h.y) = (fun x : Row Y => x.date) := rfl
            rw [e, h.near]
            cases hr
            simp only [St.map, List.map_append, List.map_tail, List.map_cons, List.map_nil, hm, hm', hid]
            rfl

theorem later_map (h : Hom series K K') {P : Params} {a b : Int} {s r : St Y M V W D G}
    (hP : 1 ≤ P.conse) (ha : Arr series s.rows s.end_) (hpos : s.iStart + 11 ≤ s.i) (hb : Order b)
    (hr : later P K a b s = .ok r) :
    later P K' a b (s.map h) = .ok (r.map h) := by
  unfold later at hr ⊢
  rw [show (s.map h).preEnd = s.preEnd from rfl]
  cases hpe : s.preEnd with
  | none => rw [hpe] at hr; cases hr
  | some pe =>
    rw [hpe] at hr
    dsimp only at hr ⊢
    obtain ⟨te, h1, hr⟩ := bind_ok hr
    obtain ⟨ts, h2, hr⟩ := bind_ok hr
    obtain ⟨u, h3, hr⟩ := bind_ok hr
    rw [show (s.map h).iStart = s.iStart from rfl, show (s.map h).i = s.i from rfl,
      show (s.map h).end_ = s.end_ from rfl, show (s.map h).rows = s.rows.map (Row.map h.y) from rfl,
      rd_map h.y h1, ok_bind, rd_map h.y h2, ok_bind, h3, ok_bind,
      refit_map h s _ _ _ _ _ ha hpos hb (chk_ok h3).1 (chk_ok h3).2]
    have hf := refit_frame K s a b pe te.date ts.date
    have k := fun ha => shiftWin_map h hP ha hr
    exact k (by dsimp only; rw [hf.1, hf.2.1]; exact ha)

theorem refresh_map (h : Hom series K K') {P : Params} {s r : St Y M V W D G}
    (hP : 1 ≤ P.conse) (ha : Arr series s.rows s.end_) (hpos : s.iStart + 11 ≤ s.i) (hr : refresh P K s = .ok r) :
    refresh P K' (s.map h) = .ok (r.map h) := by
  rw [refresh_eq] at hr ⊢
  rw [show (s.map h).iCount = s.iCount from rfl]
  cases hic : s.iCount with
  | none => rw [hic] at hr; cases hr
  | some ic =>
    rw [hic] at hr
    dsimp only at hr ⊢
    rw [show (s.map h).iStart = s.iStart from rfl, show (s.map h).i = s.i from rfl]
    split at hr
    · rename_i hc
      rw [if_pos hc]
      have k := fun ha hpos => fresh_map h ha hpos (updateCft_order _) hr
      exact k ha hpos
    · rename_i hc
      rw [if_neg hc]
      have k := fun ha hpos => later_map h hP ha hpos (updateCft_order _) hr
      exact k ha hpos

theorem monitorPhase_map (h : Hom series K K') {P : Params} {s r : St Y M V W D G}
    (hP : 1 ≤ P.conse) (hs : series.Pairwise (fun a b => a.date < b.date))
    (ha : Arr series s.rows s.end_) (hr' : ∀ x ∈ s.recs, RecData K series x)
    (hcur : s.iCount ≠ some 0 → Cur K series s s.i ∧ s.win.length = P.conse) (hpos : s.iStart + 11 ≤ s.i)
    (hr : monitorPhase P K s = .ok r) : monitorPhase P K' (s.map h) = .ok (r.map h) := by
  unfold monitorPhase at hr ⊢
  obtain ⟨s1, h1, hr⟩ := bind_ok hr
  obtain ⟨d, h2, hr⟩ := bind_ok hr
  obtain ⟨cm, h3, hr⟩ := bind_ok hr
  obtain ⟨f1, f2, _⟩ := refresh_data hP hs ha hr' (fun h => (hcur h).1) hpos h1
  have ha1 : Arr series s1.rows s1.end_ := by rw [f1, f2]; exact ha
  rw [refresh_map h hP ha hpos h1, ok_bind, show (s1.map h).i = s1.i from rfl, show (s1.map h).cm = s1.cm from rfl,
    show (s1.map h).end_ = s1.end_ from rfl, show (s1.map h).rows = s1.rows.map (Row.map h.y) from rfl,
    rd_map h.y h2, ok_bind, show (s1.map h).win = s1.win.map (Sc.map h) from rfl, cmRaw_map,
    show (d.map h.y).date = d.date from rfl, h3, ok_bind]
  dsimp only at hr ⊢
  rw [isBreak_map, isOutlier_map]
  split at hr
  · rename_i hb
    rw [if_pos hb, difs_map, h.magn]
    cases hr
    simp only [St.map, Rec.map, List.map_append, List.map_cons, List.map_nil, Option.map_some,
      List.length_append, List.length_map, List.length_cons, List.length_nil]
  · rename_i hb
    rw [if_neg hb]
    split at hr
    · rename_i ho
      obtain ⟨r0, r1, _⟩ := rd_some h2
      have hle := ha1.le
      rw [if_pos ho, shiftDown_map h.y K.row0 K'.row0 _ _ _ (by omega)]
      cases hr
      rfl
    · rename_i ho
      rw [if_neg ho]
      cases hr
      rfl

theorem body_map (h : Hom series K K') {P : Params} {s r : St Y M V W D G}
    (hP : 1 ≤ P.conse) (hs : series.Pairwise (fun a b => a.date < b.date)) (hd : Data P K series s)
    (hr : body P K s = .ok r) : body P K' (s.map h) = .ok (r.map h) := by
  unfold body at hr ⊢
  obtain ⟨s', h1, hr⟩ := bind_ok hr
  cases hr
  dsimp only at h1 ⊢
  obtain ⟨a, h2, h1⟩ := bind_ok h1
  obtain ⟨b, h3, h1⟩ := bind_ok h1
  rw [show (s.map h).iStart = s.iStart from rfl, show (s.map h).i = s.i from rfl,
    show (s.map h).end_ = s.end_ from rfl, show (s.map h).rows = s.rows.map (Row.map h.y) from rfl,
    show (s.map h).train = s.train from rfl, show (s.map h).it = s.it from rfl,
    rd_map h.y h2, ok_bind, rd_map h.y h3, ok_bind,
    show (a.map h.y).date = a.date from rfl, show (b.map h.y).date = b.date from rfl]
  split at h1
  · rename_i hcond
    rw [if_pos hcond]
    have hml : Cold.MIN_OBS = 12 := rfl
    have hpos : s.iStart + 11 ≤ s.i := by omega
    obtain ⟨⟨go, s1⟩, h4, h1⟩ := bind_ok h1
    dsimp only at h1
    have k4 : (if s.train = false then trainPhase P K' (s.map h) else .ok (true, s.map h)) =
        .ok (go, s1.map h) := by
      split at h4
      · rename_i ht
        rw [if_pos ht]
        exact trainPhase_map h hs hd.arr hpos h4
      · rename_i ht
        rw [if_neg ht]
        cases h4
        rfl
    rw [k4, ok_bind]
    dsimp only
    split at h1
    · rename_i hgo
      rw [if_pos hgo]
      obtain ⟨s2, h5, h1⟩ := bind_ok h1
      cases h1
      have hm : Arr series s1.rows s1.end_ ∧ (∀ x ∈ s1.recs, RecData K series x) ∧
          (s1.iCount ≠ some 0 → Cur K series s1 s1.i ∧ s1.win.length = P.conse) ∧ s1.iStart + 11 ≤ s1.i := by
        split at h4
        · rename_i ht
          obtain ⟨q1, q2, q3⟩ := trainPhase_data hs hd ht h4
          rcases q3 with ⟨q3, _⟩ | ⟨q3, q4, _⟩
          · dsimp only at q3; rw [q3] at hgo; cases hgo
          · exact ⟨q1, q2, fun hh => absurd q3 hh, q4⟩
        · rename_i ht
          cases h4
          refine ⟨hd.arr, hd.recs, fun _ => hd.cur (by revert ht; cases s.train <;> simp), hpos⟩
      rw [monitorPhase_map h hP hs hm.1 hm.2.1 hm.2.2.1 hm.2.2.2 h5]
      rfl
    · rename_i hgo
      rw [if_neg hgo]
      cases h1
      rfl
  · rename_i hcond
    rw [if_neg hcond]
    cases h1
    rfl

theorem loop_map (h : Hom series K K') {P : Params} (hP : 1 ≤ P.conse)
    (hs : series.Pairwise (fun a b => a.date < b.date)) : ∀ (f : Nat) {s r : St Y M V W D G}, Data P K series s →
    loop P K f s = .ok r → loop P K' f (s.map h) = .ok (r.map h) := by
  intro f
  induction f with
  | zero =>
    intro s r hd hr
    unfold loop at hr ⊢
    split at hr
    · cases hr
    · rename_i hi
      cases hr
      exact if_neg hi
  | succ f ih =>
    intro s r hd hr
    unfold loop at hr ⊢
    split at hr
    · rename_i hi
      obtain ⟨s', h1, hr⟩ := bind_ok hr
      rw [if_pos (by exact hi), body_map h hP hs hd h1, ok_bind]
      exact ih (body_data hP hs hd h1) hr
    · rename_i hi
      cases hr
      exact if_neg hi

theorem finishTrained_map (h : Hom series K K') {P : Params} {s r : St Y M V W D G}
    (hr : finishTrained P K s = .ok r) : finishTrained P K' (s.map h) = .ok (r.map h) := by
  unfold finishTrained at hr ⊢
  obtain ⟨n, hn, hr⟩ := bind_ok hr
  dsimp only at hr
  obtain ⟨a, h1, hr⟩ := bind_ok hr
  rw [show (s.map h).win = s.win.map (Sc.map h) from rfl, cores_map, h.N, hn, ok_bind]
  dsimp only
  rw [show (s.map h).end_ = s.end_ from rfl, show (s.map h).rows = s.rows.map (Row.map h.y) from rfl,
    rd_map h.y h1, ok_bind]
  split at hr
  · rename_i hc
    rw [if_pos hc]
    obtain ⟨b, h2, hr⟩ := bind_ok hr
    rw [rd_map h.y h2, ok_bind, ← List.map_drop, difs_map, h.magn]
    cases hr
    simp only [St.map, Rec.map, List.map_append, List.map_cons, List.map_nil, Option.map_some]
    rfl
  · rename_i hc
    rw [if_neg hc]
    cases hr
    simp only [St.map, Rec.map, List.map_append, List.map_cons, List.map_nil]
    rfl

theorem endStart_map (h : Hom series K K') (s : St Y M V W D G) : endStart (s.map h) = endStart s := by
  unfold endStart
  rw [show (s.map h).recs = s.recs.map (Rec.map h) from rfl, getLast_map]
  cases s.recs.getLast? with
  | none => rfl
  | some r =>
    show (match findGe (s.rows.map (Row.map h.y)) r.tBreak (s.rows.map (Row.map h.y)).length 0 with
      | some k => _ | none => _) = _
    rw [findGe_map, List.length_map]
    rfl

theorem screenEnd_map (h : Hom series K K') {s r : St Y M V W D G}
    (ha : Arr series s.rows s.end_) (hr : screenEnd K s = .ok r) : screenEnd K' (s.map h) = .ok (r.map h) := by
  unfold screenEnd at hr ⊢
  rw [show (s.map h).end_ = s.end_ from rfl, show (s.map h).rows = s.rows.map (Row.map h.y) from rfl,
    show (s.map h).iStart = s.iStart from rfl]
  split at hr
  · rename_i hc
    rw [if_pos hc]
    obtain ⟨u, h1, hr⟩ := bind_ok hr
    obtain ⟨c1, c2⟩ := chk_ok h1
    have hl6 : Cold.LASSO_MIN = 6 := rfl
    rw [h1, ok_bind, slice_map, h.mask _ (ha.slice_sub c1 c2) (ha.slice_six c1 c2 (by omega))]
    dsimp only
    rw [← List.map_take, compact_map, commit_map, List.length_map]
    cases hr
    rfl
  · rename_i hc
    rw [if_neg hc]
    cases hr
    rfl

theorem closeEnd_map (h : Hom series K K') {s r : St Y M V W D G}
    (ha : Arr series s.rows s.end_) (hr : closeEnd K s = .ok r) : closeEnd K' (s.map h) = .ok (r.map h) := by
  unfold closeEnd at hr ⊢
  rw [show (s.map h).end_ = s.end_ from rfl, show (s.map h).rows = s.rows.map (Row.map h.y) from rfl,
    show (s.map h).iStart = s.iStart from rfl, show (s.map h).recs = s.recs.map (Rec.map h) from rfl,
    getLast_map]
  split at hr
  · rename_i hc
    rw [if_pos hc]
    obtain ⟨u, h1, hr⟩ := bind_ok hr
    obtain ⟨a, h2, hr⟩ := bind_ok hr
    obtain ⟨b, h3, hr⟩ := bind_ok hr
    rw [h1, ok_bind]
    obtain ⟨c1, c2⟩ := chk_ok h1
    have hl6 : Cold.LASSO_MIN = 6 := rfl
    have hfit : K'.fit 4 ((slice s.rows (s.iStart - 1) (s.end_ - 1)).map (Row.map h.y)) =
        h.m (K.fit 4 (slice s.rows (s.iStart - 1) (s.end_ - 1))) :=
      h.fit _ _ (Or.inl rfl) (ha.slice_sub c1 c2) (ha.slice_six c1 c2 (by omega))
    have fin : ∀ {s' : St Y' M' V W D' G'}, s' = r.map h → (Except.ok s' : Except Err _) = .ok (r.map h) :=
      fun e => by rw [e]
    cases hl : s.recs.getLast? with
    | none =>
      rw [hl] at h2
      dsimp only at h2
      cases hrd : rd s.rows s.end_ 0 with
      | error e => rw [hrd] at h2; cases h2
      | ok v =>
        rw [hrd] at h2
        cases h2
        simp only [Option.map_none]
        rw [rd_map h.y hrd]
        simp only [Except.map, ok_bind]
        rw [rd_map h.y h3, ok_bind]
        apply fin
        cases hr
        simp only [St.map, Rec.map, List.map_append, List.map_cons, List.map_nil, Option.map_some,
          slice_map, hfit, List.length_map, h.magn0]
        rfl
    | some q =>
      rw [hl] at h2
      cases h2
      simp only [Option.map_some, ok_bind]
      rw [rd_map h.y h3, ok_bind]
      apply fin
      cases hr
      simp only [St.map, Rec.map, List.map_append, List.map_cons, List.map_nil, Option.map_some,
        slice_map, hfit, List.length_map, h.magn0]
      rfl
  · rename_i hc
    rw [if_neg hc]
    cases hr
    rfl

theorem finishUntrained_map (h : Hom series K K') {s r : St Y M V W D G} (ha : Arr series s.rows s.end_)
    (hr : finishUntrained K s = .ok r) : finishUntrained K' (s.map h) = .ok (r.map h) := by
  rw [finishUntrained_eq] at hr ⊢
  obtain ⟨s1, h1, hr⟩ := bind_ok hr
  have := screenEnd_map h (by exact ha) h1
  have ha1 : Arr series s1.rows s1.end_ := by
    unfold screenEnd at h1
    split at h1
    · obtain ⟨_, _, h1⟩ := bind_ok h1
      cases h1
      exact ha.commit 0 _
    · cases h1
      exact ha
  rw [endStart_map]
  refine Eq.trans (congrArg (fun x => x >>= _) this) ?_
  rw [ok_bind]
  exact closeEnd_map h ha1 hr

/-- The procedure commutes with the map. -/
theorem standProcedure_map {P : Params} {rows : List (Row Y)} (h : Hom rows K K') {nCm : Nat} (hP : 1 ≤ P.conse)
    (hs : rows.Pairwise (fun a b => a.date < b.date)) {out : Output Y M V W D G} (hr : standProcedure P K rows nCm = .ok out) :
    standProcedure P K' (rows.map (Row.map h.y)) nCm = .ok (out.map h) := by
  unfold standProcedure at hr ⊢
  obtain ⟨s, h1, hr⟩ := bind_ok hr
  have hd0 : Data P K rows (init rows nCm) :=
    ⟨⟨by simp [init], by simp [init], by simp [init, live]⟩, by simp [init], by simp [init]⟩
  have hd := loop_data hP hs _ hd0 h1
  have k1 := loop_map h hP hs _ hd0 h1
  have e : (init rows nCm : St Y M V W D G).map h = init (rows.map (Row.map h.y)) nCm := by
    simp only [init, St.map, List.length_map]
    rfl
  rw [e] at k1
  rw [List.length_map, k1, ok_bind]
  dsimp only at hr ⊢
  rw [show (s.map h).train = s.train from rfl]
  split at hr
  · rename_i ht
    rw [if_pos ht]
    obtain ⟨f, h2, hr⟩ := bind_ok hr
    cases hr
    rw [finishTrained_map h h2]
    rfl
  · rename_i ht
    rw [if_neg ht]
    obtain ⟨f, h2, hr⟩ := bind_ok hr
    cases hr
    rw [finishUntrained_map h hd.arr h2]
    rfl

end Pycold.ColdV
