import Verif.Proof.ColdVData
/-! The loop with data does not look ahead: a run over a longer series passes through the states of the run
over a shorter one. -/
namespace Pycold.ColdV

open Pycold.Cold (Err Params Num Cm)

variable {Y M V W D G : Type}

/-- The array `R` holds, in its live part, the live part of `rows` followed by `ys`. -/
structure RowsExt (ys rows : List (Row Y)) (e : Int) (R : List (Row Y)) (E : Int) : Prop where
  nonneg : 0 ≤ e
  le : e ≤ rows.length
  le' : E ≤ R.length
  len : E = e + ys.length
  live : live R E = live rows e ++ ys

theorem live_length {rows : List (Row Y)} {e : Int} (h0 : 0 ≤ e) (h : e ≤ rows.length) :
    ((live rows e).length : Int) = e := by
  simp only [live, List.length_take]
  omega

theorem RowsExt.get {ys rows R : List (Row Y)} {e E : Int} (h : RowsExt ys rows e R E) {k : Nat}
    (hk : (k : Int) < e) : R[k]? = rows[k]? := by
  have h1 : (ColdV.live R E)[k]? = (ColdV.live rows e ++ ys)[k]? := by rw [h.live]
  have hl := live_length h.nonneg h.le
  have hE := h.len
  rw [List.getElem?_append_left (by omega)] at h1
  simp only [ColdV.live, List.getElem?_take] at h1
  rwa [if_pos (by omega), if_pos (by omega)] at h1

theorem RowsExt.getD {ys rows R : List (Row Y)} {e E : Int} (h : RowsExt ys rows e R E) (d : Row Y) {k : Int}
    (h0 : 0 ≤ k) (hk : k < e) : R.getD k.toNat d = rows.getD k.toNat d := by
  rw [List.getD_eq_getElem?_getD, List.getD_eq_getElem?_getD, h.get (by omega)]

theorem RowsExt.rd {ys rows R : List (Row Y)} {e E k : Int} (h : RowsExt ys rows e R E) {v : Row Y}
    (hr : rd rows e k = .ok v) : ColdV.rd R E k = .ok v := by
  unfold ColdV.rd at hr ⊢
  have hE := h.len
  split at hr
  · rename_i hk
    rw [if_pos ⟨hk.1, by omega⟩, h.get (by omega)]
    exact hr
  · cases hr

theorem RowsExt.chk {ys rows R : List (Row Y)} {e E lo hi : Int} (h : RowsExt ys rows e R E) {u : Unit}
    (hr : Cold.chk e lo hi = .ok u) : Cold.chk E lo hi = .ok () := by
  obtain ⟨h0, h1⟩ := chk_ok hr
  have hE := h.len
  unfold Cold.chk
  rw [if_pos ⟨h0, by omega⟩]

theorem RowsExt.slice {ys rows R : List (Row Y)} {e E lo hi : Int} (h : RowsExt ys rows e R E) (h0 : 0 ≤ lo)
    (h1 : hi < e) : slice R lo hi = slice rows lo hi := by
  unfold ColdV.slice
  apply List.ext_getElem?
  intro j
  rw [List.getElem?_take, List.getElem?_take]
  split
  · rw [List.getElem?_drop, List.getElem?_drop, h.get (by omega)]
  · rfl

theorem RowsExt.maxGap {ys rows R : List (Row Y)} {e E : Int} (h : RowsExt ys rows e R E) (k stop m : Int)
    {g : Int} (hg : maxGap rows e k stop m = .ok g) : ColdV.maxGap R E k stop m = .ok g := by
  fun_induction ColdV.maxGap rows e k stop m with
  | case1 k m hk ih =>
    rw [ColdV.maxGap, if_pos hk]
    obtain ⟨b, h1, hg⟩ := bind_ok hg
    obtain ⟨a, h2, hg⟩ := bind_ok hg
    rw [h.rd h1, ok_bind, h.rd h2, ok_bind]
    exact ih b a hg
  | case2 k m hk =>
    rw [ColdV.maxGap, if_neg hk]
    exact hg

theorem compact_append (ys : List (Row Y)) : ∀ (l : List (Row Y)) (k : Int) (rs : List Int),
    (∀ r ∈ rs, r < k + l.length) → compact (l ++ ys) k rs = compact l k rs ++ ys
  | [], k, rs, h => by
    simp only [List.nil_append, compact]
    have : ∀ (ys : List (Row Y)) (k : Int), (∀ r ∈ rs, r < k) → compact ys k rs = ys := by
      intro ys
      induction ys with
      | nil => intro k _; cases rs <;> rfl
      | cons y ys ih =>
        intro k hk
        cases rs with
        | nil => simp only [compact]; rw [ih (k + 1) (by simp)]
        | cons r rs =>
          simp only [compact]
          have := hk r (by simp)
          rw [if_neg (by omega), ih (k + 1) (fun x hx => by have := hk x hx; omega)]
    exact this ys k (by simpa using h)
  | x :: xs, k, [], h => by
    simp only [List.cons_append, compact]
    rw [compact_append ys xs (k + 1) [] (by simp)]
  | x :: xs, k, r :: rs, h => by
    have hlen : ((x :: xs).length : Int) = xs.length + 1 := by simp
    simp only [List.cons_append, compact]
    split
    · exact compact_append ys xs (k + 1) rs (fun z hz => by have := h z (by simp [hz]); omega)
    · rw [compact_append ys xs (k + 1) (r :: rs) (fun z hz => by have := h z hz; omega)]
      rfl

theorem RowsExt.compact {ys rows R : List (Row Y)} {e E : Int} (h : RowsExt ys rows e R E) {rs : List Int}
    (hr : ∀ r ∈ rs, r < e) :
    ColdV.compact (R.take E.toNat) 0 rs = ColdV.compact (rows.take e.toNat) 0 rs ++ ys := by
  have := h.live
  unfold ColdV.live at this
  rw [this]
  have hl := live_length h.nonneg h.le
  unfold ColdV.live at hl
  exact compact_append ys _ 0 rs (fun r h' => by have := hr r h'; omega)

theorem RowsExt.commit {ys rows R : List (Row Y)} {e E : Int} (h : RowsExt ys rows e R E) (cp : List (Row Y))
    (hcp : cp.length ≤ e) :
    RowsExt ys (commit rows cp) cp.length (ColdV.commit R (cp ++ ys)) ((cp ++ ys).length : Nat) := by
  have h1 := h.le
  have h2 := h.le'
  have h3 := h.len
  refine ⟨by omega, ?_, ?_, by simp, ?_⟩
  · simp only [ColdV.commit, List.length_append, List.length_drop]; omega
  · simp only [ColdV.commit, List.length_append, List.length_drop]; omega
  · rw [live_commit, live_commit]

theorem RowsExt.shift {ys rows R : List (Row Y)} {e E k : Int} (h : RowsExt ys rows e R E) (d : Row Y)
    (h0 : 0 ≤ k) (h1 : k < e) :
    RowsExt ys (shiftDown d rows k.toNat (e - 1).toNat) (e - 1) (shiftDown d R k.toNat (E - 1).toNat) (E - 1) := by
  have hE := h.len
  have h2 := h.le
  have h3 := h.le'
  have hl := live_length h.nonneg h.le
  refine ⟨by omega, ?_, ?_, by omega, ?_⟩
  · rw [shiftDown_length]; omega
  · rw [shiftDown_length]; omega
  · rw [live_shiftDown d h0 h1 h2, live_shiftDown d h0 (by omega) h3, h.live,
      List.eraseIdx_append_of_lt_length (by omega)]

theorem RowsExt.findGe {ys rows R : List (Row Y)} {e E : Int} (h : RowsExt ys rows e R E) (t : Int) (k : Nat)
    {r : Nat} (hf : findGe rows t e.toNat k = some r) : ColdV.findGe R t E.toNat k = some r := by
  have hE := h.len
  fun_induction ColdV.findGe rows t e.toNat k with
  | case1 k hk hn => cases hf
  | case2 k hk v hv hge =>
    rw [ColdV.findGe, if_pos (by omega), h.get (by omega), hv]
    dsimp only
    rw [if_pos hge]; exact hf
  | case3 k hk v hv hge ih =>
    rw [ColdV.findGe, if_pos (by omega), h.get (by omega), hv]
    dsimp only
    rw [if_neg hge]; exact ih hf
  | case4 k hk => cases hf

/-- Output arrays of which the second is longer. -/
structure CmExt (x : List Int) (a b : Cm) : Prop where
  out : b.out = a.out ++ x
  date : b.date = a.date ++ x
  len : a.date.length = a.out.length
  log : b.log = a.log

theorem CmExt.put {x : List Int} {a b : Cm} (h : CmExt x a b) {P : Params} {date raw : Int} {a' : Cm}
    (hp : Cold.cmPut P a date raw = .ok a') : ∃ b', Cold.cmPut P b date raw = .ok b' ∧ CmExt x a' b' := by
  unfold Cold.cmPut at hp ⊢
  dsimp only at hp ⊢
  generalize Cold.toShort (if raw > Cold.MAX_SHORT then Cold.MAX_SHORT else raw) = val at hp ⊢
  split at hp
  · rename_i hcm
    rw [if_pos hcm]
    split at hp
    · rename_i hn
      have hout := h.out
      rw [if_pos ⟨hn.1, by rw [hout, List.length_append]; omega⟩, hout, List.getElem?_append_left (by omega)]
      split at hp
      · cases hp
      · rename_i old hold
        split at hp
        · rename_i hv
          cases hp
          rw [if_pos hv]
          refine ⟨_, rfl, ⟨?_, ?_, ?_, ?_⟩⟩
          · dsimp only; rw [List.set_append_left _ _ (by omega)]
          · dsimp only; rw [h.date, List.set_append_left _ _ (by have := h.len; omega)]
          · dsimp only; rw [List.length_set, List.length_set]; exact h.len
          · dsimp only; rw [h.log]
        · rename_i hv
          cases hp
          rw [if_neg hv]
          exact ⟨_, rfl, ⟨rfl, h.date, h.len, by dsimp only; rw [h.log]⟩⟩
    · cases hp
  · rename_i hcm
    cases hp
    rw [if_neg hcm]
    exact ⟨b, rfl, h⟩

theorem lbWindow_ext {ys rows R : List (Row Y)} {e E : Int} (h : RowsExt ys rows e R E)
    (K : Kit Y M V W D G) (m : M) {iIni c : Int} (h0 : 0 ≤ iIni - c + 1) (h1 : iIni < e) :
    lbWindow K m R iIni c = lbWindow K m rows iIni c := by
  unfold lbWindow
  apply List.map_congr_left
  intro k hk
  have := List.mem_range.1 hk
  dsimp only
  rw [h.getD K.row0 (by omega) (by omega)]

theorem lookBack_ext (P : Params) (K : Kit Y M V W D G) (m : M) (ys : List (Row Y)) (x : List Int)
    (iBreak : Int) : ∀ (n : Nat) (iIni : Int) (b b' : LB Y V W D) (R : List (Row Y)) (E : Int) (C : Cm),
      (iIni - (iBreak - 1) + 1).toNat = n →
      RowsExt ys b.rows b.end_ R E → CmExt x b.cm C →
      lookBack P K m iBreak iIni b = .ok b' →
      ∃ R' E' C', lookBack P K m iBreak iIni { b with rows := R, end_ := E, cm := C } =
        .ok { b' with rows := R', end_ := E', cm := C' } ∧ RowsExt ys b'.rows b'.end_ R' E' ∧
        CmExt x b'.cm C' := by
  intro n
  induction n using Nat.strongRecOn with
  | _ n ih =>
    intro iIni b b' R E C hn hx hcm hr
    rw [lookBack] at hr ⊢
    by_cases h : iIni ≥ iBreak - 1
    · rw [if_pos h] at hr ⊢
      dsimp only at hr ⊢
      generalize hc : (if iIni - (iBreak - 1) + 1 < P.conse then iIni - (iBreak - 1) + 1 else P.conse) = ic at hr ⊢
      split at hr
      · cases hr
      · rename_i hne
        rw [if_neg hne]
        obtain ⟨_, hk, hr⟩ := bind_ok hr
        obtain ⟨hk0, hk1⟩ := chk_ok hk
        rw [hx.chk hk, ok_bind, lbWindow_ext hx K m hk0 hk1]
        obtain ⟨cm, hp, hr⟩ := bind_ok hr
        obtain ⟨C1, hp', hcm'⟩ : ∃ C1, lbCm P K iIni ic { b with rows := R, end_ := E, cm := C }
            (lbWindow K m b.rows iIni ic) = .ok C1 ∧ CmExt x cm C1 := by
          unfold lbCm at hp ⊢
          split at hp
          · rename_i hge
            rw [if_pos hge]
            obtain ⟨d, hd, hp⟩ := bind_ok hp
            obtain ⟨C1, g1, g2⟩ := hcm.put hp
            refine ⟨C1, ?_, g2⟩
            dsimp only
            rw [hx.rd hd, ok_bind]; exact g1
          · rename_i hge
            rw [if_neg hge]
            cases hp
            exact ⟨C, rfl, hcm⟩
        rw [hp', ok_bind]
        split at hr
        · rename_i hb
          cases hr
          rw [if_pos hb]
          exact ⟨R, E, C1, rfl, hx, hcm'⟩
        · rename_i hb
          rw [if_neg hb]
          split at hr
          · rename_i ho
            rw [if_pos ho]
            have hi0 : 0 ≤ iIni := by
              by_cases hneg : iIni < 0
              · exfalso; omega
              · omega
            exact ih (iIni - 1 - (iBreak - 1) + 1).toNat (by omega) (iIni - 1) _ b' _ _ C1 rfl
              (hx.shift K.row0 hi0 (by omega)) hcm' hr
          · rename_i ho
            rw [if_neg ho]
            exact ih (iIni - 1 - (iBreak - 1) + 1).toNat (by omega) (iIni - 1)
              { b with iStart := iIni + 1, iniConse := some ic,
                       tested := lbWindow K m b.rows iIni ic, cm := cm } b' R E C1 rfl
              hx hcm' hr
    · rw [if_neg h] at hr ⊢
      cases hr
      exact ⟨R, E, C, rfl, hx, hcm⟩

theorem findBreak_ext {ys R : List (Row Y)} {E : Int} {C : Cm} {s : St Y M V W D G} (hx : RowsExt ys s.rows s.end_ R E)
    {k : Int} (h : findBreak s = .ok k) : findBreak { s with rows := R, end_ := E, cm := C } = .ok k := by
  unfold findBreak at h ⊢
  dsimp only
  split at h
  · exact h
  · rename_i r hr
    cases hf : findGe s.rows r.tBreak s.end_.toNat 0 with
    | none => rw [hf] at h; cases h
    | some j =>
      rw [hf] at h
      rw [hx.findGe _ _ hf]
      exact h

theorem doLookBack_ext {P : Params} {K : Kit Y M V W D G} {m : M} {ys R : List (Row Y)} {x : List Int} {E : Int}
    {C : Cm} {s : St Y M V W D G} (hx : RowsExt ys s.rows s.end_ R E) (hcm : CmExt x s.cm C) {iBreak : Int}
    {r} (h : doLookBack P K m s iBreak = .ok r) :
    ∃ R' E' C', doLookBack P K m { s with rows := R, end_ := E, cm := C } iBreak =
      .ok ({ r.1 with rows := R', end_ := E', cm := C' }, r.2.1, r.2.2) ∧
      RowsExt ys r.1.rows r.1.end_ R' E' ∧ CmExt x r.1.cm C' := by
  unfold doLookBack at h ⊢
  dsimp only
  split at h
  · rename_i hgt
    rw [if_pos hgt]
    obtain ⟨b, hb, h⟩ := bind_ok h
    cases h
    obtain ⟨R', E', C', g1, g2, g3⟩ := lookBack_ext P K m ys x iBreak _ (s.iStart - 2)
      ⟨s.rows, s.end_, s.i, s.iStart, none, [], s.cm⟩ b R E C rfl hx hcm hb
    dsimp only at g1
    rw [g1]
    exact ⟨R', E', C', rfl, g2, g3⟩
  · rename_i hgt
    rw [if_neg hgt]
    cases h
    exact ⟨R, E, C, rfl, hx, hcm⟩

theorem firstCurve_ext {P : Params} {K : Kit Y M V W D G} {ys R : List (Row Y)} {E : Int}
    {C : Cm} {s r : St Y M V W D G} (hx : RowsExt ys s.rows s.end_ R E)
    {c : Option Int} {tested : List (Sc Y V W D)} (h : firstCurve P K s c tested = .ok r) :
    firstCurve P K { s with rows := R, end_ := E, cm := C } c tested =
      .ok { r with rows := R, end_ := E, cm := C } ∧ r.rows = s.rows ∧ r.end_ = s.end_ ∧ r.cm = s.cm := by
  unfold firstCurve at h ⊢
  dsimp only
  split at h
  · rename_i hc
    rw [if_pos hc]
    obtain ⟨_, h1, h⟩ := bind_ok h
    obtain ⟨te, h2, h⟩ := bind_ok h
    obtain ⟨tb, h3, h⟩ := bind_ok h
    obtain ⟨ts, h4, h⟩ := bind_ok h
    obtain ⟨c1, c2⟩ := chk_ok h1
    rw [hx.chk h1, ok_bind, hx.rd h2, ok_bind, hx.rd h3, ok_bind, hx.rd h4, ok_bind, hx.slice c1 c2]
    cases c with
    | none => cases h
    | some c =>
      dsimp only at h ⊢
      split at h
      · rename_i hcc
        rw [if_pos hcc]
        cases h
        exact ⟨rfl, rfl, rfl, rfl⟩
      · cases h
  · rename_i hc
    rw [if_neg hc]
    cases h
    exact ⟨rfl, rfl, rfl, rfl⟩

theorem rmIds_lt {bl : Nat → Bool} {base e : Int} {n : Nat} (h : base + n ≤ e) :
    ∀ r ∈ Cold.rmIds bl base n, r < e := by
  intro r hr
  unfold Cold.rmIds at hr
  obtain ⟨k, hk, rfl⟩ := List.mem_map.1 hr
  have := List.mem_range.1 (List.mem_filter.1 hk).1
  omega

theorem compact_length_le (l : List (Row Y)) (k : Int) (rs : List Int) : (compact l k rs).length ≤ l.length :=
  (compact_sublist l k rs).length_le

theorem trainPhase_ext {P : Params} {K : Kit Y M V W D G} {ys R : List (Row Y)} {x : List Int} {E : Int}
    {C : Cm} {s : St Y M V W D G} (hx : RowsExt ys s.rows s.end_ R E) (hcm : CmExt x s.cm C)
    {r : Bool × St Y M V W D G} (h : trainPhase P K s = .ok r) :
    ∃ R' E' C', trainPhase P K { s with rows := R, end_ := E, cm := C } =
      .ok (r.1, { r.2 with rows := R', end_ := E', cm := C' }) ∧
      RowsExt ys r.2.rows r.2.end_ R' E' ∧ CmExt x r.2.cm C' := by
  unfold trainPhase at h ⊢
  obtain ⟨g, h1, h⟩ := bind_ok h
  dsimp only
  rw [hx.maxGap _ _ _ h1, ok_bind]
  split at h
  · rename_i hg
    rw [if_pos hg]
    cases h
    exact ⟨R, E, C, rfl, hx, hcm⟩
  · rename_i hg
    rw [if_neg hg]
    obtain ⟨_, h2, h⟩ := bind_ok h
    obtain ⟨c1, c2⟩ := chk_ok h2
    rw [hx.chk h2, ok_bind, hx.slice c1 c2]
    dsimp only at h
    split at h
    · rename_i hsp
      rw [if_pos hsp]
      cases h
      exact ⟨R, E, C, rfl, hx, hcm⟩
    · rename_i hsp
      rw [if_neg hsp]
      have hrm : ∀ r ∈ Cold.rmIds (K.mask (slice s.rows (s.iStart - 1) (s.i + P.conse - 1))) (s.iStart - 1)
          (s.i - s.iStart + 1).toNat, r < s.end_ := by
        have hml : Cold.MIN_OBS = 12 := rfl
        apply rmIds_lt
        have : Cold.keptCount (K.mask (slice s.rows (s.iStart - 1) (s.i + P.conse - 1)))
          (s.i - s.iStart + 1).toNat ≤ (s.i - s.iStart + 1).toNat := by
          unfold Cold.keptCount
          exact Nat.le_trans (List.length_filter_le _ _) (by simp)
        omega
      rw [hx.compact hrm]
      have hle : ((compact (s.rows.take s.end_.toNat) 0
          (Cold.rmIds (K.mask (slice s.rows (s.iStart - 1) (s.i + P.conse - 1))) (s.iStart - 1)
          (s.i - s.iStart + 1).toNat)).length : Int) ≤ s.end_ := by
        have h1 := compact_length_le (s.rows.take s.end_.toNat) 0
          (Cold.rmIds (K.mask (slice s.rows (s.iStart - 1) (s.i + P.conse - 1))) (s.iStart - 1)
          (s.i - s.iStart + 1).toNat)
        have h2 := hx.nonneg
        rw [List.length_take] at h1
        omega
      generalize (Cold.keptCount (K.mask (slice s.rows (s.iStart - 1) (s.i + P.conse - 1)))
          (s.i - s.iStart + 1).toNat : Int) = iSpan at h ⊢
      generalize compact (s.rows.take s.end_.toNat) 0
          (Cold.rmIds (K.mask (slice s.rows (s.iStart - 1) (s.i + P.conse - 1))) (s.iStart - 1)
          (s.i - s.iStart + 1).toNat) = cp at h hle ⊢
      have hx' : RowsExt ys cp cp.length (cp ++ ys) ((cp ++ ys).length : Nat) :=
        ⟨by omega, by omega, by omega, by simp, by
          unfold live; rw [List.take_of_length_le (by omega), List.take_of_length_le (by omega)]⟩
      obtain ⟨a, h3, h⟩ := bind_ok h
      obtain ⟨b, h4, h⟩ := bind_ok h
      rw [hx'.rd h3, ok_bind, hx'.rd h4, ok_bind]
      split at h
      · rename_i hy
        rw [if_pos hy]
        cases h
        exact ⟨R, E, C, rfl, hx, hcm⟩
      · rename_i hy
        rw [if_neg hy]
        have hxc := hx.commit cp hle
        obtain ⟨_, h5, h⟩ := bind_ok h
        obtain ⟨d1, d2⟩ := chk_ok h5
        rw [hxc.chk h5, ok_bind, hxc.slice d1 d2]
        split at h
        · rename_i hu
          rw [if_pos hu]
          cases h
          exact ⟨_, _, C, rfl, hxc, hcm⟩
        · rename_i hu
          rw [if_neg hu]
          obtain ⟨ib, h6, h⟩ := bind_ok h
          obtain ⟨⟨s1, ic, te⟩, h7, h⟩ := bind_ok h
          obtain ⟨s2, h8, h⟩ := bind_ok h
          cases h
          have k6 := findBreak_ext (C := C) (by exact hxc) h6
          dsimp only at k6
          rw [k6, ok_bind]
          obtain ⟨R1, E1, C1, k7, x7, c7⟩ := doLookBack_ext (C := C) (by exact hxc) (by exact hcm) h7
          dsimp only at k7 x7 c7
          rw [k7, ok_bind]
          dsimp only at h8 ⊢
          obtain ⟨k8, y1, y2, y3⟩ := firstCurve_ext (C := C1) x7 h8
          rw [k8, ok_bind]
          exact ⟨R1, E1, C1, rfl, by rw [y1, y2]; exact x7, by rw [y3]; exact c7⟩

theorem refit_ext (K : Kit Y M V W D G) {ys R : List (Row Y)} {E : Int} {C : Cm} {s : St Y M V W D G}
    (hx : RowsExt ys s.rows s.end_ R E) (h0 : 0 ≤ s.iStart - 1) (h1 : s.i - 1 < s.end_) (a b c d e : Int) :
    refit K { s with rows := R, end_ := E, cm := C } a b c d e =
      { refit K s a b c d e with rows := R, end_ := E, cm := C } ∧ (refit K s a b c d e).cm = s.cm := by
  unfold refit
  dsimp only
  rw [hx.slice h0 h1]
  split <;> exact ⟨rfl, rfl⟩

theorem ahead_ext (K : Kit Y M V W D G) {ys R : List (Row Y)} {E : Int} {C : Cm} {s : St Y M V W D G}
    (hx : RowsExt ys s.rows s.end_ R E) {k : Nat} (h0 : 0 ≤ s.i) (h1 : s.i + k < s.end_) :
    ahead K { s with rows := R, end_ := E, cm := C } k = ahead K s k := by
  unfold ahead
  dsimp only
  exact hx.getD K.row0 (by omega) h1

theorem refresh_ext {P : Params} {K : Kit Y M V W D G} (hP : 1 ≤ P.conse) {ys R : List (Row Y)} {E : Int}
    {C : Cm} {s r : St Y M V W D G} (hx : RowsExt ys s.rows s.end_ R E)
    (h : refresh P K s = .ok r) :
    refresh P K { s with rows := R, end_ := E, cm := C } = .ok { r with rows := R, end_ := E, cm := C } ∧
      r.rows = s.rows ∧ r.end_ = s.end_ ∧ r.cm = s.cm := by
  rw [refresh_eq] at h ⊢
  dsimp only
  cases hic : s.iCount with
  | none => rw [hic] at h; cases h
  | some ic =>
    rw [hic] at h
    dsimp only at h ⊢
    generalize (if s.iSpanSkip = 0 then s.i - s.iStart + 1 else s.iSpanSkip) = sk at h ⊢
    split at h
    · rename_i hc
      rw [if_pos hc]
      unfold fresh at h ⊢
      dsimp only at h ⊢
      obtain ⟨te, h1, h⟩ := bind_ok h
      obtain ⟨ts, h2, h⟩ := bind_ok h
      obtain ⟨_, h3, h⟩ := bind_ok h
      obtain ⟨_, h4, h⟩ := bind_ok h
      cases h
      obtain ⟨c1, c2⟩ := chk_ok h3
      obtain ⟨d1, d2⟩ := chk_ok h4
      rw [hx.rd h1, ok_bind, hx.rd h2, ok_bind, hx.chk h3, ok_bind, hx.chk h4, ok_bind, hx.slice c1 c2]
      refine ⟨?_, rfl, rfl, rfl⟩
      congr 2
      apply List.map_congr_left
      intro k hk
      have := List.mem_range.1 hk
      have ha := ahead_ext (C := C) K (s := { s with iCount := some ic, iSpanSkip := sk }) (k := k) hx
        (by exact d1) (by dsimp only; omega)
      dsimp only at ha
      rw [ha]
    · rename_i hc
      rw [if_neg hc]
      unfold later at h ⊢
      dsimp only at h ⊢
      cases hpe : s.preEnd with
      | none => rw [hpe] at h; cases h
      | some pe =>
        rw [hpe] at h
        dsimp only at h ⊢
        obtain ⟨a, h1, h⟩ := bind_ok h
        obtain ⟨b, h2, h⟩ := bind_ok h
        obtain ⟨_, h3, h⟩ := bind_ok h
        obtain ⟨c1, c2⟩ := chk_ok h3
        rw [hx.rd h1, ok_bind, hx.rd h2, ok_bind, hx.chk h3, ok_bind]
        obtain ⟨e1, e2⟩ := refit_ext K (C := C) (s := { s with iCount := some ic, iSpanSkip := sk, preEnd := some pe })
          (by exact hx) (by exact c1) (by exact c2) (s.i - s.iStart + 1)
          (Cold.updateCft (s.i - s.iStart + 1) 3 4 6 8 8) pe a.date b.date
        dsimp only at e1 e2
        rw [e1]
        obtain ⟨f1, f2, f3, f4, f5, f6⟩ := refit_frame K
          { s with iCount := some ic, iSpanSkip := sk, preEnd := some pe } (s.i - s.iStart + 1)
          (Cold.updateCft (s.i - s.iStart + 1) 3 4 6 8 8) pe a.date b.date
        dsimp only at f1 f2 f3 f4
        generalize refit K
          { s with iCount := some ic, iSpanSkip := sk, preEnd := some pe } (s.i - s.iStart + 1)
          (Cold.updateCft (s.i - s.iStart + 1) 3 4 6 8 8) pe a.date b.date = s1 at *
        have hx1 : RowsExt ys s1.rows s1.end_ R E := by rw [f1, f2]; exact hx
        unfold shiftWin at h ⊢
        dsimp only at h ⊢
        cases hid : s1.idsOldLen with
        | none => rw [hid] at h; cases h
        | some l =>
          rw [hid] at h
          dsimp only at h ⊢
          split at h
          · cases h
          · rename_i hl0
            rw [if_neg hl0]
            obtain ⟨_, h5, h⟩ := bind_ok h
            obtain ⟨_, h6, h⟩ := bind_ok h
            rw [hx1.chk h5, ok_bind, hx1.chk h6, ok_bind]
            obtain ⟨g1, g2⟩ := chk_ok h5
            obtain ⟨k1, k2⟩ := chk_ok h6
            split at h
            · cases h
            · rename_i hst
              rw [if_neg hst]
              cases hm : s1.cft with
              | none => rw [hm] at h; cases h
              | some m =>
                cases hm' : s1.dif with
                | none => rw [hm, hm'] at h; cases h
                | some m' =>
                  rw [hm, hm'] at h
                  dsimp only at h ⊢
                  cases h
                  refine ⟨?_, f1, f2, e2⟩
                  rw [hx1.slice g1 g2]
                  have ha := ahead_ext (C := C) K (s := { s1 with
                    idsOldLen := some l, cft := some m, dif := some m',
                    cur := { s1.cur with tEnd := a.date } }) (k := P.conse - 1) hx1
                    (by exact k1) (by dsimp only; omega)
                  dsimp only at ha
                  rw [ha]

theorem monitorPhase_ext {P : Params} {K : Kit Y M V W D G} (hP : 1 ≤ P.conse) {ys R : List (Row Y)}
    {x : List Int} {E : Int}
    {C : Cm} {s r : St Y M V W D G} (hx : RowsExt ys s.rows s.end_ R E) (hcm : CmExt x s.cm C)
    (h : monitorPhase P K s = .ok r) :
    ∃ R' E' C', monitorPhase P K { s with rows := R, end_ := E, cm := C } =
      .ok { r with rows := R', end_ := E', cm := C' } ∧
      RowsExt ys r.rows r.end_ R' E' ∧ CmExt x r.cm C' := by
  unfold monitorPhase at h ⊢
  obtain ⟨s1, h1, h⟩ := bind_ok h
  obtain ⟨k1, e1, e2, e3⟩ := refresh_ext hP (C := C) hx h1
  rw [k1, ok_bind]
  have hx1 : RowsExt ys s1.rows s1.end_ R E := by rw [e1, e2]; exact hx
  obtain ⟨d, h2, h⟩ := bind_ok h
  obtain ⟨cm, h3, h⟩ := bind_ok h
  obtain ⟨d0, d1, _⟩ := rd_some h2
  obtain ⟨C1, k3, hc3⟩ := CmExt.put (by rw [e3]; exact hcm) h3
  dsimp only at h ⊢
  rw [hx1.rd h2, ok_bind, k3, ok_bind]
  split at h
  · rename_i hb
    rw [if_pos hb]
    cases h
    exact ⟨R, E, C1, rfl, hx1, hc3⟩
  · rename_i hb
    rw [if_neg hb]
    split at h
    · rename_i ho
      rw [if_pos ho]
      cases h
      exact ⟨_, _, C1, rfl, hx1.shift K.row0 d0 d1, hc3⟩
    · rename_i ho
      rw [if_neg ho]
      cases h
      exact ⟨R, E, C1, rfl, hx1, hc3⟩

theorem body_ext {P : Params} {K : Kit Y M V W D G} (hP : 1 ≤ P.conse) {ys R : List (Row Y)}
    {x : List Int} {E : Int}
    {C : Cm} {s r : St Y M V W D G} (hx : RowsExt ys s.rows s.end_ R E) (hcm : CmExt x s.cm C)
    (h : body P K s = .ok r) :
    ∃ R' E' C', body P K { s with rows := R, end_ := E, cm := C } =
      .ok { r with rows := R', end_ := E', cm := C' } ∧
      RowsExt ys r.rows r.end_ R' E' ∧ CmExt x r.cm C' := by
  unfold body at h ⊢
  obtain ⟨s', h1, h⟩ := bind_ok h
  cases h
  dsimp only at h1 ⊢
  obtain ⟨a, h2, h1⟩ := bind_ok h1
  obtain ⟨b, h3, h1⟩ := bind_ok h1
  rw [hx.rd h2, ok_bind, hx.rd h3, ok_bind]
  split at h1
  · rename_i hcond
    rw [if_pos hcond]
    obtain ⟨⟨go, s1⟩, h4, h1⟩ := bind_ok h1
    dsimp only at h1
    obtain ⟨R1, E1, C1, k4, x4, c4⟩ : ∃ R1 E1 C1,
        (if s.train = false then trainPhase P K { s with rows := R, end_ := E, cm := C }
          else .ok (true, { s with rows := R, end_ := E, cm := C })) =
          .ok (go, { s1 with rows := R1, end_ := E1, cm := C1 }) ∧
        RowsExt ys s1.rows s1.end_ R1 E1 ∧ CmExt x s1.cm C1 := by
      split at h4
      · rename_i ht
        rw [if_pos ht]
        exact trainPhase_ext hx hcm h4
      · rename_i ht
        rw [if_neg ht]
        cases h4
        exact ⟨R, E, C, rfl, hx, hcm⟩
    rw [k4, ok_bind]
    dsimp only
    split at h1
    · rename_i hgo
      rw [if_pos hgo]
      obtain ⟨s2, h5, h1⟩ := bind_ok h1
      cases h1
      obtain ⟨R2, E2, C2, k5, x5, c5⟩ := monitorPhase_ext hP x4 c4 h5
      rw [k5]
      exact ⟨R2, E2, C2, rfl, x5, c5⟩
    · rename_i hgo
      rw [if_neg hgo]
      cases h1
      exact ⟨R1, E1, C1, rfl, x4, c4⟩
  · rename_i hcond
    rw [if_neg hcond]
    cases h1
    exact ⟨R, E, C, rfl, hx, hcm⟩

/-- The run over the longer series passes through the last state of the run over the shorter one. -/
theorem loop_ext {P : Params} {K : Kit Y M V W D G} (hP : 1 ≤ P.conse) {ys : List (Row Y)} {x : List Int} :
    ∀ (f : Nat) {R : List (Row Y)} {E : Int} {C : Cm} {s r : St Y M V W D G},
      RowsExt ys s.rows s.end_ R E → CmExt x s.cm C → loop P K f s = .ok r →
      ∃ f' R' E' C', RowsExt ys r.rows r.end_ R' E' ∧ CmExt x r.cm C' ∧
        ∀ g, loop P K (f + g) { s with rows := R, end_ := E, cm := C } =
          loop P K (f' + g) { r with rows := R', end_ := E', cm := C' } := by
  intro f
  induction f with
  | zero =>
    intro R E C s r hx hcm h
    unfold loop at h
    split at h
    · cases h
    · cases h
      exact ⟨0, R, E, C, hx, hcm, fun g => rfl⟩
  | succ f ih =>
    intro R E C s r hx hcm h
    unfold loop at h
    split at h
    · rename_i hi
      obtain ⟨s', h1, h⟩ := bind_ok h
      obtain ⟨R1, E1, C1, k1, x1, c1⟩ := body_ext hP hx hcm h1
      obtain ⟨f', R2, E2, C2, x2, c2, k2⟩ := ih x1 c1 h
      refine ⟨f', R2, E2, C2, x2, c2, fun g => ?_⟩
      rw [show f + 1 + g = (f + g) + 1 by omega, loop]
      have := hx.len
      rw [if_pos (by dsimp only; omega), k1, ok_bind]
      exact k2 g
    · cases h
      exact ⟨f + 1, R, E, C, hx, hcm, fun g => rfl⟩

/-- Values of the change-magnitude output do not decrease. -/
def CmLe (a b : Cm) : Prop :=
  a.out.length = b.out.length ∧ ∀ (k : Nat) (v : Int), a.out[k]? = some v → ∃ w, b.out[k]? = some w ∧ v ≤ w

theorem CmLe.refl (a : Cm) : CmLe a a := ⟨rfl, fun _ v h => ⟨v, h, Int.le_refl v⟩⟩

theorem CmLe.trans {a b c : Cm} (h1 : CmLe a b) (h2 : CmLe b c) : CmLe a c :=
  ⟨h1.1.trans h2.1, fun k v h => by
    obtain ⟨w, hw, hvw⟩ := h1.2 k v h
    obtain ⟨u, hu, hwu⟩ := h2.2 k w hw
    exact ⟨u, hu, by omega⟩⟩

theorem cmPut_le {P : Params} {a b : Cm} {date raw : Int} (h : Cold.cmPut P a date raw = .ok b) : CmLe a b := by
  unfold Cold.cmPut at h
  dsimp only at h
  generalize Cold.toShort (if raw > Cold.MAX_SHORT then Cold.MAX_SHORT else raw) = val at h
  split at h
  · split at h
    · split at h
      · cases h
      · rename_i old hold
        split at h
        · rename_i hv
          cases h
          refine ⟨by simp, fun k v hk => ?_⟩
          dsimp only
          rw [List.getElem?_set]
          split
          · rename_i he
            subst he
            rw [hold] at hk
            cases hk
            have : ((date - P.startingDate).tdiv P.interval).toNat < a.out.length := by omega
            rw [if_pos this]
            exact ⟨_, rfl, by omega⟩
          · exact ⟨v, hk, Int.le_refl v⟩
        · cases h
          exact CmLe.refl _
    · cases h
  · cases h
    exact CmLe.refl _

/-- Records are only appended, confirmed ones; change magnitudes only grow. -/
structure Grows (s r : St Y M V W D G) : Prop where
  recs : s.recs <+: r.recs
  conf : (∀ x ∈ s.recs, x.changeProb = 100) → ∀ x ∈ r.recs, x.changeProb = 100
  cm : CmLe s.cm r.cm

theorem Grows.refl (s : St Y M V W D G) : Grows s s := ⟨List.prefix_refl _, fun h => h, CmLe.refl _⟩

theorem Grows.trans {s r t : St Y M V W D G} (h1 : Grows s r) (h2 : Grows r t) : Grows s t :=
  ⟨h1.recs.trans h2.recs, fun h => h2.conf (h1.conf h), h1.cm.trans h2.cm⟩

theorem Grows.of_eq {s r : St Y M V W D G} (h1 : r.recs = s.recs) (h2 : CmLe s.cm r.cm) : Grows s r :=
  ⟨by rw [h1]; exact List.prefix_refl _, by rw [h1]; exact fun h => h, h2⟩

theorem Grows.push {s r : St Y M V W D G} {x : Rec Y M V W D G} (h1 : r.recs = s.recs ++ [x])
    (hx : x.changeProb = 100) (h2 : CmLe s.cm r.cm) : Grows s r :=
  ⟨by rw [h1]; exact List.prefix_append _ _, fun h y hy => by
    rw [h1] at hy
    rcases List.mem_append.1 hy with hm | hm
    · exact h y hm
    · rw [List.mem_singleton] at hm; subst hm; exact hx, h2⟩

theorem lookBack_cm (P : Params) (K : Kit Y M V W D G) (m : M) (iBreak : Int) :
    ∀ (n : Nat) (iIni : Int) (b b' : LB Y V W D), (iIni - (iBreak - 1) + 1).toNat = n →
      lookBack P K m iBreak iIni b = .ok b' → CmLe b.cm b'.cm := by
  intro n
  induction n using Nat.strongRecOn with
  | _ n ih =>
    intro iIni b b' hn hr
    rw [lookBack] at hr
    by_cases h : iIni ≥ iBreak - 1
    · rw [if_pos h] at hr
      dsimp only at hr
      generalize hc : (if iIni - (iBreak - 1) + 1 < P.conse then iIni - (iBreak - 1) + 1 else P.conse) = ic at hr
      split at hr
      · cases hr
      · obtain ⟨_, hk, hr⟩ := bind_ok hr
        obtain ⟨cm, hp, hr⟩ := bind_ok hr
        have hle : CmLe b.cm cm := by
          unfold lbCm at hp
          split at hp
          · obtain ⟨d, _, hp⟩ := bind_ok hp
            exact cmPut_le hp
          · cases hp; exact CmLe.refl _
        split at hr
        · cases hr; exact hle
        · split at hr
          · have := ih (iIni - 1 - (iBreak - 1) + 1).toNat (by omega) (iIni - 1) _ b' rfl hr
            exact hle.trans this
          · have := ih (iIni - 1 - (iBreak - 1) + 1).toNat (by omega) (iIni - 1) _ b' rfl hr
            exact hle.trans this
    · rw [if_neg h] at hr
      cases hr; exact CmLe.refl _

theorem doLookBack_grows {P : Params} {K : Kit Y M V W D G} {m : M} {s : St Y M V W D G} {iBreak : Int} {r}
    (h : doLookBack P K m s iBreak = .ok r) : Grows s r.1 := by
  unfold doLookBack at h
  split at h
  · obtain ⟨b, hb, h⟩ := bind_ok h
    cases h
    exact Grows.of_eq rfl (lookBack_cm P K m iBreak _ _ _ b rfl hb)
  · cases h; exact Grows.refl _

theorem firstCurve_grows {P : Params} {K : Kit Y M V W D G} {s r : St Y M V W D G} {c : Option Int}
    {tested : List (Sc Y V W D)} (h : firstCurve P K s c tested = .ok r) : Grows s r := by
  unfold firstCurve at h
  split at h
  · obtain ⟨_, h1, h⟩ := bind_ok h
    obtain ⟨te, h2, h⟩ := bind_ok h
    obtain ⟨tb, h3, h⟩ := bind_ok h
    obtain ⟨ts, h4, h⟩ := bind_ok h
    cases c with
    | none => cases h
    | some c =>
      dsimp only at h
      split at h
      · cases h
        exact Grows.push rfl rfl (CmLe.refl _)
      · cases h
  · cases h; exact Grows.refl _

theorem trainPhase_grows {P : Params} {K : Kit Y M V W D G} {s : St Y M V W D G}
    {r : Bool × St Y M V W D G} (h : trainPhase P K s = .ok r) : Grows s r.2 := by
  unfold trainPhase at h
  obtain ⟨g, h1, h⟩ := bind_ok h
  split at h
  · cases h; exact Grows.of_eq rfl (CmLe.refl _)
  · obtain ⟨_, h2, h⟩ := bind_ok h
    dsimp only at h
    split at h
    · cases h; exact Grows.of_eq rfl (CmLe.refl _)
    · obtain ⟨a, h3, h⟩ := bind_ok h
      obtain ⟨b, h4, h⟩ := bind_ok h
      split at h
      · cases h; exact Grows.of_eq rfl (CmLe.refl _)
      · obtain ⟨_, h5, h⟩ := bind_ok h
        split at h
        · cases h; exact Grows.of_eq rfl (CmLe.refl _)
        · obtain ⟨ib, h6, h⟩ := bind_ok h
          obtain ⟨⟨s1, ic, te⟩, h7, h⟩ := bind_ok h
          obtain ⟨s2, h8, h⟩ := bind_ok h
          cases h
          have g1 := (doLookBack_grows h7).trans (firstCurve_grows h8)
          exact ⟨g1.recs, g1.conf, g1.cm⟩

theorem refit_keep (K : Kit Y M V W D G) (s : St Y M V W D G) (a b c d e : Int) :
    (refit K s a b c d e).recs = s.recs ∧ (refit K s a b c d e).cm = s.cm := by
  unfold refit
  split <;> exact ⟨rfl, rfl⟩

theorem refresh_grows {P : Params} {K : Kit Y M V W D G} {s r : St Y M V W D G}
    (h : refresh P K s = .ok r) : Grows s r := by
  rw [refresh_eq] at h
  cases hic : s.iCount with
  | none => rw [hic] at h; cases h
  | some ic =>
    rw [hic] at h
    dsimp only at h
    split at h
    · unfold fresh at h
      obtain ⟨_, _, h⟩ := bind_ok h
      obtain ⟨_, _, h⟩ := bind_ok h
      obtain ⟨_, _, h⟩ := bind_ok h
      obtain ⟨_, _, h⟩ := bind_ok h
      cases h
      exact Grows.of_eq rfl (CmLe.refl _)
    · unfold later at h
      dsimp only at h
      cases hpe : s.preEnd with
      | none => rw [hpe] at h; cases h
      | some pe =>
        rw [hpe] at h
        dsimp only at h
        obtain ⟨a, _, h⟩ := bind_ok h
        obtain ⟨b, _, h⟩ := bind_ok h
        obtain ⟨_, _, h⟩ := bind_ok h
        generalize hs0 : ({ s with
          iCount := some ic, iSpanSkip := if s.iSpanSkip = 0 then s.i - s.iStart + 1 else s.iSpanSkip,
          preEnd := some pe } : St Y M V W D G) = s0 at h
        have e0 : s0.recs = s.recs ∧ s0.cm = s.cm := by subst hs0; exact ⟨rfl, rfl⟩
        have e1 := refit_keep K s0 (s.i - s.iStart + 1)
          (Cold.updateCft (s.i - s.iStart + 1) 3 4 6 8 8) pe a.date b.date
        generalize refit K s0 (s.i - s.iStart + 1)
          (Cold.updateCft (s.i - s.iStart + 1) 3 4 6 8 8) pe a.date b.date = s1 at h e1
        unfold shiftWin at h
        dsimp only at h
        cases hid : s1.idsOldLen with
        | none => rw [hid] at h; cases h
        | some l =>
          rw [hid] at h
          dsimp only at h
          split at h
          · cases h
          · obtain ⟨_, _, h⟩ := bind_ok h
            obtain ⟨_, _, h⟩ := bind_ok h
            split at h
            · cases h
            · cases hm : s1.cft with
              | none => rw [hm] at h; cases h
              | some m =>
                cases hm' : s1.dif with
                | none => rw [hm, hm'] at h; cases h
                | some m' =>
                  rw [hm, hm'] at h
                  cases h
                  exact Grows.of_eq (e1.1.trans e0.1) (by dsimp only; rw [e1.2, e0.2]; exact CmLe.refl _)

theorem monitorPhase_grows {P : Params} {K : Kit Y M V W D G} {s r : St Y M V W D G}
    (h : monitorPhase P K s = .ok r) : Grows s r := by
  unfold monitorPhase at h
  obtain ⟨s1, h1, h⟩ := bind_ok h
  obtain ⟨d, h2, h⟩ := bind_ok h
  obtain ⟨cm, h3, h⟩ := bind_ok h
  refine (refresh_grows h1).trans ?_
  have hle := cmPut_le h3
  dsimp only at h
  split at h
  · cases h; exact Grows.push rfl rfl hle
  · split at h
    · cases h; exact Grows.of_eq rfl hle
    · cases h; exact Grows.of_eq rfl hle

theorem body_grows {P : Params} {K : Kit Y M V W D G} {s r : St Y M V W D G}
    (h : body P K s = .ok r) : Grows s r := by
  unfold body at h
  obtain ⟨s', h1, h⟩ := bind_ok h
  cases h
  refine Grows.trans (r := s') ?_ (Grows.of_eq rfl (CmLe.refl _))
  dsimp only at h1
  obtain ⟨a, h2, h1⟩ := bind_ok h1
  obtain ⟨b, h3, h1⟩ := bind_ok h1
  split at h1
  · obtain ⟨⟨go, s1⟩, h4, h1⟩ := bind_ok h1
    dsimp only at h1
    have g1 : Grows s s1 := by
      split at h4
      · exact trainPhase_grows h4
      · cases h4; exact Grows.refl _
    split at h1
    · obtain ⟨s2, h5, h1⟩ := bind_ok h1
      cases h1
      exact g1.trans ((monitorPhase_grows h5).trans (Grows.of_eq rfl (CmLe.refl _)))
    · cases h1; exact g1
  · cases h1; exact Grows.of_eq rfl (CmLe.refl _)

theorem loop_grows {P : Params} {K : Kit Y M V W D G} : ∀ (f : Nat) {s r : St Y M V W D G},
    loop P K f s = .ok r → Grows s r := by
  intro f
  induction f with
  | zero =>
    intro s r h
    unfold loop at h
    split at h
    · cases h
    · cases h; exact Grows.refl _
  | succ f ih =>
    intro s r h
    unfold loop at h
    split at h
    · obtain ⟨s', h1, h⟩ := bind_ok h
      exact (body_grows h1).trans (ih h)
    · cases h; exact Grows.refl _

theorem scanLast_pos {N : Num V W} {sc : List (Cold.Score V W)} {conse : Nat} (hc : 1 ≤ conse) :
    ∀ (n : Nat) {j : Nat}, n ≤ conse → Cold.scanLast N sc conse n = .ok j → 1 ≤ j ∧ j ≤ conse := by
  intro n
  induction n with
  | zero => intro j _ h; unfold Cold.scanLast at h; cases h; exact ⟨hc, Nat.le_refl _⟩
  | succ n ih =>
    intro j hn h
    unfold Cold.scanLast at h
    split at h
    · cases h
    · split at h
      · cases h; omega
      · exact ih (by omega) h

theorem tdiv_lt {c j : Nat} (hc : 1 ≤ c) (hj : 1 ≤ j ∧ j ≤ c) : ((((c : Int) - j) * 100).tdiv c) < 100 := by
  rw [Int.tdiv_eq_ediv_of_nonneg (by omega)]
  apply Int.ediv_lt_of_lt_mul <;> omega

/-- What the end of the series adds. -/
structure Ends (s : St Y M V W D G) (recs : List (Rec Y M V W D G)) (cm : Cm) : Prop where
  recs : ∃ tail, recs = s.recs ++ tail ∧ tail.length ≤ 1 ∧ ∀ x ∈ tail, x.changeProb < 100
  cm : cm = s.cm

theorem finishTrained_ends {P : Params} {K : Kit Y M V W D G} (hP : 1 ≤ P.conse) {s r : St Y M V W D G}
    (h : finishTrained P K s = .ok r) : Ends s r.recs r.cm := by
  unfold finishTrained at h
  obtain ⟨n, hn, h⟩ := bind_ok h
  have hn1 := scanLast_pos hP _ (Nat.le_refl _) hn
  have hlt := tdiv_lt hP hn1
  dsimp only at h
  obtain ⟨a, _, h⟩ := bind_ok h
  split at h
  · obtain ⟨b, _, h⟩ := bind_ok h
    cases h
    exact ⟨⟨[_], rfl, by simp, by simpa using hlt⟩, rfl⟩
  · cases h
    exact ⟨⟨[_], rfl, by simp, by simpa using hlt⟩, rfl⟩

theorem closeEnd_ends {K : Kit Y M V W D G} {s r : St Y M V W D G}
    (h : closeEnd K s = .ok r) : Ends s r.recs r.cm := by
  unfold closeEnd at h
  split at h
  · obtain ⟨_, h1, h⟩ := bind_ok h
    obtain ⟨a, _, h⟩ := bind_ok h
    obtain ⟨b, _, h⟩ := bind_ok h
    cases h
    exact ⟨⟨[_], rfl, by simp, by simp⟩, rfl⟩
  · cases h
    exact ⟨⟨[], by simp, by simp, by simp⟩, rfl⟩

theorem finishUntrained_ends {K : Kit Y M V W D G} {s r : St Y M V W D G}
    (h : finishUntrained K s = .ok r) : Ends s r.recs r.cm := by
  rw [finishUntrained_eq] at h
  obtain ⟨s1, h1, h⟩ := bind_ok h
  have he := closeEnd_ends h
  unfold screenEnd at h1
  split at h1
  · obtain ⟨_, _, h1⟩ := bind_ok h1
    cases h1
    exact ⟨he.recs, he.cm⟩
  · cases h1
    exact ⟨he.recs, he.cm⟩

theorem standProcedure_ends {P : Params} {K : Kit Y M V W D G} (hP : 1 ≤ P.conse) {rows : List (Row Y)}
    {nCm : Nat} {out : Output Y M V W D G} (h : standProcedure P K rows nCm = .ok out) :
    ∃ s, loop P K rows.length (init rows nCm) = .ok s ∧ Ends s out.recs out.cm := by
  unfold standProcedure at h
  obtain ⟨s, h1, h⟩ := bind_ok h
  refine ⟨s, h1, ?_⟩
  dsimp only at h
  split at h
  · obtain ⟨f, h2, h⟩ := bind_ok h
    cases h
    exact finishTrained_ends hP h2
  · obtain ⟨f, h2, h⟩ := bind_ok h
    cases h
    exact finishUntrained_ends h2

/-- Appending observations keeps the closed records and does not lower change magnitudes. -/
theorem standProcedure_prefix {P : Params} {K : Kit Y M V W D G} (hP : 1 ≤ P.conse) {xs ys : List (Row Y)}
    {n n' : Nat} (hn : n ≤ n') {out out' : Output Y M V W D G}
    (h : standProcedure P K xs n = .ok out) (h' : standProcedure P K (xs ++ ys) n' = .ok out') :
    (∃ closed last rest, out.recs = closed ++ last ∧ out'.recs = closed ++ rest ∧ last.length ≤ 1 ∧
      (∀ r ∈ closed, r.changeProb = 100) ∧ (∀ r ∈ last, r.changeProb < 100)) ∧
    ∀ (k : Nat) (v : Int), out.cm.out[k]? = some v → ∃ w, out'.cm.out[k]? = some w ∧ v ≤ w := by
  obtain ⟨s, h1, h2⟩ := standProcedure_ends hP h
  obtain ⟨t, k1, k2⟩ := standProcedure_ends hP h'
  have hx : RowsExt ys (init xs n : St Y M V W D G).rows (init xs n : St Y M V W D G).end_
      (xs ++ ys) ((xs ++ ys).length : Nat) := by
    refine ⟨by simp [init], by simp [init], by omega, by simp [init], ?_⟩
    simp only [init, live]
    rw [List.take_of_length_le (by omega), List.take_of_length_le (by omega)]
  have hcm : CmExt (List.replicate (n' - n) (-9999)) (init xs n : St Y M V W D G).cm
      (init (xs ++ ys) n' : St Y M V W D G).cm := by
    have : List.replicate n' (-9999 : Int) = List.replicate n (-9999) ++ List.replicate (n' - n) (-9999) := by
      rw [List.replicate_append_replicate]; congr 1; omega
    exact ⟨this, this, by simp [init], rfl⟩
  obtain ⟨f', R', E', C', x1, c1, hl⟩ := loop_ext hP xs.length hx hcm h1
  have hl := hl ys.length
  rw [← List.length_append] at hl
  have hin : ({ (init xs n : St Y M V W D G) with
      rows := xs ++ ys, end_ := ((xs ++ ys).length : Nat), cm := (init (xs ++ ys) n' : St Y M V W D G).cm } : St Y M V W D G) =
      init (xs ++ ys) n' := rfl
  rw [hin, k1] at hl
  have hg := loop_grows _ hl.symm
  have hg0 := loop_grows _ h1
  obtain ⟨tail, t1, t2, t3⟩ := h2.recs
  obtain ⟨tail', t1', _, _⟩ := k2.recs
  obtain ⟨mid, hmid⟩ := hg.recs
  refine ⟨⟨s.recs, tail, mid ++ tail', t1, ?_, t2, hg0.conf (by simp [init]), t3⟩, ?_⟩
  · rw [t1', ← hmid, List.append_assoc]
  · intro k v hv
    rw [h2.cm] at hv
    rw [k2.cm]
    apply hg.cm.2 k v
    dsimp only
    rw [c1.out, List.getElem?_append_left]
    · exact hv
    · exact (List.getElem?_eq_some_iff.1 hv).1

end Pycold.ColdV
