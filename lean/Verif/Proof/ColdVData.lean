import Verif.Spec.ColdV
import Verif.Proof.ColdVSim
/-! What the numbers in the records are computed from: an invariant of the loop with data. -/
namespace Pycold.ColdV

open Pycold.Cold (Err Params Num Cm)
open Spec

variable {Y M V W D G : Type}

theorem bind_ok {A B : Type} {x : Except Err A} {f : A → Except Err B} {r : B} (h : (x >>= f) = .ok r) :
    ∃ a, x = .ok a ∧ f a = .ok r := by
  cases x with
  | error e => cases h
  | ok a => exact ⟨a, rfl, h⟩

theorem chk_ok {e lo hi : Int} {u : Unit} (h : Cold.chk e lo hi = .ok u) : 0 ≤ lo ∧ hi < e := by
  unfold Cold.chk at h
  split at h
  · assumption
  · cases h

/-- The live observations. -/
def live (rows : List (Row Y)) (e : Int) : List (Row Y) := rows.take e.toNat

theorem rd_some {rows : List (Row Y)} {e k : Int} {v : Row Y} (h : rd rows e k = .ok v) :
    0 ≤ k ∧ k < e ∧ (live rows e)[k.toNat]? = some v := by
  unfold rd at h
  split at h
  · rename_i hk
    refine ⟨hk.1, hk.2, ?_⟩
    cases hr : rows[k.toNat]? with
    | none => rw [hr] at h; cases h
    | some w =>
      rw [hr] at h
      cases h
      rw [live, List.getElem?_take, if_pos (by omega), hr]
  · cases h

theorem rd_mem {rows : List (Row Y)} {e k : Int} {v : Row Y} (h : rd rows e k = .ok v) : v ∈ live rows e :=
  List.mem_of_getElem? (rd_some h).2.2

theorem slice_live {rows : List (Row Y)} {e lo hi : Int} (h0 : 0 ≤ lo) (h1 : hi < e) :
    slice rows lo hi = slice (live rows e) lo hi := by
  unfold slice live
  rw [List.drop_take, List.take_take]
  congr 1
  omega

theorem slice_sublist (rows : List (Row Y)) (lo hi : Int) : (slice rows lo hi).Sublist rows :=
  (List.take_sublist _ _).trans (List.drop_sublist _ _)

theorem mem_slice {l : List (Row Y)} {lo hi : Int} {x : Row Y} (h0 : 0 ≤ lo) (h : x ∈ slice l lo hi) :
    ∃ k : Nat, lo ≤ k ∧ (k : Int) ≤ hi ∧ l[k]? = some x := by
  unfold slice at h
  obtain ⟨j, hj⟩ := List.mem_iff_getElem?.1 h
  rw [List.getElem?_take] at hj
  split at hj
  · rw [List.getElem?_drop] at hj
    exact ⟨lo.toNat + j, by omega, by omega, hj⟩
  · cases hj

theorem compact_sublist : ∀ (l : List (Row Y)) (k : Int) (rs : List Int), (compact l k rs).Sublist l
  | [], _, _ => by simp [compact]
  | x :: xs, k, [] => by
    simp only [compact]
    exact (compact_sublist xs _ _).cons_cons _
  | x :: xs, k, r :: rs => by
    simp only [compact]
    split
    · exact (compact_sublist xs _ _).cons _
    · exact (compact_sublist xs _ _).cons_cons _

theorem live_commit (rows cp : List (Row Y)) : live (commit rows cp) cp.length = cp := by
  simp [live, commit]

theorem shiftDown_length (d : Row Y) (a : List (Row Y)) (k stop : Nat) :
    (shiftDown d a k stop).length = a.length := by
  fun_induction shiftDown d a k stop with
  | case1 a k h ih => simpa using ih
  | case2 => rfl

theorem shiftDown_getElem? (d : Row Y) (a : List (Row Y)) (k stop : Nat) (hs : stop < a.length) (j : Nat) :
    (shiftDown d a k stop)[j]? = if k ≤ j ∧ j < stop then a[j + 1]? else a[j]? := by
  fun_induction shiftDown d a k stop with
  | case1 a k h ih =>
    rw [ih (by simpa using hs)]
    simp only [List.getElem?_set, List.getD_eq_getElem?_getD]
    have h1 : k + 1 < a.length := by omega
    grind
  | case2 a k h => grind

theorem live_shiftDown (d : Row Y) {rows : List (Row Y)} {e k : Int} (h0 : 0 ≤ k) (h1 : k < e)
    (hle : e ≤ rows.length) :
    live (shiftDown d rows k.toNat (e - 1).toNat) (e - 1) = (live rows e).eraseIdx k.toNat := by
  apply List.ext_getElem?
  intro j
  simp only [live, List.getElem?_take, List.getElem?_eraseIdx]
  rw [shiftDown_getElem? _ _ _ _ (by omega)]
  grind

/-- The array and its live part, a sub-series of the input. -/
structure Arr (series rows : List (Row Y)) (e : Int) : Prop where
  nonneg : 0 ≤ e
  le : e ≤ rows.length
  sub : (live rows e).Sublist series

theorem Arr.mem {series rows : List (Row Y)} {e : Int} (h : Arr series rows e) {k : Nat} {v : Row Y}
    (hv : (live rows e)[k]? = some v) : v ∈ series := h.sub.subset (List.mem_of_getElem? hv)

theorem Arr.slice_sub {series rows : List (Row Y)} {e lo hi : Int} (h : Arr series rows e) (h0 : 0 ≤ lo)
    (h1 : hi < e) : (slice rows lo hi).Sublist series := by
  rw [slice_live h0 h1]
  exact (slice_sublist _ _ _).trans h.sub

theorem Arr.slice_length {series rows : List (Row Y)} {e lo hi : Int} (h : Arr series rows e) (h0 : 0 ≤ lo)
    (h1 : hi < e) (h12 : lo + 11 ≤ hi) : 12 ≤ (slice rows lo hi).length := by
  have := h.le
  unfold slice
  rw [List.length_take, List.length_drop]
  omega

theorem Arr.commit {series rows : List (Row Y)} {e : Int} (h : Arr series rows e) (k : Int) (rs : List Int) :
    Arr series (commit rows (compact (rows.take e.toNat) k rs)) (compact (rows.take e.toNat) k rs).length := by
  have hs := compact_sublist (rows.take e.toNat) k rs
  refine ⟨by omega, ?_, ?_⟩
  · have := hs.length_le
    simp only [ColdV.commit, List.length_append, List.length_drop]
    omega
  · rw [live_commit]
    exact hs.trans h.sub

theorem Arr.shift {series rows : List (Row Y)} {e k : Int} (h : Arr series rows e) (d : Row Y) (h0 : 0 ≤ k)
    (h1 : k < e) : Arr series (shiftDown d rows k.toNat (e - 1).toNat) (e - 1) := by
  refine ⟨by omega, ?_, ?_⟩
  · rw [shiftDown_length]; have := h.le; omega
  · rw [live_shiftDown d h0 h1 h.le]
    exact (List.eraseIdx_sublist _ _).trans h.sub

/-- Positions are ordered by date. -/
theorem Arr.lt {series rows : List (Row Y)} {e : Int} (h : Arr series rows e)
    (hs : series.Pairwise (fun a b => a.date < b.date)) {j k : Nat} (hjk : j < k) {a b : Row Y}
    (ha : (live rows e)[j]? = some a) (hb : (live rows e)[k]? = some b) : a.date < b.date := by
  have hp : (live rows e).Pairwise (fun a b => a.date < b.date) := hs.sublist h.sub
  obtain ⟨h1, rfl⟩ := List.getElem?_eq_some_iff.1 ha
  obtain ⟨h2, rfl⟩ := List.getElem?_eq_some_iff.1 hb
  exact List.pairwise_iff_getElem.1 hp _ _ _ _ hjk

theorem Arr.le' {series rows : List (Row Y)} {e : Int} (h : Arr series rows e)
    (hs : series.Pairwise (fun a b => a.date < b.date)) {j k : Nat} (hjk : j ≤ k) {a b : Row Y}
    (ha : (live rows e)[j]? = some a) (hb : (live rows e)[k]? = some b) : a.date ≤ b.date := by
  by_cases he : j = k
  · subst he; rw [ha] at hb; cases hb; omega
  · have := h.lt hs (by omega) ha hb; omega

/-- Reading a live position with a default. -/
theorem Arr.getD {series rows : List (Row Y)} {e k : Int} (h : Arr series rows e) (d : Row Y) (h0 : 0 ≤ k)
    (h1 : k < e) : (live rows e)[k.toNat]? = some (rows.getD k.toNat d) := by
  have := h.le
  have hk : k.toNat < rows.length := by omega
  rw [live, List.getElem?_take, if_pos (by omega), List.getD_eq_getElem?_getD, List.getElem?_eq_getElem hk]
  rfl

/-- The look-back loop: what remains is live, and the columns are judged by the later model. -/
theorem lookBack_data (P : Params) (K : Kit Y M V W D G) (series : List (Row Y))
    (hs : series.Pairwise (fun a b => a.date < b.date)) (obs : List (Row Y)) (ho : obs.Sublist series)
    (hl : 12 ≤ obs.length) (iBreak : Int) : ∀ (n : Nat) (iIni : Int) (b b' : LB Y V W D),
      (iIni - (iBreak - 1) + 1).toNat = n →
      Arr series b.rows b.end_ →
      (∀ j : Nat, (j : Int) ≤ iIni → ∀ v, (live b.rows b.end_)[j]? = some v → ∀ o ∈ obs, v.date < o.date) →
      (∀ x ∈ b.tested, JudgedBack K series x) → b.iStart + 11 ≤ b.i → iIni + 13 ≤ b.i →
      lookBack P K (K.fit 4 obs) iBreak iIni b = .ok b' →
      Arr series b'.rows b'.end_ ∧ (∀ x ∈ b'.tested, JudgedBack K series x) ∧ b'.iStart + 11 ≤ b'.i := by
  intro n
  induction n using Nat.strongRecOn with
  | _ n ih =>
    intro iIni b b' hn ha hlt ht hp1 hp2 hr
    rw [lookBack] at hr
    by_cases h : iIni ≥ iBreak - 1
    · rw [if_pos h] at hr
      dsimp only at hr
      generalize hc : (if iIni - (iBreak - 1) + 1 < P.conse then iIni - (iBreak - 1) + 1 else P.conse) = ic at hr
      split at hr
      · cases hr
      · obtain ⟨_, hk, hr⟩ := bind_ok hr
        obtain ⟨hk0, hk1⟩ := chk_ok hk
        have hnew : ∀ x ∈ lbWindow K (K.fit 4 obs) b.rows iIni ic, JudgedBack K series x := by
          intro x hx
          unfold lbWindow at hx
          obtain ⟨k, hkr, rfl⟩ := List.mem_map.1 hx
          have hk' := List.mem_range.1 hkr
          have hg := ha.getD K.row0 (k := iIni - (k : Int)) (by omega) (by omega)
          refine ⟨ha.mem hg, obs, ho, hl, ?_, rfl⟩
          exact hlt _ (by omega) _ hg
        obtain ⟨cm, _, hr⟩ := bind_ok hr
        split at hr
        · cases hr
          exact ⟨ha, hnew, hp1⟩
        · split at hr
          · have hi0 : 0 ≤ iIni := by
              rename_i h0 _ _
              by_cases hneg : iIni < 0
              · exfalso; omega
              · omega
            refine ih (iIni - 1 - (iBreak - 1) + 1).toNat (by omega) (iIni - 1) _ b' rfl ?_ ?_ hnew
              (by dsimp only; omega) (by dsimp only; omega) hr
            · exact ha.shift K.row0 hi0 (by omega)
            · intro j hj v hv o hoo
              dsimp only at hv
              rw [live_shiftDown K.row0 hi0 (by omega) ha.le, List.getElem?_eraseIdx, if_pos (by omega)] at hv
              exact hlt j (by omega) v hv o hoo
          · exact ih (iIni - 1 - (iBreak - 1) + 1).toNat (by omega) (iIni - 1)
              { b with iStart := iIni + 1, iniConse := some ic,
                       tested := lbWindow K (K.fit 4 obs) b.rows iIni ic, cm := cm } b' rfl ha
              (fun j hj => hlt j (by omega)) hnew (by dsimp only; omega) (by dsimp only; omega) hr
    · rw [if_neg h] at hr
      cases hr
      exact ⟨ha, ht, hp1⟩

/-- The part of the state that describes the current segment, when it has been fitted.  The fit used the
observations at positions `iStart-1 .. iStart-2+l`, below `ib`. -/
structure Cur (K : Kit Y M V W D G) (series : List (Row Y)) (s : St Y M V W D G) (ib : Int) : Prop where
  fit : ∃ l : Int, s.idsOldLen = some l ∧ s.cur.category = Cold.updateCft l 3 4 6 8 8 ∧
    0 ≤ s.iStart - 1 ∧ 12 ≤ l ∧ s.iStart - 1 + l - 1 < ib ∧ s.iStart - 1 + l - 1 < s.end_ ∧
    s.cur.fitted = slice s.rows (s.iStart - 1) (s.iStart - 1 + l - 1) ∧
    s.cft = some (K.fit s.cur.category s.cur.fitted) ∧ s.dif = some (K.fit s.cur.category s.cur.fitted) ∧
    s.cur.model = some (K.fit s.cur.category s.cur.fitted)
  start : ∃ v, (live s.rows s.end_)[(s.iStart - 1).toNat]? = some v ∧ s.cur.tStart = v.date
  plain : s.cur.magn = some K.magn0 ∧ s.cur.window = []
  pos : s.iStart - 1 < ib
  win : ∀ x ∈ s.win, Judged K series s.cur.tStart x

/-- The invariant of the loop. -/
structure Data (P : Params) (K : Kit Y M V W D G) (series : List (Row Y)) (s : St Y M V W D G) : Prop where
  arr : Arr series s.rows s.end_
  recs : ∀ r ∈ s.recs, RecData K series r
  cur : s.train = true → Cur K series s s.i ∧ s.win.length = P.conse

theorem updateCft_order (n : Int) : Order (Cold.updateCft n 3 4 6 8 8) := by
  unfold Cold.updateCft Order
  split
  · left; decide
  · split
    · right; left; decide
    · right; right; decide

theorem updateCft_mono {m n : Int} (h : m ≤ n) :
    Cold.updateCft m 3 4 6 8 8 ≤ Cold.updateCft n 3 4 6 8 8 := by
  unfold Cold.updateCft
  split <;> split <;> (try split) <;> (try split) <;> omega

theorem coefCount_order {c : Int} (h : Order c) : coefCount c = c ∧ c ≠ 14 := by
  unfold coefCount
  rcases h with h | h | h <;> subst h <;> decide

theorem doLookBack_data {P : Params} {K : Kit Y M V W D G} {series : List (Row Y)}
    (hs : series.Pairwise (fun a b => a.date < b.date)) {s : St Y M V W D G} {iBreak : Int} {r}
    (ha : Arr series s.rows s.end_) (h0 : 0 ≤ s.iStart - 1) (h1 : s.i - 1 < s.end_)
    (hp : s.iStart + 11 ≤ s.i) (h : doLookBack P K (K.fit 4 (slice s.rows (s.iStart - 1) (s.i - 1))) s iBreak = .ok r) :
    Arr series r.1.rows r.1.end_ ∧ r.1.recs = s.recs ∧ (∀ x ∈ r.2.2, JudgedBack K series x) ∧
      r.1.iStart + 11 ≤ r.1.i := by
  unfold doLookBack at h
  split at h
  · obtain ⟨b, hb, h⟩ := bind_ok h
    cases h
    obtain ⟨q1, q2, q3⟩ := lookBack_data P K series hs _ (ha.slice_sub h0 h1)
      (ha.slice_length h0 h1 (by omega)) iBreak _ (s.iStart - 2)
      ⟨s.rows, s.end_, s.i, s.iStart, none, [], s.cm⟩ b rfl ha (by
        intro j hj v hv o ho
        rw [slice_live h0 h1] at ho
        obtain ⟨k, k1, k2, k3⟩ := mem_slice h0 ho
        exact ha.lt hs (by omega) hv k3) (by simp) hp (by dsimp only; omega) hb
    exact ⟨q1, rfl, q2, q3⟩
  · cases h
    exact ⟨ha, rfl, by simp, hp⟩

theorem firstCurve_data {P : Params} {K : Kit Y M V W D G} {series : List (Row Y)}
    {s s' : St Y M V W D G} {c : Option Int} {t : List (Sc Y V W D)}
    (ha : Arr series s.rows s.end_) (hr : ∀ r ∈ s.recs, RecData K series r)
    (ht : ∀ x ∈ t, JudgedBack K series x) (h : firstCurve P K s c t = .ok s') :
    Arr series s'.rows s'.end_ ∧ (∀ r ∈ s'.recs, RecData K series r) ∧ s'.iCount = s.iCount ∧
      s'.iStart = s.iStart ∧ s'.i = s.i := by
  unfold firstCurve at h
  split at h
  · obtain ⟨_, h1, h⟩ := bind_ok h
    obtain ⟨a, h2, h⟩ := bind_ok h
    obtain ⟨b, h3, h⟩ := bind_ok h
    obtain ⟨d, h4, h⟩ := bind_ok h
    obtain ⟨c1, c2⟩ := chk_ok h1
    cases c with
    | none => cases h
    | some c =>
      dsimp only at h
      split at h
      · cases h
        refine ⟨ha, ?_, rfl, rfl, rfl⟩
        intro r hmem
        rcases List.mem_append.1 hmem with hm | hm
        · exact hr r hm
        · rw [List.mem_singleton] at hm
          subst hm
          exact ⟨ha.slice_sub c1 c2, rfl, fun _ => ⟨rfl, ht⟩, fun hne => absurd rfl hne⟩
      · cases h
  · cases h
    exact ⟨ha, hr, rfl, rfl, rfl⟩

theorem trainPhase_data {P : Params} {K : Kit Y M V W D G} {series : List (Row Y)}
    (hs : series.Pairwise (fun a b => a.date < b.date)) {s : St Y M V W D G} {r}
    (hd : Data P K series s) (htr : s.train = false) (h : trainPhase P K s = .ok r) :
    Arr series r.2.rows r.2.end_ ∧ (∀ x ∈ r.2.recs, RecData K series x) ∧
      ((r.1 = false ∧ r.2.train = false) ∨ (r.2.iCount = some 0 ∧ r.2.iStart + 11 ≤ r.2.i ∧ r.1 = true)) := by
  unfold trainPhase at h
  obtain ⟨g, _, h⟩ := bind_ok h
  split at h
  · cases h; exact ⟨hd.arr, hd.recs, Or.inl ⟨rfl, htr⟩⟩
  · obtain ⟨_, hk, h⟩ := bind_ok h
    obtain ⟨c1, c2⟩ := chk_ok hk
    dsimp only at h
    split at h
    · cases h; exact ⟨hd.arr, hd.recs, Or.inl ⟨rfl, htr⟩⟩
    · obtain ⟨a, _, h⟩ := bind_ok h
      obtain ⟨b, _, h⟩ := bind_ok h
      split at h
      · cases h; exact ⟨hd.arr, hd.recs, Or.inl ⟨rfl, htr⟩⟩
      · obtain ⟨_, hk2, h⟩ := bind_ok h
        obtain ⟨d1, d2⟩ := chk_ok hk2
        have ha' := hd.arr.commit 0
          (Cold.rmIds (K.mask (slice s.rows (s.iStart - 1) (s.i + P.conse - 1))) (s.iStart - 1) (s.i - s.iStart + 1).toNat)
        split at h
        · cases h; exact ⟨ha', hd.recs, Or.inl ⟨rfl, htr⟩⟩
        · obtain ⟨iBreak, _, h⟩ := bind_ok h
          obtain ⟨⟨s2, ic, t⟩, h2, h⟩ := bind_ok h
          dsimp only at h
          obtain ⟨s3, h3, h⟩ := bind_ok h
          cases h
          have k2 := doLookBack_keeps h2
          have hml : Cold.MIN_OBS = 12 := rfl
          obtain ⟨q1, q2, q3, q4⟩ := by
            refine doLookBack_data hs ?_ ?_ ?_ ?_ h2
            · exact ha'
            · exact d1
            · exact d2
            · dsimp only; omega
          obtain ⟨p1, p2, p3, p4, p5⟩ := firstCurve_data q1 (by rw [q2]; exact hd.recs) q3 h3
          refine ⟨p1, p2, Or.inr ⟨p3.trans k2.2.2.2, ?_, rfl⟩⟩
          rw [p4, p5]; exact q4

/-- A fresh fit: the segment is described by it. -/
theorem fresh_data {P : Params} {K : Kit Y M V W D G} {series : List (Row Y)} 
    (hs : series.Pairwise (fun a b => a.date < b.date)) {s r : St Y M V W D G}
    (ha : Arr series s.rows s.end_) (hr : ∀ x ∈ s.recs, RecData K series x)
    (hpos : s.iStart + 11 ≤ s.i)
    (h : fresh P K (s.i - s.iStart + 1) (Cold.updateCft (s.i - s.iStart + 1) 3 4 6 8 8) s = .ok r) :
    r.rows = s.rows ∧ r.end_ = s.end_ ∧ r.i = s.i ∧ r.iStart = s.iStart ∧ r.recs = s.recs ∧ r.train = s.train ∧
    Cur K series r r.i := by
  unfold fresh at h
  obtain ⟨a, h1, h⟩ := bind_ok h
  obtain ⟨b, h2, h⟩ := bind_ok h
  obtain ⟨_, h3, h⟩ := bind_ok h
  obtain ⟨_, h4, h⟩ := bind_ok h
  obtain ⟨c1, c2⟩ := chk_ok h3
  obtain ⟨d1, d2⟩ := chk_ok h4
  obtain ⟨_, e1, e2⟩ := rd_some h2
  cases h
  refine ⟨rfl, rfl, rfl, rfl, rfl, rfl, ?_⟩
  have hsl : s.iStart - 1 + (s.i - s.iStart + 1) - 1 = s.i - 1 := by omega
  refine ⟨⟨s.i - s.iStart + 1, rfl, rfl, c1, by omega, ?_, ?_, ?_, rfl, rfl, rfl⟩, ⟨b, e2, rfl⟩, ⟨rfl, rfl⟩, ?_, ?_⟩
  · dsimp only; omega
  · dsimp only; omega
  · dsimp only; rw [hsl]
  · dsimp only; omega
  · intro x hx
    obtain ⟨k, hk, rfl⟩ := List.mem_map.1 hx
    have hk' := List.mem_range.1 hk
    have hg := ha.getD K.row0 (k := s.i + (k : Int)) (by omega) (by omega)
    refine ⟨ha.mem hg, _, _, updateCft_order _, ha.slice_sub c1 c2, ha.slice_length c1 c2 (by omega), ?_, Or.inl rfl⟩
    intro o ho
    rw [slice_live c1 c2] at ho
    obtain ⟨j, j1, j2, j3⟩ := mem_slice c1 ho
    exact ⟨ha.le' hs (by omega) e2 j3, ha.lt hs (by omega) j3 hg⟩

theorem refit_data {K : Kit Y M V W D G} {series : List (Row Y)} {s : St Y M V W D G}
    (hc : Cur K series s s.i) (pe tEnd tStart : Int) (c1 : 0 ≤ s.iStart - 1) (c2 : s.i - 1 < s.end_)
    (hpos : s.iStart + 11 ≤ s.i) :
    Cur K series (refit K s (s.i - s.iStart + 1) (Cold.updateCft (s.i - s.iStart + 1) 3 4 6 8 8) pe tEnd tStart) s.i := by
  unfold refit
  split
  · have hsl : s.iStart - 1 + (s.i - s.iStart + 1) - 1 = s.i - 1 := by omega
    refine ⟨⟨s.i - s.iStart + 1, rfl, rfl, c1, by omega, ?_, ?_, ?_, rfl, rfl, rfl⟩, hc.start, hc.plain, hc.pos, hc.win⟩
    · dsimp only; omega
    · dsimp only; omega
    · dsimp only; rw [hsl]
  · exact hc

theorem refit_frame (K : Kit Y M V W D G) (s : St Y M V W D G) (iSpan updateC pe tEnd tStart : Int) :
    let r := refit K s iSpan updateC pe tEnd tStart
    r.rows = s.rows ∧ r.end_ = s.end_ ∧ r.i = s.i ∧ r.iStart = s.iStart ∧ r.recs = s.recs ∧ r.train = s.train := by
  unfold refit
  split <;> exact ⟨rfl, rfl, rfl, rfl, rfl, rfl⟩

/-- The refresh of monitoring. -/
theorem refresh_data {P : Params} {K : Kit Y M V W D G} {series : List (Row Y)} (hP : 1 ≤ P.conse)
    (hs : series.Pairwise (fun a b => a.date < b.date)) {s r : St Y M V W D G}
    (ha : Arr series s.rows s.end_) (hr : ∀ x ∈ s.recs, RecData K series x)
    (hcur : s.iCount ≠ some 0 → Cur K series s s.i) (hpos : s.iStart + 11 ≤ s.i)
    (h : refresh P K s = .ok r) :
    r.rows = s.rows ∧ r.end_ = s.end_ ∧ r.i = s.i ∧ r.iStart = s.iStart ∧ r.recs = s.recs ∧ r.train = s.train ∧
    Cur K series r r.i := by
  rw [refresh_eq] at h
  cases hic : s.iCount with
  | none => rw [hic] at h; cases h
  | some ic =>
    rw [hic] at h
    dsimp only at h
    split at h
    · exact fresh_data hs (s := { s with
        iCount := some ic, iSpanSkip := if s.iSpanSkip = 0 then s.i - s.iStart + 1 else s.iSpanSkip })
        ha hr hpos h
    · rename_i hne
      have hc := hcur (by
        rw [hic]; intro he; cases he; exact hne (Or.inl rfl))
      unfold later at h
      dsimp only at h
      cases hpe : s.preEnd with
      | none => rw [hpe] at h; cases h
      | some pe =>
        rw [hpe] at h
        dsimp only at h
        obtain ⟨a, h1, h⟩ := bind_ok h
        obtain ⟨b, h2, h⟩ := bind_ok h
        obtain ⟨_, h3, h⟩ := bind_ok h
        obtain ⟨c1, c2⟩ := chk_ok h3
        generalize hs0 : ({ s with
          iCount := some ic, iSpanSkip := if s.iSpanSkip = 0 then s.i - s.iStart + 1 else s.iSpanSkip,
          preEnd := some pe } : St Y M V W D G) = s0 at h
        have hc0 : Cur K series s0 s0.i := by
          subst hs0; exact ⟨hc.fit, hc.start, hc.plain, hc.pos, hc.win⟩
        have e1 : s0.i = s.i := by subst hs0; rfl
        have e2 : s0.iStart = s.iStart := by subst hs0; rfl
        have e3 : s0.end_ = s.end_ := by subst hs0; rfl
        have e4 : s0.rows = s.rows := by subst hs0; rfl
        have e5 : s0.recs = s.recs := by subst hs0; rfl
        have e6 : s0.train = s.train := by subst hs0; rfl
        rw [← e1, ← e2] at h
        have hc1 := refit_data hc0 pe a.date b.date (by rw [e2]; exact c1) (by rw [e1, e3]; exact c2) (by omega)
        obtain ⟨f1, f2, f3, f4, f5, f6⟩ := refit_frame K s0 (s0.i - s0.iStart + 1)
          (Cold.updateCft (s0.i - s0.iStart + 1) 3 4 6 8 8) pe a.date b.date
        generalize refit K s0 (s0.i - s0.iStart + 1)
          (Cold.updateCft (s0.i - s0.iStart + 1) 3 4 6 8 8) pe a.date b.date = s1 at h hc1 f1 f2 f3 f4 f5 f6
        -- the record gets its current end; a column is appended
        unfold shiftWin at h
        dsimp only at h
        obtain ⟨l, q1, q2, q3, q10, q4, q5, q6, q7, q8, q9⟩ := hc1.fit
        rw [q1] at h
        dsimp only at h
        split at h
        · cases h
        · obtain ⟨_, h5, h⟩ := bind_ok h
          obtain ⟨_, h6, h⟩ := bind_ok h
          obtain ⟨d1, d2⟩ := chk_ok h6
          split at h
          · cases h
          · rw [q7, q8] at h
            dsimp only at h
            cases h
            refine ⟨f1.trans e4, f2.trans e3, f3.trans e1, f4.trans e2, f5.trans e5, f6.trans e6, ?_⟩
            refine ⟨⟨l, rfl, q2, q3, q10, by rw [f3]; exact q4, q5, q6, rfl, rfl, q9⟩, hc1.start, hc1.plain,
              by rw [f3]; exact hc1.pos, ?_⟩
            intro x hx
            dsimp only at hx
            rcases List.mem_append.1 hx with hm | hm
            · exact hc1.win x (List.mem_of_mem_tail hm)
            · rw [List.mem_singleton] at hm
              subst hm
              have ha1 : Arr series s1.rows s1.end_ := by rw [f1, f2, e4, e3]; exact ha
              have hg := ha1.getD K.row0 (k := s1.i + ((P.conse - 1 : Nat) : Int)) (by omega) (by omega)
              obtain ⟨v, v1, v2⟩ := hc1.start
              refine ⟨ha1.mem hg, s1.cur.category, s1.cur.fitted, by rw [q2]; exact updateCft_order _,
                by rw [q6]; exact ha1.slice_sub q3 q5,
                by rw [q6]; exact ha1.slice_length q3 q5 (by omega), ?_, Or.inr ⟨Cold.updateCft (s0.i - s0.iStart + 1) 3 4 6 8 8, updateCft_order _, ?_, ?_⟩⟩
              · intro o ho
                rw [q6, slice_live q3 q5] at ho
                obtain ⟨j, j1, j2, j3⟩ := mem_slice q3 ho
                refine ⟨?_, ha1.lt hs (by omega) j3 hg⟩
                show s1.cur.tStart ≤ _
                rw [v2]
                exact ha1.le' hs (by omega) v1 j3
              · show s1.cur.category ≤ _
                rw [q2]
                exact updateCft_mono (by omega)
              · rw [← q6]
                rfl


/-- A record closed by the current segment. -/
theorem Cur.closed {K : Kit Y M V W D G} {series : List (Row Y)} {s : St Y M V W D G} {ib : Int}
    (ha : Arr series s.rows s.end_) (hc : Cur K series s ib) (tEnd tBreak prob : Int) (g : G)
    (w : List (Sc Y V W D)) (hw : ∀ x ∈ w, x ∈ s.win)
    (hg : g = if w.isEmpty then K.magn0 else K.magn (w.map (·.dif))) :
    RecData K series { s.cur with tEnd := tEnd, tBreak := tBreak, changeProb := prob, magn := some g,
                                  window := w } := by
  obtain ⟨l, q1, q2, q3, q10, q4, q5, q6, q7, q8, q9⟩ := hc.fit
  have ho := coefCount_order (show Order s.cur.category by rw [q2]; exact updateCft_order _)
  refine ⟨?_, ?_, ?_, ?_⟩
  · show s.cur.fitted.Sublist series
    rw [q6]; exact ha.slice_sub q3 q5
  · show s.cur.model = some (K.fit (coefCount s.cur.category) s.cur.fitted)
    rw [ho.1]; exact q9
  · intro h; exact absurd h ho.2
  · intro _
    exact ⟨by rw [hg], fun x hx => hc.win x (hw x hx)⟩

theorem refit_win (K : Kit Y M V W D G) (s : St Y M V W D G) (a b c d e : Int) :
    (refit K s a b c d e).win = s.win := by
  unfold refit
  split <;> rfl

/-- The window keeps its length. -/
theorem refresh_win {P : Params} {K : Kit Y M V W D G} (hP : 1 ≤ P.conse) {s r : St Y M V W D G}
    (hl : s.iCount ≠ some 0 → s.win.length = P.conse)
    (h : refresh P K s = .ok r) : r.win.length = P.conse := by
  rw [refresh_eq] at h
  cases hic : s.iCount with
  | none => rw [hic] at h; cases h
  | some ic =>
    rw [hic] at h
    dsimp only at h
    split at h
    · unfold fresh at h
      obtain ⟨_, _, h⟩ := bind_ok h
      obtain ⟨_, _, h⟩ := bind_ok h
      obtain ⟨_, _, h⟩ := bind_ok h
      obtain ⟨_, _, h⟩ := bind_ok h
      cases h
      simp
    · rename_i hne
      have hl := hl (by rw [hic]; intro he; cases he; exact hne (Or.inl rfl))
      unfold later at h
      dsimp only at h
      cases hpe : s.preEnd with
      | none => rw [hpe] at h; cases h
      | some pe =>
        rw [hpe] at h
        dsimp only at h
        obtain ⟨a, _, h⟩ := bind_ok h
        obtain ⟨b, _, h⟩ := bind_ok h
        obtain ⟨_, _, h⟩ := bind_ok h
        generalize hs0 : ({ s with
          iCount := some ic, iSpanSkip := if s.iSpanSkip = 0 then s.i - s.iStart + 1 else s.iSpanSkip,
          preEnd := some pe } : St Y M V W D G) = s0 at h
        have e0 : s0.win = s.win := by subst hs0; rfl
        have e1 := refit_win K s0 (s.i - s.iStart + 1)
          (Cold.updateCft (s.i - s.iStart + 1) 3 4 6 8 8) pe a.date b.date
        generalize refit K s0 (s.i - s.iStart + 1)
          (Cold.updateCft (s.i - s.iStart + 1) 3 4 6 8 8) pe a.date b.date = s1 at h e1
        unfold shiftWin at h
        dsimp only at h
        cases hid : s1.idsOldLen with
        | none => rw [hid] at h; cases h
        | some l =>
          rw [hid] at h
          dsimp only at h
          split at h
          · cases h
          · obtain ⟨_, _, h⟩ := bind_ok h
            obtain ⟨_, _, h⟩ := bind_ok h
            split at h
            · cases h
            · cases hm : s1.cft with
              | none => rw [hm] at h; cases h
              | some m =>
                cases hm' : s1.dif with
                | none => rw [hm, hm'] at h; cases h
                | some m' =>
                  rw [hm, hm'] at h
                  cases h
                  simp only [List.length_append, List.length_tail, List.length_singleton, e1, e0, hl]
                  omega

theorem monitorPhase_data {P : Params} {K : Kit Y M V W D G} {series : List (Row Y)} (hP : 1 ≤ P.conse)
    (hs : series.Pairwise (fun a b => a.date < b.date)) {s r : St Y M V W D G}
    (ha : Arr series s.rows s.end_) (hr : ∀ x ∈ s.recs, RecData K series x)
    (hcur : s.iCount ≠ some 0 → Cur K series s s.i ∧ s.win.length = P.conse) (hpos : s.iStart + 11 ≤ s.i)
    (h : monitorPhase P K s = .ok r) :
    Data P K series { r with i := r.i + 1 } := by
  unfold monitorPhase at h
  obtain ⟨s1, h1, h⟩ := bind_ok h
  obtain ⟨f1, f2, f3, f4, f5, f6, hc⟩ := refresh_data hP hs ha hr (fun h => (hcur h).1) hpos h1
  have hlen := refresh_win hP (fun h => (hcur h).2) h1
  have hne : s1.win ≠ [] := fun he => by rw [he] at hlen; simp at hlen; omega
  obtain ⟨d, h2, h⟩ := bind_ok h
  obtain ⟨cm, _, h⟩ := bind_ok h
  obtain ⟨d0, d1, _⟩ := rd_some h2
  have ha1 : Arr series s1.rows s1.end_ := by rw [f1, f2]; exact ha
  have hr1 : ∀ x ∈ s1.recs, RecData K series x := by rw [f5]; exact hr
  dsimp only at h
  split at h
  · cases h
    refine ⟨ha1, ?_, fun ht => absurd ht (by simp)⟩
    intro x hx
    rcases List.mem_append.1 hx with hm | hm
    · exact hr1 x hm
    · rw [List.mem_singleton] at hm
      subst hm
      have := hc.closed ha1 s1.cur.tEnd d.date 100 (K.magn (s1.win.map (·.dif))) s1.win (fun _ h => h) (by
        have : s1.win.isEmpty = false := by simpa using hne
        rw [this]; rfl)
      exact this
  · split at h
    · cases h
      refine ⟨ha1.shift K.row0 d0 d1, hr1, ?_⟩
      intro _
      refine ⟨?_, hlen⟩
      obtain ⟨l, q1, q2, q3, q10, q4, q5, q6, q7, q8, q9⟩ := hc.fit
      obtain ⟨v, v1, v2⟩ := hc.start
      have hp := hc.pos
      have hlv := live_shiftDown K.row0 d0 d1 ha1.le
      refine ⟨⟨l, q1, q2, q3, q10, ?_, ?_, ?_, q7, q8, q9⟩, ⟨v, ?_, v2⟩, hc.plain, ?_, hc.win⟩
      · dsimp only; omega
      · dsimp only; omega
      · dsimp only
        rw [slice_live q3 (show s1.iStart - 1 + l - 1 < s1.end_ - 1 by omega), hlv, q6, slice_live q3 q5]
        unfold slice
        apply List.ext_getElem?
        intro j
        rw [List.getElem?_take, List.getElem?_take]
        split
        · rw [List.getElem?_drop, List.getElem?_drop, List.getElem?_eraseIdx, if_pos (by omega)]
        · rfl
      · dsimp only
        rw [hlv, List.getElem?_eraseIdx, if_pos (by omega)]
        exact v1
      · dsimp only; omega
    · cases h
      refine ⟨ha1, hr1, fun _ => ⟨?_, hlen⟩⟩
      obtain ⟨l, q1, q2, q3, q10, q4, q5, q6, q7, q8, q9⟩ := hc.fit
      have hp := hc.pos
      exact ⟨⟨l, q1, q2, q3, q10, by dsimp only; omega, q5, q6, q7, q8, q9⟩, hc.start, hc.plain,
        by dsimp only; omega, hc.win⟩

theorem body_data {P : Params} {K : Kit Y M V W D G} {series : List (Row Y)} (hP : 1 ≤ P.conse)
    (hs : series.Pairwise (fun a b => a.date < b.date)) {s r : St Y M V W D G} (hd : Data P K series s)
    (h : body P K s = .ok r) : Data P K series r := by
  unfold body at h
  obtain ⟨s', h1, h⟩ := bind_ok h
  cases h
  suffices hh : Data P K series s' from ⟨hh.arr, hh.recs, fun a =>
    let c := (hh.cur a).1; ⟨⟨c.fit, c.start, c.plain, c.pos, c.win⟩, (hh.cur a).2⟩⟩
  dsimp only at h1
  obtain ⟨a, _, h1⟩ := bind_ok h1
  obtain ⟨b, _, h1⟩ := bind_ok h1
  split at h1
  · rename_i hcond
    have hml : Cold.MIN_OBS = 12 := rfl
    obtain ⟨⟨go, s1⟩, h2, h1⟩ := bind_ok h1
    dsimp only at h1
    by_cases htr : s.train = false
    · rw [if_pos htr] at h2
      obtain ⟨q1, q2, q3⟩ := trainPhase_data hs hd htr h2
      dsimp only at q1 q2 q3
      cases go with
      | false =>
        rw [if_neg (by decide)] at h1
        cases h1
        refine ⟨q1, q2, fun ht => ?_⟩
        rcases q3 with ⟨_, q3⟩ | ⟨_, _, q3⟩
        · rw [q3] at ht; cases ht
        · cases q3
      | true =>
        rw [if_pos rfl] at h1
        obtain ⟨s2, h3, h1⟩ := bind_ok h1
        cases h1
        rcases q3 with ⟨q3, _⟩ | ⟨q3, q4, _⟩
        · cases q3
        · exact monitorPhase_data hP hs q1 q2 (fun hi => absurd q3 hi) q4 h3
    · rw [if_neg htr] at h2
      cases h2
      rw [if_pos rfl] at h1
      obtain ⟨s2, h3, h1⟩ := bind_ok h1
      cases h1
      exact monitorPhase_data hP hs hd.arr hd.recs (fun _ => hd.cur (by simpa using htr)) (by omega) h3
  · cases h1
    refine ⟨hd.arr, hd.recs, fun ht => ⟨?_, (hd.cur ht).2⟩⟩
    have hc := (hd.cur ht).1
    obtain ⟨l, q1, q2, q3, q10, q4, q5, q6, q7, q8, q9⟩ := hc.fit
    have hp := hc.pos
    exact ⟨⟨l, q1, q2, q3, q10, by dsimp only; omega, q5, q6, q7, q8, q9⟩, hc.start, hc.plain,
      by dsimp only; omega, hc.win⟩

theorem loop_data {P : Params} {K : Kit Y M V W D G} {series : List (Row Y)} (hP : 1 ≤ P.conse)
    (hs : series.Pairwise (fun a b => a.date < b.date)) : ∀ (f : Nat) {s r : St Y M V W D G},
    Data P K series s → loop P K f s = .ok r → Data P K series r := by
  intro f
  induction f with
  | zero =>
    intro s r hd h
    unfold loop at h
    split at h
    · cases h
    · cases h; exact hd
  | succ f ih =>
    intro s r hd h
    unfold loop at h
    split at h
    · obtain ⟨s', h1, h⟩ := bind_ok h
      exact ih (body_data hP hs hd h1) h
    · cases h; exact hd

theorem finishTrained_data {P : Params} {K : Kit Y M V W D G} {series : List (Row Y)}
    {s r : St Y M V W D G} (hd : Data P K series s) (htr : s.train = true) (h : finishTrained P K s = .ok r) :
    ∀ x ∈ r.recs, RecData K series x := by
  obtain ⟨hc, hlen⟩ := hd.cur htr
  unfold finishTrained at h
  obtain ⟨n, _, h⟩ := bind_ok h
  dsimp only at h
  obtain ⟨a, _, h⟩ := bind_ok h
  split at h
  · obtain ⟨b, _, h⟩ := bind_ok h
    cases h
    intro x hx
    rcases List.mem_append.1 hx with hm | hm
    · exact hd.recs x hm
    · rw [List.mem_singleton] at hm
      subst hm
      refine hc.closed hd.arr a.date b.date _ (K.magn ((s.win.drop n).map (·.dif))) (s.win.drop n)
        (fun x hx => List.mem_of_mem_drop hx) ?_
      have : (s.win.drop n).isEmpty = false := by
        rw [Bool.eq_false_iff]
        intro he
        have := List.isEmpty_iff.1 he
        have := congrArg List.length this
        simp at this
        omega
      rw [this]; rfl
  · cases h
    intro x hx
    rcases List.mem_append.1 hx with hm | hm
    · exact hd.recs x hm
    · rw [List.mem_singleton] at hm
      subst hm
      have := hc.closed hd.arr a.date s.cur.tBreak
        ((((P.conse : Int) - n) * 100).tdiv P.conse) K.magn0 [] (by simp) (by simp)
      rw [← hc.plain.1] at this
      exact this

/-- The second half of `finishUntrained`. -/
def closeEnd (K : Kit Y M V W D G) (s : St Y M V W D G) : Except Err (St Y M V W D G) :=
  if s.end_ - s.iStart + 1 ≥ Cold.LASSO_MIN then do
    Cold.chk s.end_ (s.iStart - 1) (s.end_ - 1)
    let tStart ← (match s.recs.getLast? with
      | none => (rd s.rows s.end_ 0).map (·.date)
      | some r => .ok r.tBreak)
    let tEnd ← rd s.rows s.end_ (s.end_ - 1)
    let obs := slice s.rows (s.iStart - 1) (s.end_ - 1)
    let r : Rec Y M V W D G :=
      { tStart := tStart, tEnd := tEnd.date, tBreak := 0, changeProb := 0,
        numObs := s.end_ - s.iStart + 1, category := 20 + 4,
        model := some (K.fit 4 obs), magn := some K.magn0, fitted := obs }
    .ok { s with recs := s.recs ++ [r], overflow := s.overflow || decide (s.recs.length ≥ Cold.NUM_FC) }
  else .ok s

/-- The first half of `finishUntrained`. -/
def screenEnd (K : Kit Y M V W D G) (s : St Y M V W D G) : Except Err (St Y M V W D G) :=
  if s.end_ - s.iStart + 1 ≥ Cold.LASSO_MIN then do
    Cold.chk s.end_ (s.iStart - 1) (s.end_ - 1)
    let bl := K.mask (slice s.rows (s.iStart - 1) (s.end_ - 1))
    let rm := Cold.rmIds bl (s.iStart - 1) (s.end_ - s.iStart + 1).toNat
    let cp := compact (s.rows.take s.end_.toNat) 0 rm
    .ok { s with rows := commit s.rows cp, end_ := cp.length }
  else .ok s

theorem finishUntrained_eq (K : Kit Y M V W D G) (s : St Y M V W D G) :
    finishUntrained K s = (screenEnd K { s with iStart := endStart s } >>= closeEnd K) := rfl

theorem closeEnd_data {K : Kit Y M V W D G} {series : List (Row Y)} {s r : St Y M V W D G}
    (ha : Arr series s.rows s.end_) (hr : ∀ x ∈ s.recs, RecData K series x) (h : closeEnd K s = .ok r) :
    ∀ x ∈ r.recs, RecData K series x := by
  unfold closeEnd at h
  split at h
  · obtain ⟨_, h1, h⟩ := bind_ok h
    obtain ⟨c1, c2⟩ := chk_ok h1
    obtain ⟨a, _, h⟩ := bind_ok h
    obtain ⟨b, _, h⟩ := bind_ok h
    cases h
    intro x hx
    rcases List.mem_append.1 hx with hm | hm
    · exact hr x hm
    · rw [List.mem_singleton] at hm
      subst hm
      exact ⟨ha.slice_sub c1 c2, rfl, fun h => absurd (show (24 : Int) = 14 from h) (by decide),
        fun _ => ⟨rfl, by simp⟩⟩
  · cases h; exact hr

theorem finishUntrained_data {P : Params} {K : Kit Y M V W D G} {series : List (Row Y)}
    {s r : St Y M V W D G} (hd : Data P K series s) (h : finishUntrained K s = .ok r) :
    ∀ x ∈ r.recs, RecData K series x := by
  rw [finishUntrained_eq] at h
  obtain ⟨s1, h1, h⟩ := bind_ok h
  unfold screenEnd at h1
  split at h1
  · obtain ⟨_, _, h1⟩ := bind_ok h1
    cases h1
    refine closeEnd_data ?_ ?_ h
    · exact hd.arr.commit 0 _
    · exact hd.recs
  · cases h1
    refine closeEnd_data ?_ ?_ h
    · exact hd.arr
    · exact hd.recs

/-- The numbers of every record come from the observations the record describes. -/
theorem standProcedure_data {P : Params} {K : Kit Y M V W D G} {rows : List (Row Y)} (hP : 1 ≤ P.conse)
    (hs : rows.Pairwise (fun a b => a.date < b.date)) {nCm : Nat} {out : Output Y M V W D G}
    (h : standProcedure P K rows nCm = .ok out) : ∀ r ∈ out.recs, RecData K rows r := by
  unfold standProcedure at h
  obtain ⟨s, h1, h⟩ := bind_ok h
  have hd : Data P K rows s := loop_data hP hs _ (s := init rows nCm)
    ⟨⟨by simp [init], by simp [init], by simp [init, live]⟩, by simp [init], by simp [init]⟩ h1
  dsimp only at h
  split at h
  · rename_i ht
    obtain ⟨f, h2, h⟩ := bind_ok h
    cases h
    exact finishTrained_data hd ht h2
  · obtain ⟨f, h2, h⟩ := bind_ok h
    cases h
    exact finishUntrained_data hd h2

end Pycold.ColdV
