import Verif.Proof.ColdVData
import Verif.Proof.ColdVPrefix
import Verif.Proof.ColdParts
/-!
# The course of the COLD loop up to the first break

For a series that starts with `n` observations the change test has nothing against: the loop fits a model to
the first of them, follows them with refits, and arrives at the observation `n`.
-/
namespace Pycold.ColdV

open Pycold.Cold (Err Params)
open Pycold.ColdV.Spec

variable {Y M V W D G : Type}

/-- The column `x` compares observation `j` with a model fitted to the first `i` observations, for some `i` of at
least 12 and three times the number of coefficients, and at most `j` and `n`. -/
def Compared (K : Kit Y M V W D G) (rows : List (Row Y)) (n j : Nat) (x : Sc Y V W D) : Prop :=
  rows[j]? = some x.row ∧ ∃ (c : Int) (i : Nat), Order c ∧ 12 ≤ i ∧ 3 * c ≤ i ∧ i ≤ j ∧ i ≤ n ∧
    (x = column x.row (K.score c (K.fit c (rows.take i)) x.row) ∨
      ∃ df, Order df ∧ c ≤ df ∧ x = column x.row
        (K.near df c (K.fit c (rows.take i)) (K.fit c (rows.take i)) ((rows.take i).map (·.date)) x.row))

/-- A series whose first `n` observations pass all tests; the first model is fitted to the first `m`. -/
structure Course (P : Params) (K : Kit Y M V W D G) (rows : List (Row Y)) (n m : Nat) : Prop where
  sorted : rows.Pairwise (fun a b => a.date < b.date)
  m12 : 12 ≤ m
  mn : m ≤ n
  le : n ≤ rows.length
  conse : m + P.conse ≤ rows.length
  year : ∀ a b, rows[0]? = some a → rows[m - 1]? = some b → Cold.yearOrMore (b.date - a.date) = true
  early : ∀ j, 12 ≤ j → j < m → ∀ a b, rows[0]? = some a → rows[j - 1]? = some b →
    Cold.yearOrMore (b.date - a.date) = false
  gap : ∀ g, maxGap rows rows.length 0 ((m : Int) - 1) 0 = .ok g → P.gapExceeds g = false
  mask : ∀ k, k < m → K.mask (rows.take (m + P.conse)) k = false
  stable : K.unstable (K.fit 4 (rows.take m)) (rows.take m) = false
  calm : ∀ j x, j < n → Compared K rows n j x →
    K.N.lt K.N.tcg x.mag = false ∧ K.N.le x.mag K.N.tcg = true ∧ K.N.lt K.N.tmax x.mag = false

theorem slice_zero (rows : List (Row Y)) (k : Nat) : slice rows 0 ((k : Int) - 1) = rows.take k := by
  unfold slice
  show (rows.drop 0).take _ = _
  rw [List.drop_zero]
  congr 1
  omega

theorem compact_nil : ∀ (l : List (Row Y)) (k : Int), compact l k [] = l
  | [], _ => rfl
  | x :: xs, k => by rw [compact, compact_nil xs]

theorem commit_self (l : List (Row Y)) : commit l l = l := by simp [commit]

theorem rmIds_nil {mask : Nat → Bool} {base : Int} {len : Nat} (h : ∀ k, k < len → mask k = false) :
    Cold.rmIds mask base len = [] := by
  unfold Cold.rmIds
  rw [List.map_eq_nil_iff, List.filter_eq_nil_iff]
  intro k hk
  rw [h k (List.mem_range.1 hk)]
  decide

theorem keptCount_all {mask : Nat → Bool} {len : Nat} (h : ∀ k, k < len → mask k = false) :
    Cold.keptCount mask len = len := by
  unfold Cold.keptCount
  rw [List.filter_eq_self.2, List.length_range]
  intro k hk
  rw [h k (List.mem_range.1 hk)]
  rfl

theorem updateCft_third (n : Int) (i : Nat) (h : 12 ≤ n) (hi : n ≤ i) : 3 * Cold.updateCft n 3 4 6 8 8 ≤ i := by
  unfold Cold.updateCft
  split
  · rw [Int.min_eq_left (by decide)]; omega
  · split
    · rw [Int.min_eq_left (by decide)]; omega
    · rw [Int.min_eq_left (by decide)]; omega

/-- Where the loop stands. -/
structure Track (P : Params) (K : Kit Y M V W D G) (rows : List (Row Y)) (n m : Nat) (s : St Y M V W D G) : Prop where
  rows_eq : s.rows = rows
  end_eq : s.end_ = rows.length
  start : s.iStart = 1
  dense : s.iDense = 1
  recs : s.recs = []
  low : 12 ≤ s.i
  high : s.i ≤ n
  untrained : s.i ≤ m → s.train = false
  trained : m < s.i → s.train = true ∧ Cur K rows s s.i ∧ s.win.length = P.conse ∧
    ∀ (k : Nat) x, s.win[k]? = some x → Compared K rows n (s.i - 1 + k).toNat x

theorem whole {rows : List (Row Y)} : Arr rows rows rows.length :=
  ⟨by omega, by omega, by simp [live]⟩

theorem live_all (rows : List (Row Y)) : live rows rows.length = rows := by simp [live]

theorem refresh_dense {P : Params} {K : Kit Y M V W D G} {s r : St Y M V W D G} (h : refresh P K s = .ok r) :
    r.iDense = s.iDense := by
  rw [refresh_eq] at h
  cases hic : s.iCount with
  | none => rw [hic] at h; cases h
  | some ic =>
    rw [hic] at h
    dsimp only at h
    split at h
    · unfold fresh at h
      obtain ⟨_, _, h⟩ := bind_ok h
      obtain ⟨_, _, h⟩ := bind_ok h
      obtain ⟨_, _, h⟩ := bind_ok h
      obtain ⟨_, _, h⟩ := bind_ok h
      cases h
      rfl
    · unfold later at h
      dsimp only at h
      cases hpe : s.preEnd with
      | none => rw [hpe] at h; cases h
      | some pe =>
        rw [hpe] at h
        dsimp only at h
        obtain ⟨a, _, h⟩ := bind_ok h
        obtain ⟨b, _, h⟩ := bind_ok h
        obtain ⟨_, _, h⟩ := bind_ok h
        generalize hs0 : ({ s with
          iCount := some ic, iSpanSkip := if s.iSpanSkip = 0 then s.i - s.iStart + 1 else s.iSpanSkip,
          preEnd := some pe } : St Y M V W D G) = s0 at h
        have e0 : s0.iDense = s.iDense := by subst hs0; rfl
        have e1 : (refit K s0 (s.i - s.iStart + 1)
          (Cold.updateCft (s.i - s.iStart + 1) 3 4 6 8 8) pe a.date b.date).iDense = s0.iDense := by
          unfold refit
          split <;> rfl
        generalize refit K s0 (s.i - s.iStart + 1)
          (Cold.updateCft (s.i - s.iStart + 1) 3 4 6 8 8) pe a.date b.date = s1 at h e1
        unfold shiftWin at h
        dsimp only at h
        cases hid : s1.idsOldLen with
        | none => rw [hid] at h; cases h
        | some l =>
          rw [hid] at h
          dsimp only at h
          split at h
          · cases h
          · obtain ⟨_, _, h⟩ := bind_ok h
            obtain ⟨_, _, h⟩ := bind_ok h
            split at h
            · cases h
            · cases hm : s1.cft with
              | none => rw [hm] at h; cases h
              | some m =>
                cases hm' : s1.dif with
                | none => rw [hm, hm'] at h; cases h
                | some m' =>
                  rw [hm, hm'] at h
                  cases h
                  exact e1.trans e0

/-- The refresh: the window shows the observations from `i` on. -/
theorem refresh_track {P : Params} {K : Kit Y M V W D G} {rows : List (Row Y)} {n : Nat} (hP : 1 ≤ P.conse)
    (hs : rows.Pairwise (fun a b => a.date < b.date)) {s r : St Y M V W D G}
    (h1 : s.rows = rows) (h2 : s.end_ = rows.length) (h3 : s.iStart = 1) (h4 : 12 ≤ s.i) (h5 : s.i ≤ n)
    (h6 : s.recs = [])
    (hold : s.iCount ≠ some 0 → Cur K rows s s.i ∧ s.win.length = P.conse ∧
      ∀ (k : Nat) x, s.win[k]? = some x → Compared K rows n (s.i - 1 + k).toNat x)
    (h : refresh P K s = .ok r) :
    r.rows = rows ∧ r.end_ = rows.length ∧ r.i = s.i ∧ r.iStart = 1 ∧ r.recs = [] ∧ r.train = s.train ∧
    Cur K rows r r.i ∧ r.win.length = P.conse ∧
    (∀ (k : Nat) x, r.win[k]? = some x → Compared K rows n (s.i + k).toNat x) ∧
    (∃ a b, rows[0]? = some a ∧ rows[(s.i - 1).toNat]? = some b ∧ r.cur.tStart = a.date ∧ r.cur.tEnd = b.date) := by
  have ha : Arr rows s.rows s.end_ := by rw [h1, h2]; exact whole
  obtain ⟨f1, f2, f3, f4, f5, f6, hc⟩ := refresh_data hP hs ha (by rw [h6]; simp) (fun h => (hold h).1) (by omega) h
  have hl := refresh_win hP (fun h => (hold h).2.1) h
  refine ⟨f1.trans h1, f2.trans h2, f3, f4.trans h3, f5.trans h6, f6, hc, hl, ?_⟩
  rw [refresh_eq] at h
  cases hic : s.iCount with
  | none => rw [hic] at h; cases h
  | some ic =>
    rw [hic] at h
    dsimp only at h
    split at h
    · unfold fresh at h
      obtain ⟨a, k1, h⟩ := bind_ok h
      obtain ⟨b, k2, h⟩ := bind_ok h
      obtain ⟨_, k3, h⟩ := bind_ok h
      obtain ⟨_, k4, h⟩ := bind_ok h
      obtain ⟨c1, c2⟩ := chk_ok k4
      obtain ⟨_, _, k1⟩ := rd_some k1
      obtain ⟨_, _, k2⟩ := rd_some k2
      cases h
      dsimp only at k1 k2 c1 c2
      rw [h1, h2, live_all] at k1 k2
      constructor
      · intro k x hx
        dsimp only at hx
        rw [List.getElem?_map] at hx
        by_cases hk : k < P.conse
        · rw [List.getElem?_range hk] at hx
          simp only [Option.map_some, Option.some.injEq] at hx
          subst hx
          have hrow : rows[(s.i + k).toNat]? = some (ahead K s k) := by
            unfold ahead
            rw [h1, List.getD_eq_getElem?_getD]
            rw [List.getElem?_eq_getElem (by omega)]
            rfl
          refine ⟨hrow, Cold.updateCft (s.i - s.iStart + 1) 3 4 6 8 8, s.i.toNat, updateCft_order _, by omega, ?_,
            by omega, by omega, Or.inl ?_⟩
          · exact updateCft_third _ _ (by omega) (by omega)
          · have : slice s.rows (s.iStart - 1) (s.i - 1) = rows.take s.i.toNat := by
              rw [h1, h3, ← slice_zero]
              congr 1
              omega
            rw [← this]
            rfl
        · rw [List.getElem?_eq_none (by simp; omega)] at hx
          cases hx
      · refine ⟨b, a, ?_, k1, rfl, rfl⟩
        rw [h3] at k2
        exact k2
    · rename_i hne
      obtain ⟨hcur, hwl, hw⟩ := hold (by rw [hic]; intro he; cases he; exact hne (Or.inl rfl))
      unfold later at h
      dsimp only at h
      cases hpe : s.preEnd with
      | none => rw [hpe] at h; cases h
      | some pe =>
        rw [hpe] at h
        dsimp only at h
        obtain ⟨a, k1, h⟩ := bind_ok h
        obtain ⟨b, k2, h⟩ := bind_ok h
        obtain ⟨_, k3, h⟩ := bind_ok h
        obtain ⟨c1, c2⟩ := chk_ok k3
        obtain ⟨_, _, k1⟩ := rd_some k1
        obtain ⟨_, _, k2⟩ := rd_some k2
        rw [h1, h2, live_all] at k1 k2
        generalize hs0 : ({ s with
          iCount := some ic, iSpanSkip := if s.iSpanSkip = 0 then s.i - s.iStart + 1 else s.iSpanSkip,
          preEnd := some pe } : St Y M V W D G) = s0 at h
        have hc0 : Cur K rows s0 s0.i := by
          subst hs0; exact ⟨hcur.fit, hcur.start, hcur.plain, hcur.pos, hcur.win⟩
        have e1 : s0.i = s.i := by subst hs0; rfl
        have e2 : s0.iStart = s.iStart := by subst hs0; rfl
        have e3 : s0.end_ = s.end_ := by subst hs0; rfl
        have e4 : s0.rows = s.rows := by subst hs0; rfl
        have e5 : s0.win = s.win := by subst hs0; rfl
        rw [← e1, ← e2] at h
        have hc1 := refit_data hc0 pe a.date b.date (by rw [e2]; exact c1) (by rw [e1, e3]; exact c2) (by omega)
        obtain ⟨g1, g2, g3, g4, g5, g6⟩ := refit_frame K s0 (s0.i - s0.iStart + 1)
          (Cold.updateCft (s0.i - s0.iStart + 1) 3 4 6 8 8) pe a.date b.date
        have g7 := refit_win K s0 (s0.i - s0.iStart + 1)
          (Cold.updateCft (s0.i - s0.iStart + 1) 3 4 6 8 8) pe a.date b.date
        generalize refit K s0 (s0.i - s0.iStart + 1)
          (Cold.updateCft (s0.i - s0.iStart + 1) 3 4 6 8 8) pe a.date b.date = s1 at h hc1 g1 g2 g3 g4 g5 g6 g7
        unfold shiftWin at h
        dsimp only at h
        obtain ⟨l, q1, q2, q3, q10, q4, q5, q6, q7, q8, q9⟩ := hc1.fit
        rw [q1] at h
        dsimp only at h
        split at h
        · cases h
        · obtain ⟨_, k5, h⟩ := bind_ok h
          obtain ⟨_, k6, h⟩ := bind_ok h
          obtain ⟨d1, d2⟩ := chk_ok k6
          split at h
          · cases h
          · rename_i hst
            rw [q7, q8] at h
            dsimp only at h
            cases h
            dsimp only
            have hstart : s1.iStart = 1 := by rw [g4, e2, h3]
            have hi : s1.i = s.i := g3.trans e1
            have hr1 : s1.rows = rows := by rw [g1, e4, h1]
            have hend : s1.end_ = rows.length := by rw [g2, e3, h2]
            have hsl : slice s1.rows (s1.iStart - 1) (s1.iStart - 1 + l - 1) = rows.take l.toNat := by
              rw [hr1, hstart, ← slice_zero]
              congr 1
              omega
            constructor
            · intro k x hx
              have hwlen : s1.win.length = P.conse := by rw [g7, e5]; exact hwl
              by_cases hk : k < P.conse - 1
              · rw [List.getElem?_append_left (by rw [List.length_tail]; omega), List.getElem?_tail, g7, e5] at hx
                have := hw (k + 1) x hx
                have e : (s.i - 1 + (k + 1 : Nat)).toNat = (s.i + k).toNat := by omega
                rw [e] at this
                exact this
              · rw [List.getElem?_append_right (by rw [List.length_tail]; omega), List.length_tail] at hx
                have hk' : k = P.conse - 1 := by
                  refine Decidable.byContradiction fun hne => ?_
                  rw [List.getElem?_eq_none (by simp; omega)] at hx
                  cases hx
                have : k - (s1.win.length - 1) = 0 := by omega
                rw [this] at hx
                simp only [List.getElem?_cons_zero, Option.some.injEq] at hx
                subst hx
                refine ⟨?_, s1.cur.category, l.toNat, by rw [q2]; exact updateCft_order _, by omega, by omega,
                  by omega, by omega, Or.inr ⟨Cold.updateCft (s0.i - s0.iStart + 1) 3 4 6 8 8, updateCft_order _,
                  by rw [q2]; exact updateCft_mono (by omega), ?_⟩⟩
                · show rows[_]? = some (ahead K s1 (P.conse - 1))
                  unfold ahead
                  rw [hr1, List.getD_eq_getElem?_getD, hi, hk', List.getElem?_eq_getElem (by omega)]
                  rfl
                · rw [← hsl, ← q6]
                  rfl
            · obtain ⟨v, v1, v2⟩ := hc1.start
              rw [hr1, hend, live_all, hstart] at v1
              exact ⟨v, a, v1, k1, v2, rfl⟩

/-- A calm observation at the head of the window: neither break nor outlier. -/
theorem calm_window {P : Params} {K : Kit Y M V W D G} {rows : List (Row Y)} {n m : Nat} (hN : Cold.Spec.Ordered K.N)
    (hc : Course P K rows n m) (hP : 1 ≤ P.conse) {w : List (Sc Y V W D)} (hl : w.length = P.conse) {i : Int}
    (hi : i < n) (h0 : 0 ≤ i) (hw : ∀ (k : Nat) x, w[k]? = some x → Compared K rows n (i + k).toNat x) :
    isBreak K w = false ∧ isOutlier K w = false := by
  match w, hl with
  | [], hl => simp at hl; omega
  | x :: w, _ =>
    obtain ⟨c1, _, c3⟩ := hc.calm _ x (by omega) (hw 0 x rfl)
    refine ⟨?_, c3⟩
    rw [Bool.eq_false_iff]
    intro hb
    have := ((Cold.isBreak_iff hN _).1 hb).1 x.core (List.mem_map_of_mem (List.mem_cons_self ..))
    exact Bool.false_ne_true (c1.symm.trans this)

/-- One round of monitoring. -/
theorem monitor_track {P : Params} {K : Kit Y M V W D G} {rows : List (Row Y)} {n m : Nat} (hN : Cold.Spec.Ordered K.N)
    (hc : Course P K rows n m) (hP : 1 ≤ P.conse) {s r : St Y M V W D G}
    (h1 : s.rows = rows) (h2 : s.end_ = rows.length) (h3 : s.iStart = 1) (h3' : s.iDense = 1) (h4 : 12 ≤ s.i)
    (h5 : s.i ≤ n) (h6 : s.recs = []) (h7 : s.train = true)
    (hold : s.iCount ≠ some 0 → Cur K rows s s.i ∧ s.win.length = P.conse ∧
      ∀ (k : Nat) x, s.win[k]? = some x → Compared K rows n (s.i - 1 + k).toNat x)
    (h : monitorPhase P K s = .ok r) :
    (s.i < n → m ≤ s.i → Track P K rows n m { r with i := r.i + 1 } ∧ r.i = s.i) ∧
    (s.i = n → (∀ w : List (Sc Y V W D), w.length = P.conse →
        (∀ (k : Nat) x, w[k]? = some x → Compared K rows n (n + k) x) → isBreak K w = true) →
      ∃ (x : Rec Y M V W D G) (a b d : Row Y), r.recs = [x] ∧ x.changeProb = 100 ∧ rows[0]? = some a ∧
        rows[n - 1]? = some b ∧ rows[n]? = some d ∧ x.tStart = a.date ∧ x.tEnd = b.date ∧ x.tBreak = d.date ∧
        x.magn = some (K.magn (x.window.map (·.dif))) ∧ x.window.length = P.conse ∧
        ∀ (k : Nat) y, x.window[k]? = some y → Compared K rows n (n + k) y) := by
  unfold monitorPhase at h
  obtain ⟨s1, k1, h⟩ := bind_ok h
  obtain ⟨q1, q2, q3, q4, q5, q6, q7, q8, q9, a, b, q10, q11, q12, q13⟩ :=
    refresh_track hP hc.sorted h1 h2 h3 h4 h5 h6 hold k1
  have hd : s1.iDense = 1 := by
    rw [← h3']
    exact refresh_dense k1
  obtain ⟨d, k2, h⟩ := bind_ok h
  obtain ⟨cm, _, h⟩ := bind_ok h
  obtain ⟨_, _, k2⟩ := rd_some k2
  rw [q1, q2, live_all, q3] at k2
  dsimp only at h
  constructor
  · intro hi hm
    obtain ⟨b1, b2⟩ := calm_window hN hc hP q8 hi (by omega) q9
    rw [b1, b2] at h
    simp only [Bool.false_eq_true, if_false] at h
    cases h
    refine ⟨⟨q1, q2, q4, hd, q5, by dsimp only; omega, by dsimp only; omega, fun hh => ?_, fun _ => ⟨?_, ?_, q8, ?_⟩⟩, q3⟩
    · dsimp only at hh; omega
    · dsimp only; rw [q6, h7]
    · obtain ⟨l, p1, p2, p3, p10, p4, p5, p6, p7, p8, p9⟩ := q7.fit
      have hp := q7.pos
      exact ⟨⟨l, p1, p2, p3, p10, by dsimp only; omega, p5, p6, p7, p8, p9⟩, q7.start, q7.plain,
        by dsimp only; omega, q7.win⟩
    · intro k x hx
      have := q9 k x hx
      dsimp only
      rw [show (s1.i + 1 - 1 + (k : Int)).toNat = (s.i + k).toNat by omega]
      exact this
  · intro hi hb
    have : isBreak K s1.win = true := by
      refine hb _ q8 fun k x hx => ?_
      have := q9 k x hx
      rw [show (s.i + (k : Int)).toNat = n + k by omega] at this
      exact this
    rw [this] at h
    simp only [if_true] at h
    cases h
    refine ⟨{ s1.cur with tBreak := d.date, changeProb := 100, magn := some (K.magn (s1.win.map (·.dif))),
                          window := s1.win }, a, b, d, by dsimp only; rw [q5]; rfl, rfl, q10, ?_, ?_, q12, q13, rfl, rfl, q8, ?_⟩
    · rw [← q11]; congr 1; omega
    · rw [← k2]; congr 1; omega
    · intro k x hx
      have := q9 k x hx
      rw [show (s.i + (k : Int)).toNat = n + k by omega] at this
      exact this

/-- The first model. -/
theorem trainPhase_track {P : Params} {K : Kit Y M V W D G} {rows : List (Row Y)} {n m : Nat}
    (hc : Course P K rows n m) {s : St Y M V W D G} (ht : Track P K rows n m s) (hi : s.i = m) {r}
    (h : trainPhase P K s = .ok r) :
    r.1 = true ∧ r.2.rows = rows ∧ r.2.end_ = rows.length ∧ r.2.iStart = 1 ∧ r.2.iDense = 1 ∧ r.2.i = m ∧
    r.2.recs = [] ∧ r.2.train = true ∧ r.2.iCount = some 0 := by
  unfold trainPhase at h
  obtain ⟨g, k1, h⟩ := bind_ok h
  rw [ht.rows_eq, ht.end_eq, ht.start, hi] at k1
  rw [if_neg (by rw [hc.gap g k1]; decide)] at h
  obtain ⟨_, k2, h⟩ := bind_ok h
  dsimp only at h
  have hmask : ∀ k, k < (s.i - s.iStart + 1).toNat →
      K.mask (slice s.rows (s.iStart - 1) (s.i + P.conse - 1)) k = false := by
    intro k hk
    have : slice s.rows (s.iStart - 1) (s.i + P.conse - 1) = rows.take (m + P.conse) := by
      rw [ht.rows_eq, ht.start, hi, ← slice_zero]
      congr 1
    rw [this]
    rw [ht.start, hi] at hk
    exact hc.mask k (by omega)
  rw [rmIds_nil hmask, keptCount_all hmask, compact_nil] at h
  have hm12 := hc.m12
  have hmo : Cold.MIN_OBS = 12 := rfl
  have hst := ht.start
  have htk : s.rows.take s.end_.toNat = rows := by
    rw [ht.rows_eq, ht.end_eq]; simp
  rw [htk, ht.rows_eq, commit_self] at h
  rw [if_neg (by omega)] at h
  obtain ⟨a, k3, h⟩ := bind_ok h
  obtain ⟨b, k4, h⟩ := bind_ok h
  obtain ⟨_, _, k3⟩ := rd_some k3
  obtain ⟨_, _, k4⟩ := rd_some k4
  rw [live_all] at k3 k4
  have hy := hc.year b a (by rw [← k4, hst]; rfl) (by rw [← k3]; congr 1; omega)
  rw [hy] at h
  simp only [Bool.not_true, Bool.false_eq_true, if_false] at h
  obtain ⟨_, k5, h⟩ := bind_ok h
  have hsl : slice rows (s.iStart - 1) (s.iStart + (s.i - s.iStart + 1).toNat - 1 - 1) = rows.take m := by
    rw [← slice_zero, hst]
    congr 1
    omega
  rw [hsl, hc.stable] at h
  simp only [Bool.false_eq_true, if_false] at h
  unfold findBreak doLookBack firstCurve at h
  rw [ht.recs] at h
  simp only [List.getLast?_nil, ht.dense, hst] at h
  have hl6 : ¬ ((1 : Int) - 1 ≥ Cold.LASSO_MIN) := by decide
  obtain ⟨ib, k6, h⟩ := bind_ok h
  cases k6
  rw [if_neg (by omega)] at h
  obtain ⟨p, k7, h⟩ := bind_ok h
  cases k7
  dsimp only at h
  obtain ⟨s3, k8, h⟩ := bind_ok h
  rw [if_neg (by simp; decide)] at k8
  cases k8
  cases h
  refine ⟨rfl, rfl, rfl, rfl, rfl, ?_, rfl, rfl, rfl⟩
  dsimp only
  omega

theorem date_le {rows : List (Row Y)} (hs : rows.Pairwise (fun a b => a.date < b.date)) {j k : Nat} {a b : Row Y}
    (ha : rows[j]? = some a) (hb : rows[k]? = some b) (h : j ≤ k) : a.date ≤ b.date := by
  have := whole (rows := rows)
  exact this.le' hs h (by rw [live_all]; exact ha) (by rw [live_all]; exact hb)

/-- One round of the loop. -/
theorem body_track {P : Params} {K : Kit Y M V W D G} {rows : List (Row Y)} {n m : Nat} (hN : Cold.Spec.Ordered K.N)
    (hc : Course P K rows n m) (hP : 1 ≤ P.conse) {s r : St Y M V W D G} (ht : Track P K rows n m s)
    (h : body P K s = .ok r) :
    (s.i < n → Track P K rows n m r ∧ r.i = s.i + 1) ∧
    (s.i = n → (∀ w : List (Sc Y V W D), w.length = P.conse →
        (∀ (k : Nat) x, w[k]? = some x → Compared K rows n (n + k) x) → isBreak K w = true) →
      ∃ (x : Rec Y M V W D G) (a b d : Row Y), r.recs = [x] ∧ x.changeProb = 100 ∧ rows[0]? = some a ∧
        rows[n - 1]? = some b ∧ rows[n]? = some d ∧ x.tStart = a.date ∧ x.tEnd = b.date ∧ x.tBreak = d.date ∧
        x.magn = some (K.magn (x.window.map (·.dif))) ∧ x.window.length = P.conse ∧
        ∀ (k : Nat) y, x.window[k]? = some y → Compared K rows n (n + k) y) := by
  have hmn := hc.mn
  have hm12 := hc.m12
  have hmo : Cold.MIN_OBS = 12 := rfl
  have hst := ht.start
  have hlow := ht.low
  have hhigh := ht.high
  unfold body at h
  obtain ⟨s', h1, h⟩ := bind_ok h
  cases h
  dsimp only at h1
  obtain ⟨a, k1, h1⟩ := bind_ok h1
  obtain ⟨b, k2, h1⟩ := bind_ok h1
  obtain ⟨_, _, k1⟩ := rd_some k1
  obtain ⟨_, _, k2⟩ := rd_some k2
  rw [ht.rows_eq, ht.end_eq, live_all] at k1 k2
  rw [hst] at k2
  have k2' : rows[0]? = some b := k2
  by_cases hlt : s.i < m
  · have hy := hc.early s.i.toNat (by omega) (by omega) b a k2' (by rw [← k1]; congr 1; omega)
    rw [if_neg (by rw [hy]; simp)] at h1
    cases h1
    refine ⟨fun hi => ⟨?_, rfl⟩, fun hi => by omega⟩
    exact ⟨ht.rows_eq, ht.end_eq, ht.start, ht.dense, ht.recs, by dsimp only; omega, by dsimp only; omega,
      fun _ => ht.untrained (by omega), fun hh => by dsimp only at hh; omega⟩
  · have hle : m ≤ rows.length := by have := hc.le; omega
    have hy : Cold.yearOrMore (a.date - b.date) = true := by
      have hmm : rows[m - 1]? = some (rows[m - 1]'(by omega)) := List.getElem?_eq_getElem _
      have := hc.year b _ k2' hmm
      have hd := date_le hc.sorted hmm k1 (by omega)
      unfold Cold.yearOrMore at this ⊢
      simp only [decide_eq_true_eq] at this ⊢
      omega
    rw [if_pos ⟨by omega, hy⟩] at h1
    obtain ⟨⟨go, s1⟩, h2, h1⟩ := bind_ok h1
    dsimp only at h1
    have key : go = true ∧ s1.rows = rows ∧ s1.end_ = rows.length ∧ s1.iStart = 1 ∧ s1.iDense = 1 ∧ s1.i = s.i ∧
        s1.recs = [] ∧ s1.train = true ∧ (s1.iCount ≠ some 0 → Cur K rows s1 s1.i ∧ s1.win.length = P.conse ∧
          ∀ (k : Nat) x, s1.win[k]? = some x → Compared K rows n (s1.i - 1 + k).toNat x) := by
      by_cases hm : s.i = m
      · rw [if_pos (ht.untrained (by omega))] at h2
        obtain ⟨p1, p2, p3, p4, p5, p6, p7, p8, p9⟩ := trainPhase_track hc ht hm h2
        exact ⟨p1, p2, p3, p4, p5, p6.trans hm.symm, p7, p8, fun hh => absurd p9 hh⟩
      · obtain ⟨t1, t2, t3, t4⟩ := ht.trained (by omega)
        rw [if_neg (by rw [t1]; decide)] at h2
        cases h2
        exact ⟨rfl, ht.rows_eq, ht.end_eq, ht.start, ht.dense, rfl, ht.recs, t1, fun _ => ⟨t2, t3, t4⟩⟩
    obtain ⟨p0, p1, p2, p3, p4, p5, p6, p7, p8⟩ := key
    rw [if_pos p0] at h1
    obtain ⟨s2, h3, h1⟩ := bind_ok h1
    cases h1
    obtain ⟨w1, w2⟩ := monitor_track hN hc hP p1 p2 p3 p4 (by omega) (by omega) p6 p7 p8 h3
    refine ⟨fun hi => ?_, fun hi hb => ?_⟩
    · obtain ⟨t, e⟩ := w1 (by omega) (by omega)
      refine ⟨?_, by dsimp only; omega⟩
      exact ⟨t.rows_eq, t.end_eq, t.start, t.dense, t.recs, t.low, t.high, t.untrained, fun hh =>
        let c := t.trained hh
        ⟨c.1, ⟨c.2.1.fit, c.2.1.start, c.2.1.plain, c.2.1.pos, c.2.1.win⟩, c.2.2⟩⟩
    · exact w2 (by omega) hb

theorem init_track {P : Params} {K : Kit Y M V W D G} {rows : List (Row Y)} {n m : Nat} (hc : Course P K rows n m)
    (nCm : Nat) : Track P K rows n m (init rows nCm) := by
  have h1 := hc.m12
  have h2 := hc.mn
  exact ⟨rfl, rfl, rfl, rfl, rfl, by simp [init], by simp [init]; omega, fun _ => rfl,
    fun hh => absurd hh (by simp [init]; omega)⟩

/-- With a break at observation `n`, the first record ends there. -/
theorem loop_break {P : Params} {K : Kit Y M V W D G} {rows : List (Row Y)} {n m : Nat} (hN : Cold.Spec.Ordered K.N)
    (hc : Course P K rows n m) (hP : 1 ≤ P.conse) (hn : n + P.conse ≤ rows.length)
    (hb : ∀ w : List (Sc Y V W D), w.length = P.conse →
        (∀ (k : Nat) x, w[k]? = some x → Compared K rows n (n + k) x) → isBreak K w = true) :
    ∀ (f : Nat) {s r : St Y M V W D G}, Track P K rows n m s → loop P K f s = .ok r →
      ∃ (x : Rec Y M V W D G) (a b d : Row Y), [x] <+: r.recs ∧ x.changeProb = 100 ∧ rows[0]? = some a ∧
        rows[n - 1]? = some b ∧ rows[n]? = some d ∧ x.tStart = a.date ∧ x.tEnd = b.date ∧ x.tBreak = d.date ∧
        x.magn = some (K.magn (x.window.map (·.dif))) ∧ x.window.length = P.conse ∧
        ∀ (k : Nat) y, x.window[k]? = some y → Compared K rows n (n + k) y := by
  intro f
  induction f with
  | zero =>
    intro s r ht h
    have := ht.high
    have := ht.end_eq
    unfold loop at h
    rw [if_pos (by omega)] at h
    cases h
  | succ f ih =>
    intro s r ht h
    have h1 := ht.high
    have h2 := ht.end_eq
    unfold loop at h
    rw [if_pos (by omega)] at h
    obtain ⟨s', k1, h⟩ := bind_ok h
    obtain ⟨w1, w2⟩ := body_track hN hc hP ht k1
    by_cases hi : s.i = n
    · obtain ⟨x, a, b, d, e1, e⟩ := w2 hi hb
      have := (loop_grows _ h).recs
      rw [e1] at this
      exact ⟨x, a, b, d, this, e⟩
    · exact ih (w1 (by omega)).1 h

/-- A break at observation `n`. -/
theorem standProcedure_break {P : Params} {K : Kit Y M V W D G} {rows : List (Row Y)} {n m : Nat}
    (hN : Cold.Spec.Ordered K.N) (hc : Course P K rows n m) (hP : 1 ≤ P.conse) (hn : n + P.conse ≤ rows.length)
    (hb : ∀ w : List (Sc Y V W D), w.length = P.conse →
        (∀ (k : Nat) x, w[k]? = some x → Compared K rows n (n + k) x) → isBreak K w = true)
    {nCm : Nat} {out : Output Y M V W D G} (h : standProcedure P K rows nCm = .ok out) :
    ∃ (x : Rec Y M V W D G) (a b d : Row Y), [x] <+: out.recs ∧ x.changeProb = 100 ∧ rows[0]? = some a ∧
      rows[n - 1]? = some b ∧ rows[n]? = some d ∧ x.tStart = a.date ∧ x.tEnd = b.date ∧ x.tBreak = d.date ∧
        x.magn = some (K.magn (x.window.map (·.dif))) ∧ x.window.length = P.conse ∧
        ∀ (k : Nat) y, x.window[k]? = some y → Compared K rows n (n + k) y := by
  obtain ⟨s, h1, h2⟩ := standProcedure_ends hP h
  obtain ⟨x, a, b, d, e1, e⟩ := loop_break hN hc hP hn hb _ (init_track hc nCm) h1
  obtain ⟨tail, t1, _, _⟩ := h2.recs
  exact ⟨x, a, b, d, e1.trans (by rw [t1]; exact List.prefix_append _ _), e⟩

/-- Without one, the loop ends with a model. -/
theorem loop_quiet {P : Params} {K : Kit Y M V W D G} {rows : List (Row Y)} {m : Nat} (hN : Cold.Spec.Ordered K.N)
    (hc : Course P K rows rows.length m) (hP : 1 ≤ P.conse) :
    ∀ (f : Nat) {s r : St Y M V W D G}, Track P K rows rows.length m s →
      s.i ≤ rows.length - P.conse + 1 → loop P K f s = .ok r →
      Track P K rows rows.length m r ∧ r.i = rows.length - P.conse + 1 := by
  have hm := hc.conse
  intro f
  induction f with
  | zero =>
    intro s r ht hi h
    have := ht.end_eq
    unfold loop at h
    split at h
    · cases h
    · cases h; exact ⟨ht, by omega⟩
  | succ f ih =>
    intro s r ht hi h
    have := ht.end_eq
    unfold loop at h
    split at h
    · obtain ⟨s', k1, h⟩ := bind_ok h
      obtain ⟨w1, w2⟩ := (body_track hN hc hP ht k1).1 (by omega)
      exact ih w1 (by omega) h
    · cases h; exact ⟨ht, by omega⟩

/-- A series without a break: one record from the first to the last observation. -/
theorem standProcedure_quiet {P : Params} {K : Kit Y M V W D G} {rows : List (Row Y)} {m : Nat}
    (hN : Cold.Spec.Ordered K.N) (hc : Course P K rows rows.length m) (hP : 1 ≤ P.conse)
    {nCm : Nat} {out : Output Y M V W D G} (h : standProcedure P K rows nCm = .ok out) :
    ∃ (x : Rec Y M V W D G) (a b : Row Y), out.recs = [x] ∧ x.changeProb = 0 ∧ x.window = [] ∧ rows[0]? = some a ∧
      rows[rows.length - 1]? = some b ∧ x.tStart = a.date ∧ x.tEnd = b.date := by
  have hm := hc.conse
  have hm12 := hc.m12
  unfold standProcedure at h
  obtain ⟨s, h1, h⟩ := bind_ok h
  obtain ⟨ht, hi⟩ := loop_quiet hN hc hP _ (init_track hc nCm) (by simp only [init]; omega) h1
  obtain ⟨t1, t2, t3, t4⟩ := ht.trained (by omega)
  have hst := ht.start
  have hen := ht.end_eq
  dsimp only at h
  rw [if_pos t1] at h
  obtain ⟨f, h2, h⟩ := bind_ok h
  cases h
  unfold finishTrained at h2
  obtain ⟨j, k1, h2⟩ := bind_ok h2
  dsimp only at h2
  obtain ⟨b, k2, h2⟩ := bind_ok h2
  have hj : j = P.conse := by
    obtain ⟨c, hcc⟩ : ∃ c, P.conse = c + 1 := ⟨P.conse - 1, by omega⟩
    rw [hcc] at k1
    unfold Cold.scanLast at k1
    have hx : s.win[c]? = some (s.win[c]'(by omega)) := List.getElem?_eq_getElem _
    rw [List.getElem?_map, hx] at k1
    obtain ⟨_, c2, _⟩ := hc.calm _ _ (by omega) (t4 c _ hx)
    simp only [Option.map_some] at k1
    rw [if_pos (by rw [show (s.win[c]'(by omega)).core.mag = (s.win[c]'(by omega)).mag from rfl, c2]; rfl)] at k1
    cases k1
    exact hcc.symm
  subst hj
  rw [if_neg (by omega)] at h2
  cases h2
  obtain ⟨_, _, k2⟩ := rd_some k2
  rw [ht.rows_eq, hen, live_all] at k2
  obtain ⟨v, v1, v2⟩ := t2.start
  rw [ht.rows_eq, hen, live_all, hst] at v1
  refine ⟨{ s.cur with changeProb := (((P.conse : Int) - P.conse) * 100).tdiv P.conse, tEnd := b.date, window := [] },
    v, b, by dsimp only; rw [ht.recs]; rfl, ?_, rfl, v1, ?_, v2, rfl⟩
  · dsimp only
    rw [show ((P.conse : Int) - P.conse) * 100 = 0 by omega]
    simp
  · rw [← k2]; congr 1; omega

end Pycold.ColdV
