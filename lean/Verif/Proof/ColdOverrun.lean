import Verif.Proof.ColdEnd
import Verif.Proof.Preprocess
/-! A family of series on which the detection loop closes a segment every 13 observations. -/
namespace Pycold.Cold

open Pycold.Cold.Spec Pycold.Spec

/-- Magnitudes are natural numbers, the angle is always 0. -/
def wN : Num Nat Unit :=
  { lt := fun a b => decide (a < b), le := fun a b => decide (a ≤ b), big := 9999, tcg := 15,
    tmax := 30, nsign := 45, angle := fun _ => 0 }

/-- Nothing is masked, every model is stable, every window exceeds the threshold. -/
def wω : Oracle Nat Unit :=
  { mask := fun _ _ => false, unstable := fun _ => false, lbScore := fun _ _ _ => (0, ()),
    score := fun _ _ => (100, ()), skip := fun _ => 0, cmLb := fun _ _ => 0, cmMon := fun _ => 0,
    endMask := fun _ => false }

def wP : Params := { conse := 1, gapExceeds := fun _ => false }

/-- One observation every 31 days. -/
def wDates (n : Nat) : List Int := (List.range n).map (fun (k : Nat) => 31 * (k : Int) + 1)

theorem wN_ordered : Ordered wN where
  le_iff := by
    intro a b
    have hab : decide (a ≤ b) = !decide (b < a) := by
      by_cases h : b < a
      · simp [h]
      · simp [h]; omega
    exact hab
  trans := by intro a b c h1 h2; simp only [wN, decide_eq_true_eq] at *; omega
  cotrans := by intro a b c h; simp only [wN, decide_eq_true_eq] at *; omega
  irrefl := by intro a; simp [wN]
  big := by decide

theorem wDates_length (n : Nat) : (wDates n).length = n := by simp [wDates]

theorem wDates_sorted (n : Nat) : (wDates n).Pairwise (· < ·) := by
  simp only [wDates, List.pairwise_map]
  exact List.pairwise_lt_range.imp (by intro a b h; omega)

theorem wDates_getElem? {n k : Nat} (h : k < n) : (wDates n)[k]? = some (31 * (k : Int) + 1) := by
  simp [wDates, h]

theorem wDates_rd {n : Nat} {k : Int} (h0 : 0 ≤ k) (h1 : k < n) :
    rd (wDates n) n k = .ok (31 * k + 1) := by
  simp only [rd, h0, h1, and_self, if_true, wDates_getElem? (show k.toNat < n by omega)]
  congr 1; omega

/-- Between iterations: `m` records, and the current segment starts at position `13 m`. -/
structure WSt (n m d : Nat) (s : St Nat Unit) : Prop where
  clrx : s.clrx = wDates n
  end_ : s.end_ = n
  train : s.train = false
  iStart : s.iStart = 13 * m + 1
  i : s.i = 13 * m + 1 + d
  dle : d ≤ 12
  len : s.recs.length = m
  dense : s.iDense = 1
  last : ∀ l ∈ s.recs.getLast?, l.tBreak = 31 * (13 * m) + 1

theorem wMaxGap {n : Nat} : ∀ (f : Nat) (k stop acc : Int), (stop - k).toNat = f → 0 ≤ k → stop < n →
    ∃ g, maxGap (wDates n) n k stop acc = .ok g := by
  intro f
  induction f with
  | zero =>
    intro k stop acc hf h0 h1
    rw [maxGap]
    simp only [show ¬ k < stop by omega, if_false]
    exact ⟨_, rfl⟩
  | succ f ih =>
    intro k stop acc hf h0 h1
    rw [maxGap]
    simp only [show k < stop by omega, if_true, bind, Except.bind,
      wDates_rd (n := n) (k := k + 1) (by omega) (by omega),
      wDates_rd (n := n) (k := k) (by omega) (by omega)]
    exact ih _ _ _ (by omega) (by omega) (by omega)

theorem wFindGe {n j : Nat} (hj : j < n) :
    findGe (wDates n) (31 * (j : Int) + 1) (n : Int).toNat 0 = some j := by
  obtain ⟨q, h1, _, h3, h4, h5⟩ := findGe_some (clrx := wDates n) (t := 31 * (j : Int) + 1)
    (stop := (n : Int).toNat) (k := 0) (j := j) (by simp [wDates_length]) (by omega) (by omega)
    (by simp [List.getD_eq_getElem?_getD, wDates_getElem? hj])
  rw [h1]
  have hq : q < n := by omega
  simp only [List.getD_eq_getElem?_getD, wDates_getElem? hq, Option.getD_some] at h4
  congr 1; omega

theorem wTrain {n m : Nat} {s : St Nat Unit} (h : WSt n m 12 s) (hi : s.i ≤ (n : Int) - 1) :
    trainPhase wP wN wω s = .ok (true, { s with train := true, iCount := some 0 }) := by
  obtain ⟨h1, h2, h3, h4, h5, h6, h7, h8, h9⟩ := h
  unfold trainPhase
  have hm1 : 13 * (m : Int) + 1 - 1 = 13 * m := by omega
  have e1 : s.clrx.take s.end_.toNat = wDates n := by
    rw [h1, h2]; apply List.take_of_length_le; simp [wDates_length]
  obtain ⟨g, hg⟩ := wMaxGap (n := n) _ (s.iStart - 1) (s.i - 1) 0 rfl (by omega) (by omega)
  rw [h1, h2] at *
  have hlen : (s.i - s.iStart + 1).toNat = 13 := by omega
  have hrm : rmIds (wω.mask s.it) (s.iStart - 1) 13 = [] := by simp [rmIds, wω]
  have hk : keptCount (wω.mask s.it) 13 = 13 := rfl
  have hcm : commit (wDates n) (wDates n) = wDates n := by simp [commit]
  simp only [hg, bind, Except.bind, wP, Bool.false_eq_true, if_false, hlen, hrm, hk, e1, compact_nil,
    wDates_length]
  rw [chk_ok (by omega) (by simp; omega)]
  simp only [show ¬ ((13 : Nat) : Int) < MIN_OBS by decide, if_false]
  rw [wDates_rd (by omega) (by omega), wDates_rd (by omega) (by omega)]
  simp only [hcm]
  have hyr : yearOrMore (31 * (s.iStart + ((13 : Nat) : Int) - 1 - 1) + 1 - (31 * (s.iStart - 1) + 1)) = true := by
    simp only [yearOrMore, decide_eq_true_eq]; omega
  simp only [hyr, Bool.not_true, Bool.false_eq_true, if_false]
  rw [chk_ok (by omega) (by simp; omega)]
  simp only [show wω.unstable s.it = false from rfl, Bool.false_eq_true, if_false]
  have hib : ∀ s' : St Nat Unit, s'.recs = s.recs → s'.clrx = wDates n → s'.end_ = (n : Int) →
      s'.iDense = 1 → findBreak s' = .ok (s.iStart) := by
    intro s' a1 a2 a3 a4
    unfold findBreak
    rw [a1, a2, a3, a4]
    cases hl : s.recs.getLast? with
    | none =>
      have : m = 0 := by rw [List.getLast?_eq_none_iff] at hl; rw [hl] at h7; simpa using h7.symm
      subst this
      simp only [h4]; rfl
    | some l =>
      have := h9 l (by rw [hl]; rfl)
      simp only []
      rw [this, show (31 * (13 * (m : Int)) + 1) = 31 * ((13 * m : Nat) : Int) + 1 by push_cast; omega,
        wFindGe (by omega)]
      simp only [h4]
      congr 1
  rw [hib]
  rotate_left
  · rfl
  · rfl
  · rfl
  · exact h8
  simp only [doLookBack, show ¬ s.iStart > s.iStart by omega, if_false]
  have hfc : ∀ s' : St Nat Unit, s'.recs = s.recs → s'.iStart = s.iStart → s'.iDense = 1 →
      firstCurve ⟨1, fun _ => false, false, 0, 60⟩ s' none [] = .ok s' := by
    intro s' a1 a2 a4
    unfold firstCurve
    have : (s'.recs.isEmpty && decide (s'.iStart - s'.iDense ≥ LASSO_MIN)) = false := by
      rw [a1, a2, a4]
      cases hr : s.recs with
      | nil =>
        rw [hr] at h7; simp at h7; subst h7
        simp [h4, LASSO_MIN]
      | cons => simp
    simp only [this, Bool.false_eq_true, if_false]
  rw [hfc]
  rotate_left
  · rfl
  · rfl
  · exact h8
  have hii : s.iStart + ((13 : Nat) : Int) - 1 = s.i := by omega
  rw [hii]

theorem wMonitor {n m : Nat} {s : St Nat Unit} (h : WSt n m 12 s) (hi : s.i ≤ (n : Int) - 1) :
    ∃ s', monitorPhase wP wN wω { s with train := true, iCount := some 0 } = .ok s' ∧
      WSt n (m + 1) 0 { s' with i := s'.i + 1 } ∧ s'.i = s.i := by
  obtain ⟨h1, h2, h3, h4, h5, h6, h7, h8, h9⟩ := h
  have hbrk : ∀ x : Int, isBreak wN [⟨x, 100, ()⟩] = true := by intro x; rfl
  unfold monitorPhase refresh
  simp only [bind, Except.bind, true_or, if_true, h1, h2]
  rw [wDates_rd (by omega) (by omega), wDates_rd (by omega) (by omega), chk_ok (by omega) (by omega)]
  simp only [wP]
  rw [chk_ok (by omega) (by simp; omega)]
  simp only []
  rw [wDates_rd (by omega) (by omega)]
  simp only [cmPut, Bool.false_eq_true, if_false, List.range_one, List.map_cons, List.map_nil, scoreAt, wω]
  simp only [hbrk, if_true]
  refine ⟨_, rfl, ?_, rfl⟩
  constructor
  · rfl
  · rfl
  · rfl
  · simp only; omega
  · simp only; omega
  · omega
  · simp [h7]
  · exact h8
  · intro l hl
    simp only [List.getLast?_concat, Option.mem_def, Option.some.injEq] at hl
    subst hl
    simp only; push_cast; omega

theorem wBody {n m d : Nat} {s : St Nat Unit} (h : WSt n m d s) (hi : s.i ≤ (n : Int) - 1) :
    ∃ s' m' d', body wP wN wω s = .ok s' ∧ WSt n m' d' s' ∧ s'.i = s.i + 1 := by
  by_cases hd : d = 12
  · subst hd
    obtain ⟨s1, g1, g2, g3⟩ := wMonitor h hi
    refine ⟨{ s1 with i := s1.i + 1, it := s.it + 1 }, m + 1, 0, ?_, ?_, by simp only; omega⟩
    · have ht := wTrain h hi
      obtain ⟨h1, h2, h3, h4, h5, h6, h7, h8, h9⟩ := h
      unfold body
      rw [h1, h2, wDates_rd (by omega) (by omega), wDates_rd (by omega) (by omega)]
      have hy : s.i - s.iStart + 1 ≥ MIN_OBS ∧
          yearOrMore (31 * (s.i - 1) + 1 - (31 * (s.iStart - 1) + 1)) = true := by
        simp only [MIN_OBS, yearOrMore, decide_eq_true_eq]; omega
      simp only [bind, Except.bind, hy, and_self, if_true, h3]
      rw [ht]
      simp only [if_true, g1]
    · obtain ⟨h1, h2, h3, h4, h5, h6, h7, h8, h9⟩ := g2
      exact ⟨h1, h2, h3, h4, h5, h6, h7, h8, h9⟩
  · refine ⟨{ s with i := s.i + 1, it := s.it + 1 }, m, d + 1, ?_, ?_, rfl⟩
    · obtain ⟨h1, h2, h3, h4, h5, h6, h7, h8, h9⟩ := h
      unfold body
      rw [h1, h2, wDates_rd (by omega) (by omega), wDates_rd (by omega) (by omega)]
      have hy : ¬ (s.i - s.iStart + 1 ≥ MIN_OBS ∧
          yearOrMore (31 * (s.i - 1) + 1 - (31 * (s.iStart - 1) + 1)) = true) := by
        simp only [MIN_OBS, yearOrMore, decide_eq_true_eq]; omega
      simp only [bind, Except.bind, hy, if_false]
    · obtain ⟨h1, h2, h3, h4, h5, h6, h7, h8, h9⟩ := h
      exact ⟨h1, h2, h3, h4, by simp only; omega, by omega, h7, h8, h9⟩

theorem wLoop {n : Nat} : ∀ (f : Nat) (m d : Nat) (s : St Nat Unit), WSt n m d s → s.i ≤ n →
    (n : Int) - s.i ≤ f →
    ∃ s' m' d', loop wP wN wω f s = .ok s' ∧ WSt n m' d' s' ∧ s'.i = n := by
  intro f
  induction f with
  | zero =>
    intro m d s h hi hf
    have := h.end_
    have : ¬ s.i ≤ s.end_ - wP.conse := by simp [wP]; omega
    simp only [loop, this, if_false]
    exact ⟨s, m, d, rfl, h, by omega⟩
  | succ f ih =>
    intro m d s h hi hf
    have he := h.end_
    by_cases hc : s.i ≤ s.end_ - wP.conse
    · simp only [loop, hc, if_true, bind, Except.bind]
      have : s.i ≤ (n : Int) - 1 := by simpa [wP, he] using hc
      obtain ⟨s1, m1, d1, g1, g2, g3⟩ := wBody h this
      rw [g1]
      exact ih m1 d1 s1 g2 (by omega) (by omega)
    · simp only [loop, hc, if_false]
      have : ¬ s.i ≤ (n : Int) - 1 := by simpa [wP, he] using hc
      exact ⟨s, m, d, rfl, h, by omega⟩

/-- Segments on the family of series: at least one per 13 observations. -/
theorem wRun (n : Nat) (hn : 12 ≤ n) : ∃ out, standProcedure wP wN wω (wDates n) 0 = .ok out ∧
    (n - 1) / 13 ≤ out.recs.length ∧ (40 ≤ (n - 1) / 13 → out.overflow = true) := by
  have h0 : WSt n 0 11 (init (wDates n) 0) := by
    constructor <;> simp [init, wDates_length]
  obtain ⟨s, m, d, g1, g2, g3⟩ := wLoop n 0 11 _ h0 (by simp [init]; omega) (by simp [init]; omega)
  have hsz : CmSized wP (wDates n) 0 := fun h => absurd h (by decide)
  have hI := init_inv (P := wP) (N := wN) 0 (wDates_sorted n)
  obtain ⟨s2, k1, k2, _⟩ := loop_ok (by decide) hsz wω (wDates n).length (init (wDates n) 0) hI
    (by simp only [init, wP]; omega)
  have : s2 = s := by
    rw [wDates_length] at k1
    rw [k1] at g1; injection g1
  subst this
  have hm : (n - 1) / 13 = m := by have := g2.i; have := g2.dle; omega
  obtain ⟨f, f1, f2, f3, f4⟩ := finishUntrained_ok wω k2.toBase
  unfold standProcedure
  rw [k1]
  simp only [bind, Except.bind, g2.train, Bool.false_eq_true, if_false, f1]
  refine ⟨_, rfl, ?_, ?_⟩
  · have := g2.len
    rcases f4 with f4 | ⟨r, f4, _⟩ <;> simp only [f4, List.length_append] <;> omega
  · intro h40
    simp only [f3, k2.ovf, g2.len, decide_eq_true_eq]
    omega

/-- Scenes with the dates `wDates n`, all clear and usable. -/
def wObs (n : Nat) : List Scene := (wDates n).map (fun d => ⟨d, 500, 500, 500, 500, 500, 500, 2900, 0⟩)

theorem dedup_all (bC2 : Bool) (obs : List Scene) (hu : ∀ o ∈ obs, clrFlag bC2 o = true)
    (hd : obs.Pairwise (fun a b => a.date < b.date)) (last : Option Int)
    (hl : ∀ l ∈ last, ∀ o ∈ obs, l < o.date) : dedup bC2 last obs = obs.map (toClr bC2) := by
  induction obs generalizing last with
  | nil => rfl
  | cons o os ih =>
    have h1 := hu o (by simp)
    have h2 : last ≠ some o.date := by
      intro h; subst h; have := hl o.date rfl o (by simp); omega
    unfold dedup
    rw [List.pairwise_cons] at hd
    have := ih (fun x hx => hu x (by simp [hx])) hd.2 (some o.date)
      (by intro l h x hx; simp at h; subst h; exact hd.1 x hx)
    have h2' : ¬ some o.date = last := fun h => h2 h.symm
    simp_all

theorem cold_wObs (P : Params) (N : Num Nat Unit) (ω : Oracle Nat Unit) (n nCm : Nat) (hn : 24 ≤ n) :
    cold P N ω false (wObs n) nCm = .standard (standProcedure P N ω (wDates n) nCm) := by
  have hmem : ∀ o ∈ wObs n, ∃ d, o = ⟨d, 500, 500, 500, 500, 500, 500, 2900, 0⟩ := by
    intro o ho
    obtain ⟨d, _, rfl⟩ := List.mem_map.mp ho
    exact ⟨d, rfl⟩
  have hp : (wObs n).Pairwise (fun a b => a.date < b.date) := by
    simp only [wObs, List.pairwise_map]; exact wDates_sorted n
  have hst : (preprocessing false (wObs n)).status = .success := by
    refine (preLoop_status false (wObs n) {}).1.mpr ?_
    intro o ho; obtain ⟨d, rfl⟩ := hmem o ho; simp [KnownQa]
  have hdc : dateCheckFails (wObs n) = false := by
    rw [dateCheckFails_false_iff]
    exact hp.imp (by intro a b h; omega)
  have hclr : (clearObs false (wObs n)).map (·.date) = wDates n := by
    rw [clearObs_eq_spec false (wObs n) hst, dedup_all false (wObs n) ?_ hp none (by simp)]
    · simp [wObs, toClr, Function.comp_def]
    · intro o ho; obtain ⟨d, rfl⟩ := hmem o ho; rfl
  have hsum : (preprocessing false (wObs n)).sums.clear = n := by
    have := (preLoop_success false (wObs n) {} hst).2
    rw [preprocessing, this]
    simp [qaCount, wObs, List.countP_map, Function.comp_def, wDates_length]
  have hne : (wObs n).isEmpty = false := by
    simp only [wObs, List.isEmpty_eq_false_iff]
    intro h; have := congrArg List.length h; simp [wDates_length] at this; omega
  unfold cold
  simp only [hne, hdc, hst, hsum, hclr, show ¬ n < 24 by omega]
  simp

end Pycold.Cold
