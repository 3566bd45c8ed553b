import Mathlib.Logic.Equiv.Basic
import Verif.Spec.Sort
/-! Correctness of the quicksort helpers. -/
namespace Pycold.Sort

open Spec

variable {K B : Type}

theorem Spec.Permuted.refl (s : Arr K B) (l r : Int) : Permuted s s l r :=
  ⟨rfl, rfl, Equiv.refl _, by simp, by simp, by simp, by simp⟩

theorem Spec.Permuted.trans {s t u : Arr K B} {l r : Int} (h1 : Permuted s t l r) (h2 : Permuted t u l r) :
    Permuted s u l r := by
  obtain ⟨a1, a2, σ, a3, a4, a5, a6⟩ := h1
  obtain ⟨b1, b2, τ, b3, b4, b5, b6⟩ := h2
  refine ⟨by omega, by omega, τ.trans σ, ?_, ?_, ?_, ?_⟩
  · intro k hk; simp [b3 k hk, a3 k hk]
  · intro k; simp [b4, a4]
  · intro b hb k; simp [b5 b (by omega) k, a5 b hb]
  · intro b hb; rw [b6 b (by omega), a6 b hb]

theorem Spec.Permuted.widen {s t : Arr K B} {l r l' r' : Int} (h : Permuted s t l r) (hl : l' ≤ l)
    (hr : r ≤ r') : Permuted s t l' r' := by
  obtain ⟨a1, a2, σ, a3, a4⟩ := h
  exact ⟨a1, a2, σ, fun k hk => a3 k (by omega), a4⟩

theorem perm_inside {σ : Equiv.Perm Int} {l r : Int} (h : ∀ k, ¬ (l ≤ k ∧ k ≤ r) → σ k = k) {k : Int}
    (hk : l ≤ k ∧ k ≤ r) : l ≤ σ k ∧ σ k ≤ r := by
  by_cases hc : l ≤ σ k ∧ σ k ≤ r
  · exact hc
  · have := σ.injective (h _ hc)
    rw [this] at hc
    exact absurd hk hc

/-- Any property of all entries of a range survives a permutation of a part of the range. -/
theorem Spec.Permuted.forall {s t : Arr K B} {l r : Int} (h : Permuted s t l r) {lo hi : Int}
    (hl : lo ≤ l) (hr : r ≤ hi) (p : K → Prop) (hp : ∀ k, lo ≤ k → k ≤ hi → p (s.arr k)) :
    ∀ k, lo ≤ k → k ≤ hi → p (t.arr k) := by
  obtain ⟨_, _, σ, a3, a4, _⟩ := h
  intro k h1 h2
  rw [a4]
  by_cases hc : l ≤ k ∧ k ≤ r
  · have := perm_inside a3 hc
    exact hp _ (by omega) (by omega)
  · rw [a3 k hc]; exact hp k h1 h2

theorem Spec.Permuted.outside {s t : Arr K B} {l r : Int} (h : Permuted s t l r) {k : Int}
    (hk : ¬ (l ≤ k ∧ k ≤ r)) : t.arr k = s.arr k := by
  obtain ⟨_, _, σ, a3, a4, _⟩ := h
  rw [a4, a3 k hk]

theorem upd_swap {A : Type} (f : Int → A) (i j k : Int) :
    upd (upd f i (f j)) j (f i) k = f (Equiv.swap i j k) := by
  simp only [upd, Equiv.swap_apply_def]
  grind

theorem swap_ok {s : Arr K B} {i j l r : Int} (h0 : 0 ≤ l) (h1 : r < s.n) (hi : l ≤ i ∧ i ≤ r)
    (hj : l ≤ j ∧ j ≤ r) : ∃ t, swap s i j = .ok t ∧ Permuted s t l r ∧
      ∀ k, t.arr k = if k = j then s.arr i else if k = i then s.arr j else s.arr k := by
  unfold swap
  simp only [show (0 ≤ i ∧ i < s.n) ∧ (0 ≤ j ∧ j < s.n) by omega, and_self, if_true]
  refine ⟨_, rfl, ⟨rfl, rfl, Equiv.swap i j, ?_, ?_, ?_, ?_⟩, ?_⟩
  · intro k hk
    exact Equiv.swap_apply_of_ne_of_ne (by omega) (by omega)
  · intro k; exact upd_swap s.arr i j k
  · intro b hb k
    simp only [hb, if_true]
    exact upd_swap (s.brr b) i j k
  · intro b hb
    simp only [show ¬ b < s.nb by omega, if_false]
  · intro k; simp only [upd]

theorem scanUp_ok (lt : K → K → Bool) (s : Arr K B) (pv : K) (p : Int) (hp : p < s.n)
    (hs : lt (s.arr p) pv = false) : ∀ (m : Nat) (i : Int), (p - i).toNat = m → 0 ≤ i → i ≤ p →
    ∃ i', scanUp lt s pv i = .ok i' ∧ i ≤ i' ∧ i' ≤ p ∧ lt (s.arr i') pv = false ∧
      ∀ k, i ≤ k → k < i' → lt (s.arr k) pv = true := by
  intro m
  induction m with
  | zero =>
    intro i hm h0 h1
    have : i = p := by omega
    subst this
    rw [scanUp]
    simp only [h0, hp, and_self, if_true, hs, Bool.false_eq_true, if_false]
    exact ⟨i, rfl, by omega, by omega, hs, by omega⟩
  | succ m ih =>
    intro i hm h0 h1
    rw [scanUp]
    simp only [h0, show i < s.n by omega, and_self, if_true]
    by_cases hc : lt (s.arr i) pv = true
    · simp only [hc, if_true]
      obtain ⟨i', a1, a2, a3, a4, a5⟩ := ih (i + 1) (by omega) (by omega) (by omega)
      refine ⟨i', a1, by omega, a3, a4, ?_⟩
      intro k hk1 hk2
      by_cases hki : k = i
      · rw [hki]; exact hc
      · exact a5 k (by omega) hk2
    · simp only [hc, if_false]
      exact ⟨i, rfl, by omega, h1, by simpa using hc, by omega⟩

theorem scanDown_ok (lt : K → K → Bool) (s : Arr K B) (pv : K) (q : Int) (hq : 0 ≤ q)
    (hs : lt pv (s.arr q) = false) : ∀ (m : Nat) (j : Int), (j - q).toNat = m → j < s.n → q ≤ j →
    ∃ j', scanDown lt s pv j = .ok j' ∧ j' ≤ j ∧ q ≤ j' ∧ lt pv (s.arr j') = false ∧
      ∀ k, j' < k → k ≤ j → lt pv (s.arr k) = true := by
  intro m
  induction m with
  | zero =>
    intro j hm h0 h1
    have : j = q := by omega
    subst this
    rw [scanDown]
    simp only [h0, hq, and_self, if_true, hs, Bool.false_eq_true, if_false]
    exact ⟨j, rfl, by omega, by omega, hs, by omega⟩
  | succ m ih =>
    intro j hm h0 h1
    rw [scanDown]
    simp only [h0, show 0 ≤ j by omega, and_self, if_true]
    by_cases hc : lt pv (s.arr j) = true
    · simp only [hc, if_true]
      obtain ⟨j', a1, a2, a3, a4, a5⟩ := ih (j - 1) (by omega) (by omega) (by omega)
      refine ⟨j', a1, by omega, a3, a4, ?_⟩
      intro k hk1 hk2
      by_cases hkj : k = j
      · rw [hkj]; exact hc
      · exact a5 k hk1 (by omega)
    · simp only [hc, if_false]
      exact ⟨j, rfl, by omega, h1, by simpa using hc, by omega⟩

/-- The two sides of the partition, without any assumption on `lt`. -/
def Low (lt : K → K → Bool) (pv : K) (a : Int → K) (l i : Int) : Prop :=
  ∀ k, l ≤ k → k < i → lt (a k) pv = true ∨ lt pv (a k) = false

def High (lt : K → K → Bool) (pv : K) (a : Int → K) (j r : Int) : Prop :=
  ∀ k, j < k → k ≤ r → lt pv (a k) = true ∨ lt (a k) pv = false

theorem partLoop_ok (lt : K → K → Bool) (pv : K) (l r U : Int) (h0 : 0 ≤ l) (hU : U ≤ r) :
    ∀ (f : Nat) (s : Arr K B) (i j : Int), r < s.n → l ≤ i → j ≤ r → j - i + 1 ≤ f → i ≤ U → j + 1 ≤ U →
    l ≤ j + 1 →
    (i ≤ j → ∃ p, i ≤ p ∧ p ≤ U ∧ lt (s.arr p) pv = false) →
    (i ≤ j → ∃ q, l ≤ q ∧ q ≤ j ∧ lt pv (s.arr q) = false) →
    Low lt pv s.arr l i → High lt pv s.arr j r →
    ∃ t idx, partLoop lt pv f s i j = .ok (t, idx) ∧ Permuted s t l r ∧ i ≤ idx ∧ idx ≤ U ∧
      Low lt pv t.arr l idx ∧ High lt pv t.arr (idx - 1) r := by
  intro f
  induction f with
  | zero =>
    intro s i j hr hi hj hf hiU hjU hlj hp hq hlo hhi
    rw [partLoop]
    simp only [show ¬ i ≤ j by simp at hf; omega, if_false]
    refine ⟨s, i, rfl, Permuted.refl _ _ _, by omega, hiU, hlo, ?_⟩
    intro k h1 h2; exact hhi k (by simp at hf; omega) h2
  | succ f ih =>
    intro s i j hr hi hj hf hiU hjU hlj hp hq hlo hhi
    rw [partLoop]
    by_cases hij : i ≤ j
    · simp only [hij, if_true]
      obtain ⟨p, hp1, hp2, hp3⟩ := hp hij
      obtain ⟨q, hq1, hq2, hq3⟩ := hq hij
      obtain ⟨i', a1, a2, a3, a4, a5⟩ := scanUp_ok lt s pv p (by omega) hp3 _ i rfl (by omega) hp1
      obtain ⟨j', b1, b2, b3, b4, b5⟩ := scanDown_ok lt s pv q (by omega) hq3 _ j rfl (by omega) hq2
      simp only [a1, b1, bind, Except.bind]
      by_cases hij' : i' ≤ j'
      · simp only [hij', if_true]
        obtain ⟨t, c1, c2, c3⟩ := swap_ok (s := s) (i := i') (j := j') (l := l) (r := r) h0 hr
          (by omega) (by omega)
        rw [c1]
        simp only []
        obtain ⟨u, idx, d1, d2, d3, d4, d5, d6⟩ := ih t (i' + 1) (j' - 1) (by rw [c2.1]; omega) (by omega)
          (by omega) (by push_cast at hf; omega) (by omega) (by omega) (by omega)
          (by
            intro h
            refine ⟨j', by omega, by omega, ?_⟩
            rw [c3]; simp [a4])
          (by
            intro h
            refine ⟨i', by omega, by omega, ?_⟩
            rw [c3]; simp only [show i' ≠ j' by omega, if_false, if_true]; exact b4)
          (by
            intro k h1 h2
            rw [c3]
            by_cases k1 : k = j'
            · have : i' = j' := by omega
              simp only [k1, if_true]; right; rw [this]; exact b4
            · simp only [k1, if_false]
              by_cases k2 : k = i'
              · simp only [k2, if_true]; exact Or.inr b4
              · simp only [k2, if_false]
                by_cases k3 : k < i
                · exact hlo k h1 k3
                · exact Or.inl (a5 k (by omega) (by omega)))
          (by
            intro k h1 h2
            rw [c3]
            by_cases k1 : k = j'
            · simp only [k1, if_true]; exact Or.inr a4
            · simp only [k1, if_false]
              by_cases k2 : k = i'
              · omega
              · simp only [k2, if_false]
                by_cases k3 : k > j
                · exact hhi k (by omega) h2
                · exact Or.inl (b5 k (by omega) (by omega)))
        exact ⟨u, idx, d1, c2.trans d2, by omega, d4, d5, d6⟩
      · simp only [hij', if_false]
        rw [partLoop.eq_def]
        simp only [hij', if_false]
        refine ⟨s, i', rfl, Permuted.refl _ _ _, by omega, by omega, ?_, ?_⟩
        · intro k h1 h2
          by_cases k3 : k < i
          · exact hlo k h1 k3
          · exact Or.inl (a5 k (by omega) (by omega))
        · intro k h1 h2
          by_cases k3 : k > j
          · exact hhi k (by omega) h2
          · exact Or.inl (b5 k (by omega) (by omega))
    · simp only [hij, if_false]
      refine ⟨s, i, rfl, Permuted.refl _ _ _, by omega, hiU, hlo, ?_⟩
      intro k h1 h2; exact hhi k (by omega) h2

/-- `partition` on a non-empty range. -/
theorem partition_ok (lt : K → K → Bool) (hirr : ∀ a, lt a a = false) (s : Arr K B) (l r : Int)
    (h0 : 0 ≤ l) (hlr : l ≤ r) (hr : r < s.n) :
    ∃ t idx, partition lt s l r = .ok (t, idx) ∧ Permuted s t l r ∧ l + 1 ≤ idx ∧ idx ≤ r + 1 ∧
      (l < r → idx ≤ r) ∧
      Low lt (s.arr ((l + r) / 2)) t.arr l idx ∧ High lt (s.arr ((l + r) / 2)) t.arr (idx - 1) r ∧
      (lt (s.arr l) (s.arr ((l + r) / 2)) = true → l + 2 ≤ idx) := by
  have hmid : (l + r).tdiv 2 = (l + r) / 2 := Int.tdiv_eq_ediv_of_nonneg (by omega)
  unfold partition
  rw [hmid]
  simp only [rd, show 0 ≤ (l + r) / 2 ∧ (l + r) / 2 < s.n by omega, and_self, if_true, bind,
    Except.bind]
  generalize hm : (l + r) / 2 = m
  have hlm : l ≤ m ∧ m ≤ r := by omega
  obtain ⟨f, hf⟩ : ∃ f : Nat, (r - l + 2).toNat = f + 1 := ⟨(r - l + 1).toNat, by omega⟩
  rw [hf, partLoop]
  simp only [hlr, if_true]
  obtain ⟨i', a1, a2, a3, a4, a5⟩ := scanUp_ok lt s (s.arr m) m (by omega) (hirr _) _ l rfl h0 hlm.1
  obtain ⟨j', b1, b2, b3, b4, b5⟩ := scanDown_ok lt s (s.arr m) m (by omega) (hirr _) _ r rfl hr hlm.2
  simp only [a1, b1, bind, Except.bind, show i' ≤ j' by omega, if_true]
  obtain ⟨t, c1, c2, c3⟩ := swap_ok (s := s) (i := i') (j := j') (l := l) (r := r) h0 hr
    (by omega) (by omega)
  rw [c1]
  simp only []
  have hlow : Low lt (s.arr m) t.arr l (i' + 1) := by
    intro k h1 h2
    rw [c3]
    by_cases k1 : k = j'
    · have : i' = j' := by omega
      simp only [k1, if_true]; right; rw [this]; exact b4
    · simp only [k1, if_false]
      by_cases k2 : k = i'
      · simp only [k2, if_true]; exact Or.inr b4
      · simp only [k2, if_false]
        exact Or.inl (a5 k (by omega) (by omega))
  have hhigh : High lt (s.arr m) t.arr (j' - 1) r := by
    intro k h1 h2
    rw [c3]
    by_cases k1 : k = j'
    · simp only [k1, if_true]; exact Or.inr a4
    · simp only [k1, if_false]
      by_cases k2 : k = i'
      · omega
      · simp only [k2, if_false]
        exact Or.inl (b5 k (by omega) (by omega))
  have hstart : lt (s.arr l) (s.arr m) = true → l + 1 ≤ i' := by
    intro hlt
    by_cases hc : i' = l
    · rw [hc, hlt] at a4; cases a4
    · omega
  by_cases hlr' : l < r
  · obtain ⟨u, idx, d1, d2, d3, d4, d5, d6⟩ := partLoop_ok lt (s.arr m) l r (max j' (m + 1)) h0 (by omega)
      f t (i' + 1) (j' - 1) (by rw [c2.1]; omega) (by omega) (by omega) (by omega) (by omega) (by omega)
      (by omega)
      (by
        intro h
        refine ⟨j', by omega, by omega, ?_⟩
        rw [c3]; simp [a4])
      (by
        intro h
        refine ⟨i', by omega, by omega, ?_⟩
        rw [c3]; simp only [show i' ≠ j' by omega, if_false, if_true]; exact b4)
      hlow hhigh
    exact ⟨u, idx, d1, c2.trans d2, by omega, by omega, by omega, d5, d6,
      fun h => by have := hstart h; omega⟩
  · rw [partLoop.eq_def]
    simp only [show ¬ i' + 1 ≤ j' - 1 by omega, if_false]
    refine ⟨t, i' + 1, rfl, c2, by omega, by omega, by omega, hlow, ?_,
      fun h => by have := hstart h; omega⟩
    intro k h1 h2; omega

theorem low_le {lt : K → K → Bool} (h : StrictWeak lt) {pv : K} {a : Int → K} {l i : Int}
    (hl : Low lt pv a l i) {k : Int} (h1 : l ≤ k) (h2 : k < i) : lt pv (a k) = false := by
  rcases hl k h1 h2 with hc | hc
  · by_contra hn
    have := h.trans _ _ _ hc (by simpa using hn)
    rw [h.irrefl] at this; cases this
  · exact hc

theorem high_ge {lt : K → K → Bool} (h : StrictWeak lt) {pv : K} {a : Int → K} {j r : Int}
    (hl : High lt pv a j r) {k : Int} (h1 : j < k) (h2 : k ≤ r) : lt (a k) pv = false := by
  rcases hl k h1 h2 with hc | hc
  · by_contra hn
    have := h.trans _ _ _ hc (by simpa using hn)
    rw [h.irrefl] at this; cases this
  · exact hc

/-- Everything left of the cut is at most everything right of it. -/
theorem across {lt : K → K → Bool} (h : StrictWeak lt) {pv x y : K} (h1 : lt pv x = false)
    (h2 : lt y pv = false) : lt y x = false := by
  by_contra hn
  rcases h.cotrans y pv x (by simpa using hn) with hc | hc
  · rw [h2] at hc; cases hc
  · rw [h1] at hc; cases hc

/-- The ordinary quicksort (`back = 0`). -/
theorem quickSort_ok (lt : K → K → Bool) (hirr : ∀ a, lt a a = false) :
    ∀ (f : Nat) (s : Arr K B) (l r : Int), 0 ≤ l → l ≤ r → r < s.n → r - l + 1 ≤ f →
    ∃ t, quickSort lt 0 f s l r = .ok t ∧ Permuted s t l r ∧ (StrictWeak lt → Sorted lt t.arr l r) := by
  intro f
  induction f with
  | zero => intro s l r h0 hlr hr hf; simp at hf; omega
  | succ f ih =>
    intro s l r h0 hlr hr hf
    rw [quickSort]
    obtain ⟨t, idx, a1, a2, a3, a4, a5, a6, a7, _⟩ := partition_ok lt hirr s l r h0 hlr hr
    simp only [a1, bind, Except.bind]
    have hn : t.n = s.n := a2.1
    have left : ∃ u, (if l < idx - 1 then quickSort lt 0 f t l (idx - 1) else .ok t) = .ok u ∧
        Permuted t u l (idx - 1) ∧ (StrictWeak lt → Sorted lt u.arr l (idx - 1)) := by
      by_cases hc : l < idx - 1
      · simp only [hc, if_true]
        by_cases hlr' : l < r
        · exact ih t l (idx - 1) h0 (by omega) (by omega) (by push_cast at hf; omega)
        · omega
      · simp only [hc, if_false]
        exact ⟨t, rfl, Permuted.refl _ _ _, fun _ x y h1 h2 h3 => by omega⟩
    obtain ⟨u, b1, b2, b3⟩ := left
    rw [b1]
    simp only []
    have hun : u.n = t.n := b2.1
    have hlow : StrictWeak lt → ∀ k, l ≤ k → k ≤ idx - 1 → lt (s.arr ((l + r) / 2)) (u.arr k) = false :=
      fun hsw => b2.forall (by omega) (by omega) (fun x => lt (s.arr ((l + r) / 2)) x = false)
        (fun k h1 h2 => low_le hsw a6 h1 (by omega))
    have hhigh : StrictWeak lt → ∀ k, idx ≤ k → k ≤ r → lt (u.arr k) (s.arr ((l + r) / 2)) = false := by
      intro hsw k h1 h2
      rw [b2.outside (by omega)]
      exact high_ge hsw a7 (by omega) h2
    by_cases hc : idx < r
    · simp only [hc, if_true, show idx - 0 = idx by omega]
      obtain ⟨v, c1, c2, c3⟩ := ih u idx r (by omega) (by omega) (by omega) (by push_cast at hf; omega)
      refine ⟨v, c1, (a2.trans (b2.widen (by omega) (by omega))).trans (c2.widen (by omega) (by omega)), ?_⟩
      intro hsw x y h1 h2 h3
      by_cases hx : x < idx
      · have ex : v.arr x = u.arr x := c2.outside (by omega)
        by_cases hy : y < idx
        · rw [ex, c2.outside (show ¬ (idx ≤ y ∧ y ≤ r) by omega)]
          exact b3 hsw x y h1 h2 (by omega)
        · rw [ex]
          exact across hsw (hlow hsw x h1 (by omega))
            (c2.forall (Int.le_refl _) (Int.le_refl _) (fun z => lt z (s.arr ((l + r) / 2)) = false)
              (hhigh hsw) y (by omega) h3)
      · exact c3 hsw x y (by omega) h2 h3
    · simp only [hc, if_false]
      refine ⟨u, rfl, a2.trans (b2.widen (by omega) (by omega)), ?_⟩
      intro hsw x y h1 h2 h3
      by_cases hy : y < idx
      · exact b3 hsw x y h1 h2 (by omega)
      · exact across hsw (hlow hsw x h1 (by omega)) (hhigh hsw y (by omega) h3)

/-- Keys of the range are pairwise different (for the order). -/
def Distinct (lt : K → K → Bool) (a : Int → K) (l r : Int) : Prop :=
  ∀ x y, l ≤ x → x ≤ r → l ≤ y → y ≤ r → x ≠ y → lt (a x) (a y) = true ∨ lt (a y) (a x) = true

theorem Distinct.perm {lt : K → K → Bool} {s t : Arr K B} {l r l' r' : Int}
    (h : Distinct lt s.arr l r) (hp : Permuted s t l' r') (hl : l ≤ l') (hr : r' ≤ r) :
    Distinct lt t.arr l r := by
  obtain ⟨_, _, σ, a3, a4, _⟩ := hp.widen hl hr
  intro x y h1 h2 h3 h4 hne
  rw [a4, a4]
  have e1 := perm_inside a3 ⟨h1, h2⟩
  have e2 := perm_inside a3 ⟨h3, h4⟩
  exact h _ _ e1.1 e1.2 e2.1 e2.2 (fun he => hne (σ.injective he))

theorem Distinct.sub {lt : K → K → Bool} {a : Int → K} {l r l' r' : Int}
    (h : Distinct lt a l r) (hl : l ≤ l') (hr : r' ≤ r) : Distinct lt a l' r' :=
  fun x y h1 h2 h3 h4 hne => h x y (by omega) (by omega) (by omega) (by omega) hne

/-- Whether the first entry of the range is its strict minimum (0) or not (1). -/
noncomputable def notMin (lt : K → K → Bool) (a : Int → K) (l r : Int) : Nat :=
  open Classical in if ∀ k, l < k → k ≤ r → lt (a l) (a k) = true then 0 else 1

theorem notMin_zero {lt : K → K → Bool} {a : Int → K} {l r : Int}
    (h : ∀ k, l < k → k ≤ r → lt (a l) (a k) = true) : notMin lt a l r = 0 := by
  simp only [notMin]; rw [if_pos h]

theorem notMin_le {lt : K → K → Bool} {a : Int → K} {l r : Int} : notMin lt a l r ≤ 1 := by
  simp only [notMin]; split <;> omega

/-- `quick_sort_index` (`back = 1`) on distinct keys. -/
theorem quickSort_index_ok (lt : K → K → Bool) (hsw : StrictWeak lt) :
    ∀ (f : Nat) (s : Arr K B) (l r : Int), 0 ≤ l → l ≤ r → r < s.n → Distinct lt s.arr l r →
    2 * (r - l) + notMin lt s.arr l r + 1 ≤ f →
    ∃ t, quickSort lt 1 f s l r = .ok t ∧ Permuted s t l r ∧ Sorted lt t.arr l r := by
  intro f
  induction f with
  | zero => intro s l r h0 hlr hr hd hf; simp at hf; omega
  | succ f ih =>
    intro s l r h0 hlr hr hd hf
    rw [quickSort]
    obtain ⟨t, idx, a1, a2, a3, a4, a5, a6, a7, a8⟩ := partition_ok lt hsw.irrefl s l r h0 hlr hr
    simp only [a1, bind, Except.bind]
    have hn : t.n = s.n := a2.1
    have hdt : Distinct lt t.arr l r := hd.perm a2 (Int.le_refl _) (Int.le_refl _)
    have left : ∃ u, (if l < idx - 1 then quickSort lt 1 f t l (idx - 1) else .ok t) = .ok u ∧
        Permuted t u l (idx - 1) ∧ Sorted lt u.arr l (idx - 1) := by
      by_cases hc : l < idx - 1
      · simp only [hc, if_true]
        by_cases hlr' : l < r
        · have := notMin_le (lt := lt) (a := t.arr) (l := l) (r := idx - 1)
          exact ih t l (idx - 1) h0 (by omega) (by omega) (hdt.sub (by omega) (by omega))
            (by push_cast at hf; omega)
        · omega
      · simp only [hc, if_false]
        exact ⟨t, rfl, Permuted.refl _ _ _, fun x y h1 h2 h3 => by omega⟩
    obtain ⟨u, b1, b2, b3⟩ := left
    rw [b1]
    simp only []
    have hun : u.n = t.n := b2.1
    have hdu : Distinct lt u.arr l r := hdt.perm b2 (by omega) (by omega)
    have hlow : ∀ k, l ≤ k → k ≤ idx - 1 → lt (s.arr ((l + r) / 2)) (u.arr k) = false :=
      b2.forall (by omega) (by omega) (fun x => lt (s.arr ((l + r) / 2)) x = false)
        (fun k h1 h2 => low_le hsw a6 h1 (by omega))
    have hhigh : ∀ k, idx ≤ k → k ≤ r → lt (u.arr k) (s.arr ((l + r) / 2)) = false := by
      intro k h1 h2
      rw [b2.outside (by omega)]
      exact high_ge hsw a7 (by omega) h2
    by_cases hc : idx < r
    · simp only [hc, if_true]
      have hmeas : 2 * (r - (idx - 1)) + notMin lt u.arr (idx - 1) r + 1 ≤ f := by
        by_cases hi : l + 2 ≤ idx
        · have := notMin_le (lt := lt) (a := u.arr) (l := idx - 1) (r := r)
          push_cast at hf; omega
        · have hidx : idx - 1 = l := by omega
          have h1 : notMin lt s.arr l r = 1 := by
            have hle := notMin_le (lt := lt) (a := s.arr) (l := l) (r := r)
            by_contra hne
            have hz : notMin lt s.arr l r = 0 := by omega
            have hmin : ∀ k, l < k → k ≤ r → lt (s.arr l) (s.arr k) = true := by
              by_contra hn
              simp only [notMin] at hz
              rw [if_neg hn] at hz
              omega
            have := a8 (hmin _ (by omega) (by omega))
            omega
          have h2 : notMin lt u.arr (idx - 1) r = 0 := by
            apply notMin_zero
            intro k hk1 hk2
            rcases hdu (idx - 1) k (by omega) (by omega) (by omega) hk2 (by omega) with h | h
            · exact h
            · have := across hsw (hlow (idx - 1) (by omega) (by omega)) (hhigh k (by omega) hk2)
              rw [this] at h; cases h
          rw [h2]; rw [h1] at hf; push_cast at hf; omega
      obtain ⟨v, c1, c2, c3⟩ := ih u (idx - 1) r (by omega) (by omega) (by omega)
        (hdu.sub (by omega) (by omega)) hmeas
      refine ⟨v, c1, (a2.trans (b2.widen (by omega) (by omega))).trans (c2.widen (by omega) (by omega)), ?_⟩
      intro x y h1 h2 h3
      by_cases hx : x < idx - 1
      · have ex : v.arr x = u.arr x := c2.outside (by omega)
        by_cases hy : y < idx - 1
        · rw [ex, c2.outside (show ¬ (idx - 1 ≤ y ∧ y ≤ r) by omega)]
          exact b3 x y h1 h2 (by omega)
        · rw [ex]
          refine c2.forall (Int.le_refl _) (Int.le_refl _) (fun z => lt z (u.arr x) = false) ?_ y
            (by omega) h3
          intro k hk1 hk2
          by_cases hke : k = idx - 1
          · rw [hke]; exact b3 x (idx - 1) h1 hx (by omega)
          · exact across hsw (hlow x h1 (by omega)) (hhigh k (by omega) hk2)
      · exact c3 x y (by omega) h2 h3
    · simp only [hc, if_false]
      refine ⟨u, rfl, a2.trans (b2.widen (by omega) (by omega)), ?_⟩
      intro x y h1 h2 h3
      by_cases hy : y < idx
      · exact b3 x y h1 h2 (by omega)
      · exact across hsw (hlow x h1 (by omega)) (hhigh y (by omega) h3)

end Pycold.Sort
