import Verif.Proof.Lag
import Verif.Model.Cold
/-!
# Properties C12–C17 and C47: model size, sorting, medians, LASSO expansion, nearest date, variogram
-/
namespace Pycold

open Pycold.Sort Pycold.Sort.Spec Pycold.Misc Pycold.Misc.Spec

/-! ## C12 -/

/-- The number of coefficients of a fit (the constants are those of every call, `N_TIMES = 3`, sizes
4, 6, 8; `numC` is the requested maximum). -/
theorem C12_model_size (span : Int) (numC : Int) (hc : numC = 4 ∨ numC = 6 ∨ numC = 8) :
    let k := Cold.updateCft span 3 4 6 8 numC
    (k = 4 ∨ k = 6 ∨ k = 8) ∧ k ≤ numC ∧ (4 < k → 3 * k ≤ span) ∧
    (∀ span', span ≤ span' → k ≤ Cold.updateCft span' 3 4 6 8 numC) ∧
    -- and it is the largest such size
    (∀ m, (m = 4 ∨ m = 6 ∨ m = 8) → m ≤ numC → 3 * m ≤ span → m ≤ k) := by
  simp only [Cold.updateCft]
  refine ⟨by grind, by grind, by grind, ?_, ?_⟩
  · intro span' h; grind
  · intro m hm h1 h2; grind

/-- The variant of `s_ccd.c` 2302: at most 6 coefficients (`mid`, `mid` as the last two sizes). -/
theorem C12_model_size_sccd (span : Int) :
    let k := Cold.updateCft span 3 4 6 6 6
    (k = 4 ∨ k = 6) ∧ (4 < k → 3 * k ≤ span) ∧
    (∀ span', span ≤ span' → k ≤ Cold.updateCft span' 3 4 6 6 6) := by
  simp only [Cold.updateCft]
  refine ⟨by grind, by grind, ?_⟩
  intro span' h; grind

example : Cold.updateCft 17 3 4 6 8 8 = 4 ∧ Cold.updateCft 18 3 4 6 8 8 = 6 ∧
    Cold.updateCft 24 3 4 6 8 8 = 8 ∧ Cold.updateCft 100 3 4 6 8 6 = 6 := by decide

/-! ## C13 -/

/-- Every quicksort except `quick_sort_index` ends on every range of an array (the bound on the depth
of recursion is the length of the range), stays inside the range, permutes it and leaves the rest alone;
this needs only that `<` is irreflexive, so it covers floats with NaN.  When `<` is a strict weak order
(integers, floats without NaN) the range is in non-descending order afterwards. -/
theorem C13_sorts {K B : Type} (lt : K → K → Bool) (hirr : ∀ a, lt a a = false) (s : Arr K B) (l r : Int)
    (h0 : 0 ≤ l) (hlr : l ≤ r) (hr : r < s.n) (fuel : Nat) (hf : r - l + 1 ≤ fuel) :
    ∃ t, quickSort lt 0 fuel s l r = .ok t ∧ Permuted s t l r ∧
      (∀ k, ¬ (l ≤ k ∧ k ≤ r) → t.arr k = s.arr k) ∧ (StrictWeak lt → Sorted lt t.arr l r) := by
  obtain ⟨t, h1, h2, h3⟩ := quickSort_ok lt hirr fuel s l r h0 hlr hr hf
  exact ⟨t, h1, h2, fun k hk => h2.outside hk, h3⟩

/-- The same for a whole array of integers, in terms of lists: what the caller finds in the array is the
sorted rearrangement of what it put there. -/
theorem C13_sorts_list {B : Type} (s : Arr Int B) (hn : 1 ≤ s.n) :
    ∃ t, quickSort ltZ 0 s.n s 0 ((s.n : Int) - 1) = .ok t ∧
      (window t.arr 0 s.n).Perm (window s.arr 0 s.n) ∧ (window t.arr 0 s.n).Pairwise (· ≤ ·) := by
  obtain ⟨t, h1, h2, h3⟩ := quickSort_ok ltZ ltZ_sw.irrefl s.n s 0 ((s.n : Int) - 1) (by omega) (by omega)
    (by omega) (by omega)
  refine ⟨t, h1, permuted_window (by omega) h2, ?_⟩
  have hs := h3 ltZ_sw
  simp only [window, List.pairwise_map]
  refine List.Pairwise.imp_of_mem ?_ List.pairwise_lt_range
  intro a b ha hb hab
  simp only [List.mem_range] at ha hb
  have := hs (0 + (a : Int)) (0 + (b : Int)) (by omega) (by omega) (by omega)
  simpa [ltZ] using this

/-- A NaN-like relation: nothing compares with 0. -/
def ltN (a b : Int) : Bool := a != 0 && b != 0 && decide (a < b)

def xs : Arr Int Unit := { n := 5, nb := 0, arr := fun k => [3, 1, 2, 3, 0].getD k.toNat 0, brr := fun _ _ => () }

-- the hypotheses hold for a concrete array, also for a relation that is not an order
example : (∀ a, ltN a a = false) ∧ ¬ StrictWeak ltN := by
  refine ⟨by intro a; simp [ltN], fun h => ?_⟩
  have := h.cotrans 1 0 2 (by decide)
  revert this; decide

example : (match quickSort ltZ 0 5 xs 0 4 with
    | .ok t => window t.arr 0 5
    | .error _ => []) = [0, 1, 2, 3, 3] := by decide +kernel

/-! ## C14 -/

/-- Sorting with companions: the rows (key with all its companions) are a permutation of the original
rows, and they are in key order. -/
theorem C14_rows_stay_paired {B : Type} (s : Arr Int B) (hn : 1 ≤ s.n) :
    ∃ t, quickSort ltZ 0 s.n s 0 ((s.n : Int) - 1) = .ok t ∧
      (rowWindow t 0 s.n).Perm (rowWindow s 0 s.n) ∧
      ((rowWindow t 0 s.n).map Prod.fst).Pairwise (· ≤ ·) := by
  obtain ⟨t, h1, h2, h3⟩ := quickSort_ok ltZ ltZ_sw.irrefl s.n s 0 ((s.n : Int) - 1) (by omega) (by omega)
    (by omega) (by omega)
  refine ⟨t, h1, permuted_rows (by omega) h2, ?_⟩
  have hs := h3 ltZ_sw
  simp only [rowWindow, List.map_map, List.pairwise_map]
  refine List.Pairwise.imp_of_mem ?_ List.pairwise_lt_range
  intro a b ha hb hab
  simp only [List.mem_range] at ha hb
  have := hs (0 + (a : Int)) (0 + (b : Int)) (by omega) (by omega) (by omega)
  simpa [ltZ] using this

/-- `quick_sort_index`, whose second recursive call starts one element early, does the same whenever
the keys are pairwise distinct. -/
theorem C14_index_sort {K B : Type} (lt : K → K → Bool) (hsw : StrictWeak lt) (s : Arr K B) (l r : Int)
    (h0 : 0 ≤ l) (hlr : l ≤ r) (hr : r < s.n)
    (hd : ∀ x y, l ≤ x → x < y → y ≤ r → lt (s.arr x) (s.arr y) = true ∨ lt (s.arr y) (s.arr x) = true)
    (fuel : Nat) (hf : 2 * (r - l) + 2 ≤ fuel) :
    ∃ t, quickSort lt 1 fuel s l r = .ok t ∧ Permuted s t l r ∧ Sorted lt t.arr l r := by
  refine quickSort_index_ok lt hsw fuel s l r h0 hlr hr ?_ ?_
  · intro x y h1 h2 h3 h4 hne
    rcases Int.lt_or_gt_of_ne hne with h | h
    · exact hd x y h1 h h4
    · exact (hd y x h3 h h2).symm
  · have := notMin_le (lt := lt) (a := s.arr) (l := l) (r := r)
    omega

/-- Distinctness is needed: on the keys 1, 1, 2 the routine calls itself on the same keys for ever. -/
theorem C14_index_sort_duplicate_keys_diverges {B : Type} (fuel : Nat) (s : Arr Int B) (hn : s.n = 3)
    (h0 : s.arr 0 = 1) (h1 : s.arr 1 = 1) (h2 : s.arr 2 = 2) :
    quickSort ltZ 1 fuel s 0 2 = .error .fuel := by
  induction fuel generalizing s with
  | zero => rfl
  | succ f ih =>
    have e : ∃ t, partition ltZ s 0 2 = .ok (t, 1) ∧ t.n = 3 ∧ t.arr 0 = 1 ∧ t.arr 1 = 1 ∧ t.arr 2 = 2 := by
      have d : ((0 : Int) + 2).tdiv 2 = 1 := by decide
      have a0 : scanUp ltZ s 1 0 = .ok 0 := by rw [scanUp]; simp [hn, h0, ltZ]
      have a2 : scanDown ltZ s 1 2 = .ok 1 := by
        rw [scanDown]; simp [hn, h2, ltZ]; rw [scanDown]; simp [hn, h1, ltZ]
      simp only [partition, rd, d, hn, h1]
      simp [bind, Except.bind, partLoop, a0, a2, swap, hn, upd, h0, h1, h2]
    obtain ⟨t, e1, e2, e3, e4, e5⟩ := e
    rw [quickSort, e1]
    simp only [bind, Except.bind]
    simp only [show ¬ ((0 : Int) < 1 - 1) by omega, if_false, show (1 : Int) < 2 by omega, if_true]
    exact ih t e2 e3 e4 e5

-- rows with two companions
def xr : Arr Int Int :=
  { n := 4, nb := 2, arr := fun k => [7, 3, 7, 1].getD k.toNat 0, brr := fun b k => 10 * b + k }

example : (match quickSort ltZ 0 4 xr 0 3 with
    | .ok t => rowWindow t 0 4
    | .error _ => []) = [(1, [3, 13]), (3, [1, 11]), (7, [0, 10]), (7, [2, 12])] := by decide +kernel

/-! ## C15 -/

/-- For every number of active variables and every order of activation the expanded vector holds the
intercept at 0, `ca[k]` at position `ia[k]` for every active `k`, and zero everywhere else. -/
theorem C15_lasso_scatter {V : Type} (zero : V) (ni nin : Nat) (ia : Int → Int) (a0 : V) (ca : Int → V)
    (hrange : ∀ k : Nat, k < nin → 1 ≤ ia k ∧ ia k ≤ ni)
    (hinj : ∀ a b : Nat, a < nin → b < nin → ia a = ia b → a = b) :
    ∃ cfs, glmLoop zero ni nin ia [(a0, ca)] = .ok [cfs] ∧ cfs 0 = a0 ∧
      (∀ k : Nat, k < nin → cfs (ia k) = ca k) ∧
      (∀ p, p ≠ 0 → (∀ k : Nat, k < nin → ia k ≠ p) → cfs p = zero) := by
  obtain ⟨cfs, ia', h1, h2, h3, h4⟩ := glmExpand_ok zero ni nin ia a0 ca hrange hinj
  exact ⟨cfs, by simp [glmLoop, h1, bind, Except.bind], h2, h3, h4⟩

/-- Activation order 3, 1 (the second predictor is not active). -/
def xia : Int → Int := fun k => if k = 0 then 3 else 1

example : (∀ k : Nat, k < 2 → 1 ≤ xia k ∧ xia k ≤ (3 : Nat)) ∧
    (∀ a b : Nat, a < 2 → b < 2 → xia a = xia b → a = b) := by
  constructor
  · intro k hk; have : k = 0 ∨ k = 1 := by omega
    rcases this with rfl | rfl <;> decide
  · intro a b ha hb
    have h1 : a = 0 ∨ a = 1 := by omega
    have h2 : b = 0 ∨ b = 1 := by omega
    rcases h1 with rfl | rfl <;> rcases h2 with rfl | rfl <;> simp [xia]

/-- The statement is about the single solution the code asks for (`nlam = 1`).  With two solutions the
positions are already sorted when the second is expanded, and its coefficients are exchanged: 20 and 21
belong to the predictors 3 and 1. -/
theorem C15_second_solution_scrambled :
    (match glmLoop 0 3 2 xia [(5, fun k => 10 + k), (6, fun k => 20 + k)] with
      | .ok r => r.map (fun c => [c 0, c 1, c 2, c 3])
      | .error _ => []) = [[5, 11, 0, 10], [6, 20, 0, 21]] := by decide +kernel

/-! ## C16 -/

/-- Sorting and taking the median of `a[0 .. m-1]`. -/
theorem C16_median (s : Arr ℚ Unit) (m : Nat) (hm : 1 ≤ m) (hn : m ≤ s.n) :
    ∃ v, sortedMedian s m = .ok v ∧ MedianOf (window s.arr 0 m) v ∧
      m ≤ 2 * (window s.arr 0 m).countP (fun x => decide (x ≤ v)) ∧
      m ≤ 2 * (window s.arr 0 m).countP (fun x => decide (v ≤ x)) := by
  obtain ⟨t, h1, h2, h3⟩ := quickSort_ok ltQ ltQ_sw.irrefl (m + 1) s 0 ((m : Int) - 1) (by omega) (by omega)
    (by omega) (by omega)
  obtain ⟨v, g1, g2⟩ := median_sorted hm (by omega) h2 (h3 ltQ_sw)
  have hne : window s.arr 0 m ≠ [] := by
    intro h; have := window_length s.arr 0 m; rw [h] at this; simp at this; omega
  obtain ⟨g3, g4⟩ := medianOf_halves hne g2
  rw [window_length] at g3 g4
  exact ⟨v, by simp [sortedMedian, h1, bind, Except.bind, g1], g2, g3, g4⟩

/-- Sorting `a[l .. l+m-1]` and taking the median of that part. -/
theorem C16_partial_median (s : Arr ℚ Unit) (l : Int) (m : Nat) (h0 : 0 ≤ l) (hm : 1 ≤ m)
    (hn : l + m ≤ s.n) :
    ∃ v, sortedPartialMedian s l (l + m - 1) = .ok v ∧ MedianOf (window s.arr l m) v ∧
      m ≤ 2 * (window s.arr l m).countP (fun x => decide (x ≤ v)) ∧
      m ≤ 2 * (window s.arr l m).countP (fun x => decide (v ≤ x)) := by
  obtain ⟨t, h1, h2, h3⟩ := quickSort_ok ltQ ltQ_sw.irrefl ((l + m - 1 - l).toNat + 2) s l (l + m - 1) h0
    (by omega) (by omega) (by omega)
  obtain ⟨v, g1, g2⟩ := partialMedian_sorted h0 hm hn h2 (h3 ltQ_sw)
  have hne : window s.arr l m ≠ [] := by
    intro h; have := window_length s.arr l m; rw [h] at this; simp at this; omega
  obtain ⟨g3, g4⟩ := medianOf_halves hne g2
  rw [window_length] at g3 g4
  exact ⟨v, by simp [sortedPartialMedian, h1, bind, Except.bind, g1], g2, g3, g4⟩

example : ∃ v, sortedMedian (ofList [5, 1, 4, 2]) 4 = .ok v ∧ v = 3 := by
  refine ⟨3, ?_, rfl⟩
  decide +kernel

example : sortedPartialMedian (ofList [9, 5, 1, 4, 9]) 1 3 = .ok 4 := by decide +kernel

/-! ## C17 -/

/-- Looking up a date: the result is an index of the list, of an entry nearest to the date; an exact
match is returned whenever there is one. -/
theorem C17_nearest (clrx : List Int) (date : Int) (hne : clrx ≠ [])
    (hd : ∀ x ∈ clrx, ((x - date).natAbs : Int) < 9999999) :
    ∃ i, findIndexClrx clrx date = some i ∧ i < clrx.length ∧ Nearest clrx date i ∧
      (date ∈ clrx → clrx[i]? = some date) := by
  have hs := findIndexLoop_spec date clrx 0 9999999 none
  by_cases hm : date ∈ clrx
  · obtain ⟨k, hk⟩ := List.getElem?_of_mem hm
    obtain ⟨k', h1, h2, h3⟩ := hs.1 k hk
    obtain ⟨hlt, _⟩ := List.getElem?_eq_some_iff.mp h2
    exact ⟨k', by simpa [findIndexClrx] using h1, hlt, ⟨date, h2, by intro y _; simp⟩, fun _ => h2⟩
  · rcases hs.2 (fun x hx he => hm (he ▸ hx)) with ⟨_, h2⟩ | ⟨k, x, h1, h2, h3, h4⟩
    · obtain ⟨x, hx⟩ := List.exists_mem_of_ne_nil _ hne
      have := h2 x hx
      have := hd x hx
      omega
    · obtain ⟨hlt, _⟩ := List.getElem?_eq_some_iff.mp h2
      exact ⟨k, by simpa [findIndexClrx] using h1, hlt, ⟨x, h2, h4⟩, fun h => absurd h hm⟩

/-- The bound on the distances is needed: otherwise an uninitialised index is returned. -/
theorem C17_too_far : findIndexClrx [0] 9999999 = none := by decide

example : findIndexClrx [730000, 730016, 730032] 730020 = some 1 := by decide
example : findIndexClrx [730000, 730016, 730032] 730032 = some 2 := by decide

/-! ## C47 -/

/-- The date part of the variogram, used by every run: for two or more observations the sorting and the
median stay inside the data; the result is the median gap and the largest gap. -/
theorem C47_date_variogram (dates : List Int) (h : 2 ≤ dates.length) :
    ∃ v mx, dateVariogram dates = .ok (v, some mx) ∧ MedianOf (gaps dates) v ∧ mx ∈ gaps dates ∧
      ∀ g ∈ gaps dates, g ≤ mx := by
  match dates, h with
  | d1 :: d2 :: rest, _ => exact dateVariogram_ok d1 d2 rest

/-- The band part, option 1, which is the option used by COLD and S-CCD. -/
theorem C47_band_variogram (ys : List Int) (h : 2 ≤ ys.length) :
    ∃ v, bandVariogram ys = .ok v ∧ MedianOf (gaps ys) v := by
  have hg := gaps_length ys
  obtain ⟨m, hm⟩ : ∃ m : Nat, ys.length = m + 1 := ⟨ys.length - 1, by omega⟩
  have hgm : (gaps ys).length = m := by omega
  have hn : (ofList (gaps ys)).n = m := hgm
  obtain ⟨t, h1, h2, h3⟩ := quickSort_ok ltQ ltQ_sw.irrefl ys.length (ofList (gaps ys)) 0 ((m : Int) - 1)
    (by omega) (by omega) (by rw [hn]; omega) (by omega)
  obtain ⟨v, g1, g2⟩ := median_sorted (m := m) (by omega) (by rw [hn]) h2 (h3 ltQ_sw)
  have hw : window (ofList (gaps ys)).arr 0 m = gaps ys := by
    have := window_ofList (gaps ys); rw [hgm] at this; exact this
  rw [hw] at g2
  have e1 : ((ys.length : Int) - 2) = (m : Int) - 1 := by omega
  have e2 : ((ys.length : Int) - 1) = (m : Int) := by omega
  exact ⟨v, by simp [bandVariogram, e1, e2, h1, bind, Except.bind, g1], g2⟩

/-- The search for the lag (option 2), for dates in order that span more than 30 days: it ends at a lag
inside the data for which at least one pair of observations is left to take the median of. -/
theorem C47_lag_found (dates : List Int) (hs : dates.Pairwise (· ≤ ·)) (n : Nat)
    (hn : dates.length = n + 2) (hspan : 31 ≤ dates.getD (n + 1) 0 - dates.getD 0 0) (fuel : Nat)
    (hf : n + 1 ≤ fuel) :
    ∃ lag, lagSearch dates fuel 1 = .ok lag ∧ 1 ≤ lag ∧ lag < dates.length ∧
      1 ≤ lagPairs dates lag ∧ lagPairs dates lag ≤ dates.length - 1 := by
  obtain ⟨s, h1, h2, h3, h4⟩ := lagSearch_upto dates (n + 1)
    (by rw [majority_last dates n hn]; omega) n 1 fuel (by omega) hf
  refine ⟨s, h1, h2, by omega, lagPairs_pos dates hs s h4, ?_⟩
  refine Nat.le_trans (List.length_filter_le _ _) ?_
  rw [List.length_range]; omega

/-- And only then: when all the dates lie within 30 days the search never ends. -/
theorem C47_short_span_never_ends (dates : List Int)
    (h : ∀ x ∈ dates, ∀ y ∈ dates, (x - y).natAbs ≤ 30) (fuel : Nat) :
    lagSearch dates fuel 1 = .error .fuel := by
  apply lagSearch_never
  intro step
  rcases majority_mem dates step with h0 | hm
  · omega
  · simp only [lagDiffs, List.mem_map, List.mem_range] at hm
    obtain ⟨j, hj, he⟩ := hm
    have := h (dates.getD (j + step) 0)
      (by rw [List.getD_eq_getElem _ _ (by omega : j + step < dates.length)]; exact List.getElem_mem _)
      (dates.getD j 0)
      (by rw [List.getD_eq_getElem _ _ (by omega : j < dates.length)]; exact List.getElem_mem _)
    omega

example : dateVariogram [730000, 730016, 730048, 730056] = .ok (16, some 32) := by decide +kernel
example : lagSearch [730000, 730016, 730032, 730048] 5 1 = .ok 2 := by decide +kernel
example : ∀ x ∈ [(730000 : Int), 730010, 730020], ∀ y ∈ [(730000 : Int), 730010, 730020],
    (x - y).natAbs ≤ 30 := by decide

end Pycold
