import Verif.Model.Cold
/-! List lemmas for the COLD loop: the live part of `clrx` under reads, shifts and compactions. -/
namespace Pycold.Cold

/-- The live entries of the array. -/
def live (clrx : List Int) (e : Int) : List Int := clrx.take e.toNat

/-- Entry `k` of a list. -/
def nth (l : List Int) (k : Int) : Int := l.getD k.toNat 0

theorem live_length {clrx : List Int} {e : Int} (h0 : 0 ≤ e) (h : e ≤ clrx.length) :
    ((live clrx e).length : Int) = e := by
  simp only [live, List.length_take]; omega

theorem rd_ok {clrx : List Int} {e k : Int} (hle : e ≤ clrx.length) (h0 : 0 ≤ k) (h1 : k < e) :
    rd clrx e k = .ok (nth (live clrx e) k) := by
  have hk : k.toNat < clrx.length := by omega
  have : clrx[k.toNat]? = some (clrx[k.toNat]) := List.getElem?_eq_getElem hk
  simp only [rd, h0, h1, and_self, if_true, this]
  congr 1
  simp only [nth, live, List.getD_eq_getElem?_getD, List.getElem?_take]
  have : k.toNat < e.toNat := by omega
  simp [this, hk]

theorem chk_ok {e lo hi : Int} (h0 : 0 ≤ lo) (h1 : hi < e) : chk e lo hi = .ok () := by
  simp [chk, h0, h1]

theorem nth_eq {l : List Int} {k : Int} (h0 : 0 ≤ k) (h1 : k < l.length) :
    nth l k = l[k.toNat]'(by omega) := by
  simp only [nth, List.getD_eq_getElem?_getD]
  rw [List.getElem?_eq_getElem (by omega)]; rfl

theorem nth_mem {l : List Int} {k : Int} (h0 : 0 ≤ k) (h1 : k < l.length) : nth l k ∈ l := by
  rw [nth_eq h0 h1]; exact List.getElem_mem _

theorem nth_lt {l : List Int} (hs : l.Pairwise (· < ·)) {a b : Int} (h0 : 0 ≤ a) (hab : a < b)
    (hb : b < l.length) : nth l a < nth l b := by
  rw [nth_eq h0 (by omega), nth_eq (by omega) hb]
  exact (List.pairwise_iff_getElem.mp hs) _ _ _ _ (by omega)

theorem nth_le {l : List Int} (hs : l.Pairwise (· < ·)) {a b : Int} (h0 : 0 ≤ a) (hab : a ≤ b)
    (hb : b < l.length) : nth l a ≤ nth l b := by
  by_cases h : a = b
  · subst h; omega
  · have := nth_lt hs h0 (by omega : a < b) hb; omega

/-- Distance in a strictly increasing list of integers is at least the index distance. -/
theorem nth_gap {l : List Int} (hs : l.Pairwise (· < ·)) {a b : Int} (h0 : 0 ≤ a) (hab : a ≤ b)
    (hb : b < l.length) : nth l a + (b - a) ≤ nth l b := by
  obtain ⟨d, rfl⟩ : ∃ d : Nat, b = a + d := ⟨(b - a).toNat, by omega⟩
  induction d with
  | zero => simp
  | succ d ih =>
    have := ih (by omega) (by omega)
    have := nth_lt hs (a := a + d) (b := a + (d + 1 : Nat)) (by omega) (by omega) hb
    omega

theorem mem_drop_iff {l : List Int} {b : Nat} {x : Int} :
    x ∈ l.drop b ↔ ∃ k : Int, (b : Int) ≤ k ∧ k < l.length ∧ nth l k = x := by
  constructor
  · intro h
    obtain ⟨i, hi, rfl⟩ := List.getElem_of_mem h
    simp only [List.length_drop] at hi
    refine ⟨((b + i : Nat) : Int), by omega, by omega, ?_⟩
    rw [nth_eq (by omega) (by omega)]
    simp only [List.getElem_drop]
    congr 1
  · rintro ⟨k, h0, h1, rfl⟩
    rw [nth_eq (by omega) h1, List.mem_drop_iff_getElem]
    refine ⟨k.toNat - b, by omega, ?_⟩
    congr 1
    omega

theorem nth_mem_drop {l : List Int} {b k : Int} (hb : 0 ≤ b) (h0 : b ≤ k) (h1 : k < l.length) :
    nth l k ∈ l.drop b.toNat :=
  mem_drop_iff.mpr ⟨k, by omega, h1, rfl⟩

/-! ### Removing one entry -/

theorem shiftDown_length (a : List Int) (k stop : Nat) : (shiftDown a k stop).length = a.length := by
  fun_induction shiftDown a k stop with
  | case1 a k h ih => simpa using ih
  | case2 => rfl

theorem shiftDown_getElem? (a : List Int) (k stop : Nat) (hs : stop < a.length) (j : Nat) :
    (shiftDown a k stop)[j]? = if k ≤ j ∧ j < stop then a[j + 1]? else a[j]? := by
  fun_induction shiftDown a k stop with
  | case1 a k h ih =>
    rw [ih (by simpa using hs)]
    simp only [List.getElem?_set, List.getD_eq_getElem?_getD]
    have h1 : k + 1 < a.length := by omega
    grind
  | case2 a k h => grind

theorem live_shiftDown {clrx : List Int} {e k : Int} (h0 : 0 ≤ k) (h1 : k < e)
    (hle : e ≤ clrx.length) :
    live (shiftDown clrx k.toNat (e - 1).toNat) (e - 1) = (live clrx e).eraseIdx k.toNat := by
  apply List.ext_getElem?
  intro j
  simp only [live, List.getElem?_take, List.getElem?_eraseIdx]
  rw [shiftDown_getElem? _ _ _ (by omega)]
  grind

/-! ### Compaction -/

theorem commit_length {clrx cp : List Int} (h : cp.length ≤ clrx.length) :
    (commit clrx cp).length = clrx.length := by
  simp only [commit, List.length_append, List.length_drop]; omega

theorem live_commit (clrx cp : List Int) : live (commit clrx cp) cp.length = cp := by
  simp [live, commit]

/-- The entries the mask keeps, of a list whose first element has mask position `k`. -/
def keep (mask : Nat → Bool) : List Int → Nat → List Int
  | [], _ => []
  | x :: xs, k => if mask k then keep mask xs (k + 1) else x :: keep mask xs (k + 1)

theorem keep_sublist (mask : Nat → Bool) (l : List Int) (k : Nat) : (keep mask l k).Sublist l := by
  induction l generalizing k with
  | nil => simp [keep]
  | cons x xs ih =>
    simp only [keep]
    split
    · exact (ih _).cons _
    · exact (ih _).cons_cons _

/-- The flagged positions of `k .. k+len-1`. -/
def rmFrom (mask : Nat → Bool) (base : Int) : Nat → Nat → List Int
  | 0, _ => []
  | len + 1, k =>
    if mask k then (base + (k : Int)) :: rmFrom mask base len (k + 1)
    else rmFrom mask base len (k + 1)

theorem rmIds_eq (mask : Nat → Bool) (base : Int) (len : Nat) :
    rmIds mask base len = rmFrom mask base len 0 := by
  have gen : ∀ (len k : Nat), (((List.range' k len).filter mask).map
      (fun (k : Nat) => base + (k : Int))) = rmFrom mask base len k := by
    intro len
    induction len with
    | zero => intro k; simp [rmFrom]
    | succ len ih =>
      intro k
      rw [List.range'_succ, rmFrom, ← ih]
      by_cases h : mask k <;> simp [h]
  rw [rmIds, List.range_eq_range', gen]

theorem keptCount_eq (mask : Nat → Bool) (len : Nat) (l : List Int) (h : l.length = len) :
    keptCount mask len = (keep mask l 0).length := by
  have gen : ∀ (l : List Int) (k : Nat),
      ((List.range' k l.length).filter (fun k => !mask k)).length = (keep mask l k).length := by
    intro l
    induction l with
    | nil => intro k; simp [keep]
    | cons x xs ih =>
      intro k
      rw [List.length_cons, List.range'_succ, keep]
      by_cases h : mask k <;> simp [h, ih]
  rw [keptCount, List.range_eq_range', ← h, gen]

theorem rmFrom_lb (mask : Nat → Bool) (base : Int) (len k : Nat) :
    ∀ r ∈ rmFrom mask base len k, base + (k : Int) ≤ r := by
  induction len generalizing k with
  | zero => simp [rmFrom]
  | succ len ih =>
    intro r hr
    simp only [rmFrom] at hr
    split at hr
    · rcases List.mem_cons.mp hr with h | h
      · omega
      · have := ih (k + 1) r h; omega
    · have := ih (k + 1) r hr; omega

theorem compact_nil (l : List Int) (k : Int) : compact l k [] = l := by
  induction l generalizing k with
  | nil => rfl
  | cons x xs ih => simp [compact, ih]

/-- Compaction of a list whose positions start at `base + k`. -/
theorem compact_mid (mask : Nat → Bool) (base : Int) (l r : List Int) (k : Nat) :
    compact (l ++ r) (base + (k : Int)) (rmFrom mask base l.length k) = keep mask l k ++ r := by
  induction l generalizing k with
  | nil => simp [rmFrom, keep, compact_nil]
  | cons x xs ih =>
    have hk : base + (k : Int) + 1 = base + ((k + 1 : Nat) : Int) := by omega
    simp only [List.cons_append, List.length_cons, rmFrom, keep]
    by_cases h : mask k
    · simp only [h, if_true, compact, hk, ih]
    · simp only [h, Bool.false_eq_true, if_false]
      have hb := rmFrom_lb mask base xs.length (k + 1)
      cases hrm : rmFrom mask base xs.length (k + 1) with
      | nil =>
        have := ih (k + 1)
        rw [hrm] at this
        simp only [compact, hk, this, List.cons_append]
      | cons a as =>
        have hne : ¬ base + (k : Int) = a := by
          have := hb a (by rw [hrm]; simp)
          omega
        have := ih (k + 1)
        rw [hrm] at this
        simp only [compact, hne, if_false, hk, this, List.cons_append]

theorem compact_skip (pre l : List Int) (k : Int) (rm : List Int)
    (h : ∀ r ∈ rm, k + pre.length ≤ r) :
    compact (pre ++ l) k rm = pre ++ compact l (k + pre.length) rm := by
  induction pre generalizing k with
  | nil => simp
  | cons x xs ih =>
    have hih := ih (k + 1) (by intro r hr; have := h r hr; simp at this; omega)
    have hk : k + 1 + (xs.length : Int) = k + ((x :: xs).length : Int) := by simp; omega
    cases rm with
    | nil => simp [compact_nil]
    | cons a as =>
      have hne : ¬ k = a := by
        have := h a (by simp); simp at this; omega
      simp only [List.cons_append, compact, hne, if_false, hih, hk]

/-- What `rm_ids` removal does: the flagged ones of the `len` entries from `base` on disappear. -/
theorem compact_rmIds (mask : Nat → Bool) (L : List Int) (base len : Nat)
    (h : base + len ≤ L.length) :
    compact L 0 (rmIds mask base len) =
      L.take base ++ (keep mask ((L.drop base).take len) 0 ++ L.drop (base + len)) := by
  have hL : L = L.take base ++ ((L.drop base).take len ++ L.drop (base + len)) := by
    rw [← List.drop_drop, List.take_append_drop, List.take_append_drop]
  have hlen : (L.take base).length = base := by simp; omega
  have hlen2 : ((L.drop base).take len).length = len := by simp; omega
  rw [rmIds_eq]
  conv => lhs; rw [hL]
  rw [compact_skip]
  · have := compact_mid mask base ((L.drop base).take len) (L.drop (base + len)) 0
    rw [hlen2] at this
    rw [hlen]
    simpa using this
  · intro r hr
    have := rmFrom_lb mask base len 0 r hr
    rw [hlen]; simpa using this

/-! ### Search -/

theorem findGe_some {clrx : List Int} {t : Int} {stop k j : Nat} (hs : stop ≤ clrx.length)
    (hkj : k ≤ j) (hj : j < stop) (hv : t ≤ clrx.getD j 0) :
    ∃ m, findGe clrx t stop k = some m ∧ k ≤ m ∧ m ≤ j ∧ t ≤ clrx.getD m 0 ∧
      ∀ q, k ≤ q → q < m → clrx.getD q 0 < t := by
  fun_induction findGe clrx t stop k with
  | case1 k hk hnone => simp at hnone; omega
  | case2 k hk v hsome hge =>
    refine ⟨k, rfl, by omega, hkj, ?_, by intro q h1 h2; omega⟩
    simpa [hsome] using hge
  | case3 k hk v hsome hlt ih =>
    have hne : k ≠ j := by
      rintro rfl; simp [hsome] at hv; omega
    obtain ⟨m, h1, h2, h3, h4, h5⟩ := ih (by omega)
    refine ⟨m, h1, by omega, h3, h4, ?_⟩
    intro q hq1 hq2
    by_cases hqk : q = k
    · subst hqk; simp [hsome]; omega
    · exact h5 q (by omega) hq2
  | case4 k hk => omega

/-! ### Slices -/

theorem slice_live {clrx : List Int} {e lo hi : Int} (h0 : 0 ≤ lo) (h1 : hi < e) :
    slice clrx lo hi = slice (live clrx e) lo hi := by
  apply List.ext_getElem?
  intro j
  simp only [slice, live, List.getElem?_take, List.getElem?_drop]
  grind

theorem slice_length {l : List Int} {lo hi : Int} (h0 : 0 ≤ lo) (hlh : lo ≤ hi + 1)
    (h1 : hi < l.length) : ((slice l lo hi).length : Int) = hi - lo + 1 := by
  simp only [slice, List.length_take, List.length_drop]; omega

theorem slice_sublist (l : List Int) (lo hi : Int) : (slice l lo hi).Sublist l :=
  (List.take_sublist _ _).trans (List.drop_sublist _ _)

theorem mem_slice {l : List Int} {lo hi x : Int} (h0 : 0 ≤ lo) (h1 : hi < l.length)
    (hx : x ∈ slice l lo hi) : ∃ k, lo ≤ k ∧ k ≤ hi ∧ nth l k = x := by
  obtain ⟨j, hj, rfl⟩ := List.getElem_of_mem hx
  have hj' := hj
  simp only [slice, List.length_take, List.length_drop] at hj'
  refine ⟨lo + j, by omega, by omega, ?_⟩
  rw [nth_eq (by omega) (by omega)]
  simp only [slice, List.getElem_take, List.getElem_drop]
  congr 1
  omega

end Pycold.Cold
