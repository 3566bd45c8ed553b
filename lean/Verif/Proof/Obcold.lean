import Verif.Spec.Obcold
import Verif.Proof.Misc
import Verif.Proof.Preprocess
/-! Proofs about object-based reconstruction. -/
namespace Pycold.Obcold

open Pycold.Obcold.Spec Pycold.Misc

variable {R M : Type}

/-! ## Nearest index -/

theorem fiLoop (b : Int) : ∀ (l : List Int) (i : Nat) (m : Int) (rec : Option Nat), 0 < m →
    ((∀ x ∈ l, m ≤ ((x - b).natAbs : Int)) ∧ findIndexLoop b l i m rec = rec) ∨
    ∃ j x, l[j]? = some x ∧ findIndexLoop b l i m rec = some (i + j) ∧ ((x - b).natAbs : Int) < m ∧
      (∀ y ∈ l, (x - b).natAbs ≤ (y - b).natAbs) ∧
      (∀ j' y, j' < j → l[j']? = some y → (x - b).natAbs < (y - b).natAbs) := by
  intro l
  induction l with
  | nil => intro i m rec _; left; simp [findIndexLoop]
  | cons a as ih =>
    intro i m rec hm
    by_cases h1 : a = b
    · right
      refine ⟨0, a, by simp, by simp [findIndexLoop, h1], by omega, ?_, by omega⟩
      intro y _; omega
    · by_cases h2 : ((a - b).natAbs : Int) < m
      · simp only [findIndexLoop, if_neg h1, if_pos h2]
        rcases ih (i + 1) ((a - b).natAbs : Int) (some i) (by omega) with ⟨g1, g2⟩ | ⟨j, x, g1, g2, g3, g4, g5⟩
        · right
          refine ⟨0, a, by simp, by simpa using g2, h2, ?_, by omega⟩
          intro y hy
          rcases List.mem_cons.mp hy with h | h
          · omega
          · have := g1 y h; omega
        · right
          refine ⟨j + 1, x, by simpa using g1, by rw [g2]; congr 1; omega, by omega, ?_, ?_⟩
          · intro y hy
            rcases List.mem_cons.mp hy with h | h
            · subst h; omega
            · exact g4 y h
          · intro j' y hj hy
            cases j' with
            | zero => simp at hy; omega
            | succ j' => exact g5 j' y (by omega) (by simpa using hy)
      · simp only [findIndexLoop, if_neg h1, if_neg h2]
        rcases ih (i + 1) m rec hm with ⟨g1, g2⟩ | ⟨j, x, g1, g2, g3, g4, g5⟩
        · left
          refine ⟨?_, g2⟩
          intro y hy
          rcases List.mem_cons.mp hy with h | h
          · subst h; omega
          · exact g1 y h
        · right
          refine ⟨j + 1, x, by simpa using g1, by rw [g2]; congr 1; omega, g3, ?_, ?_⟩
          · intro y hy
            rcases List.mem_cons.mp hy with h | h
            · subst h; omega
            · exact g4 y h
          · intro j' y hj hy
            cases j' with
            | zero => simp at hy; omega
            | succ j' => exact g5 j' y (by omega) (by simpa using hy)

theorem asc_lt {l : List Int} (h : l.Pairwise (· < ·)) {i j : Nat} {x y : Int} (hi : l[i]? = some x)
    (hj : l[j]? = some y) (hij : i < j) : x < y := by
  obtain ⟨h1, e1⟩ := List.getElem?_eq_some_iff.mp hi
  obtain ⟨h2, e2⟩ := List.getElem?_eq_some_iff.mp hj
  have := List.pairwise_iff_getElem.mp h i j h1 h2 hij
  omega

/-- What the lookup returns on an ascending list. -/
theorem fi_spec {l : List Int} (h : l.Pairwise (· < ·)) {b : Int} {k : Nat}
    (hk : findIndexClrx l b = some k) :
    ∃ x, l[k]? = some x ∧ NearestTo l b x ∧ ((x - b).natAbs : Int) < 9999999 := by
  rcases fiLoop b l 0 9999999 none (by omega) with ⟨_, g⟩ | ⟨j, x, g1, g2, g3, g4, g5⟩
  · rw [findIndexClrx, g] at hk; cases hk
  · rw [findIndexClrx, g2] at hk
    have : j = k := by simpa using hk
    subst this
    refine ⟨x, g1, ⟨List.mem_of_getElem? g1, ?_⟩, g3⟩
    intro y hy
    refine ⟨g4 y hy, fun he => ?_⟩
    obtain ⟨i, hi⟩ := List.getElem?_of_mem hy
    by_cases hlt : i < j
    · have := g5 i y hlt hi; omega
    · by_cases heq : i = j
      · subst heq; rw [g1] at hi; cases hi; omega
      · have := asc_lt h g1 hi (by omega); omega

theorem fi_some {l : List Int} {b x : Int} (hx : x ∈ l) (hb : ((x - b).natAbs : Int) < 9999999) :
    ∃ k, findIndexClrx l b = some k := by
  rcases fiLoop b l 0 9999999 none (by omega) with ⟨g, _⟩ | ⟨j, y, _, g2, _⟩
  · have := g x hx; omega
  · exact ⟨0 + j, g2⟩

theorem nearest_unique {l : List Int} {b x y : Int} (hx : NearestTo l b x) (hy : NearestTo l b y) : x = y := by
  have h1 := hx.2 y hy.1
  have h2 := hy.2 x hx.1
  have := h1.2 (by omega)
  have := h2.2 (by omega)
  omega

theorem fi_at {l : List Int} (h : l.Pairwise (· < ·)) {b x : Int} {k : Nat} (hk : l[k]? = some x)
    (hn : NearestTo l b x) (hb : ((x - b).natAbs : Int) < 9999999) : findIndexClrx l b = some k := by
  obtain ⟨k', hk'⟩ := fi_some hn.1 hb
  obtain ⟨y, hy, hny, _⟩ := fi_spec h hk'
  have := nearest_unique hny hn
  subst this
  by_cases h1 : k < k'
  · have := asc_lt h hk hy h1; omega
  · by_cases h2 : k' < k
    · have := asc_lt h hy hk h2; omega
    · rw [hk']; congr 1; omega

/-! ## Accepted breaks -/

theorem acceptBreaks_spec : ∀ (l : List Int) (last : Int), 0 ≤ last → l.Pairwise (· ≤ ·) →
    (∀ a ∈ acceptBreaks last l, a ∈ l ∧ 4 * (a - last) ≥ 1461) ∧
    (acceptBreaks last l).Pairwise (fun a b => 4 * (b - a) ≥ 1461) ∧
    (∀ d ∈ l, 4 * (d - last) ≥ 1461 → ∃ a ∈ acceptBreaks last l, a ≤ d ∧ 4 * (d - a) < 1461) := by
  intro l
  induction l with
  | nil => intro last _ _; simp [acceptBreaks]
  | cons d ds ih =>
    intro last h0 hp
    obtain ⟨hp1, hp2⟩ := List.pairwise_cons.mp hp
    by_cases hc : d > 0 ∧ 4 * (d - last) ≥ 1461
    · simp only [acceptBreaks, if_pos hc]
      obtain ⟨i1, i2, i3⟩ := ih d (by omega) hp2
      refine ⟨?_, ?_, ?_⟩
      · intro a ha
        rcases List.mem_cons.mp ha with h | h
        · subst h; exact ⟨by simp, hc.2⟩
        · have := i1 a h; exact ⟨List.mem_cons_of_mem _ this.1, by omega⟩
      · exact List.pairwise_cons.mpr ⟨fun a ha => (i1 a ha).2, i2⟩
      · intro e he hle
        rcases List.mem_cons.mp he with h | h
        · subst h; exact ⟨e, by simp, by omega, by omega⟩
        · by_cases hde : 4 * (e - d) ≥ 1461
          · obtain ⟨a, g1, g2, g3⟩ := i3 e h hde
            exact ⟨a, List.mem_cons_of_mem _ g1, g2, g3⟩
          · exact ⟨d, by simp, hp1 e h, by omega⟩
    · simp only [acceptBreaks, if_neg hc]
      obtain ⟨i1, i2, i3⟩ := ih last h0 hp2
      refine ⟨?_, i2, ?_⟩
      · intro a ha
        have := i1 a ha; exact ⟨List.mem_cons_of_mem _ this.1, this.2⟩
      · intro e he hle
        rcases List.mem_cons.mp he with h | h
        · subst h; omega
        · exact i3 e h hle

theorem accepts {breaks ds : List Int} (hs : ds.Pairwise (· ≤ ·)) (hp : ds.Perm breaks) :
    Accepts breaks (acceptBreaks 0 ds) := by
  obtain ⟨h1, h2, h3⟩ := acceptBreaks_spec ds 0 (by omega) hs
  refine ⟨?_, h2, ?_⟩
  · intro a ha
    have := h1 a ha
    exact ⟨hp.mem_iff.mp this.1, by omega⟩
  · intro d hd hge
    exact h3 d (hp.mem_iff.mpr hd) (by omega)

theorem sortDates_ok (l : List Int) (hne : l ≠ []) :
    ∃ ds, sortDates l = .ok ds ∧ ds.Pairwise (· ≤ ·) ∧ ds.Perm l := by
  have hn : 1 ≤ l.length := List.length_pos_iff.mpr hne
  let s : Sort.Arr Int Unit := { n := l.length, nb := 0, arr := fun k => l.getD k.toNat 0, brr := fun _ _ => () }
  obtain ⟨t, h1, h2, h3⟩ := Sort.quickSort_ok ltZ ltZ_sw.irrefl l.length s 0 ((l.length : Int) - 1)
    (by omega) (by omega) (by show _ < ((l.length : Nat) : Int); omega) (by omega)
  have hsd : sortDates l = .ok (Sort.Spec.window t.arr 0 l.length) := by
    show (match Sort.quickSort ltZ 0 l.length s 0 ((l.length : Int) - 1) with
      | .ok (t : Sort.Arr Int Unit) => Except.ok (Sort.Spec.window t.arr 0 l.length)
      | .error _ => .error Err.oob) = _
    rw [h1]
  refine ⟨_, hsd, ?_, ?_⟩
  · have hs := h3 ltZ_sw
    simp only [Sort.Spec.window, List.pairwise_map]
    refine List.Pairwise.imp_of_mem ?_ List.pairwise_lt_range
    intro a b ha hb hab
    simp only [List.mem_range] at ha hb
    have := hs (0 + (a : Int)) (0 + (b : Int)) (by omega) (by omega) (by omega)
    simpa [ltZ] using this
  · have := permuted_window (m := l.length) (l := 0) (r := (l.length : Int) - 1) (by omega) h2
    refine this.trans (List.Perm.of_eq ?_)
    apply List.ext_getElem
    · simp [Sort.Spec.window]
    · intro i h1 h2
      simp only [Sort.Spec.window, List.getElem_map, List.getElem_range, s]
      simp [h2]

/-! ## Slices of an ascending series -/

abbrev Asc (l : List ClrObs) : Prop := l.Pairwise (fun a b => a.date < b.date)

theorem asc_get {l : List ClrObs} (h : Asc l) {i j : Nat} {x y : ClrObs} (hi : l[i]? = some x)
    (hj : l[j]? = some y) (hij : i < j) : x.date < y.date := by
  obtain ⟨h1, e1⟩ := List.getElem?_eq_some_iff.mp hi
  obtain ⟨h2, e2⟩ := List.getElem?_eq_some_iff.mp hj
  have := List.pairwise_iff_getElem.mp h i j h1 h2 hij
  rw [e1, e2] at this; exact this

theorem Asc.nodup {l : List ClrObs} (h : Asc l) : l.Nodup :=
  h.imp (fun {a b} hab heq => by subst heq; omega)

theorem Asc.dates {l : List ClrObs} (h : Asc l) : (l.map (·.date)).Pairwise (· < ·) :=
  List.pairwise_map.mpr h

theorem mem_take_date {l : List ClrObs} (h : Asc l) {i : Nat} {c : ClrObs} (hc : l[i]? = some c) {o : ClrObs}
    (ho : o ∈ l.take i) : o.date < c.date := by
  obtain ⟨k, hk⟩ := List.getElem?_of_mem ho
  rw [List.getElem?_take] at hk
  by_cases hki : k < i
  · rw [if_pos hki] at hk; exact asc_get h hk hc hki
  · rw [if_neg hki] at hk; cases hk

theorem mem_drop_date {l : List ClrObs} (h : Asc l) {i : Nat} {c : ClrObs} (hc : l[i]? = some c) {o : ClrObs}
    (ho : o ∈ l.drop i) : c.date ≤ o.date := by
  obtain ⟨k, hk⟩ := List.getElem?_of_mem ho
  rw [List.getElem?_drop] at hk
  by_cases h0 : k = 0
  · subst h0; rw [Nat.add_zero, hc] at hk; cases hk; omega
  · have := asc_get h hc hk (by omega); omega

theorem span_from {l : List ClrObs} (h : Asc l) {i : Nat} {c : ClrObs} (hc : l[i]? = some c) :
    span l (some c.date) none = l.drop i := by
  conv_lhs => rw [← List.take_append_drop i l]
  rw [span, List.filter_append]
  have h1 : (l.take i).filter (fun o => decide (c.date ≤ o.date) && true) = [] := by
    rw [List.filter_eq_nil_iff]
    intro o ho
    have := mem_take_date h hc ho
    simp; omega
  have h2 : (l.drop i).filter (fun o => decide (c.date ≤ o.date) && true) = l.drop i := by
    rw [List.filter_eq_self]
    intro o ho
    have := mem_drop_date h hc ho
    simpa using this
  exact (by rw [h1, h2]; rfl)

theorem span_all (l : List ClrObs) : span l none none = l := by simp [span]

theorem span_upto (l : List ClrObs) (lo : Option Int) (d : Int) :
    span l lo (some d) = (span l lo none).filter (fun o => decide (o.date < d)) := by
  simp only [span, List.filter_filter]
  congr 1
  funext o
  simp [Bool.and_comm]

/-- Cutting an ascending list before the entry with date `x`. -/
theorem filter_before {l : List ClrObs} (h : Asc l) {i j : Nat} {x : ClrObs}
    (hx : l[j]? = some x) (hij : i ≤ j) :
    (l.drop i).filter (fun o => decide (o.date < x.date)) = (l.drop i).take (j - i) := by
  conv_lhs => rw [← List.take_append_drop (j - i) (l.drop i)]
  rw [List.filter_append]
  have h1 : ((l.drop i).take (j - i)).filter (fun o => decide (o.date < x.date)) = (l.drop i).take (j - i) := by
    rw [List.filter_eq_self]
    intro o ho
    obtain ⟨k, hk⟩ := List.getElem?_of_mem ho
    rw [List.getElem?_take] at hk
    by_cases hki : k < j - i
    · rw [if_pos hki, List.getElem?_drop] at hk
      have := asc_get h hk hx (by omega)
      simpa using this
    · rw [if_neg hki] at hk; cases hk
  have h2 : ((l.drop i).drop (j - i)).filter (fun o => decide (o.date < x.date)) = [] := by
    rw [List.filter_eq_nil_iff]
    intro o ho
    rw [List.drop_drop] at ho
    have := mem_drop_date h (i := i + (j - i)) (by rw [show i + (j - i) = j by omega]; exact hx) ho
    simp; omega
  rw [h1, h2, List.append_nil]

theorem span_sub {clear obs : List ClrObs} (hc : Asc clear) (hs : obs.Sublist clear) {lo : Int}
    (hl : ∀ o ∈ clear, o ∉ obs → o.date < lo) (hi : Option Int) :
    span clear (some lo) hi = span obs (some lo) hi := by
  have h1 : (span obs (some lo) hi).Sublist (span clear (some lo) hi) := hs.filter _
  have h2 : (span clear (some lo) hi).Nodup := hc.nodup.filter _
  refine (h1.eq_of_length_le ?_).symm
  refine (List.subperm_of_subset h2 ?_).length_le
  intro o ho
  simp only [span, List.mem_filter] at ho ⊢
  refine ⟨?_, ho.2⟩
  by_contra hn
  have := hl o ho.1 hn
  have := ho.2
  simp only [Bool.and_eq_true, decide_eq_true_eq] at this
  omega

/-! ## The invariant -/

/-- Where the next segment begins. -/
def lastBreak : Option Int → List (Rec R M) → Option Int
  | lo, [] => lo
  | _, r :: rs => lastBreak (some r.tBreak) rs

theorem lastBreak_snoc (lo : Option Int) (l : List (Rec R M)) (r : Rec R M) :
    lastBreak lo (l ++ [r]) = some r.tBreak := by
  induction l generalizing lo with
  | nil => rfl
  | cons a as ih => exact ih _

structure Inv (clear : List ClrObs) (acc rem : List Int) (s : St R M) : Prop where
  sub : s.obs.Sublist clear
  lost : ∀ o ∈ clear, o ∉ s.obs → ∃ c, s.obs[s.iLast]? = some c ∧ o.date < c.date
  start : (s.iLast = 0 ∧ s.recs = [] ∧ s.obs = clear) ∨
    ∃ c b, s.obs[s.iLast]? = some c ∧ lastBreak none s.recs = some c.date ∧
      NearestTo (clear.map (·.date)) b c.date ∧ ∀ b' ∈ rem, b < b'
  count : s.recs.length + rem.length ≤ acc.length

/-- An observation that has been removed is never the nearest one. -/
theorem Inv.far {clear : List ClrObs} {acc rem : List Int} {s : St R M} (hI : Inv clear acc rem s)
    {b : Int} (hb : b ∈ rem) {o : ClrObs} (ho : o ∈ clear) (hn : o ∉ s.obs) :
    ∃ c ∈ s.obs, (c.date - b).natAbs < (o.date - b).natAbs := by
  rcases hI.start with ⟨_, _, h⟩ | ⟨c, b', h1, h3, h5, h6⟩
  · rw [h] at hn; exact absurd ho hn
  · refine ⟨c, List.mem_of_getElem? h1, ?_⟩
    obtain ⟨c', g1, g2⟩ := hI.lost o ho hn
    rw [h1] at g1; cases g1
    have hlt := h6 b hb
    have hnear := h5.2 o.date (List.mem_map.mpr ⟨o, ho, rfl⟩)
    have k1 := hnear.1
    have k2 := hnear.2
    by_cases hcb : c.date ≤ b
    · omega
    · by_cases heq : (c.date - b').natAbs = (o.date - b').natAbs
      · have := k2 heq; omega
      · omega

theorem Inv.nearest {clear : List ClrObs} {acc rem : List Int} {s : St R M} (hI : Inv clear acc rem s)
    {b : Int} (hb : b ∈ rem) {x : ClrObs} (hx : NearestTo (s.obs.map (·.date)) b x.date) :
    NearestTo (clear.map (·.date)) b x.date := by
  refine ⟨?_, ?_⟩
  · obtain ⟨o, ho, he⟩ := List.mem_map.mp hx.1
    exact List.mem_map.mpr ⟨o, hI.sub.subset ho, he⟩
  · intro y hy
    obtain ⟨o, ho, rfl⟩ := List.mem_map.mp hy
    by_cases hm : o ∈ s.obs
    · exact hx.2 _ (List.mem_map.mpr ⟨o, hm, rfl⟩)
    · obtain ⟨c, hc, hlt⟩ := hI.far hb ho hm
      have := hx.2 c.date (List.mem_map.mpr ⟨c, hc, rfl⟩)
      exact ⟨by omega, by omega⟩

/-- Where the current segment starts. -/
theorem Inv.lostBefore {clear : List ClrObs} {acc rem : List Int} {s : St R M} (hI : Inv clear acc rem s)
    {c : ClrObs} (hc : s.obs[s.iLast]? = some c) : ∀ o ∈ clear, o ∉ s.obs → o.date < c.date := by
  intro o ho hn
  obtain ⟨c', h1, h2⟩ := hI.lost o ho hn
  rw [hc] at h1; cases h1; exact h2

/-- The observations from the last break on. -/
theorem Inv.spanFrom {clear : List ClrObs} (hasc : Asc clear) {acc rem : List Int}
    {s : St R M} (hI : Inv clear acc rem s) :
    span clear (lastBreak none s.recs) none = s.obs.drop s.iLast := by
  rcases hI.start with ⟨h1, h2, h3⟩ | ⟨c, b', h1, h3, h5, h6⟩
  · rw [h1, h2, h3]; simp [lastBreak, span_all]
  · rw [h3, span_sub hasc hI.sub (hI.lostBefore h1), span_from (hasc.sublist hI.sub) h1]

theorem usable_sublist (E : Env R M) (win : List ClrObs) : (usable E win).Sublist win := by
  unfold usable
  by_cases h : win.length < 12
  · rw [if_pos h]
  · rw [if_neg h]
    refine List.filter_sublist.trans ?_
    have := (List.filter_sublist (p := fun p : ClrObs × Nat => !E.mask win p.2) (l := win.zipIdx)).map Prod.fst
    simpa using this

theorem usable_long (E : Env R M) {win : List ClrObs} (h : ¬ win.length < 12) :
    usable E win = (unmasked E.mask win).filter (fun o => !E.outlier (unmasked E.mask win) o) := by
  rw [usable, if_neg h]; rfl

/-- Screening keeps the usable observations of the window and everything outside it. -/
theorem screen_some {E : Env R M} {s : St R M} {tmp : Nat} {b : Int} {obs : List ClrObs}
    (h : screen E s tmp (some b) = some obs) (ht : s.iLast + 6 ≤ tmp) (htl : tmp ≤ s.obs.length) :
    6 ≤ (usable E ((s.obs.drop s.iLast).take (tmp - s.iLast))).length ∧
      obs = s.obs.take s.iLast ++ usable E ((s.obs.drop s.iLast).take (tmp - s.iLast)) ++ s.obs.drop tmp := by
  unfold screen at h
  have hl : ((s.obs.drop s.iLast).take (tmp - s.iLast)).length = tmp - s.iLast := by simp; omega
  by_cases hc : tmp - s.iLast ≥ 12
  · rw [if_pos ⟨hc, rfl⟩] at h
    rw [usable_long E (by omega)]
    simp only at h
    by_cases h1 : (unmasked E.mask ((s.obs.drop s.iLast).take (tmp - s.iLast))).length < 6
    · rw [if_pos h1] at h; cases h
    · rw [if_neg h1] at h
      generalize unmasked E.mask ((s.obs.drop s.iLast).take (tmp - s.iLast)) = kept at h h1 ⊢
      by_cases h2 : (kept.filter (fun o => !E.outlier kept o)).length < 6
      · rw [if_pos h2] at h; cases h
      · rw [if_neg h2] at h
        exact ⟨by omega, (Option.some.inj h).symm⟩
  · rw [if_neg (by intro hh; exact hc hh.1)] at h
    rw [usable, if_pos (by omega)]
    refine ⟨by omega, ?_⟩
    rw [← Option.some.inj h]
    have : s.obs.drop s.iLast = (s.obs.drop s.iLast).take (tmp - s.iLast) ++ s.obs.drop tmp := by
      conv_lhs => rw [← List.take_append_drop (tmp - s.iLast) (s.obs.drop s.iLast)]
      rw [List.drop_drop, show s.iLast + (tmp - s.iLast) = tmp by omega]
    rw [List.append_assoc, ← this, List.take_append_drop]

/-- Screening gives up when fewer than six usable observations are left. -/
theorem screen_none {E : Env R M} {s : St R M} {tmp : Nat} {b : Int}
    (h : screen E s tmp (some b) = none) (htl : tmp ≤ s.obs.length) :
    (usable E ((s.obs.drop s.iLast).take (tmp - s.iLast))).length < 6 := by
  unfold screen at h
  have hl : ((s.obs.drop s.iLast).take (tmp - s.iLast)).length = min (tmp - s.iLast) (s.obs.length - s.iLast) := by
    simp
  by_cases hc : tmp - s.iLast ≥ 12
  · rw [if_pos ⟨hc, rfl⟩] at h
    rw [usable_long E (by omega)]
    simp only at h
    generalize unmasked E.mask ((s.obs.drop s.iLast).take (tmp - s.iLast)) = kept at h ⊢
    by_cases h1 : kept.length < 6
    · exact Nat.lt_of_le_of_lt (List.length_filter_le _ _) h1
    · rw [if_neg h1] at h
      by_cases h2 : (kept.filter (fun o => !E.outlier kept o)).length < 6
      · exact h2
      · rw [if_neg h2] at h; cases h
  · rw [if_neg (by intro hh; exact hc hh.1)] at h; cases h

theorem cat_coefs (n : Nat) : Cold.updateCft (n : Int) 3 4 6 8 8 = coefs n := by
  simp only [Cold.updateCft, coefs]
  split <;> split <;> (try split) <;> (try split) <;> omega

end Pycold.Obcold
