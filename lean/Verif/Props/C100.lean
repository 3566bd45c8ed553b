import Verif.Spec.Extent
import Mathlib.Tactic.Linarith
import Mathlib.Tactic.FieldSimp
import Mathlib.Tactic.Ring
import Mathlib.Tactic.NormNum
/-!
# Property C100: the extent of a feature

* `bbox` is the smallest box around all positions of a geometry, of whatever type and however nested;
* an empty geometry raises, as does one whose positions have a height;
* `get_extent` gives whole pixels around the centre of the box that cover the box with its margin, less than a pixel more than
  needed.
-/
namespace Pycold.Extent
open Pycold.Extent.Spec

/-! ## Positions -/

/-- the position as `explode` yields it -/
def Pos (n : Nat) (l : List Geo) (p : ℚ × ℚ) : Prop :=
  ∃ more : List ℚ, more.length = n ∧ l = .num p.1 :: .num p.2 :: more.map .num

theorem explode_spec {n : Nat} {g : Geo} {ps : List (ℚ × ℚ)} (h : IsGeometry n g ps) :
    (∃ l, g = .list l) ∧ List.Forall₂ (Pos n) (explode g) ps := by
  refine IsGeometry.rec (motive_1 := fun g ps _ => (∃ l, g = .list l) ∧ List.Forall₂ (Pos n) (explode g) ps)
    (motive_2 := fun gs ps _ => ∀ coords, List.Forall₂ (Pos n) (scan coords gs) ps) ?_ ?_ ?_ ?_ h
  · intro x y more hm
    refine ⟨⟨_, rfl⟩, ?_⟩
    rw [explode, scan]
    exact .cons ⟨more, hm, rfl⟩ .nil
  · intro gs ps _ ih
    refine ⟨⟨_, rfl⟩, ?_⟩
    rw [explode]
    exact ih gs
  · intro coords
    rw [scan]
    exact .nil
  · rintro g ps gs qs - - ⟨⟨l, rfl⟩, ih⟩ ih' coords
    rw [scan]
    exact List.rel_append ih (ih' coords)

theorem zipLength_spec {n : Nat} {ls : List (List Geo)} {ps : List (ℚ × ℚ)} (h : List.Forall₂ (Pos n) ls ps) (hne : ps ≠ []) :
    zipLength ls = n + 2 := by
  have key : ∀ (ls : List (List Geo)) (ps : List (ℚ × ℚ)), List.Forall₂ (Pos n) ls ps →
      ls.foldl (fun m q => min m q.length) (n + 2) = n + 2 := by
    intro ls ps h
    induction h with
    | nil => rfl
    | cons hp _ ih =>
      obtain ⟨more, hm, rfl⟩ := hp
      rw [List.foldl_cons]
      simpa [hm] using ih
  cases h with
  | nil => exact absurd rfl hne
  | cons hp ht =>
    obtain ⟨more, hm, rfl⟩ := hp
    have := key _ _ ht
    simpa [zipLength, hm] using this

theorem xs_spec {n : Nat} {ls : List (List Geo)} {ps : List (ℚ × ℚ)} (h : List.Forall₂ (Pos n) ls ps) :
    (ls.mapM fun p => p[0]?.bind number) = some (ps.map (·.1)) ∧
    (ls.mapM fun p => p[1]?.bind number) = some (ps.map (·.2)) := by
  induction h with
  | nil => exact ⟨rfl, rfl⟩
  | cons hp _ ih =>
    obtain ⟨more, hm, rfl⟩ := hp
    simp [List.mapM_cons, ih.1, ih.2, number]

theorem min_spec (x : ℚ) (xs : List ℚ) : (∀ a ∈ x :: xs, xs.foldl min x ≤ a) ∧ xs.foldl min x ∈ x :: xs := by
  induction xs generalizing x with
  | nil => simp
  | cons b xs ih =>
    obtain ⟨h1, h2⟩ := ih (min x b)
    rw [List.foldl_cons]
    refine ⟨fun a ha => ?_, ?_⟩
    · have h0 := h1 (min x b) (by simp)
      rcases List.mem_cons.1 ha with rfl | ha
      · exact h0.trans (min_le_left _ _)
      rcases List.mem_cons.1 ha with rfl | ha
      · exact h0.trans (min_le_right _ _)
      · exact h1 a (by simp [ha])
    · rcases List.mem_cons.1 h2 with h2 | h2
      · rw [h2]
        rcases min_choice x b with h | h <;> rw [h] <;> simp
      · simp [h2]

theorem max_spec (x : ℚ) (xs : List ℚ) : (∀ a ∈ x :: xs, a ≤ xs.foldl max x) ∧ xs.foldl max x ∈ x :: xs := by
  induction xs generalizing x with
  | nil => simp
  | cons b xs ih =>
    obtain ⟨h1, h2⟩ := ih (max x b)
    rw [List.foldl_cons]
    refine ⟨fun a ha => ?_, ?_⟩
    · have h0 := h1 (max x b) (by simp)
      rcases List.mem_cons.1 ha with rfl | ha
      · exact (le_max_left _ _).trans h0
      rcases List.mem_cons.1 ha with rfl | ha
      · exact (le_max_right _ _).trans h0
      · exact h1 a (by simp [ha])
    · rcases List.mem_cons.1 h2 with h2 | h2
      · rw [h2]
        rcases max_choice x b with h | h <;> rw [h] <;> simp
      · simp [h2]

/-! ## The box -/

/-- The box of a geometry with plane positions is the smallest box around them. -/
theorem C100_bbox (g : Geo) (ps : List (ℚ × ℚ)) (h : IsGeometry 0 g ps) (hne : ps ≠ []) :
    ∃ x0 y0 x1 y1, bbox g = some (x0, y0, x1, y1) ∧ IsBox ps x0 y0 x1 y1 := by
  obtain ⟨-, hf⟩ := explode_spec h
  unfold bbox
  dsimp only
  rw [if_pos (zipLength_spec hf hne), (xs_spec hf).1, (xs_spec hf).2]
  obtain ⟨p, qs, rfl⟩ := List.exists_cons_of_ne_nil hne
  refine ⟨_, _, _, _, rfl, ?_⟩
  obtain ⟨a1, a2⟩ := min_spec p.1 (qs.map (·.1))
  obtain ⟨b1, b2⟩ := min_spec p.2 (qs.map (·.2))
  obtain ⟨c1, c2⟩ := max_spec p.1 (qs.map (·.1))
  obtain ⟨d1, d2⟩ := max_spec p.2 (qs.map (·.2))
  rw [← List.map_cons (f := Prod.fst)] at a1 a2 c1 c2
  rw [← List.map_cons (f := Prod.snd)] at b1 b2 d1 d2
  exact ⟨fun q hq => ⟨a1 _ (List.mem_map_of_mem hq), c1 _ (List.mem_map_of_mem hq), b1 _ (List.mem_map_of_mem hq),
    d1 _ (List.mem_map_of_mem hq)⟩, List.mem_map.1 a2, List.mem_map.1 b2, List.mem_map.1 c2, List.mem_map.1 d2⟩

/-- A geometry without positions raises, as does one whose positions have a height. -/
theorem C100_raises (n : Nat) (g : Geo) (ps : List (ℚ × ℚ)) (h : IsGeometry n g ps) (hn : ps = [] ∨ 0 < n) : bbox g = none := by
  obtain ⟨-, hf⟩ := explode_spec h
  unfold bbox
  dsimp only
  rw [if_neg]
  rcases List.eq_nil_or_concat ps with rfl | ⟨_, _, hc⟩
  · rw [List.forall₂_nil_right_iff.1 hf]
    simp [zipLength]
  · have hne : ps ≠ [] := by rw [hc]; simp
    rw [zipLength_spec hf hne]
    rcases hn with hn | hn
    · exact absurd hn hne
    · omega

/-! ## The extent -/

/-- Whole pixels around the centre of the box, covering the box with its margin, with less than one pixel to spare. -/
theorem C100_extent (x0 y0 x1 y1 res buf : ℚ) (hres : 0 < res) :
    ∃ e, getExtent (x0, y0, x1, y1) res buf = some e ∧
      (e.xmax - e.xmin = e.nCol * res ∧ e.ymax - e.ymin = e.nRow * res) ∧
      (e.xmin + e.xmax = x0 + x1 ∧ e.ymin + e.ymax = y0 + y1) ∧
      (e.xmin ≤ x0 - res * buf ∧ x1 + res * buf ≤ e.xmax ∧ e.ymin ≤ y0 - res * buf ∧ y1 + res * buf ≤ e.ymax) ∧
      (e.xmax - e.xmin < x1 - x0 + 2 * (res * buf) + res ∧ e.ymax - e.ymin < y1 - y0 + 2 * (res * buf) + res) := by
  have key : ∀ w : ℚ, w ≤ (⌈w / res⌉ : ℚ) * res ∧ (⌈w / res⌉ : ℚ) * res < w + res := by
    intro w
    have h1 := Int.le_ceil (w / res)
    have h2 := Int.ceil_lt_add_one (w / res)
    have e1 : w / res * res = w := div_mul_cancel₀ w hres.ne'
    constructor
    · calc w = w / res * res := e1.symm
        _ ≤ _ := mul_le_mul_of_nonneg_right h1 hres.le
    · calc _ < (w / res + 1) * res := mul_lt_mul_of_pos_right h2 hres
        _ = w + res := by rw [add_mul, e1, one_mul]
  refine ⟨_, by rw [getExtent, if_neg hres.ne'], ?_⟩
  dsimp only
  obtain ⟨k1, k2⟩ := key (x1 + res * buf - (x0 - res * buf))
  obtain ⟨k3, k4⟩ := key (y1 + res * buf - (y0 - res * buf))
  generalize (⌈(x1 + res * buf - (x0 - res * buf)) / res⌉ : ℤ) = c at *
  generalize (⌈(y1 + res * buf - (y0 - res * buf)) / res⌉ : ℤ) = r at *
  have ec : (c : ℚ) / 2 * res = (c : ℚ) * res / 2 := by ring
  have er : (r : ℚ) / 2 * res = (r : ℚ) * res / 2 := by ring
  rw [ec, er]
  generalize (c : ℚ) * res = u at *
  generalize (r : ℚ) * res = v at *
  generalize res * buf = b at *
  refine ⟨⟨by ring, by ring⟩, ⟨by ring, by ring⟩, ⟨?_, ?_, ?_, ?_⟩, ?_, ?_⟩ <;> linarith

/-- The extent of a geometry contains all its positions. -/
theorem C100_contains (g : Geo) (ps : List (ℚ × ℚ)) (h : IsGeometry 0 g ps) (hne : ps ≠ []) (res buf : ℚ) (hres : 0 < res)
    (hbuf : 0 ≤ buf) : ∃ e, ((bbox g).bind fun b => getExtent b res buf) = some e ∧
      ∀ p ∈ ps, e.xmin ≤ p.1 ∧ p.1 ≤ e.xmax ∧ e.ymin ≤ p.2 ∧ p.2 ≤ e.ymax := by
  obtain ⟨x0, y0, x1, y1, hb, hbox, -⟩ := C100_bbox g ps h hne
  obtain ⟨e, he, -, -, ⟨a, b, c, d⟩, -⟩ := C100_extent x0 y0 x1 y1 res buf hres
  refine ⟨e, by rw [hb]; exact he, fun p hp => ?_⟩
  obtain ⟨q1, q2, q3, q4⟩ := hbox p hp
  have := mul_nonneg hres.le hbuf
  refine ⟨?_, ?_, ?_, ?_⟩ <;> linarith

/-! ## Concrete cases -/

/-- a polygon with a ring -/
def triangle : Geo := .list [.list [.list [.num 0, .num 5], .list [.num 7, .num 1], .list [.num 3, .num 9]]]

theorem triangle_geometry : IsGeometry 0 triangle [(0, 5), (7, 1), (3, 9)] :=
  .parts _ _ (.more _ [(0, 5), (7, 1), (3, 9)] _ [] (.parts _ _ (.more _ [(0, 5)] _ _ (.position 0 5 [] rfl)
    (.more _ [(7, 1)] _ _ (.position 7 1 [] rfl) (.more _ [(3, 9)] _ _ (.position 3 9 [] rfl) .none)))) .none)

example : bbox triangle = some (0, 1, 7, 9) := by
  simp [bbox, triangle, explode, scan, zipLength, number, minimum, maximum]
  norm_num
example : ∃ e, getExtent (0, 1, 7, 9) 3 0 = some e ∧ e.nCol = 3 ∧ e.nRow = 3 ∧ e.xmin = -1 ∧ e.xmax = 8 := by
  refine ⟨_, by rw [getExtent, if_neg (by norm_num)], ?_⟩
  norm_num
/-- a position with a height -/
example : bbox (.list [.num 1, .num 2, .num 3]) = none :=
  C100_raises 1 _ _ (.position 1 2 [3] rfl) (Or.inr (by omega))

end Pycold.Extent
