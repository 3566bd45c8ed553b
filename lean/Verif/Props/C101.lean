import Verif.Proof.SccdExact
import Verif.Spec.Turn
/-!
# Property C101: the direction test

The mean angle between successive difference vectors (`MeanAngl_float`), which COLD and S-CCD compare with 45 degrees before they
confirm a break, in exact arithmetic:

* it depends on the directions of the vectors only, not on their lengths, and not on whether time runs forwards or backwards;
* it is 0 exactly if all vectors point the same way, so that such changes always pass;
* if every vector points the opposite way of the one before it is (about) 180, so that such changes never pass.
-/
namespace Pycold.Turn
open Pycold.Turn.Spec
open Pycold.ColdNum (meanAngle)
open Pycold.ColdNum.Spec (exact PI)
open Pycold.SccdNum (meanAngle_exact)
open Pycold.SccdNum.Spec (dot degrees meanTurn)

/-! ## Dot products -/

theorem dot_cons (x y : ℝ) (u v : List ℝ) : dot (x :: u) (y :: v) = x * y + dot u v := by simp [dot]

theorem dot_comm (u v : List ℝ) : dot u v = dot v u := by
  unfold dot
  rw [List.zipWith_comm]
  simp only [mul_comm]

theorem dot_scale (c : ℝ) (u v : List ℝ) : dot u (v.map (c * ·)) = c * dot u v := by
  induction u generalizing v with
  | nil => simp [dot]
  | cons x u ih => cases v with
    | nil => simp [dot]
    | cons y v => rw [List.map_cons, dot_cons, dot_cons, ih]; ring

theorem dot_scale' (c : ℝ) (u v : List ℝ) : dot (u.map (c * ·)) v = c * dot u v := by
  rw [dot_comm, dot_scale, dot_comm]

theorem dot_self_nonneg (u : List ℝ) : 0 ≤ dot u u := by
  induction u with
  | nil => simp [dot]
  | cons x u ih => rw [dot_cons]; nlinarith [mul_self_nonneg x]

theorem dot_self_pos {u : List ℝ} (h : NonZero u) : 0 < dot u u := by
  obtain ⟨x, hx, h0⟩ := h
  induction u with
  | nil => simp at hx
  | cons y u ih =>
    rw [dot_cons]
    rcases List.mem_cons.1 hx with rfl | hx
    · have := dot_self_nonneg u
      have := mul_self_pos.2 h0
      linarith
    · have := ih hx
      have := mul_self_nonneg y
      linarith

theorem sqrt_scale (c : ℝ) (hc : 0 ≤ c) (u : List ℝ) :
    Real.sqrt (dot (u.map (c * ·)) (u.map (c * ·))) = c * Real.sqrt (dot u u) := by
  rw [dot_scale, dot_scale', ← mul_assoc, Real.sqrt_mul (mul_self_nonneg c), Real.sqrt_mul_self hc]

/-! ## Angles -/

theorem degrees_comm (u v : List ℝ) : degrees u v = degrees v u := by
  unfold degrees
  rw [dot_comm, mul_comm (Real.sqrt _)]

theorem degrees_scale (c : ℝ) (hc : 0 < c) (u v : List ℝ) : degrees u (v.map (c * ·)) = degrees u v := by
  unfold degrees
  rw [dot_scale, sqrt_scale c hc.le, show Real.sqrt (dot u u) * (c * Real.sqrt (dot v v)) =
    c * (Real.sqrt (dot u u) * Real.sqrt (dot v v)) by ring, mul_div_mul_left _ _ hc.ne']

theorem degrees_same {u u' v v' : List ℝ} (h : SameWay u u') (h' : SameWay v v') : degrees u' v' = degrees u v := by
  obtain ⟨c, hc, rfl⟩ := h
  obtain ⟨d, hd, rfl⟩ := h'
  rw [degrees_scale d hd, degrees_comm, degrees_scale c hc, degrees_comm]

theorem PI_pos : 0 < PI := by unfold PI; norm_num

theorem degrees_nonneg (u v : List ℝ) : 0 ≤ degrees u v :=
  div_nonneg (mul_nonneg (Real.arccos_nonneg _) (by norm_num)) PI_pos.le

theorem cauchy (a b : ℝ) (u v : List ℝ) (h : u.length = v.length) :
    (List.zipWith (fun x y => (b * x - a * y) ^ 2) u v).sum = b ^ 2 * dot u u - 2 * (a * b) * dot u v + a ^ 2 * dot v v := by
  induction u generalizing v with
  | nil => cases v with
    | nil => simp [dot]
    | cons y v => simp at h
  | cons x u ih => cases v with
    | nil => simp at h
    | cons y v =>
      rw [List.zipWith_cons_cons, List.sum_cons, ih v (by simpa using h), dot_cons, dot_cons, dot_cons]
      ring

theorem all_zero (a b : ℝ) (ha : a ≠ 0) (u v : List ℝ) (h : u.length = v.length)
    (hs : (List.zipWith (fun x y => (b * x - a * y) ^ 2) u v).sum ≤ 0) : v = u.map (b / a * ·) := by
  induction u generalizing v with
  | nil => cases v with
    | nil => rfl
    | cons y v => simp at h
  | cons x u ih => cases v with
    | nil => simp at h
    | cons y v =>
      rw [List.zipWith_cons_cons, List.sum_cons] at hs
      have h0 : 0 ≤ (List.zipWith (fun x y => (b * x - a * y) ^ 2) u v).sum := by
        apply List.sum_nonneg
        intro z hz
        obtain ⟨i, hi, rfl⟩ := List.mem_iff_getElem.1 hz
        rw [List.getElem_zipWith]
        exact sq_nonneg _
      have h1 := sq_nonneg (b * x - a * y)
      have h2 : b * x - a * y = 0 := pow_eq_zero_iff (two_ne_zero) |>.1 (by linarith)
      rw [List.map_cons, ← ih v (by simpa using h) (by linarith)]
      congr 1
      field_simp
      linarith

/-- The angle is 0 exactly if the vectors point the same way. -/
theorem degrees_zero {u v : List ℝ} (hu : NonZero u) (hv : NonZero v) (hl : u.length = v.length) :
    degrees u v = 0 ↔ SameWay u v := by
  have pu := dot_self_pos hu
  have pv := dot_self_pos hv
  have su := Real.sqrt_pos.2 pu
  have sv := Real.sqrt_pos.2 pv
  constructor
  · intro h
    unfold degrees at h
    rw [div_eq_zero_iff, mul_eq_zero, Real.arccos_eq_zero] at h
    have h1 : 1 ≤ dot u v / (Real.sqrt (dot u u) * Real.sqrt (dot v v)) := by
      rcases h with (h | h) | h
      · exact h
      · norm_num at h
      · exact absurd h PI_pos.ne'
    rw [le_div_iff₀ (mul_pos su sv), one_mul] at h1
    refine ⟨Real.sqrt (dot v v) / Real.sqrt (dot u u), div_pos sv su, all_zero _ _ su.ne' _ _ hl ?_⟩
    rw [cauchy _ _ _ _ hl, Real.sq_sqrt pu.le, Real.sq_sqrt pv.le]
    have e1 : Real.sqrt (dot u u) * Real.sqrt (dot v v) * (Real.sqrt (dot u u) * Real.sqrt (dot v v)) = dot u u * dot v v := by
      rw [mul_mul_mul_comm, Real.mul_self_sqrt pu.le, Real.mul_self_sqrt pv.le]
    nlinarith [mul_pos su sv]
  · rintro ⟨c, hc, rfl⟩
    rw [degrees_scale c hc]
    unfold degrees
    rw [Real.mul_self_sqrt pu.le, div_self pu.ne', Real.arccos_one]
    simp

theorem degrees_opposite {u v : List ℝ} (hu : NonZero u) (h : Opposite u v) : degrees u v = Real.pi * 180 / PI := by
  have pu := dot_self_pos hu
  obtain ⟨c, hc, rfl⟩ := h
  have e : u.map (c * ·) = (u.map ((-1) * ·)).map (-c * ·) := by
    rw [List.map_map]
    congr 1
    funext x
    simp
  rw [e, degrees_scale (-c) (by linarith)]
  unfold degrees
  have : dot (u.map ((-1) * ·)) (u.map ((-1) * ·)) = dot u u := by rw [dot_scale, dot_scale']; ring
  rw [this, dot_scale, Real.mul_self_sqrt pu.le, mul_div_cancel_right₀ _ pu.ne', Real.arccos_neg_one]

/-! ## Sums of successive angles -/

/-- the sum of the angles between successive vectors -/
noncomputable def turns : List (List ℝ) → ℝ
  | [] => 0
  | [_] => 0
  | a :: b :: l => degrees a b + turns (b :: l)

theorem turns_eq : ∀ vs : List (List ℝ), (List.zipWith degrees vs vs.tail).sum = turns vs
  | [] => by simp [turns]
  | [_] => by simp [turns]
  | a :: b :: l => by
    have := turns_eq (b :: l)
    rw [List.tail_cons] at this
    rw [List.tail_cons, List.zipWith_cons_cons, List.sum_cons, turns, ← this]

theorem meanAngle_turns (vs : List (List ℝ)) : meanAngle exact vs = turns vs / ((vs.length : ℝ) - 1) := by
  rcases Nat.lt_or_ge 1 vs.length with h | h
  · rw [meanAngle_exact vs h, meanTurn, turns_eq]
  · have ht : turns vs = 0 := by
      match vs, h with
      | [], _ => rfl
      | [_], _ => rfl
    rw [ht, zero_div, meanAngle, if_neg (by omega)]
    exact ColdNum.zero_exact

theorem turns_append : ∀ (l : List (List ℝ)) (b a : List ℝ), turns (l ++ [b, a]) = turns (l ++ [b]) + degrees b a
  | [], b, a => by simp [turns]
  | [x], b, a => by simp [turns]
  | x :: y :: l, b, a => by
    have := turns_append (y :: l) b a
    simp only [List.cons_append, turns] at this ⊢
    rw [this]
    ring

theorem turns_reverse : ∀ vs : List (List ℝ), turns vs.reverse = turns vs
  | [] => rfl
  | [_] => rfl
  | a :: b :: l => by
    have := turns_reverse (b :: l)
    rw [List.reverse_cons] at this
    rw [List.reverse_cons, List.reverse_cons, List.append_assoc, List.singleton_append, turns_append, this, turns, degrees_comm]
    ring

theorem turns_same {vs ws : List (List ℝ)} (h : List.Forall₂ SameWay vs ws) : turns ws = turns vs := by
  induction h with
  | nil => rfl
  | cons h1 ht ih =>
    cases ht with
    | nil => rfl
    | cons h2 ht => rw [turns, turns, ih, degrees_same h1 h2]

theorem turns_nonneg : ∀ vs : List (List ℝ), 0 ≤ turns vs
  | [] => le_rfl
  | [_] => le_rfl
  | a :: b :: l => add_nonneg (degrees_nonneg a b) (turns_nonneg (b :: l))

theorem turns_zero : ∀ (vs : List (List ℝ)) (k : Nat), (∀ v ∈ vs, NonZero v ∧ v.length = k) →
    (turns vs = 0 ↔ vs.IsChain SameWay)
  | [], _, _ => by simp [turns]
  | [_], _, _ => by simp [turns]
  | a :: b :: l, k, h => by
    have ha := h a (by simp)
    have hb := h b (by simp)
    rw [turns, List.isChain_cons_cons, ← turns_zero (b :: l) k (fun v hv => h v (by simp [List.mem_cons.1 hv])),
      ← degrees_zero ha.1 hb.1 (by rw [ha.2, hb.2])]
    have := degrees_nonneg a b
    have := turns_nonneg (b :: l)
    constructor
    · intro e; constructor <;> linarith
    · rintro ⟨e1, e2⟩; linarith

theorem turns_opposite : ∀ vs : List (List ℝ), vs ≠ [] → (∀ v ∈ vs, NonZero v) → vs.IsChain Opposite →
    turns vs = ((vs.length : ℝ) - 1) * (Real.pi * 180 / PI)
  | [], h, _, _ => absurd rfl h
  | [_], _, _, _ => by simp [turns]
  | a :: b :: l, _, h, hc => by
    rw [List.isChain_cons_cons] at hc
    rw [turns, turns_opposite (b :: l) (by simp) (fun v hv => h v (by simp [List.mem_cons.1 hv])) hc.2,
      degrees_opposite (h a (by simp)) hc.1]
    simp only [List.length_cons]
    push_cast
    ring

theorem SameWay.trans {u v w : List ℝ} (h : SameWay u v) (h' : SameWay v w) : SameWay u w := by
  obtain ⟨c, hc, rfl⟩ := h
  obtain ⟨d, hd, rfl⟩ := h'
  refine ⟨d * c, mul_pos hd hc, ?_⟩
  rw [List.map_map]
  congr 1
  funext x
  simp [mul_assoc]

/-! ## The property -/

/-- Only directions count: vectors may be multiplied by positive numbers, each by its own. -/
theorem C101_lengths (vs ws : List (List ℝ)) (h : List.Forall₂ SameWay vs ws) : meanAngle exact ws = meanAngle exact vs := by
  rw [meanAngle_turns, meanAngle_turns, turns_same h, h.length_eq]

/-- The order of time may be reversed. -/
theorem C101_reverse (vs : List (List ℝ)) : meanAngle exact vs.reverse = meanAngle exact vs := by
  rw [meanAngle_turns, meanAngle_turns, turns_reverse, List.length_reverse]

/-- The mean angle of several vectors other than 0 is 0 exactly if all point the same way. -/
theorem C101_aligned (vs : List (List ℝ)) (k : Nat) (h : ∀ v ∈ vs, NonZero v ∧ v.length = k) (hn : 1 < vs.length) :
    meanAngle exact vs = 0 ↔ vs.Pairwise SameWay := by
  have hn' : (0 : ℝ) < (vs.length : ℝ) - 1 := by
    have : ((1 : ℕ) : ℝ) < (vs.length : ℝ) := Nat.cast_lt.2 hn
    push_cast at this
    linarith
  have : IsTrans (List ℝ) SameWay := ⟨fun _ _ _ => SameWay.trans⟩
  rw [meanAngle_turns, div_eq_zero_iff, or_iff_left hn'.ne', turns_zero vs k h, List.isChain_iff_pairwise]

/-- If every vector points the opposite way of the one before, the mean angle is more than 179 degrees. -/
theorem C101_opposite (vs : List (List ℝ)) (h : ∀ v ∈ vs, NonZero v) (hn : 1 < vs.length) (ho : vs.IsChain Opposite) :
    179 < meanAngle exact vs := by
  have hn' : (0 : ℝ) < (vs.length : ℝ) - 1 := by
    have : ((1 : ℕ) : ℝ) < (vs.length : ℝ) := Nat.cast_lt.2 hn
    push_cast at this
    linarith
  rw [meanAngle_turns, turns_opposite vs (by rintro rfl; simp at hn) h ho, mul_div_cancel_left₀ _ hn'.ne',
    lt_div_iff₀ PI_pos]
  have := Real.pi_gt_d2
  unfold PI
  linarith

/-! ## Concrete cases -/

example : meanAngle exact [[1, 2], [2, 4], [3, 6]] = 0 := by
  refine (C101_aligned _ 2 ?_ (by simp)).2 ?_
  · intro v hv
    simp only [List.mem_cons, List.not_mem_nil, or_false] at hv
    rcases hv with rfl | rfl | rfl
    · exact ⟨⟨1, by simp, by norm_num⟩, rfl⟩
    · exact ⟨⟨2, by simp, by norm_num⟩, rfl⟩
    · exact ⟨⟨3, by simp, by norm_num⟩, rfl⟩
  · simp only [List.pairwise_cons, List.mem_cons, List.not_mem_nil, or_false, forall_eq_or_imp, forall_eq, false_imp_iff,
      implies_true, List.Pairwise.nil, and_true]
    refine ⟨⟨⟨2, by norm_num, by norm_num⟩, ⟨3, by norm_num, by norm_num⟩⟩, ⟨3 / 2, by norm_num, by norm_num⟩⟩
example : 179 < meanAngle exact [[1, 2], [-1, -2], [3, 6]] := by
  refine C101_opposite _ ?_ (by simp) ?_
  · intro v hv
    simp only [List.mem_cons, List.not_mem_nil, or_false] at hv
    rcases hv with rfl | rfl | rfl
    · exact ⟨1, by simp, by norm_num⟩
    · exact ⟨-1, by simp, by norm_num⟩
    · exact ⟨3, by simp, by norm_num⟩
  · simp only [List.isChain_cons_cons, List.isChain_singleton, and_true]
    exact ⟨⟨-1, by norm_num, by norm_num⟩, ⟨-3, by norm_num, by norm_num⟩⟩

end Pycold.Turn
