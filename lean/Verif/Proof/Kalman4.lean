import Verif.Proof.Kalman3
/-!
# The series a new filter is run over
-/
namespace Pycold.Kalman

open Matrix Spec

theorem yearRange_le {d : Int} : d * 4 ≤ 1461 * yearRange d := by
  unfold yearRange
  have := Int.emod_add_mul_ediv (-(4 * d)) 1461
  have h2 := Int.emod_nonneg (-(4 * d)) (show (1461 : Int) ≠ 0 by decide)
  omega

theorem yearRange_pos {d : Int} (h : 0 < d) : 0 < yearRange d := by
  have := yearRange_le (d := d)
  omega

theorem shift_lt {k a b : Int} (h : a < b) (ha : 1461 * k ≤ 4 * a) : shift k a < shift k b := by
  unfold shift
  rw [Int.tdiv_eq_ediv_of_nonneg (by omega), Int.tdiv_eq_ediv_of_nonneg (by omega)]
  omega

theorem shift_le {k a : Int} : 4 * shift k a ≤ 4 * a - 1461 * k + 3 := by
  unfold shift
  have e := Int.tmod_add_mul_tdiv (4 * a - 1461 * k) 4
  have h : -4 < Int.tmod (4 * a - 1461 * k) 4 := by
    have := Int.lt_tmod_of_pos (4 * a - 1461 * k) (show (0 : Int) < 4 by decide)
    omega
  omega

theorem asc_head_le {l : List (Int × ℝ)} (h : Ascending l) {a p : Int × ℝ} (ha : l.head? = some a) (hp : p ∈ l) :
    a.1 ≤ p.1 := by
  cases l with
  | nil => cases hp
  | cons x xs =>
    simp only [List.head?_cons, Option.some.injEq] at ha
    subst ha
    cases hp with
    | head => exact le_refl _
    | tail _ hp' => exact le_of_lt ((List.pairwise_cons.mp h).1 p hp')

theorem asc_le_last {l : List (Int × ℝ)} (h : Ascending l) {b p : Int × ℝ} (hb : l.getLast? = some b) (hp : p ∈ l) :
    p.1 ≤ b.1 := by
  obtain ⟨ys, hys⟩ := List.getLast?_eq_some_iff.mp hb
  subst hys
  rcases List.mem_append.mp hp with h' | h'
  · exact le_of_lt ((List.pairwise_append.mp h).2.2 p h' b (by simp))
  · simp at h'; subst h'; exact le_refl _

theorem extend_eq {win : List (Int × ℝ)} {a b : Int × ℝ} (ha : win.head? = some a) (hb : win.getLast? = some b)
    (next : Option (Int × ℝ)) : extend win next =
      win.map (fun p => (shift (yearRange (b.1 - a.1 + 1)) p.1, p.2)) ++ win ++ [next.getD b] := by
  simp only [extend, ha, hb]

/-- The moved copy of a window lies before it, and everything stays in order. -/
theorem copy_ascending {win : List (Int × ℝ)} (h : Ascending win) {a b : Int × ℝ} (ha : win.head? = some a)
    (hb : win.getLast? = some b) (hk : 1461 * yearRange (b.1 - a.1 + 1) ≤ 4 * a.1) :
    Ascending (win.map (fun p => (shift (yearRange (b.1 - a.1 + 1)) p.1, p.2)) ++ win) := by
  refine List.pairwise_append.mpr ⟨?_, h, ?_⟩
  · refine List.pairwise_map.mpr ?_
    refine List.Pairwise.imp_of_mem ?_ h
    intro p p' hp _ hlt
    have := asc_head_le h ha hp
    exact shift_lt hlt (by omega)
  · intro p hp p' hp'
    obtain ⟨x, hx, rfl⟩ := List.mem_map.mp hp
    have h1 := asc_head_le h ha hp'
    have h2 := asc_le_last h hb hx
    have h3 : 4 * shift (yearRange (b.1 - a.1 + 1)) x.1 ≤ 4 * x.1 - 1461 * yearRange (b.1 - a.1 + 1) + 3 := shift_le
    have h4 := yearRange_le (d := b.1 - a.1 + 1)
    show shift _ x.1 < p'.1
    omega

theorem filterAll_snoc_same (c : Ssm) : ∀ (l : List (Int × ℝ)) (b b' : Int × ℝ) (s : St), l.getLast? = some b →
    b'.1 = b.1 → filterAll c (l ++ [b']) s = filterAll c l s
  | [], _, _, _, h, _ => by simp at h
  | [x], b, b', s, h, hd => by
    simp at h
    subst h
    simp [filterAll, regular, hd]
  | x :: y :: rest, b, b', s, h, hd => by
    simp only [List.cons_append, filterAll]
    exact filterAll_snoc_same c (y :: rest) b b' _ (by rw [← h]; simp [List.getLast?_cons_cons]) hd

theorem length_residuals (c : Ssm) : ∀ (l : List (Int × ℝ)) (s : St), (residuals c l s).length = l.length - 1
  | [], _ => rfl
  | [_], _ => rfl
  | a :: b :: rest, s => by
    simp only [residuals, List.length_cons, length_residuals c (b :: rest)]
    omega

theorem residuals_snoc_same (c : Ssm) : ∀ (l : List (Int × ℝ)) (b b' : Int × ℝ) (s : St), l.getLast? = some b →
    b'.1 = b.1 → residuals c (l ++ [b']) s = residuals c l s ++ [(filterAll c l s).vt]
  | [], _, _, _, h, _ => by simp at h
  | [x], b, b', s, h, hd => by
    simp at h
    subst h
    simp [residuals, filterAll, regular, hd]
  | x :: y :: rest, b, b', s, h, hd => by
    simp only [List.cons_append, residuals, filterAll]
    rw [← List.cons_append, residuals_snoc_same c (y :: rest) b b' _ (by rw [← h]; simp [List.getLast?_cons_cons]) hd]

theorem residuals_last (c : Ssm) : ∀ (l : List (Int × ℝ)) (s : St), 2 ≤ l.length →
    (residuals c l s).getLast? = some (filterAll c l s).vt
  | [], _, h => by simp at h
  | [_], _, h => by simp at h
  | [a, b], s, _ => by simp [residuals, filterAll]
  | a :: b :: d :: rest, s, _ => by
    have := residuals_last c (b :: d :: rest) (regular c a.2 a.1 b.1 s) (by simp)
    simp only [residuals, filterAll] at this ⊢
    rw [List.getLast?_cons_cons]
    exact this

end Pycold.Kalman
