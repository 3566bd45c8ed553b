import Mathlib.Analysis.Real.Pi.Bounds
import Mathlib.Data.List.GetD
import Mathlib.Tactic.Ring
import Mathlib.Tactic.FieldSimp
import Mathlib.Tactic.Linarith
import Mathlib.Tactic.Positivity
import Verif.Spec.ColdExact
import Verif.Spec.ColdV
import Verif.Proof.Misc
/-! The numerical functions in exact arithmetic. -/
namespace Pycold.ColdNum

open Pycold.ColdNum.Spec

/-! ### Curves -/

theorem lit_exact (n d : ℤ) : exact.lit n d = (n : ℝ) / d := rfl
theorem zero_exact : exact.zero = 0 := by show ((0 : ℤ) : ℝ) / ((1 : ℤ) : ℝ) = 0; simp
theorem w_exact : exact.w = 2 * Spec.PI / 365.25 := by
  show (((2 : ℤ) : ℝ) / ((1 : ℤ) : ℝ)) * Spec.PI / (((36525 : ℤ) : ℝ) / ((100 : ℤ) : ℝ)) = _
  norm_num

theorem design_exact (n t : ℤ) : design exact n t = regressors n (t : ℝ) := by
  unfold design regressors
  simp only [w_exact]
  have e2 : exact.lit 2 1 = 2 := by rw [lit_exact]; norm_num
  have e3 : exact.lit 3 1 = 3 := by rw [lit_exact]; norm_num
  rw [e2, e3]
  rfl

theorem predict_exact (n : ℤ) (c : List ℝ) (t : ℤ) (hn : n = 4 ∨ n = 6 ∨ n = 8)
    (hz : ∀ j : ℕ, n ≤ j → c.getD j 0 = 0) : predict exact n c t = storedCurve c (t : ℝ) := by
  have e2 : exact.lit 2 1 = 2 := by rw [lit_exact]; norm_num
  have e3 : exact.lit 3 1 = 3 := by rw [lit_exact]; norm_num
  have es : exact.slopeScale = 10000 := by unfold Fl.slopeScale; rw [lit_exact]; norm_num
  unfold predict storedCurve
  simp only [w_exact, e2, e3, es, zero_exact]
  show (if n ≥ 6 then _ else _) = _
  have m1 : (t : ℝ) * (2 * Spec.PI / 365.25) = 2 * Spec.PI / 365.25 * t := by ring
  have m2 : (t : ℝ) * (2 * (2 * Spec.PI / 365.25)) = 2 * (2 * Spec.PI / 365.25) * t := by ring
  have m3 : (t : ℝ) * (3 * (2 * Spec.PI / 365.25)) = 3 * (2 * Spec.PI / 365.25) * t := by ring
  rcases hn with rfl | rfl | rfl
  · rw [if_neg (by decide)]
    rw [hz 4 (by decide), hz 5 (by decide), hz 6 (by decide), hz 7 (by decide)]
    show c.getD 0 0 + c.getD 1 0 * (t : ℝ) / 10000 + c.getD 2 0 * Real.cos ((t : ℝ) * (2 * Spec.PI / 365.25)) +
      c.getD 3 0 * Real.sin ((t : ℝ) * (2 * Spec.PI / 365.25)) = _
    rw [m1]; ring
  · rw [if_pos (by decide), if_neg (by decide)]
    rw [hz 6 (by decide), hz 7 (by decide)]
    show c.getD 0 0 + c.getD 1 0 * (t : ℝ) / 10000 + c.getD 2 0 * Real.cos ((t : ℝ) * (2 * Spec.PI / 365.25)) +
      c.getD 3 0 * Real.sin ((t : ℝ) * (2 * Spec.PI / 365.25)) +
      c.getD 4 0 * Real.cos ((t : ℝ) * (2 * (2 * Spec.PI / 365.25))) +
      c.getD 5 0 * Real.sin ((t : ℝ) * (2 * (2 * Spec.PI / 365.25))) = _
    rw [m1, m2]; ring
  · rw [if_pos (by decide), if_pos (by decide)]
    show c.getD 0 0 + c.getD 1 0 * (t : ℝ) / 10000 + c.getD 2 0 * Real.cos ((t : ℝ) * (2 * Spec.PI / 365.25)) +
      c.getD 3 0 * Real.sin ((t : ℝ) * (2 * Spec.PI / 365.25)) +
      c.getD 4 0 * Real.cos ((t : ℝ) * (2 * (2 * Spec.PI / 365.25))) +
      c.getD 5 0 * Real.sin ((t : ℝ) * (2 * (2 * Spec.PI / 365.25))) +
      c.getD 6 0 * Real.cos ((t : ℝ) * (3 * (2 * Spec.PI / 365.25))) +
      c.getD 7 0 * Real.sin ((t : ℝ) * (3 * (2 * Spec.PI / 365.25))) = _
    rw [m1, m2, m3]; ring

theorem storeCoefs_length {F : Type} (A : Fl F) (n : ℤ) (s : List F) : (storeCoefs A n s).length = 8 := by
  simp [storeCoefs]

theorem storeCoefs_get (n : ℤ) (s : List ℝ) (j : ℕ) : (storeCoefs exact n s).getD j 0 =
    if j < 8 ∧ (j : ℤ) < n then (if j = 1 then s.getD 1 0 * 10000 else s.getD j 0) else 0 := by
  have es : exact.slopeScale = 10000 := by unfold Fl.slopeScale; rw [lit_exact]; norm_num
  unfold storeCoefs
  rw [List.getD_eq_getElem?_getD, List.getElem?_map]
  by_cases hj : j < 8
  · rw [List.getElem?_range hj]
    simp only [Option.map_some, Option.getD_some, zero_exact, es, hj, true_and]
    by_cases h1 : (j : ℤ) < n
    · rw [if_pos h1, if_pos h1]
      by_cases h2 : j = 1
      · subst h2; rw [if_pos rfl, if_pos rfl]; rfl
      · rw [if_neg h2, if_neg h2]
    · rw [if_neg h1, if_neg h1]
  · rw [List.getElem?_eq_none (by simp; omega), if_neg (by tauto)]
    rfl

theorem stored_solver (n : ℤ) (hn : n = 4 ∨ n = 6 ∨ n = 8) (s : List ℝ) (t : ℝ) :
    storedCurve (storeCoefs exact n s) t = solverCurve n s t := by
  unfold storedCurve solverCurve
  simp only [storeCoefs_get]
  rcases hn with rfl | rfl | rfl
  · simp [regressors, List.range_succ]; ring
  · simp [regressors, List.range_succ]; ring
  · simp [regressors, List.range_succ]; ring

theorem foldl_sq (f : ℝ → ℝ) (l : List ℝ) (a : ℝ) : l.foldl (fun s x => s + f x) a = a + (l.map f).sum := by
  induction l generalizing a with
  | nil => simp
  | cons x xs ih => rw [List.foldl_cons, ih, List.map_cons, List.sum_cons]; ring

theorem norm_exact (l : List ℝ) : norm exact l = Real.sqrt ((l.map (fun x => x ^ 2)).sum) := by
  unfold norm
  show Real.sqrt (l.foldl (fun s x => s + x * x) exact.zero) = _
  rw [foldl_sq (fun x => x * x), zero_exact, zero_add]
  congr 3
  funext x; ring

/-! ### Sorting and medians -/

/-- One fit: the stored coefficients, the residuals and the RMSE. -/
theorem fitBand_exact {B : Type} (E : Env ℝ B) (hA : E.A = exact) (n : Int) (hn : n = 4 ∨ n = 6 ∨ n = 8)
    (dates : List Int) (ys : List ℝ) :
    let s := E.lasso (dates.map (fun (t : Int) => regressors n (t : ℝ))) ys
    let f := fitBand E n dates ys
    f.coefs.length = 8 ∧ (∀ j : Nat, n ≤ j → f.coefs.getD j 0 = 0) ∧
    (∀ t : ℝ, storedCurve f.coefs t = solverCurve n s t) ∧
    f.dif = List.zipWith (fun y (t : Int) => y - solverCurve n s (t : ℝ)) ys dates ∧
    f.rmse = Real.sqrt ((f.dif.map (fun e => e ^ 2)).sum) / Real.sqrt (dates.length - n) := by
  have hd : dates.map (design E.A n) = dates.map (fun (t : Int) => regressors n (t : ℝ)) := by
    rw [hA]
    exact List.map_congr_left (fun t _ => design_exact n t)
  have hz : ∀ s : List ℝ, ∀ j : Nat, n ≤ j → (storeCoefs exact n s).getD j 0 = 0 := by
    intro s j hj
    rw [storeCoefs_get, if_neg (by omega)]
  dsimp only
  unfold fitBand
  rw [hd, hA]
  refine ⟨storeCoefs_length _ _ _, hz _, fun t => stored_solver n hn _ t, ?_, ?_⟩
  · dsimp only
    congr 1
    funext y t
    rw [predict_exact n _ t hn (hz _), stored_solver n hn]
    rfl
  · dsimp only
    rw [norm_exact]
    show _ / Real.sqrt (((dates.length : ℤ) - n : ℤ) : ℝ) = _
    push_cast
    rfl

theorem ltR_sw : Sort.Spec.StrictWeak (fun x y : ℝ × ℕ => exact.lt x.1 y.1) where
  irrefl := fun a => by show decide (a.1 < a.1) = false; simp
  trans := fun a b c h1 h2 => by
    have h1 : a.1 < b.1 := of_decide_eq_true h1
    have h2 : b.1 < c.1 := of_decide_eq_true h2
    show decide _ = true
    simpa using h1.trans h2
  cotrans := fun a b c h => by
    have h : a.1 < c.1 := of_decide_eq_true h
    show decide _ = true ∨ decide _ = true
    simp only [decide_eq_true_eq]
    rcases lt_or_ge a.1 b.1 with h' | h'
    · exact .inl h'
    · exact .inr (lt_of_le_of_lt h' h)

/-- The result of sorting: the positions in some order, keys not descending. -/
theorem sortOrder_spec (keys : List ℝ) :
    (sortOrder exact keys).Perm (List.range keys.length) ∧
      ((sortOrder exact keys).map (fun k => keys.getD k 0)).Pairwise (· ≤ ·) := by
  unfold sortOrder
  dsimp only
  by_cases hne : keys = []
  · subst hne
    have h0 : Sort.quickSort (K := ℝ × ℕ) (B := Unit) (fun x y => exact.lt x.1 y.1) 0 1
        { n := 0, nb := 0, arr := fun k => (([] : List ℝ).getD k.toNat exact.zero, k.toNat),
          brr := fun _ _ => () } 0 (-1) = .error .oob := by
      rw [Sort.quickSort, Sort.partition, Sort.rd]
      rfl
    simp only [List.length_nil, Nat.zero_add]
    rw [show (((0 : ℕ) : ℤ) - 1) = -1 from rfl, h0]
    simp
  · have hpos : 0 < keys.length := List.length_pos_iff.mpr hne
    obtain ⟨t, h1, h2, h3⟩ := Sort.quickSort_ok (fun x y : ℝ × ℕ => exact.lt x.1 y.1) ltR_sw.irrefl
      (keys.length + 1)
      ({ n := keys.length, nb := 0, arr := fun k => (keys.getD k.toNat exact.zero, k.toNat),
         brr := fun _ _ => () } : Sort.Arr (ℝ × ℕ) Unit) 0 ((keys.length : ℤ) - 1) (by omega) (by omega)
      (by show (keys.length : ℤ) - 1 < keys.length; omega) (by push_cast; omega)
    rw [h1]
    dsimp only
    have hw := Misc.permuted_window (m := keys.length) (by omega) h2
    have hsorted := h3 ltR_sw
    have e1 : (List.range keys.length).map (fun (k : ℕ) => (t.arr (k : ℤ)).2)
        = (Sort.Spec.window t.arr 0 keys.length).map Prod.snd := by
      simp [Sort.Spec.window]
    have e2 : (Sort.Spec.window (fun k : ℤ => (keys.getD k.toNat exact.zero, k.toNat)) 0 keys.length)
        = (List.range keys.length).map (fun k => (keys.getD k 0, k)) := by
      simp [Sort.Spec.window, zero_exact]
    have hw' : (Sort.Spec.window t.arr 0 keys.length).Perm
        ((List.range keys.length).map (fun k => (keys.getD k 0, k))) := by rw [← e2]; exact hw
    have hkey : ∀ p ∈ Sort.Spec.window t.arr 0 keys.length, p.1 = keys.getD p.2 0 := by
      intro p hp
      obtain ⟨k, _, rfl⟩ := List.mem_map.1 (hw'.mem_iff.1 hp)
      rfl
    refine ⟨?_, ?_⟩
    · rw [e1]
      refine (hw'.map Prod.snd).trans ?_
      rw [List.map_map]
      simp [Function.comp_def]
    · rw [e1, List.map_map]
      have e3 : (Sort.Spec.window t.arr 0 keys.length).map ((fun k => keys.getD k 0) ∘ Prod.snd)
          = (Sort.Spec.window t.arr 0 keys.length).map Prod.fst := by
        apply List.map_congr_left
        intro p hp
        exact (hkey p hp).symm
      rw [e3]
      unfold Sort.Spec.window
      rw [List.map_map, List.pairwise_map, List.pairwise_iff_getElem]
      intro i j hi hj hij
      simp only [List.length_range] at hi hj
      simp only [List.getElem_range, Function.comp, zero_add]
      have := hsorted (i : ℤ) (j : ℤ) (by omega) (by omega) (by omega)
      have : ¬ ((t.arr (j : ℤ)).1 < (t.arr (i : ℤ)).1) := of_decide_eq_false this
      exact not_lt.1 this

/-- Positions below a bound where a predicate holds are counted. -/
theorem count_take (l : List ℝ) (p : ℝ → Prop) [DecidablePred p] (n : ℕ) (hn : n ≤ l.length)
    (h : ∀ i (hi : i < l.length), i < n → p l[i]) : n ≤ l.countP (fun x => p x) := by
  have h1 : (l.take n).countP (fun x => p x) = n := by
    rw [List.countP_eq_length.2]
    · simp [hn]
    · intro x hx
      obtain ⟨i, hi, rfl⟩ := List.mem_iff_getElem.1 hx
      simp only [List.length_take] at hi
      simp only [List.getElem_take, decide_eq_true_eq]
      exact h i (by omega) (by omega)
  rw [← h1]
  exact (List.take_sublist n l).countP_le

theorem count_drop (l : List ℝ) (p : ℝ → Prop) [DecidablePred p] (n : ℕ)
    (h : ∀ i (hi : i < l.length), n ≤ i → p l[i]) : l.length - n ≤ l.countP (fun x => p x) := by
  have h1 : (l.drop n).countP (fun x => p x) = l.length - n := by
    rw [List.countP_eq_length.2]
    · simp
    · intro x hx
      obtain ⟨i, hi, rfl⟩ := List.mem_iff_getElem.1 hx
      simp only [List.length_drop] at hi
      simp only [List.getElem_drop, decide_eq_true_eq]
      exact h (n + i) (by omega) (by omega)
  rw [← h1]
  exact (List.drop_sublist n l).countP_le

theorem median_middle (l : List ℝ) (hl : l ≠ []) : Middle l (median exact l) := by
  obtain ⟨hp, hs⟩ := sortOrder_spec l
  have hpos : 0 < l.length := List.length_pos_iff.mpr hl
  generalize hS : (sortOrder exact l).map (fun k => l.getD k 0) = S at hs
  have hperm : S.Perm l := by
    rw [← hS]
    refine (hp.map _).trans (List.Perm.of_eq ?_)
    apply List.ext_getElem
    · simp
    · intro i h1 h2
      simp [List.getElem?_eq_getElem h2]
  have hlen : S.length = l.length := hperm.length_eq
  have hm : median exact l = (if l.length % 2 = 0 then
      (S.getD (l.length / 2 - 1) 0 + S.getD (l.length / 2) 0) / 2 else S.getD (l.length / 2) 0) := by
    unfold median
    simp only [zero_exact]
    rw [hS]
    have e2 : exact.lit 2 1 = 2 := by rw [lit_exact]; norm_num
    rw [e2]
    rfl
  have mono : ∀ i j (hi : i < S.length) (hj : j < S.length), i ≤ j → S[i] ≤ S[j] := by
    intro i j hi hj hij
    rcases Nat.lt_or_ge i j with h | h
    · exact (List.pairwise_iff_getElem.1 hs) i j hi hj h
    · have : i = j := by omega
      subst this; exact le_refl _
  unfold Middle
  rw [← hperm.countP_eq, ← hperm.countP_eq, hm, ← hlen]
  have hpos : 0 < S.length := by omega
  by_cases he : S.length % 2 = 0
  · rw [if_pos he]
    have hlt : S.length / 2 < S.length := by omega
    have hlt' : S.length / 2 - 1 < S.length := by omega
    rw [List.getD_eq_getElem _ _ hlt, List.getD_eq_getElem _ _ hlt']
    have hxy := mono _ _ hlt' hlt (by omega)
    constructor
    · have := count_take S (fun x => x ≤ (S[S.length / 2 - 1] + S[S.length / 2]) / 2) (S.length / 2)
        (by omega) (fun i hi h => by
          have := mono i (S.length / 2 - 1) hi hlt' (by omega)
          linarith)
      omega
    · have := count_drop S (fun x => (S[S.length / 2 - 1] + S[S.length / 2]) / 2 ≤ x) (S.length / 2)
        (fun i hi h => by
          have := mono (S.length / 2) i hlt hi (by omega)
          linarith)
      omega
  · rw [if_neg he]
    have hlt : S.length / 2 < S.length := by omega
    rw [List.getD_eq_getElem _ _ hlt]
    constructor
    · have := count_take S (fun x => x ≤ S[S.length / 2]) (S.length / 2 + 1)
        (by omega) (fun i hi h => mono i (S.length / 2) hi hlt (by omega))
      omega
    · have := count_drop S (fun x => S[S.length / 2] ≤ x) (S.length / 2)
        (fun i hi h => mono (S.length / 2) i hlt hi (by omega))
      omega

/-! ### Angles and change magnitudes -/

/-- The program's literal is not below π. -/
theorem pi_le : Real.pi ≤ Spec.PI := by
  refine Real.pi_lt_d20.le.trans ?_
  unfold Spec.PI
  norm_num

theorem angle2_range (u v : List ℝ) : 0 ≤ angle2 exact u v ∧ angle2 exact u v ≤ 180 := by
  unfold angle2
  have e : exact.lit 180 1 = 180 := by rw [lit_exact]; norm_num
  rw [e]
  show 0 ≤ Real.arccos _ * 180 / Spec.PI ∧ Real.arccos _ * 180 / Spec.PI ≤ 180
  generalize hx : Real.arccos _ = x
  have h0 : 0 ≤ x := hx ▸ Real.arccos_nonneg _
  have h1 : x ≤ Spec.PI := (hx ▸ Real.arccos_le_pi _ : x ≤ Real.pi).trans pi_le
  have hp : 0 < Spec.PI := lt_of_lt_of_le Real.pi_pos pi_le
  refine ⟨by positivity, ?_⟩
  rw [div_le_iff₀ hp]
  linarith

theorem foldl_range (l : List (List ℝ × List ℝ)) (a : ℝ) :
    a ≤ l.foldl (fun s p => exact.add s (angle2 exact p.1 p.2)) a ∧
      l.foldl (fun s p => exact.add s (angle2 exact p.1 p.2)) a ≤ a + 180 * l.length := by
  induction l generalizing a with
  | nil => simp
  | cons x xs ih =>
    rw [List.foldl_cons, List.length_cons]
    have h := ih (exact.add a (angle2 exact x.1 x.2))
    have h2 := angle2_range x.1 x.2
    have h3 : exact.add a (angle2 exact x.1 x.2) = a + angle2 exact x.1 x.2 := rfl
    generalize List.foldl _ _ xs = q at *
    rw [h3] at h
    push_cast
    constructor <;> linarith

theorem div_exact (a b : ℝ) : exact.div a b = a / b := rfl

theorem ofInt_exact (n : ℤ) : exact.ofInt n = (n : ℝ) := rfl

theorem meanAngle_range (vs : List (List ℝ)) : 0 ≤ meanAngle exact vs ∧ meanAngle exact vs ≤ 180 := by
  unfold meanAngle
  split
  · rename_i h
    have hf := foldl_range (List.zip vs vs.tail) exact.zero
    have hl : (List.zip vs vs.tail).length = vs.length - 1 := by simp
    rw [hl] at hf
    rw [div_exact, ofInt_exact]
    generalize List.foldl _ exact.zero (List.zip vs vs.tail) = q at *
    rw [zero_exact] at hf
    have hn : (0 : ℝ) < ((vs.length : ℤ) - 1 : ℤ) := by
      have : (0 : ℤ) < (vs.length : ℤ) - 1 := by omega
      exact_mod_cast this
    have hc : ((vs.length - 1 : ℕ) : ℝ) = (((vs.length : ℤ) - 1 : ℤ) : ℝ) := by
      rw [Nat.cast_sub (by omega)]; push_cast; rfl
    rw [hc] at hf
    refine ⟨div_nonneg hf.1 hn.le, ?_⟩
    rw [div_le_iff₀ hn]
    linarith [hf.2]
  · rw [zero_exact]; norm_num

theorem decay_eq (x : ℝ) : angleDecaying exact x (exact.lit 45 1) (exact.lit 90 1) =
    if x < 45 then 1 else if 90 < x then 0 else 1 - (x - 45) / 45 := by
  have e1 : exact.lit 45 1 = 45 := by rw [lit_exact]; norm_num
  have e2 : exact.lit 90 1 = 90 := by rw [lit_exact]; norm_num
  have e3 : exact.lit 1 1 = 1 := by rw [lit_exact]; norm_num
  have e4 : exact.lit 0 1 = 0 := by rw [lit_exact]; norm_num
  unfold angleDecaying
  rw [e1, e2, e3, e4]
  show (if decide (x < 45) = true then (1 : ℝ) else if decide (90 < x) = true then 0 else
    1 - 1 / (90 - 45) * (x - 45)) = _
  simp only [decide_eq_true_eq]
  split
  · rfl
  · split
    · rfl
    · ring

theorem decay_range (x : ℝ) : 0 ≤ angleDecaying exact x (exact.lit 45 1) (exact.lit 90 1) ∧
    angleDecaying exact x (exact.lit 45 1) (exact.lit 90 1) ≤ 1 := by
  rw [decay_eq]
  split
  · norm_num
  · split
    · norm_num
    · rename_i h1 h2
      constructor <;> linarith

theorem decay_antitone {x y : ℝ} (h : x ≤ y) :
    angleDecaying exact y (exact.lit 45 1) (exact.lit 90 1) ≤
      angleDecaying exact x (exact.lit 45 1) (exact.lit 90 1) := by
  rw [decay_eq, decay_eq]
  split_ifs <;> linarith

theorem round_nonneg {x : ℝ} (h : 0 ≤ x) : 0 ≤ exact.round x := by
  show 0 ≤ (if 0 ≤ x then ((⌊x + 1 / 2⌋ : ℤ) : ℝ) else _)
  rw [if_pos h]
  have : (0 : ℤ) ≤ ⌊x + 1 / 2⌋ := Int.floor_nonneg.2 (by linarith)
  exact_mod_cast this

theorem trunc_nonneg {x : ℝ} (h : 0 ≤ x) : 0 ≤ exact.trunc x := by
  show 0 ≤ (if 0 ≤ x then ⌊x⌋ else ⌈x⌉)
  rw [if_pos h]
  exact Int.floor_nonneg.2 h

theorem cmVal_nonneg (x : ℝ) {mag : ℝ} (h : 0 ≤ mag) : 0 ≤ cmVal exact x mag := by
  unfold cmVal
  apply trunc_nonneg
  apply round_nonneg
  have e : exact.lit 100 1 = 100 := by rw [lit_exact]; norm_num
  rw [e]
  show 0 ≤ angleDecaying exact x (exact.lit 45 1) (exact.lit 90 1) * mag * 100
  have := (decay_range x).1
  positivity

theorem sumSq_nonneg {B : Type} (f : B → ℝ) (l : List B) (a : ℝ) (ha : 0 ≤ a) :
    0 ≤ l.foldl (fun s b => s + f b * f b) a := by
  induction l generalizing a with
  | nil => exact ha
  | cons x xs ih => exact ih _ (by nlinarith [mul_self_nonneg (f x)])

variable {B : Type}

theorem zColumn_nonneg (E : Env ℝ B) (hA : E.A = exact) (rmin rmse dif : B → ℝ) :
    0 ≤ (zColumn E rmin rmse dif).1 := by
  unfold zColumn
  rw [hA]
  exact sumSq_nonneg _ _ _ (by rw [zero_exact])

theorem minMag_nonneg (N : Cold.Num ℝ (List ℝ)) (hb : 0 ≤ N.big) (l : List ℝ) (h : ∀ x ∈ l, 0 ≤ x) :
    0 ≤ Cold.minMag N l := by
  unfold Cold.minMag
  generalize N.big = a at hb
  induction l generalizing a with
  | nil => exact hb
  | cons x xs ih =>
    rw [List.foldl_cons]
    apply ih (fun y hy => h y (List.mem_cons_of_mem _ hy))
    split
    · exact h x (List.mem_cons_self ..)
    · exact hb

/-- Values offered for the change-magnitude output are between 0 and 32767. -/
theorem offered_range (E : Env ℝ B) (hA : E.A = exact) (rmin : B → ℝ) {v : ℤ}
    (h : ColdV.Spec.Offered (kit E rmin) v) : 0 ≤ v ∧ v ≤ 32767 := by
  obtain ⟨w, hw, rfl⟩ := h
  have h0 : 0 ≤ ColdV.cmRaw (kit E rmin) w := by
    unfold ColdV.cmRaw
    show 0 ≤ cmVal E.A _ _
    rw [hA]
    apply cmVal_nonneg
    apply minMag_nonneg
    · show 0 ≤ E.A.lit 9999 1
      rw [hA, lit_exact]; norm_num
    · intro x hx
      obtain ⟨c, hc, rfl⟩ := List.mem_map.1 hx
      rcases hw c hc with ⟨n, m, he⟩ | ⟨n, q, m, m', ds, he⟩
      · rw [he]; exact zColumn_nonneg E hA _ _ _
      · rw [he]; exact zColumn_nonneg E hA _ _ _
  unfold Cold.toShort
  split
  · decide
  · rw [Int.bmod_eq_of_le (by omega) (by omega)]
    omega

/-! ### Residuals nearest in the year -/

theorem round_near (x : ℝ) (k : ℤ) : |exact.round x - x| ≤ |(k : ℝ) - x| := by
  obtain ⟨n, hn, hh⟩ : ∃ n : ℤ, exact.round x = n ∧ |(n : ℝ) - x| ≤ 1 / 2 := by
    by_cases h : 0 ≤ x
    · refine ⟨⌊x + 1 / 2⌋, ?_, ?_⟩
      · show (if 0 ≤ x then ((⌊x + 1 / 2⌋ : ℤ) : ℝ) else _) = _
        rw [if_pos h]
      · have h1 := Int.floor_le (x + 1 / 2)
        have h2 := Int.lt_floor_add_one (x + 1 / 2)
        rw [abs_le]; constructor <;> linarith
    · refine ⟨-⌊-x + 1 / 2⌋, ?_, ?_⟩
      · show (if 0 ≤ x then ((⌊x + 1 / 2⌋ : ℤ) : ℝ) else _) = _
        rw [if_neg h]; push_cast; rfl
      · have h1 := Int.floor_le (-x + 1 / 2)
        have h2 := Int.lt_floor_add_one (-x + 1 / 2)
        rw [abs_le]; push_cast; constructor <;> linarith
  rw [hn]
  by_cases hk : k = n
  · rw [hk]
  · have h1 : (1 : ℝ) ≤ |(k : ℝ) - n| := by
      have : 1 ≤ |k - n| := Int.one_le_abs (sub_ne_zero.2 hk)
      exact_mod_cast this
    have h2 : |(k : ℝ) - n| ≤ |(k : ℝ) - x| + |(n : ℝ) - x| := by
      have := abs_sub_le (k : ℝ) x n
      rwa [abs_sub_comm x (n : ℝ)] at this
    linarith

theorem dYr_exact (t u : ℤ) : dYr exact t u = yearDistance t u := by
  have e : exact.lit 36525 100 = 365.25 := by rw [lit_exact]; norm_num
  unfold dYr yearDistance
  rw [e]
  show |exact.round (((t - u : ℤ) : ℝ) / 365.25) * 365.25 - ((t - u : ℤ) : ℝ)| = _
  generalize ((t - u : ℤ) : ℝ) = d
  have key : ∀ y : ℝ, |y * 365.25 - d| = |y - d / 365.25| * 365.25 := by
    intro y
    rw [show y * 365.25 - d = (y - d / 365.25) * 365.25 by ring, abs_mul]
    congr 1
    exact abs_of_pos (by norm_num)
  apply le_antisymm
  · apply le_ciInf
    intro k
    rw [abs_sub_comm d, key, key]
    exact mul_le_mul_of_nonneg_right (round_near _ k) (by norm_num)
  · have hb : BddBelow (Set.range fun k : ℤ => |d - k * 365.25|) := ⟨0, by rintro _ ⟨k, rfl⟩; exact abs_nonneg _⟩
    obtain ⟨n, hn⟩ : ∃ n : ℤ, exact.round (d / 365.25) = n := by
      by_cases h : 0 ≤ d / 365.25
      · exact ⟨⌊d / 365.25 + 1 / 2⌋, by
          show (if 0 ≤ d / 365.25 then _ else _) = _; rw [if_pos h]⟩
      · exact ⟨-⌊-(d / 365.25) + 1 / 2⌋, by
          show (if 0 ≤ d / 365.25 then _ else _) = _; rw [if_neg h]; push_cast; rfl⟩
    rw [hn, abs_sub_comm]
    exact ciInf_le hb n

/-- The positions used for the RMSE near an observation: no position left out is nearer in the year. -/
theorem near_selects (dates : List ℤ) (u : ℤ) (n : ℕ) :
    let sel := (sortOrder exact (dates.map (fun t => dYr exact t u))).take n
    sel.Nodup ∧ (∀ i ∈ sel, i < dates.length) ∧ sel.length = min n dates.length ∧
      ∀ i ∈ sel, ∀ j, j < dates.length → j ∉ sel →
        yearDistance (dates.getD i 0) u ≤ yearDistance (dates.getD j 0) u := by
  obtain ⟨hp, hs⟩ := sortOrder_spec (dates.map (fun t => dYr exact t u))
  rw [List.length_map] at hp
  generalize sortOrder exact (dates.map (fun t => dYr exact t u)) = ord at hp hs
  dsimp only
  have hnd : ord.Nodup := hp.nodup_iff.2 List.nodup_range
  have hmem : ∀ i, i ∈ ord ↔ i < dates.length := by
    intro i; rw [hp.mem_iff, List.mem_range]
  refine ⟨(List.take_sublist n ord).nodup hnd, ?_, ?_, ?_⟩
  · intro i hi
    exact (hmem i).1 (List.mem_of_mem_take hi)
  · rw [List.length_take, hp.length_eq, List.length_range]
  · intro i hi j hj hj'
    have hj2 : j ∈ ord.drop n := by
      have : j ∈ ord.take n ++ ord.drop n := by rw [List.take_append_drop]; exact (hmem j).2 hj
      rcases List.mem_append.1 this with h | h
      · exact absurd h hj'
      · exact h
    have hpw : (ord.take n ++ ord.drop n).Pairwise (fun a b =>
        (dates.map (fun t => dYr exact t u)).getD a 0 ≤ (dates.map (fun t => dYr exact t u)).getD b 0) := by
      rw [List.take_append_drop]
      exact List.pairwise_map.1 hs
    have h := (List.pairwise_append.1 hpw).2.2 i hi j hj2
    have hi2 := (hmem i).1 (List.mem_of_mem_take hi)
    rw [List.getD_eq_getElem _ _ (by simpa using hi2), List.getD_eq_getElem _ _ (by simpa using hj)] at h
    rw [List.getElem_map, List.getElem_map, dYr_exact, dYr_exact] at h
    rw [List.getD_eq_getElem _ _ hi2, List.getD_eq_getElem _ _ hj]
    exact h

/-! ### Prediction in Python -/

theorem predictRef_exact (c : List ℝ) (t : ℤ) (n : ℕ) (hn : n = 4 ∨ n = 6 ∨ n = 8) (hl : c.length = n) :
    predictRef exact c (t : ℝ) n = some (predict exact (n : ℤ) c t) := by
  have hz : ∀ j : ℕ, (n : ℤ) ≤ j → c.getD j 0 = 0 := by
    intro j hj
    rw [List.getD_eq_getElem?_getD, List.getElem?_eq_none (by omega)]
    rfl
  rw [predict_exact (n : ℤ) c t (by omega) hz]
  have e1 : exact.lit 1 1 = 1 := by rw [lit_exact]; norm_num
  have e2 : exact.lit 2 1 = 2 := by rw [lit_exact]; norm_num
  have e3 : exact.lit 3 1 = 3 := by rw [lit_exact]; norm_num
  have e4 : exact.lit 10000 1 = 10000 := by rw [lit_exact]; norm_num
  have ew : exact.div (exact.mul 2 exact.pi) (exact.lit 36525 100) = 2 * Spec.PI / 365.25 := by
    rw [← w_exact, ← e2]; rfl
  unfold predictRef coefficientMatrix storedCurve
  simp only [e1, e2, e3, e4, ew, zero_exact]
  have hlen : ∀ f : ℕ → ℝ, ((List.range n).map f).length = c.length := by intro f; simp [hl]
  rw [if_pos (hlen _)]
  congr 1
  show List.foldl (fun (s : ℝ) (p : ℝ × ℝ) => s + p.1 * p.2) 0 _ = _
  rcases hn with rfl | rfl | rfl
  · match c, hl with
    | [a, b, d, e], _ =>
      simp [List.range_succ]
      show _ = _
      simp only [show exact.cos = Real.cos from rfl, show exact.sin = Real.sin from rfl,
        show exact.mul = (· * ·) from rfl, show exact.div = (· / ·) from rfl]
      ring
  · match c, hl with
    | [a, b, d, e, f, g], _ =>
      simp [List.range_succ]
      show _ = _
      simp only [show exact.cos = Real.cos from rfl, show exact.sin = Real.sin from rfl,
        show exact.mul = (· * ·) from rfl, show exact.div = (· / ·) from rfl]
      ring
  · match c, hl with
    | [a, b, d, e, f, g, h, i], _ =>
      simp [List.range_succ]
      show _ = _
      simp only [show exact.cos = Real.cos from rfl, show exact.sin = Real.sin from rfl,
        show exact.mul = (· * ·) from rfl, show exact.div = (· / ·) from rfl]
      ring

end Pycold.ColdNum
