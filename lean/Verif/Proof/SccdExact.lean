import Verif.Spec.SccdExact
import Verif.Proof.ColdNumEnd
import Verif.Proof.SccdErase
import Verif.Proof.SccdTrack
/-!
# S-CCD in exact arithmetic
-/
namespace Pycold.SccdNum
open Pycold.ColdNum (Fl)
open Pycold.ColdNum.Spec (exact storedCurve Middle)
open Pycold.SccdNum.Spec
open Pycold.Sccd (Obs FilterOf ClosedBy follow tracked isChange allAbove Asc)
variable {P : Type}

/-! ### Six coefficients -/

theorem regular_short (E : Env ℝ P (Fin 6)) (H y : ℝ) (t u : Int) (r : Run ℝ P) (h : r.cft.length ≤ 6) :
    (regular E H y t u r).cft.length ≤ 6 := by
  unfold regular
  split
  · exact h
  · simp [toCoef]

theorem ssmRun_short (E : Env ℝ P (Fin 6)) (H : ℝ) : ∀ (l : List (Int × ℝ)) (k : Nat) (r : Run ℝ P) (s : Int),
    r.cft.length ≤ 6 → (ssmRun E H l k r s).1.cft.length ≤ 6
  | [], _, _, _, h => by unfold ssmRun; exact h
  | [_], _, _, _, h => by unfold ssmRun; exact h
  | a :: b :: l, k, r, s, h => by
    unfold ssmRun
    exact ssmRun_short E H (b :: l) _ _ _ (regular_short E H _ _ _ _ h)

theorem filter_short (E : Env ℝ P (Fin 6)) (f : Fin 6 → BandState ℝ P) (o : Obs) (d : Int)
    (h : ∀ b, (f b).cft.length ≤ 6) (b : Fin 6) : (filter E f o d b).cft.length ≤ 6 :=
  regular_short E _ _ _ _ _ (h b)

theorem follow_short (E : Env ℝ P (Fin 6)) (rmin : Fin 6 → Int) (nx : Obs) :
    ∀ (l : List Obs) (f : Fin 6 → BandState ℝ P), (∀ b, (f b).cft.length ≤ 6) →
      ∀ b, (follow (num E rmin) f l nx b).cft.length ≤ 6
  | [], _, h => h
  | o :: os, f, h => by
    unfold follow
    exact follow_short E rmin nx os _ (filter_short E f o _ h)

theorem fit_short (E : Env ℝ P (Fin 6)) (p : Option (Fin 6 → BandState ℝ P)) (w : List Obs) (nx : Obs) (b : Fin 6) :
    (fit E p w nx b).cft.length ≤ 6 := by
  unfold fit ssmInit
  refine ssmRun_short E _ _ _ _ _ ?_
  simp only [cftOf, List.length_take]
  omega

theorem FilterOf.short {E : Env ℝ P (Fin 6)} {rmin : Fin 6 → Int} {p : Option (Fin 6 → BandState ℝ P)}
    {seg : List Obs} {nx : Obs} {f : Fin 6 → BandState ℝ P} (h : FilterOf (num E rmin) p seg nx f) (b : Fin 6) :
    (f b).cft.length ≤ 6 := by
  obtain ⟨k, _, _, _, rfl⟩ := h
  exact follow_short E rmin nx _ _ (fit_short E p _ _) b

theorem predict_six {c : List ℝ} (h : c.length ≤ 6) (t : Int) : ColdNum.predict exact 6 c t = storedCurve c (t : ℝ) :=
  ColdNum.predict_exact 6 c t (.inr (.inl rfl)) (fun j hj => by
    rw [List.getD_eq_getElem?_getD, List.getElem?_eq_none (by omega)]; rfl)

/-- The expected observation of the state is the value of the curve. -/
theorem state_curve {c : List ℝ} (h : c.length ≤ 6) (t : Int) :
    (toState exact c t).getD 0 0 + (toState exact c t).getD 2 0 + (toState exact c t).getD 4 0 =
      storedCurve c (t : ℝ) := by
  have h6 : c.getD 6 0 = 0 := by rw [List.getD_eq_getElem?_getD, List.getElem?_eq_none (by omega)]; rfl
  have h7 : c.getD 7 0 = 0 := by rw [List.getD_eq_getElem?_getD, List.getElem?_eq_none (by omega)]; rfl
  have e2 : exact.lit 2 1 = 2 := by rw [ColdNum.lit_exact]; norm_num
  have es : exact.slopeScale = 10000 := by unfold Fl.slopeScale; rw [ColdNum.lit_exact]; norm_num
  unfold toState storedCurve
  simp only [ColdNum.w_exact, e2, es, ColdNum.zero_exact, h6, h7]
  show (c.getD 0 0 + (t : ℝ) * c.getD 1 0 / 10000) +
    (c.getD 2 0 * Real.cos ((t : ℝ) * (2 * ColdNum.Spec.PI / 365.25)) + c.getD 3 0 * Real.sin ((t : ℝ) * (2 * ColdNum.Spec.PI / 365.25))) +
    (c.getD 4 0 * Real.cos ((t : ℝ) * 2 * (2 * ColdNum.Spec.PI / 365.25)) + c.getD 5 0 * Real.sin ((t : ℝ) * 2 * (2 * ColdNum.Spec.PI / 365.25))) = _
  have e1 : (t : ℝ) * (2 * ColdNum.Spec.PI / 365.25) = 2 * ColdNum.Spec.PI / 365.25 * t := by ring
  have e3 : (t : ℝ) * 2 * (2 * ColdNum.Spec.PI / 365.25) = 2 * (2 * ColdNum.Spec.PI / 365.25) * t := by ring
  rw [e1, e3]
  ring

/-! ### The change test -/

section
variable (lasso robust : List (List ℝ) → List ℝ → List ℝ) (tcg gate pred junk : ℝ)
  (valid : ℝ → ℝ → List ℝ → P → List ℝ × P × ℝ) (missing resetP narrowP : P → P) (zeroP : P)

local notation "EE" => program exact lasso robust tcg gate pred junk valid missing resetP narrowP zeroP

theorem difs_resid (f : Fin 6 → BandState ℝ P) (o : Obs) (b : Fin 6) (h : (f b).cft.length ≤ 6) :
    difs EE f o b = resid (f b).cft b o := by
  unfold difs
  show (value EE b o : ℝ) - ColdNum.predict exact 6 (f b).cft o.date = _
  rw [predict_six h]
  rfl

theorem max_exact (a b : ℝ) : exact.max a b = max a b := by
  unfold Fl.max
  show (if decide (b < a) = true then a else b) = _
  by_cases h : b < a
  · rw [if_pos (by simpa using h), max_eq_left h.le]
  · rw [if_neg (by simpa using h), max_eq_right (not_lt.mp h)]

theorem score_exact (rmin : Fin 6 → Int) (f : Fin 6 → BandState ℝ P) (n df : Int) (o : Obs)
    (h : ∀ b, (f b).cft.length ≤ 6) :
    (score EE rmin f n df o).1 =
      ((scaled (fun b => (f b).cft) (fun b => max (rmin b : ℝ) (noise EE f n df b)) o).map (· ^ 2)).sum ∧
    (score EE rmin f n df o).2.1 =
      scaled (fun b => (f b).cft) (fun b => max (rmin b : ℝ) (noise EE f n df b)) o := by
  have hz : ∀ b, exact.div (difs EE f o b) (exact.max (exact.ofInt (rmin b)) (noise EE f n df b)) =
      resid (f b).cft b o / max (rmin b : ℝ) (noise EE f n df b) := by
    intro b
    rw [difs_resid _ _ _ _ _ _ _ _ _ _ _ f o b (h b), max_exact]
    rfl
  constructor
  · show List.foldl (fun s b => s + (exact.div (difs EE f o b) (exact.max (exact.ofInt (rmin b)) (noise EE f n df b))) *
      (exact.div (difs EE f o b) (exact.max (exact.ofInt (rmin b)) (noise EE f n df b)))) exact.zero tested = _
    simp only [hz, ColdNum.zero_exact]
    simp only [scaled, tested, List.foldl_cons, List.foldl_nil, List.map_cons, List.map_nil, List.sum_cons, List.sum_nil]
    ring
  · show List.map (fun b => exact.div (difs EE f o b) (exact.max (exact.ofInt (rmin b)) (noise EE f n df b))) tested = _
    simp only [hz]
    rfl

end

theorem dot_exact (u v : List ℝ) :
    (List.zip u v).foldl (fun s p => exact.add s (exact.mul p.1 p.2)) exact.zero = dot u v := by
  have key : ∀ (l : List (ℝ × ℝ)) (a : ℝ), l.foldl (fun s p => exact.add s (exact.mul p.1 p.2)) a =
      a + (l.map (fun p => p.1 * p.2)).sum := by
    intro l
    induction l with
    | nil => intro a; simp
    | cons x xs ih =>
      intro a
      rw [List.foldl_cons, ih, List.map_cons, List.sum_cons]
      show a + x.1 * x.2 + _ = _
      ring
  rw [key, ColdNum.zero_exact, zero_add]
  unfold dot
  congr 1
  induction u generalizing v with
  | nil => simp
  | cons x xs ih => cases v with
    | nil => simp
    | cons y ys => simp [ih]

theorem angle2_exact (u v : List ℝ) : ColdNum.angle2 exact u v = degrees u v := by
  unfold ColdNum.angle2 degrees
  simp only [dot_exact]
  show Real.arccos (dot u v / (Real.sqrt (dot u u) * Real.sqrt (dot v v))) * exact.lit 180 1 / ColdNum.Spec.PI = _
  rw [ColdNum.lit_exact]
  norm_num

theorem meanAngle_exact (vs : List (List ℝ)) (h : 1 < vs.length) : ColdNum.meanAngle exact vs = meanTurn vs := by
  unfold ColdNum.meanAngle meanTurn
  rw [if_pos h]
  have key : ∀ (l : List (List ℝ × List ℝ)) (a : ℝ), l.foldl (fun s p => exact.add s (ColdNum.angle2 exact p.1 p.2)) a =
      a + (l.map (fun p => degrees p.1 p.2)).sum := by
    intro l
    induction l with
    | nil => intro a; simp
    | cons x xs ih =>
      intro a
      rw [List.foldl_cons, ih, List.map_cons, List.sum_cons, angle2_exact]
      show a + _ + _ = _
      ring
  rw [key, ColdNum.zero_exact, zero_add]
  show _ / (((vs.length : ℤ) - 1 : ℤ) : ℝ) = _
  push_cast
  congr 2
  exact List.map_zip_eq_zipWith

theorem allAbove_all {V F R : Type} {N : Sccd.Num V F R}
    (ht : ∀ a b c, N.lt a b = false → N.lt b c = false → N.lt a c = false)
    (f : F) (n : Int) :
    ∀ (win : List Obs) (m : V), allAbove N f n m win = true → ∀ o ∈ win, N.lt (N.mag f n o) N.tcg = false
  | [], _, _, _, ho => by simp at ho
  | x :: xs, m, h, o, ho => by
    unfold allAbove at h
    dsimp only at h
    by_cases h2 : N.lt (N.mag f n x) m = true
    · rw [if_pos h2] at h
      by_cases h1 : N.lt (N.mag f n x) N.tcg = true
      · rw [if_pos h1] at h; cases h
      · rw [if_neg h1] at h
        rcases List.mem_cons.mp ho with rfl | ho
        · simpa using h1
        · exact allAbove_all ht f n xs _ h o ho
    · rw [if_neg h2] at h
      by_cases h1 : N.lt m N.tcg = true
      · rw [if_pos h1] at h; cases h
      · rw [if_neg h1] at h
        rcases List.mem_cons.mp ho with rfl | ho
        · exact ht _ _ _ (by simpa using h2) (by simpa using h1)
        · exact allAbove_all ht f n xs _ h o ho

section
variable (lasso robust : List (List ℝ) → List ℝ → List ℝ) (tcg gate pred junk : ℝ)
  (valid : ℝ → ℝ → List ℝ → P → List ℝ × P × ℝ) (missing resetP narrowP : P → P) (zeroP : P)

local notation "EE" => program exact lasso robust tcg gate pred junk valid missing resetP narrowP zeroP

theorem change_exact (rmin : Fin 6 → Int) (f : Fin 6 → BandState ℝ P) (n : Int) (win : List Obs)
    (h : ∀ b, (f b).cft.length ≤ 6) (hw : win ≠ []) (hc : isChange (num EE rmin) f n win = true)
    (body : Body ℝ (Fin 6)) (hb : body = (num EE rmin).changeRec f n win) :
    (∀ b, Middle (win.map (resid (body.coefs b) b)) (body.magn b)) ∧
    (∀ o ∈ win, tcg ≤ ((scaled body.coefs (fun b => max (rmin b : ℝ) (body.rmse b)) o).map (· ^ 2)).sum) ∧
    (1 < win.length →
      meanTurn (win.map (scaled body.coefs (fun b => max (rmin b : ℝ) (body.rmse b)))) ≤ 45) := by
  subst hb
  unfold isChange at hc
  rw [Bool.and_eq_true] at hc
  obtain ⟨h1, h2⟩ := hc
  refine ⟨fun b => ?_, fun o ho => ?_, fun hl => ?_⟩
  · have e : win.map (fun o => difs EE f o b) = win.map (resid (f b).cft b) :=
      List.map_congr_left (fun o _ => difs_resid _ _ _ _ _ _ _ _ _ _ _ f o b (h b))
    show Middle (win.map (resid (f b).cft b)) (ColdNum.median exact (win.map (fun o => difs EE f o b)))
    rw [e]
    exact ColdNum.median_middle _ (by simpa using hw)
  · have := allAbove_all (N := num EE rmin) (by
      intro a b c hab hbc
      have hab' : decide (a < b) = false := hab
      have hbc' : decide (b < c) = false := hbc
      show decide (a < c) = false
      rw [decide_eq_false_iff_not, not_lt] at *
      exact hbc'.trans hab') f n win _ h1 o ho
    have h3 : decide ((score EE rmin f n 6 o).1 < tcg) = false := this
    rw [decide_eq_false_iff_not, not_lt, (score_exact lasso robust tcg gate pred junk valid missing resetP narrowP zeroP rmin f n 6 o h).1] at h3
    exact h3
  · have h3 : (!decide (exact.lit 45 1 < ColdNum.meanAngle exact (win.map (fun o => (score EE rmin f n 6 o).2.1)))) = true := h2
    have e : win.map (fun o => (score EE rmin f n 6 o).2.1) =
        win.map (scaled (fun b => (f b).cft) (fun b => max (rmin b : ℝ) (noise EE f n 6 b))) :=
      List.map_congr_left (fun o _ =>
        (score_exact lasso robust tcg gate pred junk valid missing resetP narrowP zeroP rmin f n 6 o h).2)
    rw [e, meanAngle_exact _ (by simpa using hl), ColdNum.lit_exact] at h3
    simp only [Bool.not_eq_true', decide_eq_false_iff_not, not_lt] at h3
    refine h3.trans ?_
    norm_num

end

/-! ### The filter along its observations -/

/-- The filter led over `l`, the last step to `x`. -/
def pass (E : Env ℝ P (Fin 6)) (H : ℝ) : List (Int × ℝ) → Int × ℝ → Run ℝ P → Run ℝ P
  | [], _, r => r
  | a :: l, x, r => pass E H l x (regular E H a.2 a.1 (l.headD x).1 r)

theorem ssmRun_append (E : Env ℝ P (Fin 6)) (H : ℝ) (x : Int × ℝ) (t : List (Int × ℝ)) :
    ∀ (l : List (Int × ℝ)) (r : Run ℝ P) (s : Int),
      ssmRun E H (l ++ x :: t) l.length r s = ssmRun E H (x :: t) 0 (pass E H l x r) s
  | [], _, _ => rfl
  | [a], r, s => by
    rw [List.singleton_append, ssmRun]
    simp [pass]
  | a :: b :: l, r, s => by
    have := ssmRun_append E H x t (b :: l) (regular E H a.2 a.1 b.1 r) s
    rw [List.cons_append, List.cons_append, ssmRun, pass]
    simp only [List.length_cons, Nat.add_sub_cancel, List.headD_cons, Nat.add_eq_zero_iff, one_ne_zero, and_false,
      if_false]
    exact this

theorem regular_vt (E : Env ℝ P (Fin 6)) (H y : ℝ) (t u : Int) (htu : t < u) (r r' : Run ℝ P)
    (h1 : r.cft = r'.cft) (h2 : r.cov = r'.cov) : regular E H y t u r = regular E H y t u r' := by
  unfold regular
  obtain ⟨n, hn⟩ : ∃ n, (u - t).toNat = n + 1 := ⟨(u - t).toNat - 1, by omega⟩
  rw [hn]
  simp only [h1, h2]

theorem trunc_add (s : Int) (hs : 0 ≤ s) (v : ℝ) : exact.trunc (exact.add (exact.ofInt s) (exact.mul v v)) =
    s + ⌊v ^ 2⌋ := by
  have h0 : (0 : ℝ) ≤ (s : ℝ) := by exact_mod_cast hs
  have h1 : 0 ≤ (s : ℝ) + v * v := add_nonneg h0 (mul_self_nonneg v)
  show (if 0 ≤ (s : ℝ) + v * v then ⌊(s : ℝ) + v * v⌋ else ⌈(s : ℝ) + v * v⌉) = _
  rw [if_pos h1, Int.floor_intCast_add, sq]

theorem trunc_sq (v : ℝ) : exact.trunc (exact.mul v v) = ⌊v ^ 2⌋ := by
  show (if 0 ≤ v * v then ⌊v * v⌋ else ⌈v * v⌉) = _
  rw [if_pos (mul_self_nonneg v), sq]

theorem floor_sq_nonneg (v : ℝ) : 0 ≤ ⌊v ^ 2⌋ := Int.floor_nonneg.mpr (sq_nonneg v)

theorem ssmRun_follow (E : Env ℝ P (Fin 6)) (hE : E.base.A = exact) (rmin : Fin 6 → Int) (b : Fin 6) (nx : Obs) (x : ℝ) :
    ∀ (w : List Obs), Asc (w ++ [nx]) → ∀ (r : Run ℝ P) (f : Fin 6 → BandState ℝ P),
      r.cft = (f b).cft → r.cov = (f b).cov → 0 ≤ (f b).ssv →
      follow (num E rmin) f w nx b =
        ⟨(ssmRun E (f b).H (series E b w ++ [(nx.date, x)]) 0 r (f b).ssv).1.cft,
         (ssmRun E (f b).H (series E b w ++ [(nx.date, x)]) 0 r (f b).ssv).1.cov, (f b).H,
         (ssmRun E (f b).H (series E b w ++ [(nx.date, x)]) 0 r (f b).ssv).2⟩
  | [], _, r, f, h1, h2, _ => by
    simp only [follow, series, List.map_nil, List.nil_append, ssmRun]
    rw [h1, h2]
  | o :: os, ha, r, f, h1, h2, h3 => by
    have hlt : o.date < ((os.headD nx).date) := by
      rw [Asc, List.cons_append, List.pairwise_cons] at ha
      cases os with
      | nil => exact ha.1 nx (by simp)
      | cons p ps => exact ha.1 p (by simp)
    have ha' : Asc (os ++ [nx]) := by
      rw [Asc, List.cons_append, List.pairwise_cons] at ha
      exact ha.2
    have er := regular_vt E (f b).H (value E b o) o.date (os.headD nx).date hlt r ⟨(f b).cft, (f b).cov, none⟩ h1 h2
    have ef : (filter E f o (os.headD nx).date b).ssv =
        (f b).ssv + E.base.A.trunc (E.base.A.mul
          ((regular E (f b).H (value E b o) o.date (os.headD nx).date r).vt.getD E.junk)
          ((regular E (f b).H (value E b o) o.date (os.headD nx).date r).vt.getD E.junk)) := by
      rw [er]
      unfold filter
      simp only [hE]
      rw [trunc_add _ h3, trunc_sq]
    have key := ssmRun_follow E hE rmin b nx x os ha' (regular E (f b).H (value E b o) o.date (os.headD nx).date r)
      (filter E f o (os.headD nx).date) (by rw [er]; rfl) (by rw [er]; rfl) (by
        rw [ef, hE, trunc_sq]
        exact add_nonneg h3 (floor_sq_nonneg _))
    have hH : (filter E f o (os.headD nx).date b).H = (f b).H := rfl
    rw [hH, ef] at key
    have en : series E b (o :: os) ++ [(nx.date, x)] = (o.date, value E b o) :: (series E b os ++ [(nx.date, x)]) := rfl
    have ehd : ∃ q rest, series E b os ++ [(nx.date, x)] = q :: rest ∧ q.1 = (os.headD nx).date := by
      cases os with
      | nil => exact ⟨_, _, rfl, rfl⟩
      | cons p ps => exact ⟨_, _, rfl, rfl⟩
    obtain ⟨q, rest, eq, hq⟩ := ehd
    rw [follow, en]
    show follow (num E rmin) (filter E f o (os.headD nx).date) os nx b = _
    rw [key, eq, ssmRun]
    simp only [hq, if_true, Nat.zero_sub]

theorem follow_append {V F R : Type} (N : Sccd.Num V F R) (nx : Obs) : ∀ (a b : List Obs) (f : F),
    follow N f (a ++ b) nx = follow N (follow N f a (b.headD nx)) b nx
  | [], _, _ => rfl
  | o :: os, b, f => by
    rw [List.cons_append, follow, follow, ← follow_append N nx os b]
    congr 2
    cases os <;> rfl

/-- The filter of a segment is a filter led over all its observations, from a start with an empty sum. -/
theorem FilterOf.led {E : Env ℝ P (Fin 6)} (hE : E.base.A = exact) {rmin : Fin 6 → Int}
    {p : Option (Fin 6 → BandState ℝ P)} {seg : List Obs} {nx : Obs} {f : Fin 6 → BandState ℝ P}
    (h : FilterOf (num E rmin) p seg nx f) (ha : Asc (seg ++ [nx])) :
    ∃ k f0, 18 ≤ k ∧ k ≤ seg.length ∧ (∀ b, (f0 b).cft.length ≤ 6) ∧ (∀ b, (f0 b).ssv = 0) ∧
      (∀ b, (f0 b).H = E.base.A.mul (fits E 6 (seg.take k) b).rmse (fits E 6 (seg.take k) b).rmse) ∧
      f = follow (num E rmin) f0 seg nx := by
  obtain ⟨k, hk, hks, _, rfl⟩ := h
  have hne : seg.take k ≠ [] := by
    intro e
    have := congrArg List.length e
    rw [List.length_take, List.length_nil] at this
    omega
  obtain ⟨w0, hw0⟩ : ∃ w0, (seg.take k).head? = some w0 := by
    cases h : (seg.take k) with
    | nil => exact absurd h hne
    | cons a l => exact ⟨a, rfl⟩
  let sh : Fin 6 → List (Int × ℝ) := fun b =>
    (series E b (seg.take k)).map (fun q => (shift E.base.A (yearRange E.base.A
      ((((seg.take k).getLast hne).date) - w0.date + 1)) q.1, q.2))
  let f0 : Fin 6 → BandState ℝ P := fun b =>
    let m := fits E 6 (seg.take k) b
    let r := pass E (E.base.A.mul m.rmse m.rmse) (sh b) (w0.date, value E b w0)
      ⟨cftOf m, E.resetP (match p with | none => E.zeroP | some g => (g b).cov), none⟩
    ⟨r.cft, r.cov, E.base.A.mul m.rmse m.rmse, 0⟩
  have hpass : ∀ (H : ℝ) (l : List (Int × ℝ)) (x : Int × ℝ) (r : Run ℝ P), r.cft.length ≤ 6 →
      (pass E H l x r).cft.length ≤ 6 := by
    intro H l
    induction l with
    | nil => intro x r h; exact h
    | cons a l ih => intro x r h; exact ih x _ (regular_short E H _ _ _ _ h)
  refine ⟨k, f0, hk, hks, fun b => ?_, fun b => rfl, fun b => rfl, ?_⟩
  · refine hpass _ _ _ _ ?_
    simp only [cftOf, List.length_take]
    omega
  · have hsplit : seg = seg.take k ++ seg.drop k := (List.take_append_drop k seg).symm
    have hf : (num E rmin).fit p (seg.take k) ((seg.drop k).headD nx) =
        follow (num E rmin) f0 (seg.take k) ((seg.drop k).headD nx) := by
      funext b
      have ha' : Asc (seg.take k ++ [(seg.drop k).headD nx]) := by
        refine List.Pairwise.sublist ?_ ha
        cases hd : seg.drop k with
        | nil =>
          rw [hd, List.append_nil] at hsplit
          rw [← hsplit]; exact List.Sublist.refl _
        | cons q qs =>
          conv_rhs => rw [hsplit, hd]
          simp
      rw [ssmRun_follow E hE rmin b ((seg.drop k).headD nx) (value E b ((seg.drop k).headD nx)) (seg.take k) ha'
        (pass E (E.base.A.mul (fits E 6 (seg.take k) b).rmse (fits E 6 (seg.take k) b).rmse) (sh b)
          (w0.date, value E b w0)
          ⟨cftOf (fits E 6 (seg.take k) b), E.resetP (match p with | none => E.zeroP | some g => (g b).cov), none⟩)
        f0 rfl rfl (le_refl _)]
      show ssmInit E (E.base.A.mul (fits E 6 (seg.take k) b).rmse (fits E 6 (seg.take k) b).rmse) (series E b (seg.take k)) (((seg.drop k).headD nx).date, value E b ((seg.drop k).headD nx)) (cftOf (fits E 6 (seg.take k) b)) _ = _
      obtain ⟨tl, htl⟩ : ∃ tl, seg.take k = w0 :: tl := by
        cases h : (seg.take k) with
        | nil => exact absurd h hne
        | cons a l => rw [h] at hw0; cases hw0; exact ⟨l, rfl⟩
      have hx : extend E.base.A (series E b (seg.take k)) (((seg.drop k).headD nx).date, value E b ((seg.drop k).headD nx)) =
          sh b ++ (w0.date, value E b w0) :: (series E b tl ++ [(((seg.drop k).headD nx).date, value E b ((seg.drop k).headD nx))]) := by
        unfold extend
        have e1 : (series E b (seg.take k)).head? = some (w0.date, value E b w0) := by rw [htl]; rfl
        have e2 : (series E b (seg.take k)).getLast? = some (((seg.take k).getLast hne).date, value E b ((seg.take k).getLast hne)) := by
          unfold series
          rw [List.getLast?_map, List.getLast?_eq_some_getLast hne]
          rfl
        rw [e1, e2]
        simp only [sh]
        rw [List.append_assoc]
        congr 1
        rw [htl]
        rfl
      have hlen : (series E b (seg.take k)).length = (sh b).length := by simp [sh]
      unfold ssmInit
      simp only
      rw [hx, hlen, ssmRun_append]
      have e3 : series E b (seg.take k) ++ [(((seg.drop k).headD nx).date, value E b ((seg.drop k).headD nx))] =
          (w0.date, value E b w0) :: (series E b tl ++ [(((seg.drop k).headD nx).date, value E b ((seg.drop k).headD nx))]) := by
        rw [htl]; rfl
      rw [e3]
      have e4 : (f0 b).H = E.base.A.mul (fits E 6 (seg.take k) b).rmse (fits E 6 (seg.take k) b).rmse := rfl
      have e5 : (f0 b).ssv = 0 := rfl
      rw [e4, e5]
      cases p <;> rfl
    unfold Sccd.tracked
    rw [hf, ← follow_append, List.take_append_drop]

/-- The sum of squares of a filter is that of its errors, each square rounded down. -/
theorem follow_sum (E : Env ℝ P (Fin 6)) (hE : E.base.A = exact) (hi : ∀ b, E.idx b = b) (rmin : Fin 6 → Int)
    (hv : ∀ H y a q, (E.valid H y a q).2.2 = y - (a.getD 0 0 + a.getD 2 0 + a.getD 4 0)) (b : Fin 6) (nx : Obs) :
    ∀ (w : List Obs), Asc (w ++ [nx]) → ∀ (f : Fin 6 → BandState ℝ P), (∀ b, (f b).cft.length ≤ 6) → 0 ≤ (f b).ssv →
      (follow (num E rmin) f w nx b).ssv = (f b).ssv + ((errors (num E rmin) b f w nx).map (fun v => ⌊v ^ 2⌋)).sum
  | [], _, f, _, _ => by simp [follow, errors]
  | o :: os, ha, f, h1, h3 => by
    have hlt : o.date < ((os.headD nx).date) := by
      rw [Asc, List.cons_append, List.pairwise_cons] at ha
      cases os with
      | nil => exact ha.1 nx (by simp)
      | cons p ps => exact ha.1 p (by simp)
    have ha' : Asc (os ++ [nx]) := by
      rw [Asc, List.cons_append, List.pairwise_cons] at ha
      exact ha.2
    have ef : (filter E f o (os.headD nx).date b).ssv = (f b).ssv + ⌊(resid (f b).cft b o) ^ 2⌋ := by
      unfold filter regular
      obtain ⟨n, hn⟩ : ∃ n, ((os.headD nx).date - o.date).toNat = n + 1 :=
        ⟨((os.headD nx).date - o.date).toNat - 1, by omega⟩
      simp only [hn, Option.getD_some, hv, hE]
      rw [trunc_add _ h3, state_curve (h1 b)]
      have : value E b o = (o.vals.getD b 0 : ℝ) := by unfold value; rw [hE, hi]; rfl
      rw [this]
      rfl
    have key := follow_sum E hE hi rmin hv b nx os ha' (filter E f o (os.headD nx).date)
      (filter_short E f o _ h1) (by rw [ef]; exact add_nonneg h3 (floor_sq_nonneg _))
    rw [follow, errors, List.map_cons, List.sum_cons]
    show (follow (num E rmin) (filter E f o (os.headD nx).date) os nx b).ssv = _
    rw [key, ef]
    show _ = (f b).ssv + (_ + ((errors (num E rmin) b (filter E f o (os.headD nx).date) os nx).map (fun v => ⌊v ^ 2⌋)).sum)
    ring

/-! ### Fits -/

theorem fits_exact (E : Env ℝ P (Fin 6)) (hE : E.base.A = exact) (hi : ∀ b, E.idx b = b) (n : Int)
    (hn : n = 4 ∨ n = 6) (w : List Obs) (b : Fin 6) :
    (∀ t, storedCurve (fits E n w b).coefs t = fitted E.base.lasso n b w t) ∧
    (∀ j : Nat, n ≤ j → (fits E n w b).coefs.getD j 0 = 0) ∧
    (fits E n w b).rmse = Real.sqrt (squares E.base.lasso n b w) / Real.sqrt ((w.length : ℝ) - n) := by
  have hn' : n = 4 ∨ n = 6 ∨ n = 8 := by omega
  have ev : ∀ o, value E b o = (o.vals.getD b 0 : ℝ) := fun o => by unfold value; rw [hE, hi]; rfl
  have e1 : (w.map (row E)).map (·.date) = w.map (·.date) := by
    rw [List.map_map]; rfl
  have e2 : ColdNum.bandOf b (w.map (row E)) = w.map (fun o => (o.vals.getD b 0 : ℝ)) := by
    unfold ColdNum.bandOf
    rw [List.map_map]
    exact List.map_congr_left (fun o _ => ev o)
  obtain ⟨_, q2, q3, q4, q5⟩ := ColdNum.fitBand_exact E.base hE n hn' (w.map (·.date)) (w.map (fun o => (o.vals.getD b 0 : ℝ)))
  have e3 : fits E n w b = ColdNum.fitBand E.base n (w.map (·.date)) (w.map (fun o => (o.vals.getD b 0 : ℝ))) := by
    unfold fits ColdNum.fitAll
    rw [e1, e2]
  rw [List.map_map] at q3 q4
  rw [e3]
  refine ⟨q3, q2, ?_⟩
  rw [q5, q4, List.length_map]
  congr 2
  rw [List.zipWith_map, List.zipWith_self, List.map_map]
  rfl

theorem squares_nonneg (lasso : List (List ℝ) → List ℝ → List ℝ) (n : Int) (b : Fin 6) (w : List Obs) :
    0 ≤ squares lasso n b w := by
  unfold squares
  apply List.sum_nonneg
  intro x hx
  obtain ⟨o, _, rfl⟩ := List.mem_map.mp hx
  exact sq_nonneg _

theorem take_six {c : List ℝ} (h : ∀ j : Nat, 6 ≤ j → c.getD j 0 = 0) (t : ℝ) :
    storedCurve (c.take 6) t = storedCurve c t := by
  have e : ∀ j : Nat, (c.take 6).getD j 0 = c.getD j 0 := by
    intro j
    by_cases hj : j < 6
    · rw [List.getD_eq_getElem?_getD, List.getD_eq_getElem?_getD, List.getElem?_take, if_pos hj]
    · rw [h j (by omega), List.getD_eq_getElem?_getD, List.getElem?_take, if_neg hj]
      rfl
  unfold storedCurve
  simp only [e]

section
variable (lasso robust : List (List ℝ) → List ℝ → List ℝ) (tcg gate pred junk : ℝ)
  (valid : ℝ → ℝ → List ℝ → P → List ℝ × P × ℝ) (missing resetP narrowP : P → P) (zeroP : P)

local notation "EE" => program exact lasso robust tcg gate pred junk valid missing resetP narrowP zeroP

theorem closed_exact (hv : ∀ H y a q, (valid H y a q).2.2 = y - (a.getD 0 0 + a.getD 2 0 + a.getD 4 0))
    (rmin : Fin 6 → Int) {conse : Nat} {all : List Obs} (hasc : Asc all) {prior : Option (Fin 6 → BandState ℝ P)}
    {r : Sccd.Rec (Body ℝ (Fin 6))} {f : Fin 6 → BandState ℝ P}
    (h : ClosedBy (num EE rmin) conse all prior r f) (hcount : r.numObs = r.span.length) :
    ∃ nx win, (nx :: win).length = conse ∧ nx.date = r.tBreak ∧ (r.span ++ nx :: win).Sublist all ∧
      ClosedExact (num EE rmin) lasso tcg rmin r nx (nx :: win) := by
  obtain ⟨nx, win, h1, h2, h3, h4, h5, h6⟩ := h
  have ha : Asc (r.span ++ [nx]) := by
    refine List.Pairwise.sublist (List.Sublist.trans ?_ h3) hasc
    exact (List.Sublist.refl _).append ((List.nil_sublist _).cons_cons _)
  obtain ⟨q1, q2, q3⟩ := change_exact lasso robust tcg gate pred junk valid missing resetP narrowP zeroP rmin f
    r.numObs (nx :: win) (FilterOf.short h4) (by simp) h5 r.body h6
  refine ⟨nx, win, h1, h2, h3, q1, q2, q3, ?_⟩
  obtain ⟨k, f0, k1, k2, k3, k4, k5, k6⟩ := FilterOf.led rfl h4 ha
  refine ⟨k, f0, k1, k2, fun b => ⟨k4 b, ?_, ?_, ?_⟩⟩
  · rw [k5 b]
    obtain ⟨_, _, hr⟩ := fits_exact EE rfl (fun _ => rfl) 6 (.inr rfl) (r.span.take k) b
    have hl : ((r.span.take k).length : ℝ) = k := by rw [List.length_take, min_eq_left k2]
    have hk : (0 : ℝ) ≤ (k : ℝ) - 6 := by
      have : (18 : ℝ) ≤ k := by exact_mod_cast k1
      linarith
    rw [hl] at hr
    show (fits EE 6 (r.span.take k) b).rmse * (fits EE 6 (r.span.take k) b).rmse = _
    rw [hr, div_mul_div_comm, Real.mul_self_sqrt (squares_nonneg _ _ _ _)]
    push_cast
    rw [Real.mul_self_sqrt hk]
    rfl
  · rw [h6, ← k6]
    rfl
  · rw [h6]
    show Real.sqrt ((((f b).ssv : ℤ) : ℝ) / (((r.numObs - 6 : ℤ)) : ℝ)) = _
    have hs := follow_sum EE rfl (fun _ => rfl) rmin hv b nx r.span ha f0 k3 (by rw [k4 b])
    rw [← k6, k4 b, zero_add] at hs
    rw [hs, hcount]
    push_cast
    rfl

theorem opened_exact (rmin : Fin 6 → Int) {conse : Nat} {all : List Obs} {r : Sccd.Rec (Body ℝ (Fin 6))}
    (hc : 0 < conse) (hlong : 0 < r.span.length) (h : Sccd.OpenedBy (num EE rmin) conse all r) :
    ∃ nx w, nx.date = r.tBreak ∧ 18 ≤ w.length ∧ (∀ o ∈ w, r.tBreak ≤ o.date) ∧
      (r.lead ++ r.span ++ [nx]).Sublist all ∧ (r.lead ++ r.span ++ w).Sublist all ∧
      OpenedExact lasso r nx ((r.lead ++ r.span).drop ((r.lead ++ r.span).length - conse)) w := by
  obtain ⟨nx, w, h1, h2, h3, h4, h5, h6⟩ := h
  refine ⟨nx, w, h1, h2, h3, h4, h5, ?_, ?_, ?_⟩
  · intro b t
    obtain ⟨q1, q2, _⟩ := fits_exact EE rfl (fun _ => rfl) 4 (.inl rfl) (r.span ++ [nx]) b
    rw [h6]
    show storedCurve ((fits EE 4 (r.span ++ [nx]) b).coefs.take 6) t = _
    rw [take_six (fun j hj => q2 j (by omega)), q1]
    rfl
  · intro b
    obtain ⟨_, _, q3⟩ := fits_exact EE rfl (fun _ => rfl) 4 (.inl rfl) (r.span ++ [nx]) b
    rw [h6]
    show (fits EE 4 (r.span ++ [nx]) b).rmse = _
    rw [q3, List.length_append, List.length_singleton]
    push_cast
    rw [show (r.span.length : ℝ) + 1 - 4 = (r.span.length : ℝ) - 3 by ring]
    rfl
  · intro b
    obtain ⟨q1, q2, _⟩ := fits_exact EE rfl (fun _ => rfl) 4 (.inl rfl) w b
    rw [h6]
    generalize hB : (r.lead ++ r.span).drop ((r.lead ++ r.span).length - conse) = before
    have hne : before ≠ [] := by
      intro e
      rw [e] at hB
      have := congrArg List.length hB
      rw [List.length_drop, List.length_nil, List.length_append] at this
      omega
    show Middle _ (-(ColdNum.median exact (before.reverse.map (fun o =>
      ColdNum.difs (EE).base 4 (fits EE 4 w) (row EE o) b))))
    have e : before.reverse.map (fun o => ColdNum.difs (EE).base 4 (fits EE 4 w) (row EE o) b) =
        (before.map (fun o => (o.vals.getD b 0 : ℝ) - fitted lasso 4 b w (o.date : ℝ))).reverse := by
      rw [← List.map_reverse]
      refine List.map_congr_left (fun o _ => ?_)
      show (o.vals.getD b 0 : ℝ) - ColdNum.predict exact 4 (fits EE 4 w b).coefs o.date = _
      rw [ColdNum.predict_exact 4 _ _ (.inl rfl) q2, q1]
      rfl
    rw [e]
    have hm := ColdNum.Middle.neg (ColdNum.median_middle
      ((before.map (fun o => (o.vals.getD b 0 : ℝ) - fitted lasso 4 b w (o.date : ℝ))).reverse) (by simpa using hne))
    generalize ColdNum.median exact _ = v at *
    unfold Middle at *
    rw [List.map_reverse, List.length_reverse, List.countP_reverse, List.countP_reverse, List.map_map] at hm
    have e' : (fun x => -x) ∘ (fun o : Obs => (o.vals.getD b 0 : ℝ) - fitted lasso 4 b w (o.date : ℝ)) =
        (fun o => fitted lasso 4 b w (o.date : ℝ) - (o.vals.getD b 0 : ℝ)) := by
      funext o
      simp
    rw [e'] at hm
    exact hm

end

end Pycold.SccdNum
