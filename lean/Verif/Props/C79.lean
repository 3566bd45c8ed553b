import Verif.Proof.ColdStep
import Verif.Proof.ColdNumToyReal
/-!
# C79: what COLD finds in series without a change, and in series with one

Everything is in exact arithmetic, with the LASSO solver of the program (C78), for every outcome of the robust
regression that is used for the noise screening.
-/
namespace Pycold.ColdNum

open ColdNum.Spec ColdV.Spec

theorem floor_bounds {bC2 : Bool} {obs : List Scene} {v : Fin 7 → ℝ} (h : Noisy (clearObs bC2 obs) v) :
    ∀ b ∈ testBands, 0 < v b ∧ v b ≤ noiseFloor exact bC2 obs b :=
  fun b hb => ⟨h.pos b hb, floor_ge (h.noise b hb)⟩

/-- **C79, no false breaks.**  If in every band of the change test the clear values lie in a range of at most 40, and
the range is so small in comparison with the changes from one observation to the next that the sum over the bands of
(range / typical change)² is not above the change threshold, then `cold` reports no break: at most one record, with
change probability, break date and magnitudes zero. -/
theorem C79_no_break {P : Cold.Params} {fuel : ℕ} {robust : List (List ℝ) → List ℝ → List ℝ} {tcg : ℝ} {bC2 : Bool}
    {obs : List Scene} {nCm : ℕ} (hc : 1 ≤ P.conse) (hs : Cold.Spec.CmSized P (obs.map (·.date)) nCm)
    (hf : 200000001 ≤ fuel) (h9 : tcg < 9999) {lo hi v : Fin 7 → ℝ}
    (hw : Within (clearObs bC2 obs) lo hi) (hn : Noisy (clearObs bC2 obs) v)
    (ht : bandSum (fun b => ((hi b - lo b) / v b) ^ 2) ≤ tcg)
    {res : Except Cold.Err (ColdNum.Output ℝ (Fin 7))}
    (h : ColdNum.cold P (program exact (Glmnet.lasso fuel) robust tcg) bC2 obs nCm = .standard res) :
    ∃ out, res = .ok out ∧ out.recs.length ≤ 1 ∧
      ∀ r ∈ out.recs, r.changeProb = 0 ∧ r.tBreak = 0 ∧ r.window = [] ∧ r.magn = some (fun _ => 0) := by
  obtain ⟨out, rfl⟩ := cold_ok hc hs h
  have hE := program_exact hf robust tcg
  have hN := ordered_exact hE.A (E := program exact (Glmnet.lasso fuel) robust tcg) h9
  obtain ⟨h1, h2, h3⟩ := cold_standard h
  have hsort := rows_sorted exact h2 h3
  obtain ⟨ω, hω⟩ := cold_core P (program exact (Glmnet.lasso fuel) robust tcg) bC2 obs nCm
  rw [h] at hω
  obtain ⟨_, _, _, g4, g5⟩ := C09_category_and_probability hc hs hω
  -- no column of a window is above the threshold
  have key : ∀ r ∈ out.recs, ∀ x ∈ r.window, ¬ tcg < x.mag := by
    intro r hr x hx
    have hd := data_of hc h r hr
    have hrow : ∀ (o : ColdV.Row (Fin 7 → ℝ)), o ∈ rowsOf exact (clearObs bC2 obs) → ∀ b ∈ testBands,
        lo b ≤ o.y b ∧ o.y b ≤ hi b := fun o ho b hb => rowsOf_within hw hb ho
    rw [not_lt]
    refine le_trans ?_ ht
    by_cases h14 : r.category = 14
    · obtain ⟨j1, ob, j2, j3, _, j5⟩ := (hd.first h14).2 x hx
      exact quiet_mag hE (floor_bounds hn) hw.width (Or.inl rfl) (hsort.sublist j2) (by omega)
        (fun b hb o ho => hrow o (j2.subset ho) b hb) (fun b hb => hrow _ j1 b hb) (Or.inl j5)
    · obtain ⟨j1, c, ob, j0, j2, j3, _, j5⟩ := (hd.other h14).2 x hx
      exact quiet_mag hE (floor_bounds hn) hw.width j0 (hsort.sublist j2) (by omega)
        (fun b hb o ho => hrow o (j2.subset ho) b hb) (fun b hb => hrow _ j1 b hb) j5
  have none : ∀ r ∈ out.recs, (∀ y ∈ (ColdV.Rec.core r).window, (num (program exact (Glmnet.lasso fuel) robust tcg)).lt
      (num (program exact (Glmnet.lasso fuel) robust tcg)).tcg y.mag = true) → r.window = [] := by
    intro r hr hall
    rw [List.eq_nil_iff_forall_not_mem]
    intro x hx
    have := hall (ColdV.Sc.core x) (List.mem_map_of_mem hx)
    have : decide (tcg < x.mag) = true := this
    exact key r hr x hx (by simpa using this)
  have n100 : ∀ r ∈ out.recs, r.changeProb ≠ 100 := by
    intro r hr hp
    obtain ⟨k1, k2, _⟩ := g5 hN (ColdV.Rec.core r) (List.mem_map_of_mem hr) hp
    have := none r hr k1.1
    have e : (ColdV.Rec.core r).window = [] := by
      show r.window.map _ = []
      rw [this]; rfl
    rw [e] at k2
    simp at k2
    omega
  have hwin : ∀ r ∈ out.recs, r.changeProb = 0 ∧ r.tBreak = 0 ∧ r.window = [] := by
    intro r hr
    obtain ⟨k1, k2, k3⟩ := C09_last_probability hc hN hs hω (ColdV.Rec.core r) (List.mem_map_of_mem hr) (n100 r hr)
    have hw0 : r.window = [] := by
      by_cases he : (ColdV.Rec.core r).window = []
      · exact List.map_eq_nil_iff.1 he
      · exact none r hr (k3 he).1.1
    have e : (ColdV.Rec.core r).window = [] := by
      show r.window.map _ = []
      rw [hw0]; rfl
    refine ⟨?_, k2 e, hw0⟩
    have := k1
    rw [e] at this
    have this : r.changeProb = ((([] : List (Cold.Score ℝ (List ℝ))).length * 100 : ℤ)) / (P.conse : ℤ) := this
    rw [this]
    simp
  refine ⟨out, rfl, ?_, ?_⟩
  · by_contra hlen
    rw [not_le] at hlen
    have h0 : 0 < out.recs.length := by omega
    refine n100 (out.recs[0]) (List.getElem_mem h0) (g4 0 (ColdV.Rec.core out.recs[0]) ?_ ?_).1
    · show (out.recs.map ColdV.Rec.core)[0]? = _
      rw [List.getElem?_map, List.getElem?_eq_getElem h0]; rfl
    · show 0 + 1 < (out.recs.map ColdV.Rec.core).length
      rw [List.length_map]; exact hlen
  · intro r hr
    obtain ⟨a, b, c⟩ := hwin r hr
    refine ⟨a, b, c, ?_⟩
    have hd := data_of hc h r hr
    have hm : median exact [] = 0 := by
      unfold median
      rw [if_pos (by rfl), lit_exact]
      show ((_ : List ℝ).getD _ exact.zero + (_ : List ℝ).getD _ exact.zero) / _ = (0 : ℝ)
      have : (sortOrder exact ([] : List ℝ)).map (fun k => ([] : List ℝ).getD k exact.zero) = [] := by
        unfold sortOrder
        dsimp only
        split <;> rfl
      rw [this, List.getD_nil, zero_exact]
      norm_num
    by_cases h14 : r.category = 14
    · rw [(hd.first h14).1, c]
      show some (fun _ => exact.neg (median exact [])) = _
      rw [hm]
      show some (fun _ : Fin 7 => -(0 : ℝ)) = _
      rw [neg_zero]
    · rw [(hd.other h14).1, c]
      show some (fun _ => exact.zero) = _
      rw [zero_exact]

/-- **C79, one segment.**  If moreover the sum is at most 30.8562 (the limit for single outliers), the first model can
be tried (the least number `m` of at least 12 observations that spans a year is followed by `conse` more, and there is
no gap) and the noise screening of that window flags nothing, then `cold` reports exactly one record, from the first to
the last clear date. -/
theorem C79_one_segment {P : Cold.Params} {fuel : ℕ} {robust : List (List ℝ) → List ℝ → List ℝ} {tcg : ℝ} {bC2 : Bool}
    {obs : List Scene} {nCm : ℕ} (hc : 1 ≤ P.conse) (hs : Cold.Spec.CmSized P (obs.map (·.date)) nCm)
    (hf : 200000001 ≤ fuel) (h9 : tcg < 9999) {lo hi v : Fin 7 → ℝ}
    (hw : Within (clearObs bC2 obs) lo hi) (hn : Noisy (clearObs bC2 obs) v)
    (ht : bandSum (fun b => ((hi b - lo b) / v b) ^ 2) ≤ tcg)
    (hx : bandSum (fun b => ((hi b - lo b) / v b) ^ 2) ≤ 30.8562)
    {m : ℕ} (hy : FirstYear (clearObs bC2 obs) m) (hm : m + P.conse ≤ (clearObs bC2 obs).length)
    (hg : NoGap P (clearObs bC2 obs) m)
    (hk : Screened robust (noiseFloor exact bC2 obs) ((clearObs bC2 obs).take (m + P.conse)) m)
    {res : Except Cold.Err (ColdNum.Output ℝ (Fin 7))}
    (h : ColdNum.cold P (program exact (Glmnet.lasso fuel) robust tcg) bC2 obs nCm = .standard res) :
    ∃ out r, res = .ok out ∧ out.recs = [r] ∧ r.changeProb = 0 ∧ r.tBreak = 0 ∧ r.magn = some (fun _ => 0) ∧
      ((clearObs bC2 obs).head?.map (·.date)) = some r.tStart ∧
      ((clearObs bC2 obs).getLast?.map (·.date)) = some r.tEnd := by
  obtain ⟨out, rfl, _, hr⟩ := C79_no_break hc hs hf h9 hw hn ht h
  have hE := program_exact hf robust tcg
  have hN : Cold.Spec.Ordered (kit (program exact (Glmnet.lasso fuel) robust tcg) (noiseFloor exact bC2 obs)).N :=
    ordered_exact hE.A h9
  obtain ⟨h1, h2, h3⟩ := cold_standard h
  have hsort := rows_sorted exact h2 h3
  have hl : (rowsOf exact (clearObs bC2 obs)).length = (clearObs bC2 obs).length := List.length_map _
  have hcourse : ColdV.Course P (kit (program exact (Glmnet.lasso fuel) robust tcg) (noiseFloor exact bC2 obs))
      (rowsOf exact (clearObs bC2 obs)) (rowsOf exact (clearObs bC2 obs)).length m := by
    rw [hl]
    refine course_of hE hsort (floor_bounds hn) ?_ ht hx hy (by omega) le_rfl hm hg hk
    rw [List.take_length]; exact hw
  obtain ⟨x, a, b, e1, e2, e3, e4, e5, e6, e7⟩ := ColdV.standProcedure_quiet hN hcourse hc h1.symm
  have hxm : x ∈ out.recs := by rw [e1]; exact List.mem_singleton_self _
  obtain ⟨r1, r2, _, r4⟩ := hr x hxm
  refine ⟨out, x, rfl, e1, r1, r2, r4, ?_, ?_⟩
  · rw [e6]
    unfold rowsOf at e4
    rw [List.getElem?_map] at e4
    rw [List.head?_eq_getElem?]
    cases hh : (clearObs bC2 obs)[0]? with
    | none => rw [hh] at e4; cases e4
    | some o => rw [hh] at e4; injection e4 with e4; rw [← e4]; rfl
  · rw [e7]
    rw [hl] at e5
    unfold rowsOf at e5
    rw [List.getElem?_map] at e5
    rw [List.getLast?_eq_getElem?]
    cases hh : (clearObs bC2 obs)[(clearObs bC2 obs).length - 1]? with
    | none => rw [hh] at e5; cases e5
    | some o => rw [hh] at e5; injection e5 with e5; rw [← e5]; rfl

theorem median_between {l : List ℝ} (hl : l ≠ []) {d p q : ℝ} (hd : d = 1 ∨ d = -1)
    (h : ∀ x ∈ l, p ≤ d * x ∧ d * x ≤ q) : p ≤ d * median exact l ∧ d * median exact l ≤ q := by
  obtain ⟨m1, m2⟩ := median_middle l hl
  have hp : 0 < l.length := List.length_pos_iff.2 hl
  obtain ⟨x, x1, x2⟩ := List.countP_pos_iff.1 (show 0 < l.countP (fun x => decide (x ≤ median exact l)) by omega)
  obtain ⟨y, y1, y2⟩ := List.countP_pos_iff.1 (show 0 < l.countP (fun x => decide (median exact l ≤ x)) by omega)
  have x2 : x ≤ median exact l := by simpa using x2
  have y2 : median exact l ≤ y := by simpa using y2
  obtain ⟨a1, a2⟩ := h x x1
  obtain ⟨b1, b2⟩ := h y y1
  rcases hd with e | e <;> rw [e] at a1 a2 b1 b2 ⊢ <;> constructor <;> linarith

/-- **C79, a step is found.**  The first `n` clear observations are as in `C79_one_segment`, and the next `conse` differ
from them: in every band all in one direction, by at least `least` and at most `most`.  `U` bounds the yardstick: most
changes from one observation of the series to the next are at most `U`, and `U²` is at least 1.5 times the square of
the range before the step.  If the sum over the bands of `(least / U)²` is above the change threshold and
`most / v` is not above 2.4 times `least / U` (so that the directions of the change vectors differ by less than 45
degrees), then the first record of `cold` covers exactly the observations before the step, the break is dated to the
first observation after it, the change is reported as confirmed (probability 100) and the magnitudes lie between
`least` and `most`, in the direction of the step. -/
theorem C79_step_found {P : Cold.Params} {fuel : ℕ} {robust : List (List ℝ) → List ℝ → List ℝ} {tcg : ℝ} {bC2 : Bool}
    {obs : List Scene} {nCm : ℕ} (hc : 1 ≤ P.conse) (hs : Cold.Spec.CmSized P (obs.map (·.date)) nCm)
    (hf : 200000001 ≤ fuel) (h9 : tcg < 9999) {lo hi v U dir least most : Fin 7 → ℝ} {n : ℕ}
    (hw : Within ((clearObs bC2 obs).take n) lo hi) (hn : Noisy (clearObs bC2 obs) v)
    (ht : bandSum (fun b => ((hi b - lo b) / v b) ^ 2) ≤ tcg)
    (hx : bandSum (fun b => ((hi b - lo b) / v b) ^ 2) ≤ 30.8562)
    {m : ℕ} (hy : FirstYear (clearObs bC2 obs) m) (hmn : m ≤ n) (hnl : n + P.conse ≤ (clearObs bC2 obs).length)
    (hg : NoGap P (clearObs bC2 obs) m)
    (hk : Screened robust (noiseFloor exact bC2 obs) ((clearObs bC2 obs).take (m + P.conse)) m)
    (hU : ∀ b ∈ testBands, MostlyBelow (valuesOf (clearObs bC2 obs) b) (U b) ∧ 3 / 2 * (hi b - lo b) ^ 2 ≤ U b ^ 2)
    (hsh : Shifted (((clearObs bC2 obs).drop n).take P.conse) lo hi dir least most)
    (hbig : tcg < bandSum (fun b => (least b / U b) ^ 2))
    (hratio : ∀ b ∈ testBands, most b / v b ≤ 2.4 * (least b / U b))
    {res : Except Cold.Err (ColdNum.Output ℝ (Fin 7))}
    (h : ColdNum.cold P (program exact (Glmnet.lasso fuel) robust tcg) bC2 obs nCm = .standard res) :
    ∃ out r g, res = .ok out ∧ out.recs.head? = some r ∧ r.changeProb = 100 ∧
      ((clearObs bC2 obs).head?.map (·.date)) = some r.tStart ∧
      ((clearObs bC2 obs)[n - 1]?.map (·.date)) = some r.tEnd ∧
      ((clearObs bC2 obs)[n]?.map (·.date)) = some r.tBreak ∧
      r.magn = some g ∧ ∀ b ∈ testBands, least b ≤ dir b * g b ∧ dir b * g b ≤ most b := by
  obtain ⟨out, rfl⟩ := cold_ok hc hs h
  have hE := program_exact hf robust tcg
  have hN : Cold.Spec.Ordered (kit (program exact (Glmnet.lasso fuel) robust tcg) (noiseFloor exact bC2 obs)).N :=
    ordered_exact hE.A h9
  obtain ⟨h1, h2, h3⟩ := cold_standard h
  have hsort := rows_sorted exact h2 h3
  have hl : (rowsOf exact (clearObs bC2 obs)).length = (clearObs bC2 obs).length := List.length_map _
  have hcourse : ColdV.Course P (kit (program exact (Glmnet.lasso fuel) robust tcg) (noiseFloor exact bC2 obs))
      (rowsOf exact (clearObs bC2 obs)) n m :=
    course_of hE hsort (floor_bounds hn) hw ht hx hy hmn (by omega) (by omega) hg hk
  have hUU : ∀ b ∈ testBands, noiseFloor exact bC2 obs b ≤ U b ∧ 3 / 2 * (hi b - lo b) ^ 2 ≤ U b ^ 2 :=
    fun b hb => ⟨floor_le (hU b hb).1, (hU b hb).2⟩
  have hbr := shifted_break (P := P) hE h9 hsort (show n ≤ (clearObs bC2 obs).length by omega) (floor_bounds hn) hw hUU hsh hbig hratio
  obtain ⟨x, a, b, d, e1, e2, e3, e4, e5, e6, e7, e8, e9, e10, e11⟩ := ColdV.standProcedure_break hN hcourse hc
    (by rw [hl]; exact hnl) (fun w q1 q2 => (hbr w q1 q2).1) h1.symm
  have date : ∀ (k : ℕ) (a : ColdV.Row (Fin 7 → ℝ)), (rowsOf exact (clearObs bC2 obs))[k]? = some a →
      ((clearObs bC2 obs)[k]?.map (·.date)) = some a.date := by
    intro k a e
    unfold rowsOf at e
    rw [List.getElem?_map] at e
    cases hh : (clearObs bC2 obs)[k]? with
    | none => rw [hh] at e; cases e
    | some o => rw [hh] at e; injection e with e; rw [← e]; rfl
  have hdif := (hbr x.window e10 e11).2
  refine ⟨out, x, _, rfl, ?_, e2, ?_, ?_, ?_, e9, ?_⟩
  · obtain ⟨t, ht⟩ := e1
    rw [← ht]; rfl
  · rw [e6, List.head?_eq_getElem?]; exact date 0 a e3
  · rw [e7]; exact date _ b e4
  · rw [e8]; exact date _ d e5
  · intro b hb
    show least b ≤ dir b * median exact ((x.window.map (·.dif)).map (fun d => d b)) ∧
      dir b * median exact ((x.window.map (·.dif)).map (fun d => d b)) ≤ most b
    rw [List.map_map]
    refine median_between ?_ (hsh.sign b hb) ?_
    · intro h0
      have := congrArg List.length h0
      rw [List.length_map, List.length_nil] at this
      omega
    · intro y hy
      obtain ⟨z, hz, rfl⟩ := List.mem_map.1 hy
      exact hdif z hz b hb

/-! ### Concrete series -/

namespace Toy

/-- Every 35 days, alternating between 500 and 510; from scene `n` on between 2000 and 2010. -/
def quiet (n : ℕ) (k : ℕ) : Scene :=
  let y : Int := (if k < n then 500 else 2000) + (k % 2 : ℕ) * 10
  ⟨1 + 35 * k, 300, y, y, y, y, y, 2900, 0⟩

def quiets (n : ℕ) : List Scene := (List.range 30).map (quiet n)

def qP : Cold.Params :=
  { conse := 6, gapExceeds := fun d => decide (d > 400), bOutputCM := false, startingDate := 1, interval := 120 }

/-- A constant curve. -/
noncomputable def flat (_ : List (List ℝ)) (_ : List ℝ) : List ℝ := [505]

theorem jumps_int (w : List ClrObs) (b : Fin 7) : jumps (valuesOf w b) =
    (List.zipWith (fun p q : Int => |q - p|) (w.map fun o => o.bands.getD b 0) (w.map fun o => o.bands.getD b 0).tail).map
      (fun d : Int => (d : ℝ)) := by
  have e : valuesOf w b = (w.map fun o => o.bands.getD b 0).map (fun d : Int => (d : ℝ)) := by
    unfold valuesOf; rw [List.map_map]; rfl
  unfold jumps
  rw [e, ← List.map_tail, List.zipWith_map, List.map_zipWith]
  congr 1
  funext p q
  push_cast
  rfl

theorem mostlyAbove_int {w : List ClrObs} {b : Fin 7} {v : Int}
    (h : 2 * (List.zipWith (fun p q : Int => |q - p|) (w.map fun o => o.bands.getD b 0)
      (w.map fun o => o.bands.getD b 0).tail).countP (fun d => decide (d < v)) <
      (List.zipWith (fun p q : Int => |q - p|) (w.map fun o => o.bands.getD b 0)
        (w.map fun o => o.bands.getD b 0).tail).length) : MostlyAbove (valuesOf w b) (v : ℝ) := by
  unfold MostlyAbove
  rw [jumps_int, List.countP_map, List.length_map]
  convert h using 3
  funext d
  simp

theorem mostlyBelow_int {w : List ClrObs} {b : Fin 7} {v : Int}
    (h : 2 * (List.zipWith (fun p q : Int => |q - p|) (w.map fun o => o.bands.getD b 0)
      (w.map fun o => o.bands.getD b 0).tail).countP (fun d => decide (v < d)) <
      (List.zipWith (fun p q : Int => |q - p|) (w.map fun o => o.bands.getD b 0)
        (w.map fun o => o.bands.getD b 0).tail).length) : MostlyBelow (valuesOf w b) (v : ℝ) := by
  unfold MostlyBelow
  rw [jumps_int, List.countP_map, List.length_map]
  convert h using 3
  funext d
  simp

theorem values_int {w : List ClrObs} {b : Fin 7} {p q : Int} (h : ∀ o ∈ w, p ≤ o.bands.getD b 0 ∧ o.bands.getD b 0 ≤ q) :
    ∀ y ∈ valuesOf w b, (p : ℝ) ≤ y ∧ y ≤ (q : ℝ) := by
  intro y hy
  obtain ⟨o, ho, rfl⟩ := List.mem_map.1 hy
  obtain ⟨h1, h2⟩ := h o ho
  exact ⟨by exact_mod_cast h1, by exact_mod_cast h2⟩

theorem quiet_noisy (n : ℕ) (hn : n = 20 ∨ n = 30) : Noisy (clearObs false (quiets n)) (fun _ => ((10 : Int) : ℝ)) := by
  refine ⟨fun _ _ => by norm_num, fun b hb => mostlyAbove_int ?_⟩
  rcases hn with rfl | rfl <;> revert b <;> decide +kernel

theorem quiet_within : Within (clearObs false (quiets 30)) (fun _ => ((500 : Int) : ℝ)) (fun _ => ((510 : Int) : ℝ)) := by
  refine ⟨fun b hb => values_int ?_, fun _ _ => by norm_num⟩
  revert b
  decide +kernel

theorem step_within : Within ((clearObs false (quiets 20)).take 20) (fun _ => ((500 : Int) : ℝ)) (fun _ => ((510 : Int) : ℝ)) := by
  refine ⟨fun b hb => values_int ?_, fun _ _ => by norm_num⟩
  revert b
  decide +kernel

theorem quiet_year (n : ℕ) (hn : n = 20 ∨ n = 30) : FirstYear (clearObs false (quiets n)) 12 ∧
    NoGap qP (clearObs false (quiets n)) 12 ∧ (clearObs false (quiets n)).length = 30 := by
  have hd : (clearObs false (quiets n)).map (·.date) = (List.range 30).map fun (k : ℕ) => 1 + 35 * (k : Int) := by
    rcases hn with rfl | rfl <;> decide +kernel
  have date : ∀ (k : ℕ) o, (clearObs false (quiets n))[k]? = some o → o.date = 1 + 35 * (k : Int) := by
    intro k o ho
    have := congrArg (fun l => l[k]?) hd
    simp only [List.getElem?_map, ho, Option.map_some] at this
    cases hr : (List.range 30)[k]? with
    | none => rw [hr] at this; cases this
    | some j =>
      rw [hr] at this
      rw [List.getElem?_eq_some_iff] at hr
      obtain ⟨h1, h2⟩ := hr
      rw [List.getElem_range] at h2
      simp only [Option.map_some, Option.some.injEq] at this
      rw [this, h2]
  refine ⟨⟨le_rfl, ?_, ?_⟩, ?_, ?_⟩
  · intro a b ha hb
    rw [date _ _ ha, date _ _ hb]
    norm_num
  · intro j h1 h2
    omega
  · intro k a b _ ha hb
    rw [date _ _ ha, date _ _ hb]
    show decide _ = false
    rw [decide_eq_false_iff_not]
    push_cast
    omega
  · have := congrArg List.length hd
    rw [List.length_map, List.length_map, List.length_range] at this
    exact this

theorem quiet_screened (n : ℕ) (hn : n = 20 ∨ n = 30) : Screened flat (noiseFloor exact false (quiets n))
    ((clearObs false (quiets n)).take (12 + qP.conse)) 12 := by
  intro b hb k o hk ho
  have hb' : b ∈ testBands := by
    simp only [List.mem_cons, List.not_mem_nil, or_false] at hb
    rcases hb with rfl | rfl <;> decide
  have h1 : (10 : ℝ) ≤ noiseFloor exact false (quiets n) b := by
    have := (floor_bounds (quiet_noisy n hn) b hb').2
    exact_mod_cast this
  have h2 : (500 : Int) ≤ o.bands.getD b 0 ∧ o.bands.getD b 0 ≤ 510 := by
    have hm : o ∈ (clearObs false (quiets n)).take 20 := by
      have : o ∈ (clearObs false (quiets n)).take (12 + qP.conse) := List.mem_of_getElem? ho
      exact (List.take_sublist_take_left (by decide)).subset this
    have all : ∀ b ∈ testBands, ∀ o ∈ (clearObs false (quiets n)).take 20,
        (500 : Int) ≤ o.bands.getD b 0 ∧ o.bands.getD b 0 ≤ 510 := by
      rcases hn with rfl | rfl <;> decide +kernel
    exact all b hb' o hm
  have h3 : (500 : ℝ) ≤ ((o.bands.getD b 0 : ℤ) : ℝ) ∧ ((o.bands.getD b 0 : ℤ) : ℝ) ≤ 510 := by exact_mod_cast h2
  have hcv : ∀ Y t, screenCurve Y (flat ((clearObs false (quiets n)).take (12 + qP.conse) |>.map
      fun o => screenRow Y (o.date : ℝ)) (valuesOf ((clearObs false (quiets n)).take (12 + qP.conse)) b)) t = 505 := by
    intro Y t
    simp [screenCurve, flat]
  rw [hcv, abs_le]
  constructor <;> linarith [h3.1, h3.2]

theorem quiet_standard (n : ℕ) (hn : n = 20 ∨ n = 30) (E : Env ℝ (Fin 7)) :
    ∃ res, cold qP E false (quiets n) 0 = .standard res := by
  unfold cold
  rw [if_neg (by rcases hn with rfl | rfl <;> decide), if_neg (by rcases hn with rfl | rfl <;> decide)]
  dsimp only
  rw [if_neg (by rcases hn with rfl | rfl <;> decide +kernel), if_neg (by rcases hn with rfl | rfl <;> decide +kernel)]
  exact ⟨_, rfl⟩

theorem quiet_sum : bandSum (fun _ => ((((510 : Int) : ℝ) - ((500 : Int) : ℝ)) / ((10 : Int) : ℝ)) ^ 2) = 5 := by
  unfold bandSum testBands
  norm_num

/-- The conditions of `C79_no_break`. -/
example : Within (clearObs false (quiets 30)) (fun _ => ((500 : Int) : ℝ)) (fun _ => ((510 : Int) : ℝ)) ∧
    Noisy (clearObs false (quiets 30)) (fun _ => ((10 : Int) : ℝ)) ∧
    bandSum (fun _ => ((((510 : Int) : ℝ) - ((500 : Int) : ℝ)) / ((10 : Int) : ℝ)) ^ 2) ≤ 15.0863 ∧
    ∃ res, cold qP (program exact (Glmnet.lasso 200000001) flat 15.0863) false (quiets 30) 0 = .standard res :=
  ⟨quiet_within, quiet_noisy 30 (Or.inr rfl), by rw [quiet_sum]; norm_num, quiet_standard 30 (Or.inr rfl) _⟩

set_option maxRecDepth 100000 in
/-- Thirty observations without a change: one record, from day 1 to day 1016. -/
example : ∃ out r, cold qP (program exact (Glmnet.lasso 200000001) flat 15.0863) false (quiets 30) 0 = .standard (.ok out) ∧
    out.recs = [r] ∧ r.changeProb = 0 ∧ r.tStart = 1 ∧ r.tEnd = 1016 := by
  obtain ⟨res, h⟩ := quiet_standard 30 (Or.inr rfl) (program exact (Glmnet.lasso 200000001) flat 15.0863)
  obtain ⟨y1, y2, y3⟩ := quiet_year 30 (Or.inr rfl)
  obtain ⟨out, r, rfl, h1, h2, _, _, h3, h4⟩ := C79_one_segment (P := qP) (m := 12) (by decide) nofun le_rfl (by norm_num)
    quiet_within (quiet_noisy 30 (Or.inr rfl)) (by rw [quiet_sum]; norm_num) (by rw [quiet_sum]; norm_num) y1
    (by rw [y3]; decide) y2 (quiet_screened 30 (Or.inr rfl)) h
  refine ⟨out, r, h, h1, h2, ?_, ?_⟩
  · have : (clearObs false (quiets 30)).head?.map (·.date) = some 1 := by decide +kernel
    rw [this] at h3; injection h3 with h3; exact h3.symm
  · have : (clearObs false (quiets 30)).getLast?.map (·.date) = some 1016 := by decide +kernel
    rw [this] at h4; injection h4 with h4; exact h4.symm

theorem step_shifted : Shifted (((clearObs false (quiets 20)).drop 20).take qP.conse) (fun _ => ((500 : Int) : ℝ))
    (fun _ => ((510 : Int) : ℝ)) (fun _ => 1) (fun _ => 1490) (fun _ => 1510) := by
  have all : ∀ b ∈ testBands, ∀ o ∈ ((clearObs false (quiets 20)).drop 20).take qP.conse,
      (2000 : Int) ≤ o.bands.getD b 0 ∧ o.bands.getD b 0 ≤ 2010 := by decide +kernel
  refine ⟨fun _ _ => Or.inl rfl, fun _ _ => by norm_num, fun b hb y hy => ?_, fun b hb y hy => ?_⟩ <;>
  · obtain ⟨h1, h2⟩ := values_int (all b hb) y hy
    push_cast at h1 h2 ⊢
    constructor <;> linarith

set_option maxRecDepth 100000 in
/-- Twenty observations at 500 and 510, then ten at 2000 and 2010: the first record ends with the last observation
before the step, day 666, and the break is dated to day 701. -/
theorem step_found : ∃ out r g, cold qP (program exact (Glmnet.lasso 200000001) flat 15.0863) false (quiets 20) 0 = .standard (.ok out) ∧
    out.recs.head? = some r ∧ r.changeProb = 100 ∧ r.tStart = 1 ∧ r.tEnd = 666 ∧ r.tBreak = 701 ∧
    r.magn = some g ∧ 1490 ≤ g 3 ∧ g 3 ≤ 1510 := by
  obtain ⟨res, h⟩ := quiet_standard 20 (Or.inl rfl) (program exact (Glmnet.lasso 200000001) flat 15.0863)
  obtain ⟨y1, y2, y3⟩ := quiet_year 20 (Or.inl rfl)
  obtain ⟨out, r, g, rfl, h1, h2, h3, h4, h5, h6, h7⟩ := C79_step_found (P := qP) (m := 12) (n := 20) (by decide) nofun le_rfl
    (by norm_num) step_within (quiet_noisy 20 (Or.inl rfl)) (by rw [quiet_sum]; norm_num) (by rw [quiet_sum]; norm_num) y1
    (by norm_num) (by rw [y3]; decide) y2 (quiet_screened 20 (Or.inl rfl)) (U := fun _ => ((13 : Int) : ℝ))
    (fun b hb => ⟨mostlyBelow_int (by revert b; decide +kernel), by norm_num⟩) step_shifted
    (by unfold bandSum testBands; norm_num) (fun _ _ => by norm_num) h
  have d1 : (clearObs false (quiets 20)).head?.map (·.date) = some 1 := by decide +kernel
  have d2 : (clearObs false (quiets 20))[20 - 1]?.map (·.date) = some 666 := by decide +kernel
  have d3 : (clearObs false (quiets 20))[20]?.map (·.date) = some 701 := by decide +kernel
  rw [d1] at h3; rw [d2] at h4; rw [d3] at h5
  injection h3 with h3; injection h4 with h4; injection h5 with h5
  have h8 := h7 3 (by decide)
  simp only [one_mul] at h8
  exact ⟨out, r, g, h, h1, h2, h3.symm, h4.symm, h5.symm, h6, h8⟩

end Toy

end Pycold.ColdNum
