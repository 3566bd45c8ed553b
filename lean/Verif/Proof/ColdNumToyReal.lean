import Verif.Proof.ColdNumEnd
/-! A concrete case for C72 and C73: a series in exact arithmetic. -/
namespace Pycold.ColdNum.Toy

open Pycold.ColdNum Pycold.ColdNum.Spec

/-! ### Exact arithmetic -/

theorem compact_none {Y : Type} : ∀ (l : List (ColdV.Row Y)) (k : Int), ColdV.compact l k [] = l
  | [], _ => rfl
  | x :: xs, k => by rw [ColdV.compact, compact_none xs]

theorem screened {Y M V W D G : Type} (K : ColdV.Kit Y M V W D G)
    (P : Cold.Params) (rows : List (ColdV.Row Y)) (nCm : Nat) (hl : 6 ≤ rows.length)
    (hc : rows.length < P.conse + 12) (hm : ∀ k, K.mask rows k = false) :
    ∃ out, ColdV.standProcedure P K rows nCm = .ok out ∧
      ∃ r ∈ out.recs, r.category = 24 ∧ r.fitted = rows ∧ r.model = some (K.fit 4 rows) := by
  have hloop : ColdV.loop P K rows.length (ColdV.init rows nCm) = .ok (ColdV.init rows nCm) := by
    have hn : ¬ ((ColdV.init rows nCm : ColdV.St Y M V W D G).i ≤
        (ColdV.init rows nCm : ColdV.St Y M V W D G).end_ - P.conse) := by
      simp only [ColdV.init]; omega
    cases hr : rows.length with
    | zero => unfold ColdV.loop; rw [if_neg hn]
    | succ n => unfold ColdV.loop; rw [if_neg hn]
  have hs : ColdV.slice rows (1 - 1) (rows.length - 1) = rows := by
    unfold ColdV.slice
    have : ((rows.length : Int) - 1 - (1 - 1) + 1).toNat = rows.length := by omega
    rw [this]
    simp
  have hr : Cold.rmIds (K.mask rows) (1 - 1) ((rows.length : Int) - 1 + 1).toNat = [] := by
    unfold Cold.rmIds
    simp [hm]
  have hcp : ColdV.compact (rows.take (rows.length : Int).toNat) 0 [] = rows := by
    rw [compact_none]; simp
  have hcm : ColdV.commit rows rows = rows := by simp [ColdV.commit]
  obtain ⟨a, ha⟩ : ∃ a, ColdV.rd rows rows.length 0 = .ok a := by
    unfold ColdV.rd
    rw [if_pos ⟨by omega, by omega⟩, List.getElem?_eq_getElem (by simp; omega)]
    exact ⟨_, rfl⟩
  obtain ⟨b, hb⟩ : ∃ b, ColdV.rd rows rows.length (rows.length - 1) = .ok b := by
    unfold ColdV.rd
    rw [if_pos ⟨by omega, by omega⟩, List.getElem?_eq_getElem (by omega)]
    exact ⟨_, rfl⟩
  have hchk : Cold.chk rows.length (1 - 1) (rows.length - 1) = .ok () := by
    unfold Cold.chk
    rw [if_pos ⟨by omega, by omega⟩]
  have hge : (rows.length : Int) - 1 + 1 ≥ Cold.LASSO_MIN := by
    show (rows.length : Int) - 1 + 1 ≥ 6
    omega
  unfold ColdV.standProcedure
  rw [hloop]
  simp only [bind, Except.bind, ColdV.finishUntrained, ColdV.endStart]
  simp only [ColdV.init, List.getLast?_nil, hge, if_true, hs, hr, hcp, hcm, hchk, ha, hb, Except.map]
  simp

/-- The first value, as a constant curve. -/
noncomputable def first (_ : List (List ℝ)) (ys : List ℝ) : List ℝ := [ys.headD 0]

/-- The program in exact arithmetic. -/
noncomputable def rE : Env ℝ (Fin 7) := program exact first first 15

def rP : Cold.Params :=
  { conse := 14, gapExceeds := fun d => decide (d > 400), bOutputCM := false, startingDate := 1,
    interval := 120 }

/-- A constant series. -/
def robs : List Scene := (List.range 25).map fun k => ⟨1 + 16 * k, 300, 400, 500, 600, 700, 800, 2900, 0⟩

theorem robs_rows : rowsOf exact (clearObs false robs) = (List.range 25).map fun (k : Nat) =>
    ⟨1 + 16 * (k : Int), fun b => exact.ofInt (([300, 400, 500, 600, 700, 800, 1680] : List Int).getD b 0)⟩ := by
  have e : clearObs false robs =
      (List.range 25).map fun (k : Nat) => ⟨1 + 16 * (k : Int), [300, 400, 500, 600, 700, 800, 1680]⟩ := by
    decide +kernel
  rw [e]
  unfold rowsOf
  rw [List.map_map]
  rfl

theorem Middle_nonneg {l : List ℝ} {v : ℝ} (hl : l ≠ []) (h : ∀ x ∈ l, 0 ≤ x) (hm : Middle l v) : 0 ≤ v := by
  have hp : 0 < l.length := List.length_pos_iff.2 hl
  have h1 := hm.1
  have : 0 < l.countP (fun x => x ≤ v) := by omega
  obtain ⟨x, hx, hv⟩ := List.countP_pos_iff.1 this
  exact le_trans (h x hx) (by simpa using hv)

theorem constant_pred (w2 y : ℝ) (t : Int) : maskPred exact w2 [y] t = y := by
  have em : ∀ a b, exact.mul a b = a * b := fun _ _ => rfl
  have ea : ∀ a b, exact.add a b = a + b := fun _ _ => rfl
  unfold maskPred
  simp only [List.getD_cons_zero, List.getD_cons_succ, List.getD_nil, zero_exact, em, ea, zero_mul, add_zero]

theorem noiseless (x : List (List ℝ)) (w2 : ℝ) (t : Int) (b : Fin 7) (y : ℝ) {f : ℝ}
    (hy : y = exact.ofInt (([300, 400, 500, 600, 700, 800, 1680] : List Int).getD b 0)) (hf : 0 ≤ f) :
    exact.lt (exact.mul exact.tConst f) (exact.abs (exact.sub y (maskPred exact w2
      (first x (bandOf b (rowsOf exact (clearObs false robs)))) t))) = false := by
  have hh : (bandOf b (rowsOf exact (clearObs false robs))).headD 0 = y := by
    rw [robs_rows, hy]
    simp [bandOf, List.range_succ_eq_map]
  have ht : exact.tConst = 4.42 := by unfold Fl.tConst; rw [lit_exact]; norm_num
  unfold first
  rw [hh, ht, constant_pred]
  refine decide_eq_false (not_lt.2 ?_)
  show |y - y| ≤ 4.42 * f
  rw [sub_self, abs_zero]
  exact mul_nonneg (by norm_num) hf

set_option maxRecDepth 100000 in
/-- With any solver for the fits of the records. -/
theorem real_record_with (L : List (List ℝ) → List ℝ → List ℝ) :
    ∃ out, cold rP (program exact L first 15) false robs 0 = .standard (.ok out) ∧
    ∃ r ∈ out.recs, r.category = 24 ∧ r.fitted.length = 25 := by
  have hstd : cold rP (program exact L first 15) false robs 0 = .standard (run rP (program exact L first 15) (rowsOf exact (clearObs false robs)) 0) := by
    unfold cold
    rw [if_neg (by decide), if_neg (by decide)]
    dsimp only
    rw [if_neg (by decide +kernel), if_neg (by decide +kernel)]
    rfl
  have hv : ∀ b : Fin 7, 0 ≤ variogram exact (bandOf b (rowsOf exact (clearObs false robs))) := by
    intro b
    unfold variogram
    refine Middle_nonneg ?_ ?_ (median_middle _ ?_)
    · rw [robs_rows]; simp [bandOf, List.range_succ]
    · intro x hx
      obtain ⟨n, rfl⟩ : ∃ n : ℕ, x = exact.ofInt (n : ℤ) := by
        obtain ⟨i, hi, rfl⟩ := List.mem_iff_getElem.1 hx
        rw [List.getElem_zipWith]
        exact ⟨_, rfl⟩
      rw [ofInt_exact]
      positivity
    · rw [robs_rows]; simp [bandOf, List.range_succ]
  obtain ⟨out, h1, r, h2, h3, h4, _⟩ := screened
    (kit (program exact L first 15) (fun b => variogram exact (bandOf b (rowsOf exact (clearObs false robs))))) rP
    (rowsOf exact (clearObs false robs)) 0 (by rw [robs_rows]; simp) (by rw [robs_rows]; simp [rP]) (by
      intro k
      unfold kit mask
      dsimp only
      split
      · rfl
      · rename_i r hr
        have hr' : ∀ b, r.y b = exact.ofInt (([300, 400, 500, 600, 700, 800, 1680] : List Int).getD b 0) := by
          have hmem := List.mem_of_getElem? hr
          rw [robs_rows, List.mem_map] at hmem
          obtain ⟨j, _, rfl⟩ := hmem
          intro b; rfl
        rw [Bool.or_eq_false_iff]
        exact ⟨noiseless [] _ _ _ _ (hr' _) (hv _), noiseless [] _ _ _ _ (hr' _) (hv _)⟩)
  refine ⟨out, ?_, r, h2, h3, ?_⟩
  · rw [hstd]
    exact congrArg Top.standard h1
  · rw [h4, robs_rows]; simp

theorem real_record : ∃ out, cold rP rE false robs 0 = .standard (.ok out) ∧
    ∃ r ∈ out.recs, r.category = 24 ∧ r.fitted.length = 25 := real_record_with first

end Pycold.ColdNum.Toy
