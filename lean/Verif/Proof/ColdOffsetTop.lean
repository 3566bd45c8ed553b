import Verif.Spec.Offset
import Verif.Proof.ColdOffset
import Verif.Proof.ColdNumEnd
import Verif.Proof.Preprocess
/-! Scenes to which a constant was added (C81). -/
namespace Pycold.ColdNum

open ColdNum.Spec ColdV.Spec
open Pycold.ColdV (Kit Hom)

variable {bC2 : Bool} {d : Fin 7 → Int}

theorem dateCheck_raised {l l' : List Scene} (h : List.Forall₂ (Raised bC2 d) l l') :
    dateCheckFails l' = dateCheckFails l := by
  induction h with
  | nil => rfl
  | cons h1 t ih =>
    cases t with
    | nil => rfl
    | cons h2 t' =>
      unfold dateCheckFails
      rw [ih, h1.date, h2.date]

theorem preLoop_raised {l l' : List Scene} (h : List.Forall₂ (Raised bC2 d) l l') :
    ∀ s, (preLoop bC2 l' s).status = (preLoop bC2 l s).status ∧ (preLoop bC2 l' s).sums = (preLoop bC2 l s).sums := by
  induction h with
  | nil => intro s; exact ⟨rfl, rfl⟩
  | @cons o o' l l' ho hl ih =>
    intro s
    unfold preLoop
    rw [ho.qa]
    cases countQa s o.qa with
    | none => exact ⟨rfl, rfl⟩
    | some s' => exact ih s'

theorem clrBands_raised {o o' : Scene} (h : Raised bC2 d o o') (h6 : d 6 = 0) (hu : Pycold.Spec.ClearUsable bC2 o) :
    (⟨o'.date, clrBands bC2 o'⟩ : ClrObs) = raise d ⟨o.date, clrBands bC2 o⟩ := by
  obtain ⟨e0, e1, e2, e3, e4, e5, e6⟩ := h.values hu
  unfold raise clrBands
  rw [h.date, e0, e1, e2, e3, e4, e5, e6]
  simp [List.finRange, h6]

theorem clrStep_raised {o o' : Scene} (h : Raised bC2 d o o') (h6 : d 6 = 0) (acc : List ClrObs) :
    clrStep bC2 (acc.map (raise d)) o' (idRange bC2 o') = (clrStep bC2 acc o (idRange bC2 o)).map (raise d) := by
  have hl : (acc.map (raise d)).getLast?.map (·.date) = acc.getLast?.map (·.date) := by
    rw [List.getLast?_map]
    cases acc.getLast? <;> rfl
  have hi : (decide (o'.qa < 2) && idRange bC2 o') = (decide (o.qa < 2) && idRange bC2 o) := by
    rw [h.qa]
    by_cases hq : o.qa < 2
    · have := h.usable hq
      rw [← Pycold.idRange_iff, ← Pycold.idRange_iff] at this
      rw [Bool.eq_iff_iff.2 this]
    · simp [hq]
  unfold clrStep
  rw [hi, List.length_map, hl, h.date]
  split
  · rename_i hu
    split
    · rfl
    · rw [Bool.and_eq_true, decide_eq_true_eq, Pycold.idRange_iff] at hu
      have := clrBands_raised h h6 hu
      rw [h.date] at this
      rw [List.map_append, List.map_singleton, this]
  · rfl

theorem clrLoop_raised (h6 : d 6 = 0) {l l' : List Scene} (h : List.Forall₂ (Raised bC2 d) l l') :
    ∀ (s : Sums) (acc : List ClrObs), (preLoop bC2 l s).status = .success →
      clrLoop bC2 l' (preLoop bC2 l' s).idr (acc.map (raise d)) =
        (clrLoop bC2 l (preLoop bC2 l s).idr acc).map (raise d) := by
  induction h with
  | nil => intro s acc _; rfl
  | @cons o o' l l' ho hl ih =>
    intro s acc hst
    unfold preLoop at hst ⊢
    rw [ho.qa]
    cases hc : countQa s o.qa with
    | none => rw [hc] at hst; cases hst
    | some s' =>
      rw [hc] at hst
      show clrLoop bC2 l' _ (clrStep bC2 _ o' _) = (clrLoop bC2 l _ (clrStep bC2 _ o _)).map _
      rw [clrStep_raised ho h6]
      exact ih s' _ hst

theorem clearObs_raised (h6 : d 6 = 0) {l l' : List Scene} (h : List.Forall₂ (Raised bC2 d) l l')
    (hst : (preprocessing bC2 l).status = .success) : clearObs bC2 l' = (clearObs bC2 l).map (raise d) :=
  clrLoop_raised h6 h _ [] hst

theorem raise_getD (o : ClrObs) (b : Fin 7) : (raise d o).bands.getD b 0 = o.bands.getD b 0 + d b := by
  unfold raise
  fin_cases b <;> rfl

theorem rowsOf_raised (w : List ClrObs) : rowsOf exact (w.map (raise d)) =
    (rowsOf exact w).map (ColdV.Row.map (plus fun b => (d b : ℝ))) := by
  unfold rowsOf
  rw [List.map_map, List.map_map]
  apply List.map_congr_left
  intro o _
  show (⟨_, _⟩ : ColdV.Row _) = ⟨_, _⟩
  congr 1
  funext b
  show (((raise d o).bands.getD b 0 : ℤ) : ℝ) = ((o.bands.getD b 0 : ℤ) : ℝ) + (d b : ℝ)
  rw [raise_getD]
  push_cast
  rfl

theorem cold_raised {P : Cold.Params} {E : Env ℝ (Fin 7)} {obs obs' : List Scene} {nCm : Nat}
    (h : List.Forall₂ (Raised bC2 d) obs obs') :
    (cold P E bC2 obs nCm = .rejected ∧ cold P E bC2 obs' nCm = .rejected) ∨
    (cold P E bC2 obs nCm = .empty ∧ cold P E bC2 obs' nCm = .empty) ∨
    (cold P E bC2 obs nCm = .fallback ∧ cold P E bC2 obs' nCm = .fallback) ∨
    (cold P E bC2 obs nCm = .standard (run P E (rowsOf E.A (clearObs bC2 obs)) nCm) ∧
      cold P E bC2 obs' nCm = .standard (run P E (rowsOf E.A (clearObs bC2 obs')) nCm)) := by
  obtain ⟨hp1, hp2⟩ : (preprocessing bC2 obs').status = (preprocessing bC2 obs).status ∧
      (preprocessing bC2 obs').sums = (preprocessing bC2 obs).sums := preLoop_raised h _
  have hl : obs'.isEmpty = obs.isEmpty := by cases h <;> rfl
  unfold cold
  rw [dateCheck_raised h, hl]
  dsimp only
  rw [hp1, hp2]
  split
  · exact Or.inr (Or.inl ⟨rfl, rfl⟩)
  · split
    · exact Or.inl ⟨rfl, rfl⟩
    · split
      · exact Or.inl ⟨rfl, rfl⟩
      · split
        · exact Or.inr (Or.inr (Or.inl ⟨rfl, rfl⟩))
        · exact Or.inr (Or.inr (Or.inr ⟨rfl, rfl⟩))

/-! ### The screening -/

theorem mask_flags {E : Env ℝ (Fin 7)} (hA : E.A = exact) (hg : E.green = 1) (hs : E.swir = 4) (rmin : Fin 7 → ℝ)
    (w : List ClrObs) (k : ℕ) : mask E rmin (rowsOf exact w) k = true ↔ Flagged E.robust rmin w k := by
  unfold mask
  dsimp only
  rw [hA, hg, hs]
  have hd : (rowsOf exact w).map (·.date) = w.map (·.date) := rowsOf_dates _ _
  have hy : exact.div exact.w (exact.ofInt (exact.ceil (exact.div (exact.ofInt
      ((w.map (·.date)).getLast?.getD 0 - (w.map (·.date)).head?.getD 0)) (exact.lit 36525 100)))) =
      2 * PI / 365.25 / yearsOf w := by
    rw [w_exact, lit_exact]
    unfold yearsOf
    show 2 * PI / 365.25 / (((⌈((_ : ℤ) : ℝ) / (((36525 : ℤ) : ℝ) / ((100 : ℤ) : ℝ))⌉ : ℤ)) : ℝ) = _
    norm_num
  rw [hd, hy]
  have hrow : (w.map (·.date)).map (maskRow exact (2 * PI / 365.25 / yearsOf w)) =
      w.map (fun o => screenRow (yearsOf w) (o.date : ℝ)) := by
    rw [List.map_map]
    congr 1
    funext o
    unfold maskRow screenRow
    dsimp only [Function.comp]
    rw [w_exact]
    rfl
  have hb : ∀ b, bandOf b (rowsOf exact w) = valuesOf w b := by
    intro b; unfold bandOf rowsOf valuesOf; rw [List.map_map]; rfl
  rw [hrow]
  unfold Flagged
  cases hw : w[k]? with
  | none =>
    have : (rowsOf exact w)[k]? = none := by unfold rowsOf; rw [List.getElem?_map, hw]; rfl
    rw [this]
    constructor
    · intro h; cases h
    · rintro ⟨_, _, _, h, _⟩; cases h
  | some o =>
    have : (rowsOf exact w)[k]? = some ⟨o.date, fun b => exact.ofInt (o.bands.getD b 0)⟩ := by
      unfold rowsOf; rw [List.getElem?_map, hw]; rfl
    rw [this]
    have one : ∀ b, exact.lt (exact.mul exact.tConst (rmin b)) (exact.abs (exact.sub
        (exact.ofInt (o.bands.getD b 0)) (maskPred exact (2 * PI / 365.25 / yearsOf w)
          (E.robust (w.map (fun o => screenRow (yearsOf w) (o.date : ℝ))) (bandOf b (rowsOf exact w))) o.date))) = true ↔
        4.42 * rmin b < |((o.bands.getD b 0 : ℤ) : ℝ) - screenCurve (yearsOf w)
      (E.robust (w.map fun o => screenRow (yearsOf w) (o.date : ℝ)) (valuesOf w b)) (o.date : ℝ)| := by
      intro b
      rw [hb]
      have ep : maskPred exact (2 * PI / 365.25 / yearsOf w)
          (E.robust (w.map (fun o => screenRow (yearsOf w) (o.date : ℝ))) (valuesOf w b)) o.date =
          screenCurve (yearsOf w) (E.robust (w.map (fun o => screenRow (yearsOf w) (o.date : ℝ))) (valuesOf w b)) (o.date : ℝ) := by
        generalize E.robust _ _ = cf
        unfold maskPred screenCurve
        dsimp only
        rw [w_exact, zero_exact]
        show cf.getD 0 0 + cf.getD 1 0 * Real.cos ((o.date : ℝ) * _) + cf.getD 2 0 * Real.sin ((o.date : ℝ) * _) +
          cf.getD 3 0 * Real.cos ((o.date : ℝ) * _) + cf.getD 4 0 * Real.sin ((o.date : ℝ) * _) = _
        simp only [mul_comm ((o.date : ℤ) : ℝ)]
      rw [ep]
      have et : exact.tConst = 4.42 := by
        unfold Fl.tConst; rw [lit_exact]; norm_num
      rw [et]
      show decide (4.42 * rmin b < |((o.bands.getD b 0 : ℤ) : ℝ) - _|) = true ↔ _
      rw [decide_eq_true_eq]
    show (exact.lt _ _ || exact.lt _ _) = true ↔ _
    rw [Bool.or_eq_true, one 1, one 4]
    constructor
    · rintro (h | h)
      · exact ⟨1, by simp, o, rfl, h⟩
      · exact ⟨4, by simp, o, rfl, h⟩
    · rintro ⟨b, hb, o', ho, h⟩
      injection ho with ho
      subst ho
      simp only [List.mem_cons, List.not_mem_nil, or_false] at hb
      rcases hb with rfl | rfl
      · exact Or.inl h
      · exact Or.inr h

theorem mask_flagged {E : Env ℝ (Fin 7)} {fuel : ℕ} (hE : Exact E fuel) (rmin : Fin 7 → ℝ) (w : List ClrObs) (k : ℕ) :
    mask E rmin (rowsOf exact w) k = true ↔ Flagged E.robust rmin w k :=
  mask_flags hE.A hE.green hE.swir rmin w k

theorem yearsOf_raised (w : List ClrObs) : yearsOf (w.map (raise d)) = yearsOf w := by
  unfold yearsOf
  rw [List.map_map]
  rfl

theorem valuesOf_raised (w : List ClrObs) (b : Fin 7) :
    valuesOf (w.map (raise d)) b = (valuesOf w b).map (· + (d b : ℝ)) := by
  unfold valuesOf
  rw [List.map_map, List.map_map]
  apply List.map_congr_left
  intro o _
  simp only [Function.comp]
  rw [raise_getD]
  push_cast
  rfl

theorem flagged_of_equivariant {robust : List (List ℝ) → List ℝ → List ℝ} (floor : Fin 7 → ℝ) (w : List ClrObs)
    (h : ∀ b ∈ ([1, 4] : List (Fin 7)), ∀ (j : ℕ),
      (robust (w.map fun o => screenRow (yearsOf w) (o.date : ℝ)) ((valuesOf w b).map (· + (d b : ℝ)))).getD j 0 =
        (robust (w.map fun o => screenRow (yearsOf w) (o.date : ℝ)) (valuesOf w b)).getD j 0 +
          (if j = 0 then (d b : ℝ) else 0)) (k : ℕ) :
    Flagged robust floor (w.map (raise d)) k ↔ Flagged robust floor w k := by
  have hr : (w.map (raise d)).map (fun o => screenRow (yearsOf w) (o.date : ℝ)) =
      w.map (fun o => screenRow (yearsOf w) (o.date : ℝ)) := by
    rw [List.map_map]; rfl
  have key : ∀ b ∈ ([1, 4] : List (Fin 7)), ∀ o : ClrObs,
      (((raise d o).bands.getD b 0 : ℤ) : ℝ) - screenCurve (yearsOf (w.map (raise d)))
        (robust ((w.map (raise d)).map fun o => screenRow (yearsOf (w.map (raise d))) (o.date : ℝ))
          (valuesOf (w.map (raise d)) b)) ((raise d o).date : ℝ) =
      ((o.bands.getD b 0 : ℤ) : ℝ) - screenCurve (yearsOf w)
        (robust (w.map fun o => screenRow (yearsOf w) (o.date : ℝ)) (valuesOf w b)) (o.date : ℝ) := by
    intro b hb o
    rw [yearsOf_raised, hr, valuesOf_raised, raise_getD]
    unfold screenCurve
    rw [h b hb, h b hb, h b hb, h b hb, h b hb]
    simp only [if_true, if_neg (show ¬ (1 : ℕ) = 0 by decide), if_neg (show ¬ (2 : ℕ) = 0 by decide),
      if_neg (show ¬ (3 : ℕ) = 0 by decide), if_neg (show ¬ (4 : ℕ) = 0 by decide), add_zero]
    push_cast
    show _ + _ - (_ + _ + _ * Real.cos (_ * ((o.date : ℤ) : ℝ)) + _ + _ + _) = _
    show _ + _ - (_ + _ + _ + _ * Real.sin (_ * ((o.date : ℤ) : ℝ)) + _ * Real.cos (_ * ((o.date : ℤ) : ℝ)) + _ * Real.sin (_ * ((o.date : ℤ) : ℝ))) = _
    ring
  unfold Flagged
  constructor
  · rintro ⟨b, hb, o', ho', hlt⟩
    rw [List.getElem?_map, Option.map_eq_some_iff] at ho'
    obtain ⟨o, ho, rfl⟩ := ho'
    rw [key b hb] at hlt
    exact ⟨b, hb, o, ho, hlt⟩
  · rintro ⟨b, hb, o, ho, hlt⟩
    refine ⟨b, hb, raise d o, by rw [List.getElem?_map, ho]; rfl, ?_⟩
    rw [key b hb]
    exact hlt

theorem coefs_offset (f : Fit ℝ) (δ : ℝ) : (f.offset δ).coefs.getD 0 0 = f.coefs.getD 0 0 + δ ∧
    (f.offset δ).coefs.tail = f.coefs.tail := ⟨rfl, rfl⟩

/-- The run on the series with the constants added. -/
theorem run_raised {P : Cold.Params} {E : Env ℝ (Fin 7)} {fuel : ℕ} (hE : Exact E fuel) (hc : 1 ≤ P.conse)
    {w : List ClrObs} {nCm : ℕ} {out : Output ℝ (Fin 7)}
    (hs : (rowsOf exact w).Pairwise (fun a b => a.date < b.date))
    (hm : SameFlags E.robust (fun b => variogram exact (bandOf b (rowsOf exact w))) d w)
    (hr : run P E (rowsOf E.A w) nCm = .ok out) :
    ∃ out', run P E (rowsOf E.A (w.map (raise d))) nCm = .ok out' ∧
      List.Forall₂ (SameBut d) out.recs out'.recs ∧ out'.cm = out.cm ∧ out'.overflow = out.overflow := by
  rw [hE.A] at hr ⊢
  have hmask : ∀ l, l.Sublist (rowsOf exact w) → 6 ≤ l.length →
      mask E (fun b => variogram exact (bandOf b (rowsOf exact w)))
        (l.map (ColdV.Row.map (plus fun b => (d b : ℝ)))) =
      mask E (fun b => variogram exact (bandOf b (rowsOf exact w))) l := by
    intro l hl h6
    obtain ⟨u, hu, rfl⟩ : ∃ u, u.Sublist w ∧ l = rowsOf exact u := by
      unfold rowsOf at hl
      obtain ⟨u, hu, e⟩ := List.sublist_map_iff.1 hl
      exact ⟨u, hu, e⟩
    have h6' : 6 ≤ u.length := by
      unfold rowsOf at h6; rwa [List.length_map] at h6
    rw [← rowsOf_raised]
    funext k
    rw [Bool.eq_iff_iff, mask_flagged hE, mask_flagged hE]
    exact hm u hu h6' k
  let H := shifting hE.A hE.enough hE.lasso (fun b => variogram exact (bandOf b (rowsOf exact w)))
    (fun b => (d b : ℝ)) (rowsOf exact w) hs hmask
  have hr' : ColdV.standProcedure P (kit E (fun b => variogram exact (bandOf b (rowsOf exact w))))
      (rowsOf exact w) nCm = .ok out := by
    unfold run at hr
    rw [hE.A] at hr
    exact hr
  have hmap := ColdV.standProcedure_map H hc hs hr'
  refine ⟨out.map H, ?_, ?_, rfl, rfl⟩
  · unfold run
    rw [rowsOf_raised, ← hmap, hE.A]
    congr 2
    funext b
    rw [bandOf_plus, variogram_offset]
  · show List.Forall₂ _ out.recs (out.recs.map (ColdV.Rec.map H))
    rw [List.forall₂_map_right_iff, List.forall₂_same]
    intro r _
    refine ⟨rfl, rfl, rfl, rfl, rfl, rfl, ?_, ?_, ?_⟩
    · show r.magn.map id = r.magn
      exact Option.map_id_apply ..
    · intro h
      show r.model.map _ = none
      rw [h]; rfl
    · intro m h
      refine ⟨fun b => (m b).offset (d b : ℝ), ?_, fun b => ⟨rfl, rfl, rfl⟩⟩
      show r.model.map _ = some _
      rw [h]; rfl

end Pycold.ColdNum
