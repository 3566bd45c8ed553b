import Verif.Proof.ColdNumHom
import Verif.Spec.ColdNum
import Verif.Props.C05_C11
/-! The program of `Model/ColdNum.lean` at the level of scenes. -/
namespace Pycold.ColdNum

open Pycold.ColdV (Row Kit Hom)
open Pycold.ColdNum.Spec

variable {F B : Type}

/-- The thresholds and comparisons of the program. -/
def num (E : Env F B) : Cold.Num F (List F) := (kit E (fun _ => E.A.zero)).N

/-- The outcome without band values. -/
def Top.core (t : Top (Except Cold.Err (Output F B))) : Cold.Top F (List F) :=
  match t with
  | .rejected => .rejected
  | .empty => .empty
  | .fallback => .fallback
  | .standard r => .standard (r.map ColdV.Output.core)

theorem rowsOf_dates (A : Fl F) (l : List ClrObs) : (rowsOf A l).map (·.date) = l.map (·.date) := by
  unfold rowsOf
  rw [List.map_map]
  rfl

theorem cold_core (P : Cold.Params) (E : Env F (Fin 7)) (bC2 : Bool) (obs : List Scene) (nCm : Nat) :
    ∃ ω, Cold.cold P (num E) ω bC2 obs nCm = (cold P E bC2 obs nCm).core := by
  obtain ⟨ω, _, h⟩ := ColdV.standProcedure_core P
    (kit E (fun b => variogram E.A (bandOf b (rowsOf E.A (clearObs bC2 obs)))))
    (rowsOf E.A (clearObs bC2 obs)) nCm
  refine ⟨ω, ?_⟩
  rw [rowsOf_dates] at h
  unfold Cold.cold cold
  split
  · rfl
  · split
    · rfl
    · dsimp only
      split
      · rfl
      · split
        · rfl
        · show Cold.Top.standard _ = Cold.Top.standard _
          congr 1

theorem cold_ok {P : Cold.Params} {E : Env F (Fin 7)} {bC2 : Bool} {obs : List Scene} {nCm : Nat}
    (hc : 1 ≤ P.conse) (hs : Cold.Spec.CmSized P (obs.map (·.date)) nCm)
    {r : Except Cold.Err (Output F (Fin 7))} (h : cold P E bC2 obs nCm = .standard r) :
    ∃ out, r = .ok out := by
  obtain ⟨ω, hω⟩ := cold_core P E bC2 obs nCm
  rw [h] at hω
  obtain ⟨o, _, _, h1, _⟩ := cold_outcome hc hs hω
  cases r with
  | error e => cases h1
  | ok out => exact ⟨out, rfl⟩

theorem cold_standard {P : Cold.Params} {E : Env F (Fin 7)} {bC2 : Bool} {obs : List Scene} {nCm : Nat}
    {r : Except Cold.Err (Output F (Fin 7))} (h : cold P E bC2 obs nCm = .standard r) :
    r = run P E (rowsOf E.A (clearObs bC2 obs)) nCm ∧ (preprocessing bC2 obs).status = .success ∧
      dateCheckFails obs = false := by
  unfold cold at h
  split at h
  · cases h
  · split at h
    · cases h
    · rename_i hd
      dsimp only at h
      split at h
      · cases h
      · rename_i hst
        split at h
        · cases h
        · injection h with h
          exact ⟨h.symm, by simpa using hst, by simpa using hd⟩

theorem rows_sorted {bC2 : Bool} {obs : List Scene} (A : Fl F)
    (hst : (preprocessing bC2 obs).status = .success) (hd : dateCheckFails obs = false) :
    (rowsOf A (clearObs bC2 obs)).Pairwise (fun a b => a.date < b.date) := by
  have hord : Pycold.Spec.DatesInOrder obs := by
    by_cases h : Pycold.Spec.DatesInOrder obs
    · exact h
    · rw [(C03_date_order obs).mpr h] at hd; cases hd
  unfold rowsOf
  rw [List.pairwise_map]
  exact C04_strictly_increasing bC2 obs hst hord

/-! ### Blue and thermal -/

theorem idRange_agree {bC2 : Bool} {o o' : Scene} (h : AgreeBut bC2 o o') :
    idRange bC2 o = idRange bC2 o' := by
  have ht : ∀ t, (thermalTmp bC2 t > -9320 ∧ thermalTmp bC2 t < 7070) ↔ ThermalOk bC2 t := by
    intro t
    unfold thermalTmp ThermalOk
    cases bC2 with
    | true => by_cases h0 : t = 0 <;> simp [h0]
    | false => by_cases h0 : t = 0 <;> simp [h0]
  have e : ∀ o : Scene, idRange bC2 o = true ↔
      BlueOk o.b ∧ (o.g > 0 ∧ o.g < 10000 ∧ o.r > 0 ∧ o.r < 10000 ∧ o.n > 0 ∧ o.n < 10000 ∧ o.s1 > 0 ∧
        o.s1 < 10000 ∧ o.s2 > 0 ∧ o.s2 < 10000 ∧ o.qa < FILL_VALUE) ∧ ThermalOk bC2 o.t := by
    intro o
    rw [← ht]
    unfold idRange BlueOk
    simp only [Bool.and_eq_true, decide_eq_true_eq]
    constructor
    · rintro ⟨⟨⟨⟨⟨⟨⟨⟨⟨⟨⟨⟨⟨⟨h1, h2⟩, h3⟩, h4⟩, h5⟩, h6⟩, h7⟩, h8⟩, h9⟩, h10⟩, h11⟩, h12⟩, h13⟩, h14⟩, h15⟩
      exact ⟨⟨h1, h2⟩, ⟨h3, h4, h5, h6, h7, h8, h9, h10, h11, h12, h15⟩, h13, h14⟩
    · rintro ⟨⟨h1, h2⟩, ⟨h3, h4, h5, h6, h7, h8, h9, h10, h11, h12, h15⟩, h13, h14⟩
      exact ⟨⟨⟨⟨⟨⟨⟨⟨⟨⟨⟨⟨⟨⟨h1, h2⟩, h3⟩, h4⟩, h5⟩, h6⟩, h7⟩, h8⟩, h9⟩, h10⟩, h11⟩, h12⟩, h13⟩, h14⟩, h15⟩
  rw [Bool.eq_iff_iff, e, e, h.b, h.t, h.g, h.r, h.n, h.s1, h.s2, h.qa]

theorem preLoop_agree {bC2 : Bool} {l l' : List Scene} (h : List.Forall₂ (AgreeBut bC2) l l') :
    ∀ s, preLoop bC2 l s = preLoop bC2 l' s := by
  induction h with
  | nil => intro s; rfl
  | @cons o o' l l' ho hl ih =>
    intro s
    unfold preLoop
    rw [idRange_agree ho, ho.qa]
    have hm : l.map (fun _ => false) = l'.map (fun _ => false) := by
      rw [List.map_const', List.map_const', hl.length_eq]
    cases countQa s o'.qa with
    | none => simp only [hm]
    | some s' => simp only [ih]

/-- Clear observations that agree on the date and the reflective bands. -/
def ClrAgree (c c' : ClrObs) : Prop :=
  c.date = c'.date ∧ ∀ b ∈ reflective, c.bands.getD b 0 = c'.bands.getD b 0

theorem clrStep_agree {bC2 : Bool} {o o' : Scene} (h : AgreeBut bC2 o o') (v : Bool) {acc acc' : List ClrObs}
    (ha : List.Forall₂ ClrAgree acc acc') :
    List.Forall₂ ClrAgree (clrStep bC2 acc o v) (clrStep bC2 acc' o' v) := by
  have hl : acc.getLast?.map (·.date) = acc'.getLast?.map (·.date) := by
    have e : acc.map (·.date) = acc'.map (·.date) := by
      induction ha with
      | nil => rfl
      | cons h _ ih => simp [h.1, ih]
    rw [← List.getLast?_map, ← List.getLast?_map, e]
  have hn : acc.length = acc'.length := ha.length_eq
  unfold clrStep
  rw [h.qa, hn, hl, h.date]
  split
  · split
    · exact ha
    · refine List.rel_append ha (List.Forall₂.cons ⟨rfl, ?_⟩ .nil)
      intro b hb
      simp only [reflective, List.mem_cons, List.not_mem_nil, or_false] at hb
      rcases hb with rfl | rfl | rfl | rfl | rfl
      · exact h.g
      · exact h.r
      · exact h.n
      · exact h.s1
      · exact h.s2
  · exact ha

theorem clrLoop_agree {bC2 : Bool} {l l' : List Scene} (h : List.Forall₂ (AgreeBut bC2) l l') :
    ∀ (vs : List Bool) {acc acc' : List ClrObs}, List.Forall₂ ClrAgree acc acc' →
      List.Forall₂ ClrAgree (clrLoop bC2 l vs acc) (clrLoop bC2 l' vs acc') := by
  induction h with
  | nil => intro vs acc acc' ha; exact ha
  | cons ho _ ih =>
    intro vs acc acc' ha
    cases vs with
    | nil => exact ha
    | cons v vs => exact ih vs (clrStep_agree ho v ha)

/-- Positions of the reflective bands. -/
def ι5 (k : Fin 5) : Fin 7 := ⟨k.val + 1, by omega⟩

/-- The program on the five reflective bands only. -/
def five (A : Fl F) (lasso robust : List (List F) → List F → List F) (tcg : F) : Env F (Fin 5) :=
  { A := A, lasso := lasso, robust := robust, blist := [0, 1, 2, 3, 4], green := 0, swir := 3, tcg := tcg }

theorem program_along (A : Fl F) (lasso robust : List (List F) → List F → List F) (tcg : F) :
    program A lasso robust tcg = (five A lasso robust tcg).along ι5 := rfl

theorem rows_restrict (A : Fl F) {l l' : List ClrObs} (h : List.Forall₂ ClrAgree l l') :
    (rowsOf A l).map (Row.map (fun y => y ∘ ι5)) = (rowsOf A l').map (Row.map (fun y => y ∘ ι5)) := by
  unfold rowsOf
  rw [List.map_map, List.map_map]
  induction h with
  | nil => rfl
  | @cons c c' l l' hc _ ih =>
    rw [List.map_cons, List.map_cons, ih]
    congr 1
    show Row.map _ _ = Row.map _ _
    unfold Row.map
    simp only [Function.comp_apply]
    rw [hc.1]
    congr 1
    funext k
    show A.ofInt (c.bands.getD (ι5 k) 0) = A.ofInt (c'.bands.getD (ι5 k) 0)
    rw [hc.2]
    revert k
    decide

/-- What `view` keeps of a record, read off the record of the five-band program. -/
def view5 (r : Rec F (Fin 5)) : View F :=
  { tStart := r.tStart, tEnd := r.tEnd, tBreak := r.tBreak, numObs := r.numObs, category := r.category,
    changeProb := r.changeProb,
    coefs := [0, 1, 2, 3, 4].map fun b => r.model.map fun m => (m b).coefs
    rmse := [0, 1, 2, 3, 4].map fun b => r.model.map fun m => (m b).rmse
    magnitude := [0, 1, 2, 3, 4].map fun b => r.magn.map fun g => g b }

theorem view_map (E : Env F (Fin 5)) (rmin : Fin 7 → F) (l : List (ColdV.Row (Fin 7 → F))) (r : Rec F (Fin 7)) :
    view5 (ColdV.Rec.map (restrict E ι5 rmin l) r) = view r := by
  unfold view5 view ColdV.Rec.map
  congr 1
  · cases r.model <;> rfl
  · cases r.model <;> rfl
  · cases r.magn <;> rfl

theorem run_five {P : Cold.Params} {A : Fl F} {lasso robust : List (List F) → List F → List F} {tcg : F}
    {rows : List (ColdV.Row (Fin 7 → F))} {nCm : Nat} {out : Output F (Fin 7)} (hc : 1 ≤ P.conse)
    (hs : rows.Pairwise (fun a b => a.date < b.date)) (h : run P (program A lasso robust tcg) rows nCm = .ok out) :
    ∃ o5, run P (five A lasso robust tcg) (rows.map (Row.map (fun y => y ∘ ι5))) nCm = .ok o5 ∧
      o5.recs.map view5 = out.recs.map view ∧ o5.cm = out.cm ∧ o5.overflow = out.overflow ∧
      o5.iterations = out.iterations := by
  have hr := ColdV.standProcedure_map (restrict (five A lasso robust tcg) ι5
    (fun b => variogram A (bandOf b rows)) rows) (P := P) (nCm := nCm) (rows := rows) (out := out) hc hs h
  refine ⟨out.map (restrict (five A lasso robust tcg) ι5 (fun b => variogram A (bandOf b rows)) rows),
    ?_, ?_, rfl, rfl, rfl⟩
  · unfold run
    rw [← hr]
    congr 2
    funext b
    rw [bandOf_restrict]
    rfl
  · show (out.recs.map _).map view5 = _
    rw [List.map_map]
    apply List.map_congr_left
    intro r _
    exact view_map _ _ _ r

end Pycold.ColdNum
