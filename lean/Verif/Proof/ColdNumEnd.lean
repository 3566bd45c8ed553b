import Verif.Proof.ColdNumTop
import Verif.Proof.ColdNumReal
import Verif.Proof.ColdVData
import Verif.Proof.ColdVPrefix
import Verif.Proof.ColdVCm
/-! Lemmas that lead from the results about the loop to the statements of C69–C73. -/
namespace Pycold.ColdNum

open Pycold.ColdV (Kit Hom)
open Pycold.ColdV.Spec Pycold.ColdNum.Spec

variable {F B : Type}

/-! ### Scenes that differ in blue and thermal -/

theorem dateCheck_agree {bC2 : Bool} {l l' : List Scene} (h : List.Forall₂ (AgreeBut bC2) l l') :
    dateCheckFails l = dateCheckFails l' := by
  induction h with
  | nil => rfl
  | cons h1 t ih =>
    cases t with
    | nil => rfl
    | cons h2 t' =>
      unfold dateCheckFails
      rw [ih, h1.date, h2.date]

theorem cold_agree {P : Cold.Params} {A : Fl F} {lasso robust : List (List F) → List F → List F} {tcg : F}
    {bC2 : Bool} {obs obs' : List Scene} {nCm : Nat} (h : List.Forall₂ (AgreeBut bC2) obs obs') :
    (cold P (program A lasso robust tcg) bC2 obs nCm = .rejected ∧
      cold P (program A lasso robust tcg) bC2 obs' nCm = .rejected) ∨
    (cold P (program A lasso robust tcg) bC2 obs nCm = .empty ∧
      cold P (program A lasso robust tcg) bC2 obs' nCm = .empty) ∨
    (cold P (program A lasso robust tcg) bC2 obs nCm = .fallback ∧
      cold P (program A lasso robust tcg) bC2 obs' nCm = .fallback) ∨
    (cold P (program A lasso robust tcg) bC2 obs nCm =
        .standard (run P (program A lasso robust tcg) (rowsOf A (clearObs bC2 obs)) nCm) ∧
      cold P (program A lasso robust tcg) bC2 obs' nCm =
        .standard (run P (program A lasso robust tcg) (rowsOf A (clearObs bC2 obs')) nCm)) := by
  have hp : preprocessing bC2 obs = preprocessing bC2 obs' := preLoop_agree h _
  have hl : obs.isEmpty = obs'.isEmpty := by cases h <;> rfl
  unfold cold
  rw [dateCheck_agree h, hp, hl]
  split
  · exact Or.inr (Or.inl ⟨rfl, rfl⟩)
  · split
    · exact Or.inl ⟨rfl, rfl⟩
    · dsimp only
      split
      · exact Or.inl ⟨rfl, rfl⟩
      · split
        · exact Or.inr (Or.inr (Or.inl ⟨rfl, rfl⟩))
        · exact Or.inr (Or.inr (Or.inr ⟨rfl, rfl⟩))

theorem rows_agree (A : Fl F) {bC2 : Bool} {obs obs' : List Scene} (h : List.Forall₂ (AgreeBut bC2) obs obs') :
    (rowsOf A (clearObs bC2 obs)).map (ColdV.Row.map (fun y => y ∘ ι5)) =
      (rowsOf A (clearObs bC2 obs')).map (ColdV.Row.map (fun y => y ∘ ι5)) := by
  apply rows_restrict
  unfold clearObs
  have hp : preprocessing bC2 obs = preprocessing bC2 obs' := preLoop_agree h _
  rw [hp]
  exact clrLoop_agree h _ .nil

/-! ### Longer series -/

theorem preLoop_append (bC2 : Bool) (ys : List Scene) : ∀ (xs : List Scene) (s : Sums),
    (preLoop bC2 xs s).status = .success →
    (preLoop bC2 (xs ++ ys) s).idr = (preLoop bC2 xs s).idr ++ (preLoop bC2 ys (preLoop bC2 xs s).sums).idr
  | [], s, _ => rfl
  | o :: os, s, h => by
    cases hq : countQa s o.qa with
    | none =>
      have e : (preLoop bC2 (o :: os) s).status = .failure := by
        show (match countQa s o.qa with | none => _ | some s' => _ : PreResult).status = _
        rw [hq]
      rw [e] at h
      cases h
    | some s' =>
      have e : ∀ l, preLoop bC2 (o :: l) s = ⟨(preLoop bC2 l s').status, idRange bC2 o :: (preLoop bC2 l s').idr,
          (preLoop bC2 l s').sums⟩ := by
        intro l
        show (match countQa s o.qa with | none => _ | some s' => _ : PreResult) = _
        rw [hq]
      rw [List.cons_append, e, e]
      rw [e] at h
      rw [preLoop_append bC2 ys os s' h]
      rfl

theorem preLoop_length (bC2 : Bool) : ∀ (xs : List Scene) (s : Sums), (preLoop bC2 xs s).idr.length = xs.length
  | [], s => rfl
  | o :: os, s => by
    unfold preLoop
    cases hq : countQa s o.qa with
    | none => simp
    | some s' => simp [preLoop_length bC2 os s']

theorem clrLoop_append (bC2 : Bool) (ys : List Scene) (ws : List Bool) : ∀ (xs : List Scene) (vs : List Bool)
    (acc : List ClrObs), vs.length = xs.length →
    clrLoop bC2 (xs ++ ys) (vs ++ ws) acc = clrLoop bC2 ys ws (clrLoop bC2 xs vs acc)
  | [], [], acc, _ => rfl
  | [], v :: vs, acc, h => by cases h
  | o :: os, [], acc, h => by cases h
  | o :: os, v :: vs, acc, h => by
    show clrLoop bC2 (os ++ ys) (vs ++ ws) _ = clrLoop bC2 ys ws (clrLoop bC2 os vs _)
    exact clrLoop_append bC2 ys ws os vs _ (by simpa using h)

theorem clrLoop_prefix (bC2 : Bool) : ∀ (xs : List Scene) (vs : List Bool) (acc : List ClrObs),
    acc <+: clrLoop bC2 xs vs acc
  | [], _, acc => List.prefix_refl _
  | _ :: _, [], acc => List.prefix_refl _
  | o :: os, v :: vs, acc => by
    refine List.IsPrefix.trans ?_ (clrLoop_prefix bC2 os vs (clrStep bC2 acc o v))
    unfold clrStep
    split
    · split
      · exact List.prefix_refl _
      · exact List.prefix_append _ _
    · exact List.prefix_refl _

/-- The clear observations of a longer series start with those of the shorter one. -/
theorem clearObs_prefix (bC2 : Bool) (xs ys : List Scene) (h : (preprocessing bC2 xs).status = .success) :
    clearObs bC2 xs <+: clearObs bC2 (xs ++ ys) := by
  unfold clearObs preprocessing
  rw [preLoop_append bC2 ys xs _ h, clrLoop_append _ _ _ _ _ _ (preLoop_length _ _ _)]
  exact clrLoop_prefix _ _ _ _

theorem foldl_congr' {α β : Type} {f g : α → β → α} : ∀ (l : List β) (a : α), (∀ a, ∀ b ∈ l, f a b = g a b) →
    l.foldl f a = l.foldl g a
  | [], _, _ => rfl
  | x :: xs, a, h => by
    rw [List.foldl_cons, List.foldl_cons, h a x (List.mem_cons_self ..)]
    exact foldl_congr' xs _ (fun a b hb => h a b (List.mem_cons_of_mem _ hb))

/-- Only the noise floor of the bands of the change test and of the screening matters. -/
theorem kit_congr (E : Env F B) {u v : B → F} (hb : ∀ b ∈ E.blist, u b = v b) (hg : u E.green = v E.green)
    (hs : u E.swir = v E.swir) : kit E u = kit E v := by
  have hz : ∀ rmse dif, zColumn E u rmse dif = zColumn E v rmse dif := by
    intro rmse dif
    unfold zColumn
    refine Prod.ext ?_ (Prod.ext ?_ rfl)
    · exact foldl_congr' _ _ (fun a b h => by simp only [hb b h])
    · exact List.map_congr_left (fun b h => by simp only [hb b h])
  unfold kit
  congr 1
  · funext rows k
    unfold mask
    simp only [hg, hs]
  · funext m rows
    unfold unstable
    simp only
    congr 1
    exact foldl_congr' _ _ (fun a b h => by simp only [hb b h])
  · funext df m r
    exact hz _ _
  · funext df c m m' ds r
    exact hz _ _

/-! ### Medians -/

theorem Middle.neg {l : List ℝ} {v : ℝ} (h : Middle l v) : Middle (l.map (fun x => -x)) (-v) := by
  unfold Middle at *
  rw [List.length_map, List.countP_map, List.countP_map]
  have e1 : (fun x : ℝ => decide (x ≤ -v)) ∘ (fun x => -x) = fun x => decide (v ≤ x) := by
    funext x
    simp only [Function.comp_apply, neg_le_neg_iff]
  have e2 : (fun x : ℝ => decide (-v ≤ x)) ∘ (fun x => -x) = fun x => decide (x ≤ v) := by
    funext x
    simp only [Function.comp_apply, neg_le_neg_iff]
  constructor
  · have := h.2
    rw [← e1] at this
    exact this
  · have := h.1
    rw [← e2] at this
    exact this

end Pycold.ColdNum
