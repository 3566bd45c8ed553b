import Verif.Model.ColdNum
import Verif.Model.Obcold
import Verif.Model.Pinpoint
import Verif.Proof.Preprocess
import Verif.Spec.Repeats
import Verif.Spec.SccdNum
import Mathlib.Data.List.Forall2
/-!
# Property C96: unusable values and further scenes of a day have no influence

In a series of scenes in the order of their dates, the values of a clear scene may be any other values if both are
outside the physical range, or if a usable clear scene of the same date precedes it:

* COLD's standard procedure gives the same result, also when asked for change magnitudes;
* the reconstruction of OBCOLD gives the same segments;
* S-CCD gives the same packs outside of the snow mode;
* the fallback for too few clear observations gives the same record (values outside the range only).

Refuted in the snow mode of S-CCD, which has no range test, and for further scenes of a day in that fallback.
-/
namespace Pycold.Repeats
open Pycold.Spec Spec

/-! ## The two series walked together -/

/-- The two series from some scene on; `d` is the date of the last usable clear scene before it. -/
inductive Steps (c2 : Bool) : Option Int → List Scene → List Scene → Prop where
  | nil (d) : Steps c2 d [] []
  | used {d x a b} : ClearUsable c2 x → Steps c2 (some x.date) a b → Steps c2 d (x :: a) (x :: b)
  | same {d x a b} : ¬ ClearUsable c2 x → Steps c2 d a b → Steps c2 d (x :: a) (x :: b)
  | idle {d x y a b} : x.date = y.date → Clear x → Clear y → (¬ Usable c2 x ∨ d = some x.date) →
      (¬ Usable c2 y ∨ d = some y.date) → Steps c2 d a b → Steps c2 d (x :: a) (y :: b)

/-- `d` is the last date of the usable clear scenes of `l`. -/
def Last (c2 : Bool) (l : List Scene) (d : Option Int) : Prop :=
  (∀ p ∈ l, ClearUsable c2 p → ∃ e, d = some e ∧ p.date ≤ e) ∧ ∀ e, d = some e → ∃ p ∈ l, ClearUsable c2 p ∧ p.date = e

theorem last_skip {c2 : Bool} {l : List Scene} {d : Option Int} {x : Scene} (h : Last c2 l d)
    (hx : ClearUsable c2 x → d = some x.date) : Last c2 (l ++ [x]) d := by
  refine ⟨fun p hp hu => ?_, fun e he => ?_⟩
  · rcases List.mem_append.1 hp with hp | hp
    · exact h.1 p hp hu
    · obtain rfl : p = x := by simpa using hp
      exact ⟨p.date, hx hu, Int.le_refl _⟩
  · obtain ⟨p, hp, hu⟩ := h.2 e he
    exact ⟨p, List.mem_append_left _ hp, hu⟩

theorem last_use {c2 : Bool} {l : List Scene} {x : Scene} (hd : ∀ p ∈ l, p.date ≤ x.date) (hx : ClearUsable c2 x) :
    Last c2 (l ++ [x]) (some x.date) := by
  refine ⟨fun p hp _ => ⟨x.date, rfl, ?_⟩, fun e he => ⟨x, by simp, hx, by simpa using he⟩⟩
  rcases List.mem_append.1 hp with hp | hp
  · exact hd p hp
  · obtain rfl : p = x := by simpa using hp
    exact Int.le_refl _

theorem last_repeated {c2 : Bool} {pre rest : List Scene} {d : Option Int} {x : Scene} (hl : Last c2 pre d)
    (hd : ∀ p ∈ pre, p.date ≤ x.date) (h : Repeated c2 (pre ++ x :: rest) pre.length x) : d = some x.date := by
  obtain ⟨j, p, hj, hp, hu, he⟩ := h
  rw [List.getElem?_append_left hj] at hp
  obtain ⟨e, h1, h2⟩ := hl.1 p (List.mem_of_getElem? hp) hu
  obtain ⟨q, h3, -, h4⟩ := hl.2 e h1
  have := hd q h3
  rw [h1]
  congr 1
  omega

theorem steps_aux (c2 : Bool) : ∀ (a b pa pb : List Scene) (d : Option Int), pa.length = pb.length → SameUse c2 (pa ++ a) (pb ++ b) →
    DatesInOrder (pa ++ a) → DatesInOrder (pb ++ b) → Last c2 pa d → Last c2 pb d → Steps c2 d a b
  | [], [], _, _, d, _, _, _, _, _, _ => .nil d
  | [], y :: b, pa, pb, _, hl, h, _, _, _, _ => by
    have := h.1
    simp at this
    omega
  | x :: a, [], pa, pb, _, hl, h, _, _, _, _ => by
    have := h.1
    simp at this
    omega
  | x :: a, y :: b, pa, pb, d, hl, h, da, db, la, lb => by
    have hx : (pa ++ x :: a)[pa.length]? = some x := by simp
    have hy : (pb ++ y :: b)[pa.length]? = some y := by simp [hl]
    have oa : ∀ p ∈ pa, p.date ≤ x.date := fun p hp => (List.pairwise_append.1 da).2.2 p hp x (by simp)
    have ob : ∀ p ∈ pb, p.date ≤ y.date := fun p hp => (List.pairwise_append.1 db).2.2 p hp y (by simp)
    have ea : pa ++ x :: a = (pa ++ [x]) ++ a := by simp
    have eb : pb ++ y :: b = (pb ++ [y]) ++ b := by simp
    have hl' : (pa ++ [x]).length = (pb ++ [y]).length := by simp [hl]
    have next := fun d' => steps_aux c2 a b (pa ++ [x]) (pb ++ [y]) d' hl' (by rw [← ea, ← eb]; exact h)
      (by rw [← ea]; exact da) (by rw [← eb]; exact db)
    rcases h.2 _ x y hx hy with e | ⟨e, cx, cy, ix, iy⟩
    · subst e
      by_cases hu : ClearUsable c2 x
      · exact .used hu (next _ (last_use oa hu) (last_use ob hu))
      · exact .same hu (next _ (last_skip la fun c => absurd c hu) (last_skip lb fun c => absurd c hu))
    · have kx : ¬ Usable c2 x ∨ d = some x.date := ix.imp_right fun r => last_repeated la oa r
      have ky : ¬ Usable c2 y ∨ d = some y.date := iy.imp_right fun r => last_repeated lb ob (hl ▸ r)
      exact .idle e cx cy kx ky (next _ (last_skip la fun c => kx.resolve_left fun n => n c.2)
        (last_skip lb fun c => ky.resolve_left fun n => n c.2))

theorem sameUse_dates {c2 : Bool} {a b : List Scene} (h : SameUse c2 a b) : a.map (·.date) = b.map (·.date) := by
  refine List.ext_getElem? fun i => ?_
  rw [List.getElem?_map, List.getElem?_map]
  by_cases hi : i < a.length
  · have hx := List.getElem?_eq_getElem hi
    have hy := List.getElem?_eq_getElem (h.1 ▸ hi : i < b.length)
    rw [hx, hy]
    rcases h.2 i _ _ hx hy with e | ⟨e, -⟩
    · rw [e]
    · simp [e]
  · rw [List.getElem?_eq_none (by omega), List.getElem?_eq_none (by have := h.1; omega)]

theorem ordered_map (l : List Scene) : DatesInOrder l ↔ (l.map (·.date)).Pairwise (· ≤ ·) := by
  rw [List.pairwise_map]
  rfl

theorem sameUse_order {c2 : Bool} {a b : List Scene} (h : SameUse c2 a b) : DatesInOrder a ↔ DatesInOrder b := by
  rw [ordered_map, ordered_map, sameUse_dates h]

theorem steps_of {c2 : Bool} {a b : List Scene} (h : SameUse c2 a b) (hd : DatesInOrder a) : Steps c2 none a b :=
  steps_aux c2 a b [] [] none rfl h hd ((sameUse_order h).1 hd) ⟨by simp, by simp⟩ ⟨by simp, by simp⟩

/-! ## Screening -/

theorem steps_known {c2 : Bool} {d : Option Int} {a b : List Scene} (h : Steps c2 d a b) :
    (∀ o ∈ a, KnownQa o.qa) ↔ ∀ o ∈ b, KnownQa o.qa := by
  induction h with
  | nil => simp
  | used _ _ ih => simp only [List.forall_mem_cons, ih]
  | same _ _ ih => simp only [List.forall_mem_cons, ih]
  | idle _ cx cy _ _ _ ih =>
    have kx : KnownQa _ := cx.elim Or.inl (Or.inr ∘ Or.inl)
    have ky : KnownQa _ := cy.elim Or.inl (Or.inr ∘ Or.inl)
    simp only [List.forall_mem_cons, ih, kx, ky]

theorem steps_count {c2 : Bool} {d : Option Int} {a b : List Scene} (h : Steps c2 d a b) :
    qaCount a 0 + qaCount a 1 = qaCount b 0 + qaCount b 1 ∧ qaCount a 3 = qaCount b 3 := by
  induction h with
  | nil => simp
  | used _ _ ih => simp only [qaCount, List.countP_cons] at ih ⊢; omega
  | same _ _ ih => simp only [qaCount, List.countP_cons] at ih ⊢; omega
  | idle _ cx cy _ _ _ ih =>
    simp only [qaCount, List.countP_cons] at ih ⊢
    rcases cx with cx | cx <;> rcases cy with cy | cy <;> simp [cx, cy] <;> omega

theorem steps_pre {bC2 : Bool} {d : Option Int} {a b : List Scene} (h : Steps bC2 d a b) :
    ((preprocessing bC2 a).status = .success ↔ (preprocessing bC2 b).status = .success) ∧
    ((preprocessing bC2 a).status = .success → (preprocessing bC2 a).sums.clear = (preprocessing bC2 b).sums.clear ∧
      (preprocessing bC2 a).sums.snow = (preprocessing bC2 b).sums.snow ∧
      (preprocessing bC2 a).idr = a.map (idRange bC2) ∧ (preprocessing bC2 b).idr = b.map (idRange bC2)) := by
  have hiff : (preprocessing bC2 a).status = .success ↔ (preprocessing bC2 b).status = .success := by
    rw [preprocessing, preprocessing, (preLoop_status bC2 a {}).1, (preLoop_status bC2 b {}).1, steps_known h]
  refine ⟨hiff, fun ha => ?_⟩
  obtain ⟨a1, a2⟩ := preLoop_success bC2 a {} ha
  obtain ⟨b1, b2⟩ := preLoop_success bC2 b {} (hiff.1 ha)
  obtain ⟨h1, h2⟩ := steps_count h
  refine ⟨?_, ?_, a1, b1⟩
  · rw [preprocessing, preprocessing, a2, b2]; simp only; omega
  · rw [preprocessing, preprocessing, a2, b2]; simp only; omega

theorem clrStep_idle {c1 c2 : Bool} {d : Option Int} {x : Scene} {acc : List ClrObs} (h : ¬ Usable c2 x ∨ d = some x.date)
    (hd : ∀ e, d = some e → acc.getLast?.map (·.date) = some e) : clrStep c1 acc x (idRange c2 x) = acc := by
  rw [clrStep]
  rcases h with h | h
  · have : idRange c2 x = false := by simpa [← idRange_iff] using h
    simp [this]
  · have := hd _ h
    have hne : acc ≠ [] := by rintro rfl; simp at this
    have hpos : 0 < acc.length := List.length_pos_iff.2 hne
    simp [this, hpos]

theorem clrStep_used {c1 c2 : Bool} {x : Scene} {acc : List ClrObs} (h : ClearUsable c2 x) :
    (clrStep c1 acc x (idRange c2 x)).getLast?.map (·.date) = some x.date := by
  have hr : idRange c2 x = true := (idRange_iff c2 x).2 h.2
  rw [clrStep, if_pos (by simp [h.1, hr])]
  split
  · rename_i hc
    simp only [Bool.and_eq_true, decide_eq_true_eq] at hc
    exact hc.2.symm
  · simp

theorem steps_clr {c2 : Bool} (c1 : Bool) {d : Option Int} {a b : List Scene} (h : Steps c2 d a b) : ∀ acc : List ClrObs,
    (∀ e, d = some e → acc.getLast?.map (·.date) = some e) →
    clrLoop c1 a (a.map (idRange c2)) acc = clrLoop c1 b (b.map (idRange c2)) acc := by
  induction h with
  | nil => intro acc _; rfl
  | @used d x a b hu _ ih =>
    intro acc _
    rw [List.map_cons, List.map_cons, clrLoop, clrLoop]
    refine ih _ fun e he => ?_
    rw [clrStep_used hu, ← he]
  | @same d x a b hu _ ih =>
    intro acc hacc
    rw [List.map_cons, List.map_cons, clrLoop, clrLoop]
    have : clrStep c1 acc x (idRange c2 x) = acc := by
      rw [clrStep, if_neg]
      rw [Bool.and_eq_true, decide_eq_true_eq, idRange_iff]
      exact hu
    rw [this]
    exact ih _ hacc
  | @idle d x y a b _ _ _ hx hy _ ih =>
    intro acc hacc
    rw [List.map_cons, List.map_cons, clrLoop, clrLoop, clrStep_idle hx hacc, clrStep_idle hy hacc]
    exact ih _ hacc

/-! ## COLD and OBCOLD -/

/-- COLD: the same outcome, and in the standard procedure the same records and change magnitudes. -/
theorem C96_cold {F : Type} (P : Cold.Params) (E : ColdNum.Env F (Fin 7)) (bC2 : Bool) (a b : List Scene) (nCm : Nat)
    (h : SameUse bC2 a b) : ColdNum.cold P E bC2 a nCm = ColdNum.cold P E bC2 b nCm := by
  have hemp : a.isEmpty = b.isEmpty := by
    have := h.1
    cases a <;> cases b <;> simp_all
  rw [ColdNum.cold, ColdNum.cold, hemp]
  split
  · rfl
  · by_cases hd : DatesInOrder a
    · have hs := steps_of h hd
      rw [(dateCheckFails_false_iff a).2 hd, (dateCheckFails_false_iff b).2 ((sameUse_order h).1 hd)]
      simp only [Bool.false_eq_true, if_false]
      obtain ⟨h1, h2⟩ := steps_pre hs
      by_cases ok : (preprocessing bC2 a).status = .success
      · obtain ⟨h3, -, h4, h5⟩ := h2 ok
        rw [if_neg (fun c => c ok : ¬ (preprocessing bC2 a).status ≠ .success),
          if_neg (fun c => c (h1.1 ok) : ¬ (preprocessing bC2 b).status ≠ .success), h3, clearObs, clearObs, h4, h5,
          steps_clr bC2 hs [] (by simp)]
      · rw [if_pos ok, if_pos (fun e => ok (h1.2 e))]
    · have e1 : dateCheckFails a = true := by simpa [← dateCheckFails_false_iff] using hd
      have e2 : dateCheckFails b = true := by
        have := fun c => hd ((sameUse_order h).2 c)
        simpa [← dateCheckFails_false_iff] using this
      rw [e1, e2]
      simp

/-- OBCOLD: the same segments. -/
theorem C96_obcold {R M : Type} (E : List ClrObs → Obcold.Env R M) (garbage : Bool) (conse : Nat) (bC2 : Bool) (a b : List Scene)
    (breaks : List Int) (h : SameUse bC2 a b) (recs : List (Obcold.Rec R M))
    (hr : Obcold.reconstruct E garbage conse bC2 a breaks = .ok (.segments recs)) :
    Obcold.reconstruct E garbage conse bC2 b breaks = .ok (.segments recs) := by
  have hno : ∀ (l : List Scene) (idr : List Bool), Obcold.viaFallback (R := R) (M := M) garbage bC2 l idr ≠ .ok (.segments recs) := by
    intro l idr
    rw [Obcold.viaFallback]
    split <;> simp
  have hnil : b = [] ↔ a = [] := by
    rw [← List.length_eq_zero_iff, ← List.length_eq_zero_iff, h.1]
  unfold Obcold.reconstruct at hr ⊢
  split at hr
  · simp at hr
  · rename_i hemp
    split at hr
    · simp at hr
    · rename_i hord
      have hd : DatesInOrder a := (dateCheckFails_false_iff a).1 (by simpa using hord)
      have hsteps := steps_of h hd
      obtain ⟨h1, h2⟩ := steps_pre hsteps
      simp only at hr
      split at hr
      · simp at hr
      · rename_i hs
        have hs : (preprocessing bC2 a).status = .success := by simpa using hs
        obtain ⟨h3, -, h4, h5⟩ := h2 hs
        rw [if_neg (by rw [hnil]; exact hemp), (dateCheckFails_false_iff b).2 ((sameUse_order h).1 hd)]
        simp only [Bool.false_eq_true, if_false]
        rw [if_neg (fun c => c (h1.1 hs) : ¬ (preprocessing bC2 b).status ≠ .success), ← h3]
        have h6 : ∀ c, clrLoop c a (preprocessing bC2 a).idr [] = clrLoop c b (preprocessing bC2 b).idr [] := by
          intro c
          rw [h4, h5]
          exact steps_clr c hsteps [] (by simp)
        split at hr
        · exact absurd hr (hno _ _)
        · rename_i hc
          rw [if_neg hc, ← h6]
          simp only [bind, Except.bind] at hr ⊢
          split at hr
          · simp at hr
          · split at hr
            · simp at hr
            · split at hr
              · exact absurd hr (hno _ _)
              · rename_i hne
                simp only [*, if_false]

/-! ## S-CCD -/

theorem append_cons (acc : List Sccd.Obs) (o : Sccd.Obs) (os : List Sccd.Obs) : Sccd.append acc (o :: os) =
    if decide (acc.length > 0) && decide (some o.date = acc.getLast?.map (·.date)) then Sccd.append acc os
    else Sccd.append (acc ++ [o]) os := by
  rw [Sccd.append]

theorem steps_append {c2 : Bool} {d : Option Int} {a b : List Scene} (h : Steps c2 d a b) : ∀ acc : List Sccd.Obs,
    (∀ e, d = some e → acc.getLast?.map (·.date) = some e) →
    Sccd.append acc (Sccd.accepted false a (a.map (idRange c2))) = Sccd.append acc (Sccd.accepted false b (b.map (idRange c2))) := by
  have skip : ∀ (d : Option Int) (x : Scene) (l : List Scene) (acc : List Sccd.Obs), (¬ ClearUsable c2 x ∨ d = some x.date) →
      (∀ e, d = some e → acc.getLast?.map (·.date) = some e) →
      Sccd.append acc (Sccd.accepted false (x :: l) ((x :: l).map (idRange c2))) =
        Sccd.append acc (Sccd.accepted false l (l.map (idRange c2))) := by
    intro d x l acc hx hacc
    rw [List.map_cons, Sccd.accepted]
    simp only [Bool.false_eq_true, if_false]
    split
    · rename_i hc
      rw [Bool.and_eq_true, decide_eq_true_eq, idRange_iff] at hc
      have hdx := hacc _ (hx.resolve_left fun n => n hc)
      have hpos : 0 < acc.length := List.length_pos_iff.2 (by rintro rfl; simp at hdx)
      rw [append_cons, if_pos]
      simp [hdx, hpos, Sccd.toObs]
    · rfl
  induction h with
  | nil => intro acc _; rfl
  | @used d x a b hu _ ih =>
    intro acc _
    have hc : (decide (x.qa < 2) && idRange c2 x) = true := by simp [hu.1, (idRange_iff c2 x).2 hu.2]
    rw [List.map_cons, List.map_cons, Sccd.accepted, Sccd.accepted]
    simp only [Bool.false_eq_true, if_false, hc, if_true]
    rw [append_cons, append_cons]
    split
    · rename_i hs
      rw [Bool.and_eq_true, decide_eq_true_eq, decide_eq_true_eq] at hs
      refine ih _ fun e he => ?_
      rw [← he]
      exact hs.2.symm
    · refine ih _ fun e he => ?_
      rw [← he]
      simp [Sccd.toObs]
  | @same d x a b hu _ ih =>
    intro acc hacc
    rw [skip d x a acc (Or.inl hu) hacc, skip d x b acc (Or.inl hu) hacc]
    exact ih _ hacc
  | @idle d x y a b _ _ _ hx hy _ ih =>
    intro acc hacc
    rw [skip d x a acc (hx.imp_left fun n c => n c.2) hacc, skip d y b acc (hy.imp_left fun n c => n c.2) hacc]
    exact ih _ hacc

/-- A call on a pack outside of the snow mode.  On an empty pack (mode 0) the numbers of snow and clear scenes decide. -/
theorem C96_sccd {V F R M : Type} (E : Sccd.Env V F R M) (p : Sccd.Pack F R M) (a b : List Scene) (h : SameUse E.bC2 a b)
    (hd : DatesInOrder a) (hm : p.mode ≠ 3 ∧ p.mode ≠ 4)
    (hs : p.mode = 0 → E.snowPct (qaCount a 3) (qaCount a 0 + qaCount a 1) = false) :
    Sccd.sccd E p a = Sccd.sccd E p b := by
  have hst := steps_of h hd
  obtain ⟨h1, h2⟩ := steps_pre hst
  unfold Sccd.sccd
  split
  · rfl
  · simp only
    by_cases ok : (preprocessing E.bC2 a).status = .success
    · obtain ⟨h3, h4, h5, h6⟩ := h2 ok
      rw [if_neg (fun c => c ok : ¬ (preprocessing E.bC2 a).status ≠ .success),
        if_neg (fun c => c (h1.1 ok) : ¬ (preprocessing E.bC2 b).status ≠ .success), h3, h4, h5, h6]
      have hsnow : (if p.mode = 0 then E.snowPct (preprocessing E.bC2 b).sums.snow (preprocessing E.bC2 b).sums.clear
          else p.mode = 4 || p.mode = 3) = false := by
        split
        · rename_i h0
          obtain ⟨-, a2⟩ := preLoop_success E.bC2 a {} ok
          have := hs h0
          rw [← h3, ← h4, preprocessing, a2]
          simpa using this
        · simp [hm.1, hm.2]
      have hap : ∀ old : List Sccd.Obs, Sccd.append old (Sccd.accepted false a (a.map (idRange E.bC2))) =
          Sccd.append old (Sccd.accepted false b (b.map (idRange E.bC2))) := fun old => steps_append hst old (by simp)
      simp only [hsnow, hap]
    · rw [if_pos ok, if_pos (fun e => ok (h1.2 e))]

/-- The first call. -/
theorem C96_detect {V F R M : Type} (E : Sccd.Env V F R M) (m0 : M) (z : Sccd.Model F) (a b : List Scene) (h : SameUse E.bC2 a b)
    (hd : DatesInOrder a) (hs : E.snowPct (qaCount a 3) (qaCount a 0 + qaCount a 1) = false) :
    Sccd.detect E m0 z a = Sccd.detect E m0 z b := by
  have hdates := sameUse_dates h
  have h1 : a.head?.map (·.date) = b.head?.map (·.date) := by rw [← List.head?_map, ← List.head?_map, hdates]
  have h2 : a.getLast?.map (·.date) = b.getLast?.map (·.date) := by rw [← List.getLast?_map, ← List.getLast?_map, hdates]
  unfold Sccd.detect
  rw [C96_sccd E _ a b h hd ⟨by simp, by simp⟩ fun _ => hs]
  cases ha : a.head? <;> cases hb : b.head? <;> cases ha' : a.getLast? <;> cases hb' : b.getLast? <;>
    simp_all

/-- An update of a pack that is not in a snow mode. -/
theorem C96_update {V F R M : Type} (E : Sccd.Env V F R M) (p : Sccd.Pack F R M) (a b : List Scene) (h : SameUse E.bC2 a b)
    (hd : DatesInOrder a) (hm : p.mode ≠ 3 ∧ p.mode ≠ 4)
    (hs : p.mode = 0 → E.snowPct (qaCount a 3) (qaCount a 0 + qaCount a 1) = false) :
    Sccd.update E p a = Sccd.update E p b := by
  have hnil : a = [] ↔ b = [] := by
    rw [← List.length_eq_zero_iff, ← List.length_eq_zero_iff, h.1]
  unfold Sccd.update
  rw [C96_sccd E { p with model := if p.mode % 10 = 1 ∨ p.mode = 3 ∨ p.mode % 10 = 5 then p.model else none } a b h hd hm hs]
  simp only [hnil]

/-- The first call with pinpoint records. -/
theorem C96_pinpoint {V F R M : Type} (E : Sccd.Env V F R M) (Z : Sccd.ZeroV V) (m0 : M) (z : Sccd.Model F) (a b : List Scene)
    (h : SameUse E.bC2 a b) (hd : DatesInOrder a) (hs : E.snowPct (qaCount a 3) (qaCount a 0 + qaCount a 1) = false) :
    Sccd.detectP E Z m0 z a = Sccd.detectP E Z m0 z b := by
  have hst := steps_of h hd
  have hP : Sccd.sccdP E Z m0 (some z) a = Sccd.sccdP E Z m0 (some z) b := by
    obtain ⟨h1, h2⟩ := steps_pre hst
    unfold Sccd.sccdP
    simp only
    by_cases ok : (preprocessing E.bC2 a).status = .success
    · obtain ⟨h3, h4, h5, h6⟩ := h2 ok
      rw [if_neg (fun c => c ok : ¬ (preprocessing E.bC2 a).status ≠ .success),
        if_neg (fun c => c (h1.1 ok) : ¬ (preprocessing E.bC2 b).status ≠ .success), h3, h4, h5, h6]
      have hsnow : E.snowPct (preprocessing E.bC2 b).sums.snow (preprocessing E.bC2 b).sums.clear = false := by
        obtain ⟨-, a2⟩ := preLoop_success E.bC2 a {} ok
        rw [← h3, ← h4, preprocessing, a2]
        simpa using hs
      simp only [hsnow, steps_append hst [] (by simp)]
    · rw [if_pos ok, if_pos (fun e => ok (h1.2 e))]
  have hdates := sameUse_dates h
  have h1 : a.head?.map (·.date) = b.head?.map (·.date) := by rw [← List.head?_map, ← List.head?_map, hdates]
  have h2 : a.getLast?.map (·.date) = b.getLast?.map (·.date) := by rw [← List.getLast?_map, ← List.getLast?_map, hdates]
  unfold Sccd.detectP
  rw [hP]
  cases ha : a.head? <;> cases hb : b.head? <;> cases ha' : a.getLast? <;> cases hb' : b.getLast? <;>
    simp_all

/-- The modes outside of the snow mode. -/
def Dry (m : Nat) : Prop := m = 0 ∨ m = 1 ∨ m = 2 ∨ m = 5 ∨ m = 11 ∨ m = 12

theorem newMode_dry {F R : Type} {conse mode0 : Nat} {s : Sccd.St F R} {r : Nat × Nat} (h : Sccd.newMode conse mode0 s = .ok r)
    (hm : Dry mode0) : Dry r.1 := by
  unfold Sccd.newMode at h
  split at h
  · split at h <;> cases h <;> simp [Dry]
  · split at h
    · split at h <;> cases h <;> simp [Dry]
    · split at h
      · split at h <;> cases h
        · simp [Dry]
        · exact hm
      · split at h
        · split at h
          · cases h
          · split at h
            · cases h
            · split at h
              · cases h
              · simp only [bind, Except.bind] at h
                split at h
                · cases h
                · split at h <;> cases h <;> simp [Dry]
        · cases h
          exact hm

theorem storeModel_dry {V F R : Type} {N : Sccd.Num V F R} {conse mode : Nat} {s : Sccd.St F R} {f : F} {r : Nat × Sccd.Model F}
    (h : Sccd.storeModel N conse mode s f = .ok r) (hm : Dry mode) (h1 : mode % 10 = 1) : Dry r.1 := by
  unfold Sccd.storeModel at h
  split at h
  · cases h
  · simp only [bind, Except.bind] at h
    split at h
    · cases h
    · cases h
      dsimp only
      unfold Dry at hm ⊢
      split <;> omega

theorem step3_dry {V F R : Type} {N : Sccd.Num V F R} {conse mode pb : Nat} {q : List Sccd.Obs} {s : Sccd.St F R} {r : Sccd.Out F R}
    (h : Sccd.step3 N conse mode pb q s = .ok r) (hm : Dry mode) : Dry r.mode := by
  unfold Sccd.step3 at h
  by_cases h1 : mode % 10 = 1
  · rw [if_pos h1] at h
    cases hf : s.filt with
    | none => rw [hf] at h; cases h
    | some f =>
      rw [hf] at h
      simp only [bind, Except.bind] at h
      cases hst : Sccd.storeModel N conse mode s f with
      | error e => rw [hst] at h; cases h
      | ok x =>
        rw [hst] at h
        simp only at h
        split at h
        · cases h
        · cases h
          exact storeModel_dry hst hm h1
  · rw [if_neg h1] at h
    simp only [bind, Except.bind] at h
    split at h
    · cases h
    · cases h
      exact hm

theorem standard_dry {V F R : Type} {N : Sccd.Num V F R} {conse mode0 : Nat} {model : Option (Sccd.Model F)} {recs : List (Sccd.Rec R)}
    {q obs : List Sccd.Obs} {r : Sccd.Out F R} (h : Sccd.standard N conse mode0 model recs q obs = .ok r) (hm : Dry mode0) :
    Dry r.mode := by
  unfold Sccd.standard at h
  simp only [bind, Except.bind] at h
  split at h
  · cases h
  · split at h
    · cases h
    · split at h
      · cases h
      · rename_i hn
        exact step3_dry h (newMode_dry hn hm)

theorem sccd_dry {V F R M : Type} {E : Sccd.Env V F R M} {p q : Sccd.Pack F R M} {l : List Scene} (h : Sccd.sccd E p l = .ok q)
    (hm : Dry p.mode) (hs : p.mode = 0 → E.snowPct (qaCount l 3) (qaCount l 0 + qaCount l 1) = false) : Dry q.mode := by
  unfold Sccd.sccd at h
  split at h
  · cases h
  · simp only at h
    split at h
    · cases h
    · rename_i ok
      have ok : (preprocessing E.bC2 l).status = .success := by simpa using ok
      have hsnow : (if p.mode = 0 then E.snowPct (preprocessing E.bC2 l).sums.snow (preprocessing E.bC2 l).sums.clear
          else p.mode = 4 || p.mode = 3) = false := by
        split
        · rename_i h0
          obtain ⟨-, a2⟩ := preLoop_success E.bC2 l {} ok
          have := hs h0
          rw [preprocessing, a2]
          simpa using this
        · unfold Dry at hm
          simp
          omega
      simp only [hsnow, bind, Except.bind, Bool.false_eq_true, if_false] at h
      split at h
      · cases h
      · split at h
        · split at h
          · cases h
          · rename_i hst
            cases h
            exact standard_dry hst hm
        · cases h
          exact hm

theorem packOut_mode {F R M : Type} {p q : Sccd.Pack F R M} (h : Sccd.packOut p = .ok q) : q.mode = p.mode := by
  unfold Sccd.packOut at h
  split at h
  · cases h; rfl
  · split at h
    · cases h; rfl
    · split at h
      · cases h; rfl
      · split at h <;> cases h
        rfl

theorem dry_ne {m : Nat} (h : Dry m) : m ≠ 3 ∧ m ≠ 4 := by
  unfold Dry at h
  omega

/-- A first call and any sequence of updates, if no call has mostly snow scenes. -/
theorem C96_session {V F R M : Type} (E : Sccd.Env V F R M) (m0 : M) (z : Sccd.Model F) (first first' : List Scene)
    (batches batches' : List (List Scene)) (h : SameUse E.bC2 first first') (hd : DatesInOrder first)
    (hl : List.Forall₂ (fun a b => SameUse E.bC2 a b ∧ DatesInOrder a) batches batches')
    (hs : ∀ l ∈ first :: batches, E.snowPct (qaCount l 3) (qaCount l 0 + qaCount l 1) = false) :
    SccdNum.Spec.session E m0 z first batches = SccdNum.Spec.session E m0 z first' batches' := by
  have hfeed : ∀ p : Sccd.Pack F R M, Dry p.mode → (∀ l ∈ batches, E.snowPct (qaCount l 3) (qaCount l 0 + qaCount l 1) = false) →
      Sccd.feed E p batches = Sccd.feed E p batches' := by
    clear hs
    induction hl with
    | nil => intro p _ _; rfl
    | @cons a b as bs hab _ ih =>
      intro p hp hs
      rw [Sccd.feed, Sccd.feed, ← C96_update E p a b hab.1 hab.2 (dry_ne hp) fun _ => hs a (by simp)]
      cases hu : Sccd.update E p a with
      | error e => rfl
      | ok q =>
        refine ih q ?_ fun l hl => hs l (List.mem_cons_of_mem _ hl)
        unfold Sccd.update at hu
        split at hu
        · cases hu
        · split at hu
          · cases hu
          · simp only [bind, Except.bind] at hu
            split at hu
            · cases hu
            · rename_i hsc
              rw [packOut_mode hu]
              exact sccd_dry hsc hp fun _ => hs a (by simp)
  unfold SccdNum.Spec.session
  rw [← C96_detect E m0 z _ _ h hd (hs first (by simp))]
  cases hdet : Sccd.detect E m0 z first with
  | error e => rfl
  | ok p =>
    refine hfeed p ?_ fun l hl => hs l (List.mem_cons_of_mem _ hl)
    unfold Sccd.detect at hdet
    split at hdet
    · cases hdet
    · split at hdet
      · split at hdet
        · cases hdet
        · simp only [bind, Except.bind] at hdet
          split at hdet
          · cases hdet
          · rename_i hsc
            rw [packOut_mode hdet]
            exact sccd_dry hsc (Or.inl rfl) fun _ => hs first (by simp)
      · cases hdet

/-- The snow mode of S-CCD has no range test: a clear scene with a green value below the range (0) goes into the queue, and
with another such value (-1) the pack is another one. -/
theorem C96_snow_mode {V F R M : Type} (E : Sccd.Env V F R M) (m0 : M) :
    ∃ (p : Sccd.Pack F R M) (a b : List Scene), SameUse E.bC2 a b ∧ DatesInOrder a ∧ p.mode = 4 ∧
      (∃ q, Sccd.update E p a = .ok q ∧ q.queue.map (·.vals) = [[5, 0, 5, 5, 5, 5]]) ∧
      ∃ q, Sccd.update E p b = .ok q ∧ q.queue.map (·.vals) = [[5, -1, 5, 5, 5, 5]] := by
  have key : ∀ c2 : Bool, ∀ g : Int, ¬ 0 < g → ¬ Usable c2 ⟨730000, 5, g, 5, 5, 5, 5, 2900, 0⟩ := fun c2 g hg h => hg h.2.1.1
  refine ⟨⟨4, [], m0, none, [], []⟩, [⟨730000, 5, 0, 5, 5, 5, 5, 2900, 0⟩], [⟨730000, 5, -1, 5, 5, 5, 5, 2900, 0⟩], ⟨rfl, ?_⟩,
    by unfold DatesInOrder; simp, rfl, ?_, ?_⟩
  · intro i x y hx hy
    cases i with
    | zero =>
      simp only [List.getElem?_cons_zero, Option.some.injEq] at hx hy
      subst hx hy
      exact Or.inr ⟨rfl, Or.inl rfl, Or.inl rfl, Or.inl (key _ 0 (by decide)), Or.inl (key _ (-1) (by decide))⟩
    | succ i => simp at hx
  · refine ⟨_, rfl, ?_⟩
    rfl
  · refine ⟨_, rfl, ?_⟩
    rfl

/-! ## The fallback for too few clear observations -/

theorem sameUsable_steps {c2 : Bool} {a b : List Scene} (h : SameUsable c2 a b) (d : Option Int) : Steps c2 d a b := by
  unfold SameUsable at h
  induction h generalizing d with
  | nil => exact .nil d
  | @cons x y a b hxy _ ih =>
    rcases hxy with rfl | ⟨e, cx, cy, ux, uy⟩
    · by_cases hu : ClearUsable c2 x
      · exact .used hu (ih _)
      · exact .same hu (ih _)
    · exact .idle e cx cy (Or.inl ux) (Or.inl uy) (ih _)

/-- The fallback for too few clear observations: the same record with other values outside the range. -/
theorem C96_few (bC2 : Bool) (a b : List Scene) (h : SameUsable bC2 a b) (hq : ∀ o ∈ a, KnownQa o.qa)
    (hs : ¬ 100 * qaCount a 3 > 300 * (qaCount a 0 + qaCount a 1) + 3) : Fallback.ofCold bC2 a = Fallback.ofCold bC2 b := by
  have ok : (preprocessing bC2 a).status = .success := (preLoop_status bC2 a {}).1.2 hq
  obtain ⟨-, h2⟩ := steps_pre (sameUsable_steps h none)
  obtain ⟨h3, h4, h5, h6⟩ := h2 ok
  have hsum := (preLoop_success bC2 a {} ok).2
  have hn : Fallback.snowy (preprocessing bC2 a).sums = false := by
    rw [preprocessing, hsum]
    simp only [Fallback.snowy, decide_eq_false_iff_not]
    omega
  have hn' : Fallback.snowy (preprocessing bC2 b).sums = false := by
    rw [← hn, Fallback.snowy, Fallback.snowy, h3, h4]
  have hsel : Fallback.clearSel a (a.map (idRange bC2)) = Fallback.clearSel b (b.map (idRange bC2)) := by
    clear hq hs ok h2 h3 h4 h5 h6 hsum hn hn'
    unfold SameUsable at h
    induction h with
    | nil => rfl
    | @cons x y a b hxy _ ih =>
      rw [List.map_cons, List.map_cons, Fallback.clearSel, Fallback.clearSel, ih]
      rcases hxy with rfl | ⟨-, -, -, ux, uy⟩
      · rfl
      · have e1 : idRange bC2 x = false := by simpa [← idRange_iff] using ux
        have e2 : idRange bC2 y = false := by simpa [← idRange_iff] using uy
        rw [e1, e2]
        simp
  rw [Fallback.ofCold, Fallback.ofCold]
  simp only [Fallback.inefficientobs, hn, hn', Bool.false_eq_true, if_false, h5, h6]
  rw [Fallback.clearBranch, Fallback.clearBranch, hsel]

/-- Twelve clear scenes. -/
def twelve : List Scene := (List.range 12).map (fun k : Nat => (⟨k, 500, 500, 500, 500, 500, 500, 2900, 0⟩ : Scene))

/-- A second scene of the last day, with thermal value `t`. -/
def again (t : Int) : Scene := ⟨11, 500, 500, 500, 500, 500, 500, t, 0⟩

/-- The thermal value of the first observation of the record. -/
def firstThermal (l : List Scene) : Option (Option Int) :=
  match Fallback.ofCold false l with
  | .ok (some r) => match (r.bands[6]? : Option Fallback.Band) with
    | some (.fit pts) => pts.head?.map (·.2)
    | _ => none
  | _ => none

/-- A further scene of a day does have an influence on that fallback: its thermal value is taken for the one of the first
observation. -/
theorem C96_few_repeat : SameUse false (twelve ++ [again 2900]) (twelve ++ [again 2950]) ∧
    DatesInOrder (twelve ++ [again 2900]) ∧ firstThermal (twelve ++ [again 2900]) = some (some 1680) ∧
    firstThermal (twelve ++ [again 2950]) = some (some 2180) := by
  refine ⟨⟨by simp, fun i x y hx hy => ?_⟩, by unfold DatesInOrder; decide +kernel, by decide +kernel, by decide +kernel⟩
  by_cases hi : i < twelve.length
  · left
    rw [List.getElem?_append_left hi] at hx hy
    rw [hx] at hy
    exact Option.some.inj hy
  · right
    have hl : twelve.length = 12 := by simp [twelve]
    obtain rfl : i = 12 := by
      by_contra hne
      rw [List.getElem?_eq_none (by simp [hl]; omega)] at hx
      cases hx
    have hx : again 2900 = x := by simpa [List.getElem?_append_right, hl] using hx
    have hy : again 2950 = y := by simpa [List.getElem?_append_right, hl] using hy
    subst hx hy
    have hp : ∀ t, (twelve ++ [again t])[11]? = some ⟨11, 500, 500, 500, 500, 500, 500, 2900, 0⟩ := by
      intro t
      rw [List.getElem?_append_left (by simp [hl])]
      decide
    have hu : ClearUsable false ⟨11, 500, 500, 500, 500, 500, 500, 2900, 0⟩ := by simp [ClearUsable, Usable]
    exact ⟨rfl, Or.inl rfl, Or.inl rfl, Or.inr ⟨11, _, by decide, hp _, hu, rfl⟩, Or.inr ⟨11, _, by decide, hp _, hu, rfl⟩⟩

/-! ## Concrete cases -/

/-- Two usable scenes of day 1, a scene with a green value out of range on day 2, one of the next year; and other values
for the second and the third of them. -/
def exA : List Scene := [⟨1, 5, 5, 5, 5, 5, 5, 2900, 0⟩, ⟨1, 9, 9, 9, 9, 9, 9, 2900, 0⟩, ⟨2, 7, 0, 7, 7, 7, 7, 2900, 0⟩, ⟨400, 7, 7, 7, 7, 7, 7, 2900, 0⟩]
def exB : List Scene := [⟨1, 5, 5, 5, 5, 5, 5, 2900, 0⟩, ⟨1, 8, 8, 8, 8, 0, 8, 2900, 1⟩, ⟨2, 6, 6, 6, 6, 6, 20000, 2900, 0⟩, ⟨400, 7, 7, 7, 7, 7, 7, 2900, 0⟩]

theorem ex_first (c2 : Bool) : ClearUsable c2 ⟨1, 5, 5, 5, 5, 5, 5, 2900, 0⟩ := by
  simp [ClearUsable, Usable]

theorem ex_same : SameUse false exA exB := by
  refine ⟨rfl, fun i x y hx hy => ?_⟩
  match i with
  | 0 => left; simp only [exA, exB, List.getElem?_cons_zero, Option.some.injEq] at hx hy; rw [← hx, ← hy]
  | 1 =>
    right
    simp only [exA, exB, List.getElem?_cons_zero, List.getElem?_cons_succ, Option.some.injEq] at hx hy
    subst hx hy
    exact ⟨rfl, Or.inl rfl, Or.inr rfl, Or.inr ⟨0, _, by decide, rfl, ex_first false, rfl⟩, Or.inr ⟨0, _, by decide, rfl, ex_first false, rfl⟩⟩
  | 2 =>
    right
    simp only [exA, exB, List.getElem?_cons_zero, List.getElem?_cons_succ, Option.some.injEq] at hx hy
    subst hx hy
    exact ⟨rfl, Or.inl rfl, Or.inl rfl, Or.inl (by simp [Usable]), Or.inl (by simp [Usable])⟩
  | 3 => left; simp only [exA, exB, List.getElem?_cons_zero, List.getElem?_cons_succ, Option.some.injEq] at hx hy; rw [← hx, ← hy]
  | i + 4 => simp [exA] at hx

example : SameUse false exA exB ∧ exA ≠ exB ∧ DatesInOrder exA := ⟨ex_same, by decide, by unfold DatesInOrder; decide⟩
example : clearObs false exA = clearObs false exB ∧ (clearObs false exA).length = 2 := by decide
example : List.Forall₂ (fun a b => SameUse false a b ∧ DatesInOrder a) [exA] [exB] :=
  .cons ⟨ex_same, by unfold DatesInOrder; decide⟩ .nil
example : SameUsable false (exA.drop 2) (exB.drop 2) :=
  .cons (Or.inr ⟨rfl, Or.inl rfl, Or.inl rfl, by simp [Usable], by simp [Usable]⟩) (.cons (Or.inl rfl) .nil)
/-- Other values of the first usable scene of a day are not the same. -/
example : clearObs false exA ≠ clearObs false (exA.drop 1) := by decide

end Pycold.Repeats
