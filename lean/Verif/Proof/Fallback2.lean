import Verif.Proof.Fallback
/-! The branch of the fallback for few clear observations. -/
namespace Pycold.Fallback

open Pycold.Fallback.Spec Pycold.Spec Pycold.Sort Pycold.Sort.Spec Pycold.Misc Pycold.Misc.Spec

/-- The first usable scene of each run of equal dates. -/
def pick (bC2 : Bool) : Option Int → List Scene → List Scene
  | _, [] => []
  | last, o :: os =>
    if idRange bC2 o then
      if some o.date = last then pick bC2 last os
      else o :: pick bC2 (some o.date) os
    else pick bC2 last os

theorem pick_dates_mem (bC2 : Bool) (last : Option Int) (obs : List Scene) (c : Scene)
    (hc : c ∈ pick bC2 last obs) : ∃ o ∈ obs, c.date = o.date := by
  induction obs generalizing last with
  | nil => simp [pick] at hc
  | cons o os ih =>
    unfold pick at hc
    split at hc
    · split at hc
      · obtain ⟨p, hp, h⟩ := ih _ hc
        exact ⟨p, by simp [hp], h⟩
      · rcases List.mem_cons.mp hc with e | hc
        · exact ⟨o, by simp, by rw [e]⟩
        · obtain ⟨p, hp, h⟩ := ih _ hc
          exact ⟨p, by simp [hp], h⟩
    · obtain ⟨p, hp, h⟩ := ih _ hc
      exact ⟨p, by simp [hp], h⟩

theorem pick_ne_last (bC2 : Bool) (d : Int) (obs : List Scene)
    (hd : DatesInOrder obs) (hge : ∀ o ∈ obs, d ≤ o.date) (c : Scene)
    (hc : c ∈ pick bC2 (some d) obs) : d < c.date := by
  induction obs with
  | nil => simp [pick] at hc
  | cons o os ih =>
    have hd' := List.pairwise_cons.mp hd
    unfold pick at hc
    by_cases h1 : idRange bC2 o = true
    · rw [if_pos h1] at hc
      by_cases h2 : some o.date = some d
      · rw [if_pos h2] at hc
        exact ih hd'.2 (fun p hp => hge p (by simp [hp])) hc
      · rw [if_neg h2] at hc
        have ho := hge o (by simp)
        have hne : o.date ≠ d := fun e => h2 (by rw [e])
        rcases List.mem_cons.mp hc with e | hc
        · rw [e]; omega
        · obtain ⟨p, hp, he⟩ := pick_dates_mem _ _ _ _ hc
          have := hd'.1 p hp
          omega
    · rw [if_neg h1] at hc
      exact ih hd'.2 (fun p hp => hge p (by simp [hp])) hc

theorem pick_strict (bC2 : Bool) (obs : List Scene) (hd : DatesInOrder obs)
    (last : Option Int := none) :
    (pick bC2 last obs).Pairwise (fun x y => x.date < y.date) := by
  induction obs generalizing last with
  | nil => simp [pick]
  | cons o os ih =>
    have hd' := List.pairwise_cons.mp hd
    unfold pick
    split
    · split
      · exact ih hd'.2 last
      · rw [List.pairwise_cons]
        refine ⟨?_, ih hd'.2 _⟩
        intro c hc
        exact pick_ne_last bC2 o.date os hd'.2 hd'.1 c hc
    · exact ih hd'.2 last

theorem pick_mem_aux (bC2 : Bool) (last : Option Int) (obs : List Scene)
    (hd : DatesInOrder obs) (hge : ∀ d, last = some d → ∀ o ∈ obs, d ≤ o.date) (c : Scene) :
    c ∈ pick bC2 last obs ↔
      ∃ (i : Nat) (o : Scene), obs[i]? = some o ∧ Usable bC2 o ∧ c = o ∧ last ≠ some o.date ∧
        ∀ (j : Nat) (p : Scene), j < i → obs[j]? = some p → Usable bC2 p → p.date ≠ o.date := by
  induction obs generalizing last with
  | nil => simp [pick]
  | cons o os ih =>
    have hd' := List.pairwise_cons.mp hd
    unfold pick
    by_cases h1 : idRange bC2 o = true
    · have hcu := (idRange_iff bC2 o).mp h1
      rw [if_pos h1]
      by_cases h2 : some o.date = last
      · rw [if_pos h2, ih last hd'.2 (fun d hdd p hp => hge d hdd p (by simp [hp]))]
        constructor
        · rintro ⟨i, p, hp, hcup, hc, hl, hall⟩
          refine ⟨i + 1, p, by simpa using hp, hcup, hc, hl, ?_⟩
          intro j q hj hq hcq
          cases j with
          | zero =>
            simp at hq; subst hq
            intro e; apply hl; rw [← h2, e]
          | succ j => exact hall j q (by omega) (by simpa using hq) hcq
        · rintro ⟨i, p, hp, hcup, hc, hl, hall⟩
          cases i with
          | zero =>
            simp at hp; subst hp
            exact absurd h2.symm hl
          | succ i =>
            refine ⟨i, p, by simpa using hp, hcup, hc, hl, ?_⟩
            intro j q hj hq hcq
            exact hall (j + 1) q (by omega) (by simpa using hq) hcq
      · rw [if_neg h2, List.mem_cons,
          ih (some o.date) hd'.2 (fun d hdd p hp => by cases hdd; exact hd'.1 p hp)]
        constructor
        · rintro (hco | ⟨i, p, hp, hcup, hc, hl, hall⟩)
          · exact ⟨0, o, by simp, hcu, hco, fun e => h2 e.symm, by intro j p hj; omega⟩
          · refine ⟨i + 1, p, by simpa using hp, hcup, hc, ?_, ?_⟩
            · intro e
              have hpm : p ∈ os := List.mem_of_getElem? hp
              have a1 := hge p.date e o (by simp)
              have a2 := hd'.1 p hpm
              apply hl; congr 1; omega
            · intro j q hj hq hcq
              cases j with
              | zero =>
                simp at hq; subst hq
                intro e; apply hl; rw [e]
              | succ j => exact hall j q (by omega) (by simpa using hq) hcq
        · rintro ⟨i, p, hp, hcup, hc, hl, hall⟩
          cases i with
          | zero => simp at hp; subst hp; exact Or.inl hc
          | succ i =>
            refine Or.inr ⟨i, p, by simpa using hp, hcup, hc, ?_, ?_⟩
            · intro e
              have e' : o.date = p.date := by simpa using e
              exact hall 0 o (by omega) (by simp) hcu e'
            · intro j q hj hq hcq
              exact hall (j + 1) q (by omega) (by simpa using hq) hcq
    · rw [if_neg h1, ih last hd'.2 (fun d hdd p hp => hge d hdd p (by simp [hp]))]
      have hncu : ¬ Usable bC2 o := fun h => h1 ((idRange_iff bC2 o).mpr h)
      constructor
      · rintro ⟨i, p, hp, hcup, hc, hl, hall⟩
        refine ⟨i + 1, p, by simpa using hp, hcup, hc, hl, ?_⟩
        intro j q hj hq hcq
        cases j with
        | zero => simp at hq; subst hq; exact absurd hcq hncu
        | succ j => exact hall j q (by omega) (by simpa using hq) hcq
      · rintro ⟨i, p, hp, hcup, hc, hl, hall⟩
        cases i with
        | zero => simp at hp; subst hp; exact absurd hcup hncu
        | succ i =>
          refine ⟨i, p, by simpa using hp, hcup, hc, hl, ?_⟩
          intro j q hj hq hcq
          exact hall (j + 1) q (by omega) (by simpa using hq) hcq

theorem pick_mem (bC2 : Bool) (obs : List Scene) (hd : DatesInOrder obs) (c : Scene) :
    c ∈ pick bC2 none obs ↔
      ∃ (i : Nat) (o : Scene), obs[i]? = some o ∧ Usable bC2 o ∧ c = o ∧
        ∀ (j : Nat) (p : Scene), j < i → obs[j]? = some p → Usable bC2 p → p.date ≠ o.date := by
  rw [pick_mem_aux bC2 none obs hd (by simp)]
  simp


/-- The first entry of each run of equal dates. -/
def firsts {A : Type} (date : A → Int) : Option Int → List A → List A
  | _, [] => []
  | last, o :: os => if some (date o) = last then firsts date last os else o :: firsts date (some (date o)) os

theorem unique_cons {A : Type} (date : A → Int) : ∀ (l : List A) (a : A),
    unique date (a :: l) = a :: firsts date (some (date a)) l := by
  intro l
  induction l with
  | nil => intro a; rfl
  | cons b rest ih =>
    intro a
    rw [unique]
    by_cases h : date b = date a
    · rw [if_pos h, ih b]
      simp only [firsts, h, if_true]
    · rw [if_neg h, ih b]
      simp only [firsts]
      rw [if_neg (by simpa using h)]

theorem unique_eq {A : Type} (date : A → Int) (l : List A) : unique date l = firsts date none l := by
  cases l with
  | nil => rfl
  | cons a l => rw [unique_cons]; simp [firsts]

theorem firsts_map {A B : Type} {dA : A → Int} {dB : B → Int} {f : A → B} (h : ∀ a, dB (f a) = dA a) :
    ∀ (l : List A) (last : Option Int), (firsts dA last l).map f = firsts dB last (l.map f) := by
  intro l
  induction l with
  | nil => intro last; rfl
  | cons a l ih =>
    intro last
    simp only [firsts, List.map_cons, h]
    by_cases hc : some (dA a) = last
    · rw [if_pos hc, if_pos hc, ih]
    · rw [if_neg hc, if_neg hc, List.map_cons, ih]

theorem firsts_sublist {A : Type} (d : A → Int) : ∀ (l : List A) (last : Option Int),
    (firsts d last l).Sublist l := by
  intro l
  induction l with
  | nil => intro last; exact List.Sublist.refl _
  | cons a l ih =>
    intro last
    rw [firsts]
    by_cases hc : some (d a) = last
    · rw [if_pos hc]; exact (ih _).cons _
    · rw [if_neg hc]; exact (ih _).cons_cons _

theorem clearSel_eq (bC2 : Bool) (scenes : List Scene) :
    clearSel scenes (scenes.map (idRange bC2)) = scenes.filter (idRange bC2) := by
  induction scenes with
  | nil => rfl
  | cons o os ih =>
    rw [List.map_cons, clearSel, List.filter_cons, ih]

theorem firsts_filter (bC2 : Bool) : ∀ (scenes : List Scene) (last : Option Int),
    firsts Scene.date last (scenes.filter (idRange bC2)) = pick bC2 last scenes := by
  intro scenes
  induction scenes with
  | nil => intro last; rfl
  | cons o os ih =>
    intro last
    rw [List.filter_cons, pick]
    by_cases h : idRange bC2 o = true
    · rw [if_pos h, if_pos h, firsts]
      by_cases hc : some o.date = last
      · rw [if_pos hc, if_pos hc, ih]
      · rw [if_neg hc, if_neg hc, ih]
    · rw [if_neg h, if_neg h, ih]

/-- The row of a scene at a position. -/
def rowOf (th : Option Int) (p : Scene × Nat) : Row :=
  { date := p.1.date, b := p.1.b, g := p.1.g, r := p.1.r, n := p.1.n, s1 := p.1.s1, s2 := p.1.s2,
    t := if p.2 = 0 then th else none }

theorem rowOf_pos {th : Option Int} {o : Scene} {i j : Nat} (hi : 0 < i) (hj : 0 < j) :
    rowOf th (o, i) = rowOf th (o, j) := by
  unfold rowOf
  simp only [show i ≠ 0 by omega, show j ≠ 0 by omega]

theorem map_rowOf (th : Option Int) : ∀ (l : List (Scene × Nat)) (k : Nat), 0 < k → (∀ p ∈ l, 0 < p.2) →
    l.map (rowOf th) = ((l.map (·.1)).zipIdx k).map (rowOf th) := by
  intro l
  induction l with
  | nil => intro k _ _; rfl
  | cons p l ih =>
    intro k hk h
    obtain ⟨o, i⟩ := p
    simp only [List.map_cons, List.zipIdx_cons]
    rw [rowOf_pos (h (o, i) (by simp)) hk, ih (k + 1) (by omega) (fun p hp => h p (by simp [hp]))]

/-- The rows that survive `matlab_unique`. -/
theorem unique_rows (bC2 : Bool) (sel : List Scene) :
    unique Row.date (rows bC2 sel) =
      (firsts Scene.date none sel).zipIdx.map (rowOf (sel.getLast?.map (thermal bC2))) := by
  rw [unique_eq]
  have h1 : rows bC2 sel = sel.zipIdx.map (rowOf (sel.getLast?.map (thermal bC2))) := rfl
  rw [h1]
  generalize sel.getLast?.map (thermal bC2) = th
  rw [← firsts_map (dA := fun p : Scene × Nat => p.1.date) (dB := Row.date) (f := rowOf th) (fun _ => rfl)]
  have hfst : ∀ (l : List (Scene × Nat)) (last : Option Int),
      (firsts (fun p : Scene × Nat => p.1.date) last l).map (·.1) =
        firsts Scene.date last (l.map (·.1)) := fun l last => firsts_map (fun _ => rfl) l last
  cases sel with
  | nil => rfl
  | cons o os =>
    simp only [List.zipIdx_cons, firsts]
    rw [if_neg (by simp), if_neg (by simp)]
    simp only [List.zipIdx_cons, List.map_cons]
    congr 1
    rw [map_rowOf th _ 1 (by omega), hfst]
    · simp
    · intro p hp
      have hp' := (firsts_sublist _ _ _).subset hp
      obtain ⟨i, hi⟩ := List.getElem?_of_mem hp'
      rw [List.getElem?_zipIdx] at hi
      obtain ⟨x, _, hx⟩ := Option.map_eq_some_iff.mp hi
      rw [← hx]; simp

theorem filter_below {A : Type} (c : ℚ) : ∀ (gs : List ℚ) (l : List A), gs.Pairwise (· ≤ ·) →
    l.length = gs.length →
    (l.zip gs).filter (fun p => decide (p.2 < c)) = (l.zip gs).take (gs.countP (fun g => decide (g < c))) := by
  intro gs
  induction gs with
  | nil => intro l _ _; simp
  | cons g gs ih =>
    intro l hp hl
    obtain ⟨hp1, hp2⟩ := List.pairwise_cons.mp hp
    cases l with
    | nil => simp at hl
    | cons a l =>
      rw [List.zip_cons_cons, List.filter_cons]
      by_cases hg : g < c
      · simp only [hg, decide_true, if_true]
        rw [List.countP_cons_of_pos (by simpa using hg), List.take_succ_cons, ih l hp2 (by simpa using hl)]
      · have h0 : ∀ x ∈ gs, ¬ x < c := fun x hx hlt => hg (lt_of_le_of_lt (hp1 x hx) hlt)
        have h1 : (g :: gs).countP (fun g => decide (g < c)) = 0 := by
          rw [List.countP_eq_zero]
          intro x hx
          rcases List.mem_cons.mp hx with rfl | hx
          · simpa using hg
          · simpa using h0 x hx
        rw [h1, List.take_zero]
        simp only [hg, decide_false]
        rw [if_neg (by simp), List.filter_eq_nil_iff]
        intro p hp
        simpa using h0 _ (List.of_mem_zip hp).2

/-- Sorting the green values. -/
theorem sortGreens_ok (l : List Row) (hl : l ≠ []) :
    ∃ gs med, sortGreens l = .ok (gs, med) ∧ gs.Perm (l.map (fun r => (r.g : ℚ))) ∧ gs.Pairwise (· ≤ ·) ∧
      MedianOf (l.map (fun r => (r.g : ℚ))) med := by
  have hn : 1 ≤ l.length := List.length_pos_iff.mpr hl
  have hsn : (greens l).n = l.length := by simp [greens, ofList]
  obtain ⟨t, h1, h2, h3⟩ := quickSort_ok ltQ ltQ_sw.irrefl (l.length + 1) (greens l) 0 ((l.length : Int) - 1)
    (by omega) (by omega) (by rw [hsn]; omega) (by omega)
  have hw : window (greens l).arr 0 l.length = l.map (fun r => (r.g : ℚ)) := by
    apply List.ext_getElem
    · simp [window]
    · intro i h1 h2
      simp only [List.length_map] at h2
      simp only [window, greens, ofList, List.getElem_map, List.getElem_range]
      rw [if_pos (by omega)]
      simp [h2]
  obtain ⟨v, g1, g2⟩ := median_sorted (m := l.length) hn (by rw [hsn]) h2 (h3 ltQ_sw)
  rw [hw] at g2
  refine ⟨window t.arr 0 l.length, v, ?_, ?_, sorted_window (by omega) (h3 ltQ_sw), g2⟩
  · simp only [sortGreens, h1, bind, Except.bind, g1]
  · have := permuted_window (m := l.length) (by omega) h2
    rw [hw] at this; exact this

theorem num_cast : ∀ z : Int, ((z : ℚ)).num = z := fun z => Rat.num_intCast z

/-- Green values in ascending order, as integers. -/
theorem ints_of_rats (l : List Int) {gs : List ℚ} (h : gs.Perm (l.map (fun z : Int => (z : ℚ))))
    (hs : gs.Pairwise (· ≤ ·)) :
    (gs.map Rat.num).Perm l ∧ (gs.map Rat.num).Pairwise (· ≤ ·) ∧
      ∀ c : ℚ, gs.countP (fun g => decide (g < c)) = l.countP (fun g : Int => decide ((g : ℚ) < c)) := by
  refine ⟨?_, ?_, ?_⟩
  · have := h.map Rat.num
    rw [List.map_map] at this
    have e : (Rat.num ∘ fun z : Int => (z : ℚ)) = id := by funext z; exact num_cast z
    rw [e, List.map_id] at this
    exact this
  · rw [List.pairwise_map]
    refine hs.imp_of_mem ?_
    intro a b ha hb hab
    obtain ⟨x, _, rfl⟩ := List.mem_map.mp (h.mem_iff.mp ha)
    obtain ⟨y, _, rfl⟩ := List.mem_map.mp (h.mem_iff.mp hb)
    rw [num_cast, num_cast]
    exact_mod_cast hab
  · intro c
    rw [h.countP_eq, List.countP_map]
    rfl

theorem firstUsable (bC2 : Bool) (scenes : List Scene) (hd : DatesInOrder scenes) :
    FirstUsable bC2 scenes (pick bC2 none scenes) := by
  refine ⟨pick_strict bC2 scenes hd, fun o => ?_⟩
  rw [pick_mem bC2 scenes hd o]
  constructor
  · rintro ⟨i, p, h1, h2, rfl, h4⟩; exact ⟨i, h1, h2, h4⟩
  · rintro ⟨i, h1, h2, h4⟩; exact ⟨i, o, h1, h2, rfl, h4⟩

/-- Rows and sorted green values side by side. -/
theorem cols_take {A B C : Type} (l : List A) (gs : List B) (m : Nat) (h : l.length = gs.length) (f : A → C) :
    ((l.zip gs).take m).map (fun p => f p.1) = (l.take m).map f := by
  rw [List.map_take, List.map_take]
  have : (l.zip gs).map (fun p => f p.1) = l.map f := by
    have h1 : (l.zip gs).map (fun p => f p.1) = ((l.zip gs).map Prod.fst).map f := by rw [List.map_map]; rfl
    rw [h1, List.map_fst_zip (by omega)]
  rw [this]

theorem map_rowOf_zipIdx {C : Type} (th : Option Int) (l : List Scene) (f : Scene → C) (F : Row → C)
    (h : ∀ o i, F (rowOf th (o, i)) = f o) : (l.zipIdx.map (rowOf th)).map F = l.map f := by
  rw [List.map_map]
  have : (F ∘ rowOf th) = fun p : Scene × Nat => f p.1 := by funext p; exact h p.1 p.2
  rw [this]
  have h2 : l.zipIdx.map (fun p => f p.1) = (l.zipIdx.map Prod.fst).map f := by rw [List.map_map]; rfl
  rw [h2, List.zipIdx_map_fst]

/-- The branch for few clear observations in one statement. -/
theorem clearBranch_ok (bC2 : Bool) (scenes : List Scene) (hd : DatesInOrder scenes) :
    ∃ l, FirstUsable bC2 scenes l ∧
      ((l = [] ∧ clearBranch bC2 scenes (scenes.map (idRange bC2)) = .ok none) ∨
       ∃ (med : ℚ) (gs : List Int), MedianOf (l.map (fun o => (o.g : ℚ))) med ∧ gs.Perm (l.map (·.g)) ∧
        gs.Pairwise (· ≤ ·) ∧
        ((l.countP (fun o => decide ((o.g : ℚ) < med + 400)) < 12 ∧
            clearBranch bC2 scenes (scenes.map (idRange bC2)) = .ok none) ∨
         ∃ m, m = l.countP (fun o => decide ((o.g : ℚ) < med + 400)) ∧ 12 ≤ m ∧ m ≤ l.length ∧
           ∃ r, clearBranch bC2 scenes (scenes.map (idRange bC2)) = .ok (some r) ∧
            r.category = 44 ∧ r.tBreak = 0 ∧ r.changeProb = 0 ∧ r.numObs = m ∧
            (l.take m).head?.map (·.date) = some r.tStart ∧ (l.take m).getLast?.map (·.date) = some r.tEnd ∧
            r.bands =
              [.fit ((l.take m).map (fun o => (o.date, some o.b))),
               .fit (((l.take m).map (·.date)).zip ((gs.take m).map some)),
               .fit ((l.take m).map (fun o => (o.date, some o.r))),
               .fit ((l.take m).map (fun o => (o.date, some o.n))),
               .fit ((l.take m).map (fun o => (o.date, some o.s1))),
               .fit ((l.take m).map (fun o => (o.date, some o.s2))),
               .fit (((l.take m).zipIdx).map (fun p => (p.1.date,
                  if p.2 = 0 then (scenes.filter (idRange bC2)).getLast?.map (thermal bC2) else none)))])) := by
  refine ⟨pick bC2 none scenes, firstUsable bC2 scenes hd, ?_⟩
  unfold clearBranch
  rw [clearSel_eq]
  simp only
  by_cases hsel : scenes.filter (idRange bC2) = []
  · left
    refine ⟨?_, by rw [if_pos hsel]⟩
    rw [← firsts_filter, hsel]; rfl
  · right
    rw [if_neg hsel]
    have hu := unique_rows bC2 (scenes.filter (idRange bC2))
    rw [firsts_filter] at hu
    have hne : pick bC2 none scenes ≠ [] := by
      rw [← firsts_filter]
      cases hc : scenes.filter (idRange bC2) with
      | nil => exact absurd hc hsel
      | cons a as => simp [firsts]
    generalize pick bC2 none scenes = l at *
    generalize (scenes.filter (idRange bC2)).getLast?.map (thermal bC2) = th at *
    rw [hu]
    have hR : l.zipIdx.map (rowOf th) ≠ [] := by simpa using hne
    obtain ⟨gs, med, h1, h2, h3, h4⟩ := sortGreens_ok _ hR
    have hg : (l.zipIdx.map (rowOf th)).map (fun r => (r.g : ℚ)) = l.map (fun o => (o.g : ℚ)) :=
      map_rowOf_zipIdx th l _ _ (fun _ _ => rfl)
    rw [hg] at h2 h4
    have hg' : l.map (fun o => (o.g : ℚ)) = (l.map (·.g)).map (fun z : Int => (z : ℚ)) := by
      rw [List.map_map]; rfl
    rw [hg'] at h2
    obtain ⟨i1, i2, i3⟩ := ints_of_rats _ h2 h3
    refine ⟨med, gs.map Rat.num, h4, i1, i2, ?_⟩
    have hcount : gs.countP (fun g => decide (g < med + 400)) =
        l.countP (fun o => decide ((o.g : ℚ) < med + 400)) := by
      rw [i3 (med + 400), List.countP_map]; rfl
    have hlen : gs.length = l.length := by
      have := h2.length_eq; simpa using this
    have hd : darkRows (l.zipIdx.map (rowOf th)) gs med =
        ((l.zipIdx.map (rowOf th)).zip gs).take (l.countP (fun o => decide ((o.g : ℚ) < med + 400))) := by
      rw [darkRows, filter_below _ _ _ h3 (by simp [hlen]), hcount]
    simp only [h1, bind, Except.bind]
    rw [hd]
    have hml : l.countP (fun o => decide ((o.g : ℚ) < med + 400)) ≤ l.length := List.countP_le_length
    generalize hm : l.countP (fun o => decide ((o.g : ℚ) < med + 400)) = m at *
    have hdl : (((l.zipIdx.map (rowOf th)).zip gs).take m).length = m := by
      simp only [List.length_take, List.length_zip, List.length_map, List.length_zipIdx]; omega
    rw [hdl]
    by_cases h12 : m < MIN_OBS
    · left; exact ⟨h12, by rw [if_pos h12]⟩
    · right
      have h12' : 12 ≤ m := by unfold MIN_OBS at h12; omega
      refine ⟨m, rfl, h12', hml, ?_⟩
      rw [if_neg h12]
      have hlg : (l.zipIdx.map (rowOf th)).length = gs.length := by simp [hlen]
      have col : ∀ {C : Type} (F : Row → C) (f : Scene → C), (∀ o i, F (rowOf th (o, i)) = f o) →
          (((l.zipIdx.map (rowOf th)).zip gs).take m).map (fun p => F p.1) = (l.take m).map f := by
        intro C F f h
        rw [cols_take _ _ _ hlg F, List.map_take, map_rowOf_zipIdx th l f F h, List.map_take]
      have hdates := col (fun r => r.date) (fun o => o.date) (fun _ _ => rfl)
      refine ⟨_, rfl, rfl, rfl, rfl, rfl, ?_, ?_, ?_⟩
      · simp only [hdates]
        rw [List.head?_eq_getElem?, List.getD_eq_getElem?_getD, List.getElem?_map,
          List.getElem?_eq_getElem (by simp; omega)]
        rfl
      · simp only [hdates]
        rw [List.getLast?_eq_getElem?, List.getD_eq_getElem?_getD, List.getElem?_map, List.length_map,
          List.getElem?_eq_getElem (by simp; omega)]
        rfl
      · simp only
        rw [col (fun r => (r.date, some r.b)) (fun o => (o.date, some o.b)) (fun _ _ => rfl),
          col (fun r => (r.date, some r.r)) (fun o => (o.date, some o.r)) (fun _ _ => rfl),
          col (fun r => (r.date, some r.n)) (fun o => (o.date, some o.n)) (fun _ _ => rfl),
          col (fun r => (r.date, some r.s1)) (fun o => (o.date, some o.s1)) (fun _ _ => rfl),
          col (fun r => (r.date, some r.s2)) (fun o => (o.date, some o.s2)) (fun _ _ => rfl)]
        congr 2
        · congr 1
          congr 1
          have e1 : ∀ (L : List Row) (G : List ℚ),
              (L.zip G).map (fun p => (p.1.date, some p.2.num)) =
                (L.map (·.date)).zip ((G.map Rat.num).map some) := by
            intro L
            induction L with
            | nil => intro G; rfl
            | cons x L ih =>
              intro G
              cases G with
              | nil => rfl
              | cons y G => simp only [List.zip_cons_cons, List.map_cons, ih]
          have e3 : ∀ {A B : Type} (L : List A) (G : List B) (m : Nat),
              (L.zip G).take m = (L.take m).zip (G.take m) := by
            intro A B L
            induction L with
            | nil => intro G m; simp
            | cons x L ih =>
              intro G m
              cases G with
              | nil => simp
              | cons y G =>
                cases m with
                | zero => rfl
                | succ m => simp only [List.zip_cons_cons, List.take_succ_cons, ih]
          rw [List.map_take, e1, e3, map_rowOf_zipIdx th l (fun o => o.date) (fun r => r.date) (fun _ _ => rfl),
            List.map_take, List.map_take]
        · have e2 : (((l.zipIdx.map (rowOf th)).zip gs).take m).map (fun p => (p.1.date, p.1.t)) =
              (l.take m).zipIdx.map (fun p => (p.1.date, if p.2 = 0 then th else none)) := by
            rw [cols_take _ _ _ hlg (fun r => (r.date, r.t)), ← List.map_take, List.map_map]
            have : (l.take m).zipIdx = l.zipIdx.take m := by
              apply List.ext_getElem?
              intro i
              simp only [List.getElem?_zipIdx, List.getElem?_take]
              by_cases hi : i < m
              · simp [hi]
              · simp [hi]
            rw [this]
            rfl
          rw [e2]

end Pycold.Fallback
