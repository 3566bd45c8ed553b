import Verif.Proof.ChangeMap
import Verif.Spec.ChangeMap
/-!
# The break maps of S-CCD
-/
namespace Pycold.ChangeMap

open Spec

theorem categorySccd_eq (r : Rec) : categorySccd r = sccdKind r := by
  classical
  unfold categorySccd sccdKind
  by_cases hg : Greening 200 r
  · rw [if_pos ((greening_iff 200 r).mpr hg), if_pos hg]
  · rw [if_neg fun h => hg ((greening_iff 200 r).mp h), if_neg hg]

theorem pyIndex_nat {n i : Nat} (h : i < n) : pyIndex n (i : Int) = some i := by
  unfold pyIndex
  rw [if_pos ⟨by omega, by omega⟩]
  simp

/-- A record that writes nothing. -/
theorem stepSccd_skip {B : Block} {last : Bool} {pos : Int} {r : Rec} {map : Int → Nat → Nat → Int}
    (h : r.tBreak = 0 ∨ last = true ∨ yearOf r.tBreak < B.low ∨ B.upp < yearOf r.tBreak) :
    stepSccd B last pos r map = .ok map := by
  unfold stepSccd
  by_cases h1 : r.tBreak = 0 ∨ last = true
  · rw [if_pos h1]
  · rw [if_neg h1]
    exact if_pos (by tauto)

theorem stepSccd_write {B : Block} {pos : Int} {r : Rec} {map : Int → Nat → Nat → Int} {i j : Nat} (hat : At B pos i j)
    (h0 : r.tBreak ≠ 0) (h1 : B.low ≤ yearOf r.tBreak) (h2 : yearOf r.tBreak ≤ B.upp) :
    stepSccd B false pos r map = .ok fun y i' j' => if y = yearOf r.tBreak ∧ i' = i ∧ j' = j then
      categorySccd r * 1000 + r.tBreak - jan1 (yearOf r.tBreak) + 1 else map y i' j' := by
  unfold stepSccd
  rw [if_neg (by simp [h0])]
  obtain ⟨e1, e2⟩ := at_cell hat
  simp only [e1, e2]
  rw [if_neg (by omega), pyIndex_nat hat.1, pyIndex_nat hat.2.1]
  rfl

/-- The inner loop of the last pack writes nothing. -/
theorem recsSccd_last {B : Block} {pos : Int} : ∀ {recs : List Rec} {map : Int → Nat → Nat → Int},
    recsSccd B true pos recs map = .ok map
  | [], _ => rfl
  | r :: rest, map => by
    unfold recsSccd
    rw [stepSccd_skip (Or.inr (Or.inl rfl))]
    exact recsSccd_last

/-- The inner loop: it succeeds, leaves the other cells, and writes the last record of the year. -/
theorem recsSccd_ok {B : Block} {pos : Int} {i j : Nat} (hat : At B pos i j) :
    ∀ (recs : List Rec) (map : Int → Nat → Nat → Int), ∃ map', recsSccd B false pos recs map = .ok map' ∧
      (∀ y i' j', ¬ (i' = i ∧ j' = j) → map' y i' j' = map y i' j') ∧
      (∀ y, (∀ r ∈ recs, r.tBreak ≠ 0 → ¬ InYear r.tBreak y) → map' y i j = map y i j) ∧
      (∀ y r pre post, recs = pre ++ r :: post → B.low ≤ y → y ≤ B.upp → r.tBreak ≠ 0 → InYear r.tBreak y →
        (∀ s ∈ post, s.tBreak ≠ 0 → ¬ InYear s.tBreak y) →
        map' y i j = sccdKind r * 1000 + (r.tBreak - Pycold.Spec.ordinal y 1 + 1)) := by
  intro recs
  induction recs with
  | nil =>
    intro map
    exact ⟨map, rfl, fun _ _ _ _ => rfl, fun _ _ => rfl, fun y r pre post e => by simp at e⟩
  | cons a rest ih =>
    intro map
    by_cases hs : a.tBreak = 0 ∨ yearOf a.tBreak < B.low ∨ B.upp < yearOf a.tBreak
    · obtain ⟨map', h1, h2, h3, h4⟩ := ih map
      refine ⟨map', ?_, h2, fun y h => h3 y fun r hr => h r (List.mem_cons_of_mem _ hr), ?_⟩
      · unfold recsSccd
        rw [stepSccd_skip (by tauto)]
        exact h1
      · intro y r pre post e g1 g2 g3 g4 g5
        cases pre with
        | nil =>
          exfalso
          injection e with e1 e2
          subst e1
          have := yearOf_iff.mpr g4
          rcases hs with hs | hs | hs
          · exact g3 hs
          · omega
          · omega
        | cons b pre =>
          injection e with e1 e2
          exact h4 y r pre post e2 g1 g2 g3 g4 g5
    · have hs' : a.tBreak ≠ 0 ∧ B.low ≤ yearOf a.tBreak ∧ yearOf a.tBreak ≤ B.upp := by omega
      obtain ⟨map', h1, h2, h3, h4⟩ := ih fun y i' j' => if y = yearOf a.tBreak ∧ i' = i ∧ j' = j then
        categorySccd a * 1000 + a.tBreak - jan1 (yearOf a.tBreak) + 1 else map y i' j'
      refine ⟨map', ?_, ?_, ?_, ?_⟩
      · unfold recsSccd
        rw [stepSccd_write hat hs'.1 hs'.2.1 hs'.2.2]
        exact h1
      · intro y i' j' h
        rw [h2 y i' j' h, if_neg (by tauto)]
      · intro y h
        rw [h3 y fun r hr => h r (List.mem_cons_of_mem _ hr), if_neg]
        rintro ⟨e, _⟩
        exact h a List.mem_cons_self hs'.1 (yearOf_iff.mp e.symm)
      · intro y r pre post e g1 g2 g3 g4 g5
        cases pre with
        | nil =>
          injection e with e1 e2
          subst e1
          subst e2
          have hy := yearOf_iff.mpr g4
          rw [h3 y g5, if_pos ⟨hy.symm, rfl, rfl⟩, hy, jan1_eq, categorySccd_eq]
          ring
        | cons b pre =>
          injection e with e1 e2
          exact h4 y r pre post e2 g1 g2 g3 g4 g5

/-- The outer loop. -/
theorem plotsSccd_ok {B : Block} {n : Nat} : ∀ (plots : List Plot) (count : Nat) (map : Int → Nat → Nat → Int),
    (∀ p ∈ plots, ∃ i j, At B p.position i j) → count + plots.length = n →
    ∃ map', plotsSccd B n count plots map = .ok map' ∧
      (∀ y q i j, At B q i j → (∀ p ∈ plots, p.position = q → ∀ r, ¬ SccdBreak p y r) → map' y i j = map y i j) ∧
      (∀ q i j, At B q i j → (∀ p ∈ plots.dropLast, p.position ≠ q) → ∀ y, map' y i j = map y i j) ∧
      (OnePack plots → Chronological plots → ∀ y p i j r, p ∈ plots.dropLast → At B p.position i j → B.low ≤ y → y ≤ B.upp →
        SccdLast p y r → map' y i j = sccdKind r * 1000 + (r.tBreak - Pycold.Spec.ordinal y 1 + 1)) := by
  intro plots
  induction plots with
  | nil =>
    intro count map _ _
    exact ⟨map, rfl, fun _ _ _ _ _ _ => rfl, fun _ _ _ _ _ _ => rfl, fun _ _ y p i j r h => by simp at h⟩
  | cons a rest ih =>
    intro count map hat hn
    rw [List.length_cons] at hn
    cases rest with
    | nil =>
      refine ⟨map, ?_, fun _ _ _ _ _ _ => rfl, fun _ _ _ _ _ _ => rfl, fun _ _ y p i j r h => by simp at h⟩
      unfold plotsSccd
      rw [decide_eq_true (by simp at hn; omega), recsSccd_last]
      rfl
    | cons b rest =>
      obtain ⟨ia, ja, hA⟩ := hat a List.mem_cons_self
      obtain ⟨m1, f1, f2, f3, f4⟩ := recsSccd_ok hA a.recs map
      obtain ⟨map', h1, h2, h3, h4⟩ := ih (count + 1) m1 (fun p hp => hat p (List.mem_cons_of_mem _ hp)) (by omega)
      have other : ∀ {q i j}, At B q i j → a.position ≠ q → ∀ y, m1 y i j = map y i j := by
        intro q i j hq hne y
        apply f2
        rintro ⟨rfl, rfl⟩
        exact hne (at_inj hA hq)
      have same : ∀ {q i j}, At B q i j → a.position = q → i = ia ∧ j = ja := by
        intro q i j hq e
        subst e
        have e1 := at_cell hq
        have e2 := at_cell hA
        omega
      refine ⟨map', ?_, ?_, ?_, ?_⟩
      · unfold plotsSccd
        rw [decide_eq_false (by simp at hn; omega), f1]
        exact h1
      · intro y q i j hq h
        rw [h2 y q i j hq fun p hp => h p (List.mem_cons_of_mem _ hp)]
        by_cases e : a.position = q
        · obtain ⟨rfl, rfl⟩ := same hq e
          exact f3 y fun r hr h0 hy => h a List.mem_cons_self e r ⟨hr, h0, hy⟩
        · exact other hq e y
      · intro q i j hq h y
        rw [List.dropLast_cons₂] at h
        rw [h3 q i j hq fun p hp => h p (List.mem_cons_of_mem _ hp)]
        exact other hq (h a List.mem_cons_self) y
      · intro ho hc y p i j r hp hq g1 g2 g3
        rw [List.dropLast_cons₂] at hp
        rcases List.mem_cons.mp hp with rfl | hp
        · obtain ⟨rfl, rfl⟩ := same hq rfl
          rw [h2 y p.position i j hq]
          · obtain ⟨⟨k1, k2, k3⟩, k4⟩ := g3
            obtain ⟨pre, post, e⟩ := List.append_of_mem k1
            refine f4 y r pre post e g1 g2 k2 k3 ?_
            intro s hs s0 s1
            have hw := hc p List.mem_cons_self
            rw [e] at hw
            have := (List.pairwise_cons.mp (List.pairwise_append.mp hw).2.1).1 s hs
            have := k4 s ⟨by rw [e]; exact List.mem_append_right _ (List.mem_cons_of_mem _ hs), s0, s1⟩
            omega
          · intro p' hp' e
            exact absurd e.symm ((List.pairwise_cons.mp ho).1 p' hp')
        · exact h4 (List.pairwise_cons.mp ho).2 (fun p hp => hc p (List.mem_cons_of_mem _ hp)) y p i j r hp hq g1 g2 g3

end Pycold.ChangeMap
