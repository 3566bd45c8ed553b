import Verif.Spec.ChangeMap
import Verif.Proof.Calendar
import Mathlib.Tactic.Linarith
import Mathlib.Tactic.Ring
import Mathlib.Tactic.NormNum
import Mathlib.Tactic.Tauto
/-!
# Features and change maps
-/
namespace Pycold.ChangeMap

open Spec

/-! ## Calendar -/

theorem jan1_eq (y : Int) : jan1 y = Pycold.Spec.ordinal y 1 := by
  unfold jan1 Pycold.Spec.ordinal Pycold.Spec.daysBeforeYear
  omega

theorem yearOf_inYear (d : Int) : InYear d (yearOf d) := by
  unfold InYear Pycold.Spec.ordinal Pycold.Spec.daysBeforeYear yearOf
  simp only
  generalize hn : d - 1 = n
  obtain rfl : d = n + 1 := by omega
  generalize ha : n / 146097 = a
  generalize hn1 : n % 146097 = n1
  have e1 : n = 146097 * a + n1 := by omega
  have b1 : 0 ≤ n1 ∧ n1 < 146097 := by omega
  generalize hb : n1 / 36524 = b
  generalize hn2 : n1 % 36524 = n2
  have e2 : n1 = 36524 * b + n2 := by omega
  have b2 : 0 ≤ n2 ∧ n2 < 36524 := by omega
  generalize hc : n2 / 1461 = c
  generalize hn3 : n2 % 1461 = n3
  have e3 : n2 = 1461 * c + n3 := by omega
  have b3 : 0 ≤ n3 ∧ n3 < 1461 := by omega
  generalize he : n3 / 365 = e
  have b4 : 365 * e ≤ n3 ∧ n3 < 365 * e + 365 := by omega
  clear ha hn1 hb hn2 hc hn3 he hn
  have hb4 : 0 ≤ b ∧ b ≤ 4 := by omega
  have hc4 : 0 ≤ c ∧ c ≤ 24 := by omega
  have he4 : 0 ≤ e ∧ e ≤ 4 := by omega
  have key : ∀ q : Int, 0 ≤ q ∧ q ≤ 3 →
      (400 * a + 100 * b + 4 * c + q) / 4 = 100 * a + 25 * b + c ∧
      (400 * a + 100 * b + 4 * c + q) / 100 = 4 * a + b := by intro q hq; omega
  split
  · rename_i h
    rcases h with h | h
    · subst h
      have : b ≤ 3 := by omega
      have hk := key 3 (by omega)
      have h400 : (400 * a + 100 * b + 4 * c + 3) / 400 = a := by omega
      have e0 : a * 400 + 1 + (b * 100 + c * 4 + 4) - 1 = 400 * a + 100 * b + 4 * c + 3 + 1 := by ring
      have e0' : 400 * a + 100 * b + 4 * c + 3 + 1 - 1 = 400 * a + 100 * b + 4 * c + 3 := by ring
      rw [e0, e0', hk.1, hk.2, h400]
      have e5 : 400 * a + 100 * b + 4 * c + 3 + 1 + 1 - 1 = 400 * a + 100 * b + 4 * c + 4 := by ring
      rw [e5]
      have k1 : (400 * a + 100 * b + 4 * c + 4) / 4 = 100 * a + 25 * b + c + 1 := by omega
      rw [k1]
      rcases (show c ≤ 23 ∨ c = 24 by omega) with h | h
      · have k2 : (400 * a + 100 * b + 4 * c + 4) / 100 = 4 * a + b := by omega
        have k3 : (400 * a + 100 * b + 4 * c + 4) / 400 = a := by omega
        rw [k2, k3]; omega
      · subst h
        have k2 : (400 * a + 100 * b + 4 * 24 + 4) / 100 = 4 * a + b + 1 := by omega
        rw [k2]
        rcases (show b ≤ 2 ∨ b = 3 by omega) with h | h
        · have k3 : (400 * a + 100 * b + 4 * 24 + 4) / 400 = a := by omega
          rw [k3]; omega
        · have k3 : (400 * a + 100 * b + 4 * 24 + 4) / 400 = a + 1 := by omega
          rw [k3]; omega
    · subst h
      have : n2 = 0 := by omega
      obtain rfl : c = 0 := by omega
      obtain rfl : e = 0 := by omega
      omega
  · rename_i h
    have hb3 : b ≤ 3 := by omega
    have he3 : e ≤ 3 := by omega
    have hk := key e (by omega)
    have h400 : (400 * a + 100 * b + 4 * c + e) / 400 = a := by omega
    have e0 : a * 400 + 1 + (b * 100 + c * 4 + e) = 400 * a + 100 * b + 4 * c + e + 1 := by ring
    have e1 : 400 * a + 100 * b + 4 * c + e + 1 - 1 = 400 * a + 100 * b + 4 * c + e := by ring
    have e2 : 400 * a + 100 * b + 4 * c + e + 1 + 1 - 1 = 400 * a + 100 * b + 4 * c + (e + 1) := by ring
    rw [e0, e1, e2, hk.1, hk.2, h400]
    rcases (show e ≤ 2 ∨ e = 3 by omega) with h | h
    · have k1 : (400 * a + 100 * b + 4 * c + (e + 1)) / 4 = 100 * a + 25 * b + c := by omega
      have k2 : (400 * a + 100 * b + 4 * c + (e + 1)) / 100 = 4 * a + b := by omega
      have k3 : (400 * a + 100 * b + 4 * c + (e + 1)) / 400 = a := by omega
      rw [k1, k2, k3]; omega
    · subst h
      have k1 : (400 * a + 100 * b + 4 * c + (3 + 1)) / 4 = 100 * a + 25 * b + c + 1 := by omega
      rw [k1]
      rcases (show c ≤ 23 ∨ c = 24 by omega) with h | h
      · have k2 : (400 * a + 100 * b + 4 * c + (3 + 1)) / 100 = 4 * a + b := by omega
        have k3 : (400 * a + 100 * b + 4 * c + (3 + 1)) / 400 = a := by omega
        rw [k2, k3]; omega
      · subst h
        have k2 : (400 * a + 100 * b + 4 * 24 + (3 + 1)) / 100 = 4 * a + b + 1 := by omega
        rw [k2]
        rcases (show b ≤ 2 ∨ b = 3 by omega) with h | h
        · have k3 : (400 * a + 100 * b + 4 * 24 + (3 + 1)) / 400 = a := by omega
          rw [k3]; omega
        · have k3 : (400 * a + 100 * b + 4 * 24 + (3 + 1)) / 400 = a + 1 := by omega
          rw [k3]; omega

theorem inYear_unique {d y z : Int} (h1 : InYear d y) (h2 : InYear d z) : y = z := by
  unfold InYear Pycold.Spec.ordinal at *
  rcases lt_trichotomy y z with h | h | h
  · exfalso
    rcases (show y + 1 = z ∨ y + 1 < z by omega) with rfl | h'
    · omega
    · have := daysBeforeYear_mono h'
      have := Pycold.yearLength_bounds (y + 1)
      omega
  · exact h
  · exfalso
    rcases (show z + 1 = y ∨ z + 1 < y by omega) with rfl | h'
    · omega
    · have := daysBeforeYear_mono h'
      have := Pycold.yearLength_bounds (z + 1)
      omega

theorem yearOf_iff {d y : Int} : yearOf d = y ↔ InYear d y :=
  ⟨fun h => h ▸ yearOf_inYear d, fun h => inYear_unique (yearOf_inYear d) h⟩

theorem dec31_eq (y : Int) : dec31 y = jan1 (y + 1) - 1 := by
  unfold dec31 jan1
  split <;> omega

/-! ## Features -/

theorem pick_some {ver : Version} {day : Int} : ∀ {plot : List Rec} {c : Rec}, pick ver day plot = some c →
    ∃ i, plot[i]? = some c ∧ Covers (lastDays ver) plot day i
  | [], _, h => by cases h
  | [c], c', h => by
    unfold pick at h
    split at h
    · cases h
      rename_i hh
      exact ⟨0, rfl, c, rfl, hh.1, hh.2⟩
    · cases h
  | c :: c1 :: cs, c', h => by
    rw [pick] at h
    split at h
    · cases h
      rename_i hh
      exact ⟨0, rfl, c, rfl, hh.1, hh.2⟩
    · obtain ⟨i, h1, c2, h2, h3⟩ := pick_some h
      exact ⟨i + 1, h1, c2, h2, h3⟩

theorem pick_none {ver : Version} {day : Int} : ∀ {plot : List Rec}, pick ver day plot = none →
    ∀ i, ¬ Covers (lastDays ver) plot day i
  | [], _, i => by rintro ⟨c, h, _⟩; simp at h
  | [c], h, i => by
    rintro ⟨c', h1, h2, h3⟩
    cases i with
    | zero =>
      simp only [List.getElem?_cons_zero, Option.some.injEq] at h1
      subst h1
      simp only [List.getElem?_cons_succ, List.getElem?_nil] at h3
      rw [pick, if_pos ⟨h2, h3⟩] at h
      cases h
    | succ i => simp at h1
  | c :: c1 :: cs, h, i => by
    rw [pick] at h
    split at h
    · cases h
    · rename_i hh
      cases i with
      | zero =>
        rintro ⟨c', h1, h2, h3⟩
        simp only [List.getElem?_cons_zero, Option.some.injEq] at h1
        subst h1
        exact hh ⟨h2, h3⟩
      | succ i =>
        rintro ⟨c', h1, h2, h3⟩
        exact pick_none h i ⟨c', h1, h2, h3⟩

theorem ordered_get {plot : List Rec} (ho : Ordered plot) {i j : Nat} {a b : Rec} (hi : plot[i]? = some a)
    (hj : plot[j]? = some b) (h : i < j) : a.tStart < b.tStart := by
  rw [List.getElem?_eq_some_iff] at hi hj
  obtain ⟨hi1, rfl⟩ := hi
  obtain ⟨hj1, rfl⟩ := hj
  exact List.pairwise_iff_getElem.mp ho i j hi1 hj1 h

theorem covers_unique {plot : List Rec} (ho : Ordered plot) {fin : Rec → Int} {day : Int} {i j : Nat}
    (hi : Covers fin plot day i) (hj : Covers fin plot day j) : i = j := by
  have key : ∀ i j, i < j → Covers fin plot day i → Covers fin plot day j → False := by
    rintro i j hij ⟨c, h1, h2, h3⟩ ⟨c', g1, g2, g3⟩
    have hlt : i + 1 < plot.length := by
      rw [List.getElem?_eq_some_iff] at g1
      obtain ⟨g, _⟩ := g1
      omega
    rw [List.getElem?_eq_getElem hlt] at h3
    simp only at h3
    rcases Nat.lt_or_ge (i + 1) j with h | h
    · have := ordered_get ho (List.getElem?_eq_getElem hlt) g1 h
      omega
    · obtain rfl : j = i + 1 := by omega
      rw [List.getElem?_eq_getElem hlt] at g1
      cases g1
      omega
  rcases Nat.lt_trichotomy i j with h | h | h
  · exact absurd hj (fun hj => key i j h hi hj)
  · exact h
  · exact absurd hi (fun hi => key j i h hj hi)

theorem raw_value {c : Rec} {band : Nat} {day : Int} {f : Feature} (hf : Named f) :
    (rawFeature c band day f).map nanToZero = some (some (featureValue c band day f)) := by
  obtain ⟨h1, h2⟩ := hf
  cases f with
  | a0 =>
    simp only [rawFeature, featureValue, Option.map_some, nanToZero, slopeScale]
    cases c.coefs band 0 with
    | none => simp [add]
    | some x =>
      cases c.coefs band 1 with
      | none => simp [add, mul]
      | some y => simp [add, mul]; ring
  | c1 =>
    simp only [rawFeature, featureValue, Option.map_some, nanToZero, slopeScale]
    cases c.coefs band 1 with
    | none => simp [mul]
    | some y => simp [mul]; ring
  | cv => exact absurd rfl h1
  | other => exact absurd rfl h2
  | _ => rfl

theorem entry_eq {ver : Version} {plot : List Rec} {band : Nat} {nanVal : Q} {day : Int} {f : Feature} (hf : Named f) :
    entry ver plot band nanVal day f = some (match pick ver day plot with
      | none => nanVal
      | some c => some (featureValue c band day f)) := by
  unfold entry
  cases ver with
  | classifier =>
    cases hp : pick .classifier day plot with
    | none => rfl
    | some c => simp only; rw [raw_value hf]
  | export_ =>
    simp only
    rw [if_neg hf.1]
    cases hp : pick .export_ day plot with
    | none => rfl
    | some c => simp only; rw [raw_value hf]; rfl

theorem mapM_some {α β} (g : α → Option β) (h : α → β) : ∀ l : List α, (∀ a ∈ l, g a = some (h a)) → l.mapM g = some (l.map h)
  | [], _ => rfl
  | a :: l, hl => by
    rw [List.mapM_cons, hl a List.mem_cons_self]
    simp only [Option.bind_eq_bind, Option.bind_some]
    rw [mapM_some g h l fun b hb => hl b (List.mem_cons_of_mem _ hb)]
    rfl

/-! ## Categories -/

theorem lt_iff (a b : Q) : lt a b = true ↔ ∃ x y, a = some x ∧ b = some y ∧ x < y := by
  cases a <;> cases b <;> simp [lt]

theorem greening_iff (t : ℚ) (r : Rec) : greening (-t) r = true ↔ Greening t r := by
  simp only [greening, Bool.and_eq_true, lt_iff, Greening]
  constructor
  · rintro ⟨⟨⟨x, n, hx, hn, h1⟩, ⟨d, y, hd, hy, h2⟩⟩, ⟨s, z, hs, hz, h3⟩⟩
    cases hx; cases hy; cases hz
    exact ⟨n, d, s, hn, hd, hs, h1, by linarith, by linarith⟩
  · rintro ⟨n, d, s, hn, hd, hs, h1, h2, h3⟩
    exact ⟨⟨⟨_, n, rfl, hn, h1⟩, ⟨d, _, hd, rfl, by linarith⟩⟩, ⟨s, _, hs, rfl, by linarith⟩⟩

theorem flips_spec {r prev : Rec} (h : 4 ≤ flips r prev) :
    ∃ b0, ∀ b, 1 ≤ b → b ≤ 5 → b ≠ b0 → Opposite r prev b := by
  have key : ∀ b, lt (mul (r.magnitude b) (prev.magnitude b)) (some 0) = true → Opposite r prev b := by
    intro b hb
    rw [lt_iff] at hb
    obtain ⟨x, y, h1, h2, h3⟩ := hb
    cases h2
    unfold mul at h1
    rw [Option.bind_eq_some_iff] at h1
    obtain ⟨u, hu, h1⟩ := h1
    rw [Option.map_eq_some_iff] at h1
    obtain ⟨v, hv, rfl⟩ := h1
    exact ⟨u, v, hu, hv, h3⟩
  unfold flips at h
  have e5 : List.range 5 = [0, 1, 2, 3, 4] := rfl
  rw [e5] at h
  by_cases h0 : lt (mul (r.magnitude (0 + 1)) (prev.magnitude (0 + 1))) (some 0) = true <;>
  by_cases h1 : lt (mul (r.magnitude (1 + 1)) (prev.magnitude (1 + 1))) (some 0) = true <;>
  by_cases h2 : lt (mul (r.magnitude (2 + 1)) (prev.magnitude (2 + 1))) (some 0) = true <;>
  by_cases h3 : lt (mul (r.magnitude (3 + 1)) (prev.magnitude (3 + 1))) (some 0) = true <;>
  by_cases h4 : lt (mul (r.magnitude (4 + 1)) (prev.magnitude (4 + 1))) (some 0) = true <;>
  simp only [List.filter_cons, List.filter_nil, h0, h1, h2, h3, h4, if_true, Bool.false_eq_true, if_false, List.length_cons, List.length_nil] at h <;>
  first
  | omega
  | (refine ⟨0, fun b hb1 hb5 _ => key b ?_⟩
     obtain rfl | rfl | rfl | rfl | rfl : b = 1 ∨ b = 2 ∨ b = 3 ∨ b = 4 ∨ b = 5 := by omega
     all_goals assumption)
  | (refine ⟨1, fun b hb1 hb5 _ => key b ?_⟩
     obtain rfl | rfl | rfl | rfl : b = 2 ∨ b = 3 ∨ b = 4 ∨ b = 5 := by omega
     all_goals assumption)
  | (refine ⟨2, fun b hb1 hb5 _ => key b ?_⟩
     obtain rfl | rfl | rfl | rfl : b = 1 ∨ b = 3 ∨ b = 4 ∨ b = 5 := by omega
     all_goals assumption)
  | (refine ⟨3, fun b hb1 hb5 _ => key b ?_⟩
     obtain rfl | rfl | rfl | rfl : b = 1 ∨ b = 2 ∨ b = 4 ∨ b = 5 := by omega
     all_goals assumption)
  | (refine ⟨4, fun b hb1 hb5 _ => key b ?_⟩
     obtain rfl | rfl | rfl | rfl : b = 1 ∨ b = 2 ∨ b = 3 ∨ b = 5 := by omega
     all_goals assumption)
  | (refine ⟨5, fun b hb1 hb5 _ => key b ?_⟩
     obtain rfl | rfl | rfl | rfl : b = 1 ∨ b = 2 ∨ b = 3 ∨ b = 4 := by omega
     all_goals assumption)

theorem steeper_iff (r next : Rec) : steeper r next = true ↔ Steeper r next := by
  simp only [steeper, Bool.and_eq_true, lt_iff, Steeper, abs, neg]
  constructor
  · rintro ⟨⟨⟨x, n', hx, hn, h1⟩, ⟨d', y, hd, hy, h2⟩⟩, ⟨s', z, hs, hz, h3⟩⟩
    rw [Option.map_eq_some_iff] at hx hy hz
    obtain ⟨n, hn0, rfl⟩ := hx
    obtain ⟨d0, hd0, rfl⟩ := hy
    obtain ⟨s0, hs0, rfl⟩ := hz
    rw [Option.map_eq_some_iff] at hd0 hs0
    obtain ⟨d, hd0, rfl⟩ := hd0
    obtain ⟨s, hs0, rfl⟩ := hs0
    exact ⟨n, d, s, n', d', s', hn0, hd0, hs0, hn, hd, hs, h1, h2, h3⟩
  · rintro ⟨n, d, s, n', d', s', hn0, hd0, hs0, hn, hd, hs, h1, h2, h3⟩
    exact ⟨⟨⟨|n|, n', by simp [hn0], hn, h1⟩, ⟨d', -|d|, hd, by simp [hd0], h2⟩⟩, ⟨s', -|s|, hs, by simp [hs0], h3⟩⟩

open Classical in
theorem categoryCold_eq {l : List Rec} {i : Nat} {r next : Rec} (h1 : l[i]? = some r) (h2 : l[i + 1]? = some next) :
    categoryCold l i = some (kind r next) := by
  unfold categoryCold kind
  simp only [h1, h2]
  have e1 : (if steeper r next = true then (3 : Int) else 2) = if Steeper r next then 3 else 2 := by
    by_cases hs : Steeper r next
    · rw [if_pos hs, if_pos ((steeper_iff _ _).mpr hs)]
    · rw [if_neg hs, if_neg fun h => hs ((steeper_iff _ _).mp h)]
  by_cases hg : Greening 200 r
  · rw [if_pos ((greening_iff 200 r).mpr hg), if_pos hg, e1]
  · rw [if_neg fun h => hg ((greening_iff 200 r).mp h), if_neg hg]

theorem kind_range (r next : Rec) : kind r next = 1 ∨ kind r next = 2 ∨ kind r next = 3 := by
  unfold kind
  split
  · split <;> simp
  · simp

theorem flips_of {r prev : Rec} {b0 : Nat} (h : ∀ b, 1 ≤ b → b ≤ 5 → b ≠ b0 → Opposite r prev b) : 4 ≤ flips r prev := by
  have key : ∀ b, 1 ≤ b → b ≤ 5 → b ≠ b0 → lt (mul (r.magnitude b) (prev.magnitude b)) (some 0) = true := by
    intro b h1 h5 hb
    obtain ⟨x, y, hx, hy, hxy⟩ := h b h1 h5 hb
    rw [hx, hy]
    simp [mul, lt, hxy]
  unfold flips
  have e5 : List.range 5 = [0, 1, 2, 3, 4] := rfl
  rw [e5]
  have k := fun b (h1 : b < 5) (h2 : b + 1 ≠ b0) => key (b + 1) (by omega) (by omega) h2
  by_cases h0 : 0 + 1 = b0
  · simp [k 1 (by omega) (by omega), k 2 (by omega) (by omega), k 3 (by omega) (by omega), k 4 (by omega) (by omega),
      List.filter_cons]
    split <;> simp
  by_cases h1 : 1 + 1 = b0
  · simp [k 0 (by omega) (by omega), k 2 (by omega) (by omega), k 3 (by omega) (by omega), k 4 (by omega) (by omega),
      List.filter_cons]
    split <;> simp
  by_cases h2 : 2 + 1 = b0
  · simp [k 0 (by omega) (by omega), k 1 (by omega) (by omega), k 3 (by omega) (by omega), k 4 (by omega) (by omega),
      List.filter_cons]
    split <;> simp
  by_cases h3 : 3 + 1 = b0
  · simp [k 0 (by omega) (by omega), k 1 (by omega) (by omega), k 2 (by omega) (by omega), k 4 (by omega) (by omega),
      List.filter_cons]
    split <;> simp
  · simp [k 0 (by omega) (by omega), k 1 (by omega) (by omega), k 2 (by omega) (by omega), k 3 (by omega) (by omega),
      List.filter_cons]

open Classical in
theorem categoryObcold_eq {l : List Rec} {i : Nat} {last : Int} {r next : Rec} (h1 : l[i]? = some r)
    (h2 : l[i + 1]? = some next) : categoryObcold l i last = some (if Greening 250 r then (if Steeper r next then 3 else 2)
      else if (∃ prev, 0 < i ∧ l[i - 1]? = some prev ∧ Undoes r prev) ∧ last = 1 then 4 else 1) := by
  unfold categoryObcold
  simp only [h1, h2]
  by_cases hg : Greening 250 r
  · rw [if_pos ((greening_iff 250 r).mpr hg), if_pos hg]
    by_cases hs : Steeper r next
    · rw [if_pos ((steeper_iff _ _).mpr hs), if_pos hs]
    · rw [if_neg fun h => hs ((steeper_iff _ _).mp h), if_neg hs]
  · rw [if_neg fun h => hg ((greening_iff 250 r).mp h), if_neg hg]
    split
    · rename_i hi
      have : i - 1 < l.length := by
        rw [List.getElem?_eq_some_iff] at h1
        obtain ⟨h, _⟩ := h1
        omega
      rw [List.getElem?_eq_getElem this]
      simp only
      split
      · rename_i hh
        rw [if_neg]
        rintro ⟨⟨p, _, hp, hu⟩, h1⟩
        injection hp with hp
        subst hp
        have := hu.1
        omega
      · rename_i hh
        rw [not_or, not_not] at hh
        split
        · rename_i hf
          rw [if_pos ⟨⟨_, hi, rfl, by omega, flips_spec hf⟩, hh.2⟩]
        · rename_i hf
          rw [if_neg]
          rintro ⟨⟨p, _, hp, hu⟩, _⟩
          injection hp with hp
          subst hp
          obtain ⟨b0, hb⟩ := hu.2
          exact hf (flips_of hb)
    · rename_i hi
      rw [if_neg]
      rintro ⟨⟨p, hp, _⟩, _⟩
      exact hi hp

/-- The type of the last confirmed break when record `k` is looked at. -/
def before (l : List Rec) : Nat → Int
  | 0 => 0
  | k + 1 => match l[k]?, l[k + 1]? with
    | some a, some b =>
      if b.pos ≠ a.pos then 0
      else if a.prob < 100 ∨ a.tBreak = 0 then before l k else (categoryObcold l k (before l k)).getD 0
    | _, _ => 0

/-! ## The loop over the records of a block -/

theorem at_cell {B : Block} {p : Int} {i j : Nat} (h : At B p i j) :
    (p - 1) % (B.nCols : Int) - ((B.x : Int) - 1) * B.width = j ∧
    (p - 1).tdiv (B.nCols : Int) - ((B.y : Int) - 1) * B.height = i := by
  obtain ⟨h1, h2, h3, h4, h5, rfl⟩ := h
  obtain ⟨x, hx⟩ : ∃ x, B.x = x + 1 := ⟨B.x - 1, by omega⟩
  obtain ⟨y, hy⟩ : ∃ y, B.y = y + 1 := ⟨B.y - 1, by omega⟩
  rw [hx] at h3 ⊢
  rw [hy]
  simp only [Nat.add_sub_cancel] at h3 ⊢
  generalize hr : y * B.height + i = r at *
  generalize hc : x * B.width + j = c at *
  have e : (((r * B.nCols + c + 1 : Nat) : Int) - 1) = ((r * B.nCols + c : Nat) : Int) := by push_cast; ring
  rw [e]
  have em : (r * B.nCols + c) % B.nCols = c := by
    rw [Nat.add_comm, Nat.add_mul_mod_self_right, Nat.mod_eq_of_lt h3]
  have ed : (r * B.nCols + c) / B.nCols = r := by
    rw [Nat.add_comm, Nat.add_mul_div_right _ _ (by omega), Nat.div_eq_of_lt h3, Nat.zero_add]
  constructor
  · rw [← Int.natCast_mod, em, ← hc]; push_cast; ring
  · rw [← Int.ofNat_tdiv, ed, ← hr]; push_cast; ring

theorem at_inj {B : Block} {p q : Int} {i j : Nat} (h : At B p i j) (g : At B q i j) : p = q := by
  rw [h.2.2.2.2.2, g.2.2.2.2.2]

/-- The category given to record `k` of the sorted block. -/
def Typed (m : Method) (l : List Rec) (k : Nat) (d : Int) : Prop :=
  match m with
  | .cold => ∃ r next, l[k]? = some r ∧ l[k + 1]? = some next ∧ d = kind r next
  | .obcold => categoryObcold l k (before l k) = some d

/-- Record `k` is a confirmed break of the pixel in the year, not the last record of the block. -/
def Hit (l : List Rec) (p y : Int) (k : Nat) : Prop :=
  ∃ r, l[k]? = some r ∧ r.pos = p ∧ Confirmed r ∧ InYear r.tBreak y ∧ k + 1 < l.length

structure Inv (m : Method) (B : Block) (l : List Rec) (count : Nat) (st : St) : Prop where
  dist : m = .obcold → ∀ r, l[count]? = some r → (if r.pos ≠ st.pos then 0 else st.dist) = before l count
  prev : 0 < count → ∃ r, l[count - 1]? = some r ∧ r.pos = st.pos
  empty : ∀ y p i j, B.low ≤ y → y ≤ B.upp → At B p i j → (∀ k, k < count → ¬ Hit l p y k) → st.map y i j = -9999
  full : ∀ y p i j k r, B.low ≤ y → y ≤ B.upp → At B p i j → k < count → l[k]? = some r → Hit l p y k →
    (∀ k', k < k' → k' < count → ¬ Hit l p y k') →
    ∃ d, Typed m l k d ∧ st.map y i j = d * 1000 + (r.tBreak - jan1 y + 1)

theorem category_ok {m : Method} {l : List Rec} {count : Nat} {r next : Rec} {dist : Int} (h1 : l[count]? = some r)
    (h2 : l[count + 1]? = some next) (hd : m = .obcold → dist = before l count) :
    ∃ d, category m l count dist = some d ∧ Typed m l count d := by
  cases m with
  | cold => exact ⟨_, categoryCold_eq h1 h2, r, next, h1, h2, rfl⟩
  | obcold =>
    refine ⟨_, categoryObcold_eq h1 h2, ?_⟩
    show categoryObcold l count (before l count) = _
    rw [← hd rfl]
    exact categoryObcold_eq h1 h2

theorem step_inv {m : Method} {B : Block} {l : List Rec} {count : Nat} {st : St} {r : Rec} {i j : Nat}
    (hI : Inv m B l count st) (hr : l[count]? = some r) (hat : At B r.pos i j) :
    ∃ st', stepRec m B l count r st = .ok st' ∧ Inv m B l (count + 1) st' := by
  have hlt : count < l.length := (List.getElem?_eq_some_iff.mp hr).1
  -- the state after the reset
  obtain ⟨st1, hst1⟩ : ∃ st1, (if r.pos ≠ st.pos then { st with pos := r.pos, dist := 0 } else st) = st1 := ⟨_, rfl⟩
  have hmap : st1.map = st.map := by rw [← hst1]; split <;> rfl
  have hpos : st1.pos = r.pos := by
    rw [← hst1]; split
    · rfl
    · rename_i h; simp only [ne_eq, not_not] at h; exact h.symm
  have hdist : m = .obcold → st1.dist = before l count := by
    intro hm
    rw [← hI.dist hm r hr, ← hst1]
    split <;> rfl
  have hnext : ∀ d, (m = .obcold → (if r.prob < 100 ∨ r.tBreak = 0 then before l count
        else (categoryObcold l count (before l count)).getD 0) = d) →
      m = .obcold → ∀ b, l[count + 1]? = some b → (if b.pos ≠ st1.pos then 0 else d) = before l (count + 1) := by
    intro d h hm b hb
    rw [before, hr, hb]
    simp only
    rw [hpos, h hm]
  -- when record `count` is not written
  have skip : ∀ dist', (m = .obcold → count + 1 < l.length → (if r.prob < 100 ∨ r.tBreak = 0 then before l count
        else (categoryObcold l count (before l count)).getD 0) = dist') →
      (∀ y p, B.low ≤ y → y ≤ B.upp → ¬ Hit l p y count) → Inv m B l (count + 1) { st1 with dist := dist' } := by
    intro dist' hdd hno
    refine ⟨fun hm b hb => hnext _ (fun hm => hdd hm (List.getElem?_eq_some_iff.mp hb).1) hm b hb, fun _ => ⟨r, by simpa using hr, hpos.symm⟩, ?_, ?_⟩
    · intro y p i j h1 h2 h3 h4
      show st1.map y i j = _
      rw [hmap]
      exact hI.empty y p i j h1 h2 h3 fun k hk => h4 k (by omega)
    · intro y p i j k r' h1 h2 h3 h4 h5 h6 h7
      show ∃ d, _ ∧ st1.map y i j = _
      rw [hmap]
      have : k ≠ count := by
        rintro rfl
        exact hno y p h1 h2 h6
      exact hI.full y p i j k r' h1 h2 h3 (by omega) h5 h6 fun k' g1 g2 => h7 k' g1 (by omega)
  unfold stepRec
  simp only [hst1]
  split
  · rename_i hs
    refine ⟨st1, rfl, skip st1.dist ?_ ?_⟩
    · intro hm hl
      rw [if_pos (by omega), hdist hm]
    rintro y p _ _ ⟨r', h1, _, ⟨h2, h3⟩, _, h4⟩
    rw [hr] at h1
    cases h1
    omega
  · rename_i hs
    obtain ⟨c1, c2⟩ := at_cell hat
    rw [c1, c2]
    rw [if_neg (by omega)]
    have hlt2 : count + 1 < l.length := by omega
    obtain ⟨d, hd1, hd2⟩ := category_ok (m := m) hr (List.getElem?_eq_getElem hlt2) hdist
    rw [hd1]
    have hdd : m = .obcold → (if r.prob < 100 ∨ r.tBreak = 0 then before l count
        else (categoryObcold l count (before l count)).getD 0) = d := by
      intro hm
      subst hm
      rw [if_neg (by omega), (hd2 : categoryObcold l count (before l count) = some d)]
      rfl
    simp only [ofOption, Res.bind]
    split
    · rename_i hy
      refine ⟨_, rfl, skip d (fun hm _ => hdd hm) ?_⟩
      rintro y p h1 h2 ⟨r', g1, _, _, g2, _⟩
      rw [hr] at g1
      cases g1
      rw [yearOf_iff.mpr g2] at hy
      omega
    · rename_i hy
      have e1 : pyIndex B.height (i : Int) = some i := by
        unfold pyIndex
        rw [if_pos ⟨by omega, by exact_mod_cast hat.1⟩]; simp
      have e2 : pyIndex B.width (j : Int) = some j := by
        unfold pyIndex
        rw [if_pos ⟨by omega, by exact_mod_cast hat.2.1⟩]; simp
      rw [e1, e2]
      refine ⟨_, rfl, fun hm b hb => hnext d hdd hm b hb, fun _ => ⟨r, by simpa using hr, hpos.symm⟩, ?_, ?_⟩
      · intro y p i' j' h1 h2 h3 h4
        simp only
        rw [hmap]
        split
        · rename_i hh
          obtain ⟨rfl, rfl, rfl⟩ := hh
          have := at_inj h3 hat
          refine absurd ?_ (h4 count (by omega))
          exact ⟨r, hr, this.symm, ⟨by omega, by omega⟩, yearOf_inYear _, hlt2⟩
        · exact hI.empty y p i' j' h1 h2 h3 fun k hk => h4 k (by omega)
      · intro y p i' j' k r' h1 h2 h3 h4 h5 h6 h7
        simp only
        rw [hmap]
        by_cases hk : k = count
        · subst hk
          rw [hr] at h5
          cases h5
          obtain ⟨r'', g1, g2, g3, g4, g5⟩ := h6
          rw [hr] at g1
          cases g1
          obtain ⟨f1, f2⟩ := at_cell h3
          rw [← g2, c1] at f1
          rw [← g2, c2] at f2
          rw [if_pos ⟨(yearOf_iff.mpr g4).symm, by omega, by omega⟩]
          exact ⟨d, hd2, by rw [yearOf_iff.mpr g4]; ring⟩
        · rw [if_neg]
          · exact hI.full y p i' j' k r' h1 h2 h3 (by omega) h5 h6 fun k' g1 g2 => h7 k' g1 (by omega)
          · rintro ⟨rfl, rfl, rfl⟩
            have := at_inj h3 hat
            refine h7 count (by omega) (by omega) ?_
            exact ⟨r, hr, this.symm, ⟨by omega, by omega⟩, yearOf_inYear _, hlt2⟩

theorem loop_inv {m : Method} {B : Block} {l : List Rec} (hat : ∀ r ∈ l, ∃ i j, At B r.pos i j) :
    ∀ (rest : List Rec) (count : Nat) (st : St), Inv m B l count st → l.drop count = rest →
      ∃ st', loop m B l count rest st = .ok st' ∧ Inv m B l (count + rest.length) st'
  | [], count, st, hI, _ => ⟨st, rfl, by simpa using hI⟩
  | r :: rest, count, st, hI, hd => by
    have hr : l[count]? = some r := by
      have : (l.drop count)[0]? = some r := by rw [hd]; rfl
      rw [List.getElem?_drop] at this
      simpa using this
    obtain ⟨i, j, h⟩ := hat r (List.mem_of_getElem? hr)
    obtain ⟨st1, g1, g2⟩ := step_inv hI hr h
    have hd' : l.drop (count + 1) = rest := by
      rw [← List.drop_drop, hd]; rfl
    obtain ⟨st2, k1, k2⟩ := loop_inv hat rest (count + 1) st1 g2 hd'
    refine ⟨st2, ?_, ?_⟩
    · rw [loop, g1]
      exact k1
    · have : count + (r :: rest).length = count + 1 + rest.length := by simp only [List.length_cons]; omega
      rw [this]; exact k2

instance : Std.Total Before := ⟨fun a b => by unfold Before; omega⟩
instance : IsTrans Rec Before := ⟨fun a b c => by unfold Before; omega⟩

theorem sort_perm (block : List Rec) : (sortBlock block).Perm block := List.perm_insertionSort _ _

theorem sort_mem {block : List Rec} {r : Rec} : r ∈ sortBlock block ↔ r ∈ block := (sort_perm block).mem_iff

theorem sort_sorted (block : List Rec) : (sortBlock block).Pairwise
    fun a b => a.pos < b.pos ∨ (a.pos = b.pos ∧ a.tStart ≤ b.tStart) := List.pairwise_insertionSort Before block

theorem breakMaps_inv (m : Method) (B : Block) (block : List Rec) (hat : ∀ r ∈ block, ∃ i j, At B r.pos i j)
    (hne : block ≠ []) : ∃ st, breakMaps m B block = .ok st.map ∧
      Inv m B (sortBlock block) (sortBlock block).length st := by
  have hne' : sortBlock block ≠ [] := by
    intro h
    have := (sort_perm block).length_eq
    rw [h] at this
    exact hne (List.length_eq_zero_iff.mp this.symm)
  unfold breakMaps
  simp only
  split
  · rename_i h; exact absurd h hne'
  · rename_i first rest h
    have h0 : Inv m B (sortBlock block) 0 ⟨first.pos, 0, fun _ _ _ => -9999⟩ :=
      ⟨fun _ r hr => by simp [before], fun h => by omega, fun _ _ _ _ _ _ _ _ => rfl, fun _ _ _ _ _ _ _ _ _ h => by omega⟩
    obtain ⟨st, g1, g2⟩ := loop_inv (fun r hr => hat r (sort_mem.mp hr)) (sortBlock block) 0 _ h0 rfl
    refine ⟨st, ?_, by simpa using g2⟩
    rw [g1]; rfl

/-! ## From indices to records -/

theorem sorted_get {block : List Rec} {i j : Nat} {a b : Rec} (hi : (sortBlock block)[i]? = some a)
    (hj : (sortBlock block)[j]? = some b) (h : i < j) : a.pos < b.pos ∨ (a.pos = b.pos ∧ a.tStart ≤ b.tStart) := by
  rw [List.getElem?_eq_some_iff] at hi hj
  obtain ⟨hi1, rfl⟩ := hi
  obtain ⟨hj1, rfl⟩ := hj
  exact List.pairwise_iff_getElem.mp (sort_sorted block) i j hi1 hj1 h

/-- `r` and its successor stand side by side in the sorted block. -/
theorem next_index {block : List Rec} (hd : Distinct block) {r next : Rec} (hr : r ∈ block) (hn : Next block r next) :
    ∃ k, (sortBlock block)[k]? = some r ∧ (sortBlock block)[k + 1]? = some next ∧
      ∀ s, ∀ k', k < k' → (sortBlock block)[k']? = some s → s.pos = r.pos → r.tStart < s.tStart := by
  obtain ⟨k, hk⟩ := List.mem_iff_getElem?.mp (sort_mem.mpr hr)
  obtain ⟨q, hq⟩ := List.mem_iff_getElem?.mp (sort_mem.mpr hn.1)
  have hd' : Distinct (sortBlock block) :=
    List.Pairwise.perm hd (sort_perm block).symm fun {a b} h e => (h e.symm).symm
  have hdd : ∀ {i j : Nat} {a b : Rec}, (sortBlock block)[i]? = some a → (sortBlock block)[j]? = some b → i < j →
      a.pos = b.pos → a.tStart < b.tStart := by
    intro i j a b hi hj h e
    have h1 := sorted_get hi hj h
    have h2 : a.tStart ≠ b.tStart := by
      rw [List.getElem?_eq_some_iff] at hi hj
      obtain ⟨hi1, rfl⟩ := hi
      obtain ⟨hj1, rfl⟩ := hj
      exact List.pairwise_iff_getElem.mp hd' i j hi1 hj1 h e
    omega
  have hkq : k < q := by
    rcases Nat.lt_trichotomy k q with h | h | h
    · exact h
    · subst h
      rw [hk] at hq
      cases hq
      have := hn.2.2.1
      omega
    · have := hdd hq hk h hn.2.1
      have := hn.2.2.1
      omega
  refine ⟨k, hk, ?_, fun s k' h1 h2 h3 => hdd hk h2 h1 h3.symm⟩
  have hlt : k + 1 < (sortBlock block).length := by
    have := (List.getElem?_eq_some_iff.mp hq).1
    omega
  obtain ⟨c, hc⟩ : ∃ c, (sortBlock block)[k + 1]? = some c := ⟨_, List.getElem?_eq_getElem hlt⟩
  rcases Nat.lt_or_ge (k + 1) q with h | h
  · exfalso
    have h1 := sorted_get hk hc (by omega)
    have h2 := sorted_get hc hq h
    have h3 := hn.2.1
    have e : c.pos = r.pos := by omega
    have h4 := hdd hk hc (by omega) e.symm
    have h5 := hdd hc hq h (by omega)
    have h6 := hn.2.2.2 c (sort_mem.mp (List.mem_of_getElem? hc)) e h4
    omega
  · obtain rfl : q = k + 1 := by omega
    exact hq

/-! ## OBCOLD: the types in terms of the block -/

theorem sorted_strict {block : List Rec} (hd : Distinct block) {i j : Nat} {a b : Rec} (hi : (sortBlock block)[i]? = some a)
    (hj : (sortBlock block)[j]? = some b) (h : i < j) (e : a.pos = b.pos) : a.tStart < b.tStart := by
  have hd' : Distinct (sortBlock block) :=
    List.Pairwise.perm hd (sort_perm block).symm fun {a b} h e => (h e.symm).symm
  have h1 := sorted_get hi hj h
  have h2 : a.tStart ≠ b.tStart := by
    rw [List.getElem?_eq_some_iff] at hi hj
    obtain ⟨hi1, rfl⟩ := hi
    obtain ⟨hj1, rfl⟩ := hj
    exact List.pairwise_iff_getElem.mp hd' i j hi1 hj1 h e
  omega

theorem sorted_index {block : List Rec} (hd : Distinct block) {i j : Nat} {a : Rec} (hi : (sortBlock block)[i]? = some a)
    (hj : (sortBlock block)[j]? = some a) : i = j := by
  rcases Nat.lt_trichotomy i j with h | h | h
  · have := sorted_strict hd hi hj h rfl
    omega
  · exact h
  · have := sorted_strict hd hj hi h rfl
    omega

/-- A record of the same pixel that begins earlier comes earlier. -/
theorem earlier_index {block : List Rec} (hd : Distinct block) {k : Nat} {c r : Rec} (hr : (sortBlock block)[k]? = some r)
    (hc : c ∈ block) (hp : c.pos = r.pos) (ht : c.tStart < r.tStart) : ∃ q, q < k ∧ (sortBlock block)[q]? = some c := by
  obtain ⟨q, hq⟩ := List.mem_iff_getElem?.mp (sort_mem.mpr hc)
  refine ⟨q, ?_, hq⟩
  rcases Nat.lt_trichotomy q k with h | h | h
  · exact h
  · subst h
    rw [hq] at hr
    cases hr
    omega
  · have := sorted_strict hd hr hq h hp.symm
    omega

/-- A record with a later one of the same pixel has a next segment. -/
theorem has_next {block : List Rec} (hd : Distinct block) {q k : Nat} {c r : Rec} (hc : (sortBlock block)[q]? = some c)
    (hr : (sortBlock block)[k]? = some r) (h : q < k) (hp : c.pos = r.pos) : ∃ n, Next block c n := by
  have hlt : q + 1 < (sortBlock block).length := by
    have := (List.getElem?_eq_some_iff.mp hr).1
    omega
  obtain ⟨n, hn⟩ : ∃ n, (sortBlock block)[q + 1]? = some n := ⟨_, List.getElem?_eq_getElem hlt⟩
  have e : n.pos = c.pos := by
    have g1 := sorted_get hc hn (by omega)
    rcases Nat.lt_or_ge (q + 1) k with h' | h'
    · have g2 := sorted_get hn hr h'
      omega
    · have : q + 1 = k := by omega
      subst this
      rw [hn] at hr
      cases hr
      exact hp.symm
  refine ⟨n, sort_mem.mp (List.mem_of_getElem? hn), e, sorted_strict hd hc hn (by omega) e.symm, ?_⟩
  intro s s1 s2 s3
  obtain ⟨j, hj⟩ := List.mem_iff_getElem?.mp (sort_mem.mpr s1)
  rcases Nat.lt_trichotomy j (q + 1) with h' | h' | h'
  · exfalso
    rcases Nat.lt_or_ge j q with h'' | h''
    · have := sorted_strict hd hj hc h'' s2
      omega
    · have : j = q := by omega
      subst this
      rw [hc] at hj
      cases hj
      omega
  · subst h'
    rw [hn] at hj
    cases hj
    omega
  · have := sorted_strict hd hn hj h' (by omega)
    omega

/-- The type given to record `k` of the sorted block. -/
def obValue (l : List Rec) (k : Nat) : Int := (categoryObcold l k (before l k)).getD 0

open Classical in
/-- The type given to a record. -/
noncomputable def obKind (block : List Rec) (r : Rec) : Int :=
  if h : ∃ k, (sortBlock block)[k]? = some r then obValue (sortBlock block) h.choose else 0

theorem obKind_eq {block : List Rec} (hd : Distinct block) {k : Nat} {r : Rec} (hr : (sortBlock block)[k]? = some r) :
    obKind block r = obValue (sortBlock block) k := by
  have h : ∃ k, (sortBlock block)[k]? = some r := ⟨k, hr⟩
  unfold obKind
  rw [dif_pos h, sorted_index hd h.choose_spec hr]

theorem before_pos {l : List Rec} {k : Nat} {a r : Rec} (ha : l[k]? = some a) (hr : l[k + 1]? = some r)
    (h : before l (k + 1) ≠ 0) : r.pos = a.pos := by
  by_contra hp
  apply h
  unfold before
  simp only [ha, hr]
  rw [if_pos hp]

theorem before_iff {block : List Rec} (hd : Distinct block) : ∀ (k : Nat) (r : Rec), (sortBlock block)[k]? = some r →
    (before (sortBlock block) k = 1 ↔ ∃ c, LastBefore block c r ∧ obKind block c = 1) := by
  intro k
  induction k with
  | zero =>
    intro r hr
    constructor
    · intro h
      simp [before] at h
    · rintro ⟨c, ⟨h1, h2, _, h3, _⟩, _⟩
      obtain ⟨q, hq, _⟩ := earlier_index hd hr h1 h2 h3
      omega
  | succ k ih =>
    intro r hr
    have hlt : k < (sortBlock block).length := by
      have := (List.getElem?_eq_some_iff.mp hr).1
      omega
    obtain ⟨a, ha⟩ : ∃ a, (sortBlock block)[k]? = some a := ⟨_, List.getElem?_eq_getElem hlt⟩
    have ham : a ∈ block := sort_mem.mp (List.mem_of_getElem? ha)
    by_cases hp : r.pos = a.pos
    · have hlt' := sorted_strict hd ha hr (by omega) hp.symm
      by_cases hc : Confirmed a
      · have e : before (sortBlock block) (k + 1) = obKind block a := by
          rw [obKind_eq hd ha]
          conv_lhs => unfold before
          simp only [ha, hr]
          rw [if_neg (not_not.mpr hp), if_neg (by have h1 := hc.1; have h2 := hc.2; omega)]
          rfl
        rw [e]
        constructor
        · intro h
          refine ⟨a, ⟨ham, hp.symm, hc, hlt', ?_⟩, h⟩
          intro s s1 s2 s3 s4
          obtain ⟨q, hq, hs⟩ := earlier_index hd hr s1 s2 s4
          rcases Nat.lt_or_ge q k with h | h
          · have := sorted_strict hd hs ha h (by omega)
            omega
          · have : q = k := by omega
            subst this
            rw [ha] at hs
            cases hs
            omega
        · rintro ⟨c, ⟨h1, h2, h3, h4, h5⟩, h6⟩
          obtain ⟨q, hq, hs⟩ := earlier_index hd hr h1 h2 h4
          have := h5 a ham hp.symm hc hlt'
          rcases Nat.lt_or_ge q k with h | h
          · have := sorted_strict hd hs ha h (by omega)
            omega
          · have : q = k := by omega
            subst this
            rw [ha] at hs
            cases hs
            exact h6
      · have e : before (sortBlock block) (k + 1) = before (sortBlock block) k := by
          conv_lhs => unfold before
          simp only [ha, hr]
          rw [if_neg (not_not.mpr hp), if_pos]
          unfold Confirmed at hc
          omega
        rw [e, ih a ha]
        have key : ∀ s ∈ block, s.pos = r.pos → Confirmed s → (s.tStart < r.tStart ↔ s.tStart < a.tStart) := by
          intro s s1 s2 s3
          constructor
          · intro s4
            obtain ⟨q, hq, hs⟩ := earlier_index hd hr s1 s2 s4
            rcases Nat.lt_or_ge q k with h | h
            · exact sorted_strict hd hs ha h (by omega)
            · have : q = k := by omega
              subst this
              rw [ha] at hs
              cases hs
              exact absurd s3 hc
          · intro h
            omega
        constructor
        · rintro ⟨c, ⟨h1, h2, h3, h4, h5⟩, h6⟩
          exact ⟨c, ⟨h1, by omega, h3, by omega, fun s s1 s2 s3 s4 => h5 s s1 (by omega) s3 ((key s s1 s2 s3).mp s4)⟩, h6⟩
        · rintro ⟨c, ⟨h1, h2, h3, h4, h5⟩, h6⟩
          exact ⟨c, ⟨h1, by omega, h3, (key c h1 h2 h3).mp h4,
            fun s s1 s2 s3 s4 => h5 s s1 (by omega) s3 ((key s s1 (by omega) s3).mpr s4)⟩, h6⟩
    · constructor
      · intro h
        exact absurd (before_pos ha hr (by omega)) hp
      · rintro ⟨c, ⟨h1, h2, _, h3, _⟩, _⟩
        exfalso
        obtain ⟨q, hq, hs⟩ := earlier_index hd hr h1 h2 h3
        rcases Nat.lt_or_ge q k with h | h
        · have g1 := sorted_get hs ha h
          have g2 := sorted_get ha hr (by omega)
          omega
        · have : q = k := by omega
          subst this
          rw [ha] at hs
          cases hs
          omega

theorem obKind_kinds {block : List Rec} (hd : Distinct block) : ObKinds block (obKind block) := by
  intro r hr next hc hn
  obtain ⟨k, k1, k2, k3⟩ := next_index hd hr hn
  rw [obKind_eq hd k1]
  unfold obValue
  rw [categoryObcold_eq k1 k2, Option.getD_some]
  have e : ((∃ prev, 0 < k ∧ (sortBlock block)[k - 1]? = some prev ∧ Undoes r prev) ∧ before (sortBlock block) k = 1) ↔
      ((∃ prev ∈ block, Next block prev r ∧ Undoes r prev) ∧ (∃ c, LastBefore block c r ∧ obKind block c = 1)) := by
    rw [before_iff hd k r k1]
    constructor
    · rintro ⟨⟨prev, h1, h2, h3⟩, h4⟩
      refine ⟨?_, h4⟩
      have hb := (before_iff hd k r k1).mpr h4
      obtain ⟨k', rfl⟩ : ∃ k', k = k' + 1 := ⟨k - 1, by omega⟩
      rw [Nat.add_sub_cancel] at h2
      have hp := before_pos h2 k1 (by omega)
      refine ⟨prev, sort_mem.mp (List.mem_of_getElem? h2), ⟨hr, hp, sorted_strict hd h2 k1 (by omega) hp.symm, ?_⟩, h3⟩
      intro s s1 s2 s3
      obtain ⟨q, hq⟩ := List.mem_iff_getElem?.mp (sort_mem.mpr s1)
      rcases Nat.lt_trichotomy q (k' + 1) with h | h | h
      · exfalso
        rcases Nat.lt_or_ge q k' with h' | h'
        · have := sorted_strict hd hq h2 h' (by omega)
          omega
        · have : q = k' := by omega
          subst this
          rw [h2] at hq
          cases hq
          omega
      · subst h
        rw [k1] at hq
        cases hq
        omega
      · have := sorted_strict hd k1 hq h (by omega)
        omega
    · rintro ⟨⟨prev, h1, h2, h3⟩, h4⟩
      refine ⟨?_, h4⟩
      obtain ⟨q, q1, q2, _⟩ := next_index hd h1 h2
      have := sorted_index hd q2 k1
      subst this
      exact ⟨prev, by omega, by rw [Nat.add_sub_cancel]; exact q1, h3⟩
  by_cases hg : Greening 250 r
  · rw [if_pos hg, if_pos hg]
  · rw [if_neg hg, if_neg hg]
    by_cases hh : (∃ prev ∈ block, Next block prev r ∧ Undoes r prev) ∧ (∃ c, LastBefore block c r ∧ obKind block c = 1)
    · rw [if_pos hh, if_pos (e.mpr hh)]
    · rw [if_neg hh, if_neg fun h => hh (e.mp h)]

/-! ## Recent and first disturbance -/

theorem isDisturbance_iff (v : Int) : isDisturbance v = true ↔ Disturbed v := by
  unfold isDisturbance Disturbed
  rw [decide_eq_true_eq]
  rcases Int.le_total 0 v with h | h
  · rw [Int.tdiv_eq_ediv_of_nonneg h]; omega
  · obtain ⟨w, rfl⟩ : ∃ w, v = -w := ⟨-v, by omega⟩
    rw [Int.neg_tdiv, Int.tdiv_eq_ediv_of_nonneg (by omega)]
    omega

theorem overwrite_none {map : Int → Nat → Nat → Int} {r c : Nat} : ∀ (ys : List Int) (acc : Int),
    (∀ y ∈ ys, ¬ Disturbed (map y r c)) → overwrite map r c ys acc = acc
  | [], _, _ => rfl
  | y :: ys, acc, h => by
    rw [overwrite, if_neg fun hh => h y List.mem_cons_self ((isDisturbance_iff _).mp hh)]
    exact overwrite_none ys acc fun z hz => h z (List.mem_cons_of_mem _ hz)

theorem overwrite_append {map : Int → Nat → Nat → Int} {r c : Nat} : ∀ (ys zs : List Int) (acc : Int),
    overwrite map r c (ys ++ zs) acc = overwrite map r c zs (overwrite map r c ys acc)
  | [], _, _ => rfl
  | y :: ys, zs, acc => by
    rw [List.cons_append, overwrite, overwrite]
    exact overwrite_append ys zs _

theorem overwrite_last {map : Int → Nat → Nat → Int} {r c : Nat} (ys zs : List Int) (y acc : Int)
    (h : Disturbed (map y r c)) (hz : ∀ z ∈ zs, ¬ Disturbed (map z r c)) :
    overwrite map r c (ys ++ y :: zs) acc = y := by
  rw [overwrite_append, overwrite, if_pos ((isDisturbance_iff _).mpr h)]
  exact overwrite_none zs y hz

theorem mem_years {low upp y : Int} : y ∈ years low upp ↔ low ≤ y ∧ y ≤ upp := by
  unfold years
  simp only [List.mem_map, List.mem_range]
  constructor
  · rintro ⟨k, h, rfl⟩; omega
  · intro h; exact ⟨(y - low).toNat, by omega, by omega⟩

theorem years_sorted (low upp : Int) : (years low upp).Pairwise (· < ·) := by
  unfold years
  rw [List.pairwise_map]
  exact List.pairwise_lt_range.imp fun h => by omega

end Pycold.ChangeMap
