import Verif.Spec.Validation
import Mathlib.Tactic.Linarith
import Mathlib.Tactic.NormNum
import Mathlib.Tactic.Push
/-!
# Validation: auxiliary lemmas
-/
namespace Pycold.Validation

open Spec

theorem flt_nan (x : Fl) : flt x .nan = false := by cases x <;> rfl

/-- For a finite number, `__contains__` is membership. -/
theorem contains_fin (I : Interval) (v : PyVal) (x : ℚ) (hn : isnan v = .ok false) (hv : num v = .fin x) :
    I.contains v = .ok true ↔ Inside I x := by
  obtain ⟨ty, l, r, c⟩ := I
  unfold Interval.contains Inside
  rw [hn, hv]
  cases l <;> cases r <;> cases c <;>
    simp [bind, Except.bind, flt, fle] <;> (try (split_ifs <;> simp_all)) <;> (try constructor) <;> (try intros) <;>
    (try simp_all) <;> (try linarith)

theorem contains_nan (I : Interval) (v : PyVal) (hn : isnan v = .ok true) : I.contains v = .ok false := by
  unfold Interval.contains
  rw [hn]
  rfl

theorem sat_eq (I : Interval) (v : PyVal) : (Constraint.interval I).satisfied v =
    if isInstance I.type v then I.contains v else .ok false := by
  cases v <;> rfl

theorem isnan_int (n : Int) (h : -2 ^ 63 ≤ n ∧ n < 2 ^ 64) : isnan (.int n) = .ok false := by
  simp only [isnan, if_pos h]

theorem sat_real (I : Interval) (hI : I.type = .real) (hl : I.closed = .neither ∨ I.left ≠ none ∧ I.closed = .left)
    (v : PyVal) : (Constraint.interval I).satisfied v = .ok true ↔ ∃ x, IsReal v x ∧ Inside I x := by
  rw [sat_eq, hI]
  cases v with
  | int n =>
    simp only [isInstance, if_true]
    by_cases h : -2 ^ 63 ≤ n ∧ n < 2 ^ 64
    · rw [contains_fin I _ n (isnan_int n h) rfl]
      constructor
      · intro hi; exact ⟨n, .inr ⟨n, .inl rfl, rfl, h⟩, hi⟩
      · rintro ⟨x, h1 | ⟨m, h1 | ⟨b, h1, _⟩, rfl, _⟩, hi⟩
        · cases h1
        · cases h1; exact hi
        · cases h1
    · constructor
      · intro h'
        unfold Interval.contains at h'
        simp only [isnan, if_neg h] at h'
        cases h'
      · rintro ⟨x, h1 | ⟨m, h1 | ⟨b, h1, _⟩, rfl, h2⟩, hi⟩
        · cases h1
        · cases h1; exact absurd h2 h
        · cases h1
  | bool b =>
    simp only [isInstance, if_true]
    rw [contains_fin I _ (if b then 1 else 0) rfl rfl]
    constructor
    · intro hi
      refine ⟨_, .inr ⟨if b then 1 else 0, .inr ⟨b, rfl, rfl⟩, ?_, ?_⟩, hi⟩
      · cases b <;> simp
      · cases b <;> simp
    · rintro ⟨x, h1 | ⟨m, h1 | ⟨b', h1, rfl⟩, rfl, _⟩, hi⟩
      · cases h1
      · cases h1
      · cases h1; cases b <;> simpa using hi
  | npBool b =>
    simp only [isInstance]
    constructor
    · intro h; cases h
    · rintro ⟨x, h1 | ⟨m, h1 | ⟨b', h1, rfl⟩, rfl, _⟩, hi⟩ <;> cases h1
  | float f =>
    simp only [isInstance, if_true]
    cases f with
    | fin q =>
      rw [contains_fin I _ q rfl rfl]
      constructor
      · intro hi; exact ⟨q, .inl rfl, hi⟩
      · rintro ⟨x, h1 | ⟨m, h1 | ⟨b', h1, rfl⟩, rfl, _⟩, hi⟩
        · cases h1; exact hi
        · cases h1
        · cases h1
    | nan =>
      rw [contains_nan I _ rfl]
      constructor
      · intro h; cases h
      · rintro ⟨x, h1 | ⟨m, h1 | ⟨b', h1, rfl⟩, rfl, _⟩, hi⟩ <;> cases h1
    | pinf =>
      have : I.contains (.float .pinf) ≠ .ok true := by
        obtain ⟨ty, l, r, c⟩ := I
        unfold Interval.contains
        rcases hl with h | ⟨_, h⟩ <;> simp only at h <;> subst h <;> cases l <;> cases r <;>
          simp [isnan, num, flt, fle, bind, Except.bind]
      constructor
      · intro h; exact absurd h this
      · rintro ⟨x, h1 | ⟨m, h1 | ⟨b', h1, rfl⟩, rfl, _⟩, hi⟩ <;> cases h1
    | ninf =>
      have : I.contains (.float .ninf) ≠ .ok true := by
        obtain ⟨ty, l, r, c⟩ := I
        unfold Interval.contains
        rcases hl with h | ⟨h', h⟩ <;> simp only at h <;> subst h <;> cases l <;> cases r <;>
          simp [isnan, num, flt, fle, bind, Except.bind] at *
      constructor
      · intro h; exact absurd h this
      · rintro ⟨x, h1 | ⟨m, h1 | ⟨b', h1, rfl⟩, rfl, _⟩, hi⟩ <;> cases h1
  | other t =>
    simp only [isInstance]
    constructor
    · intro h; cases h
    · rintro ⟨x, h1 | ⟨m, h1 | ⟨b', h1, rfl⟩, rfl, _⟩, hi⟩ <;> cases h1

theorem sat_int (I : Interval) (hI : I.type = .integral) (v : PyVal) :
    (Constraint.interval I).satisfied v = .ok true ↔
      ∃ n : Int, IsInt v n ∧ Inside I n ∧ -2 ^ 63 ≤ n ∧ n < 2 ^ 64 := by
  rw [sat_eq, hI]
  cases v with
  | int n =>
    simp only [isInstance, if_true]
    by_cases h : -2 ^ 63 ≤ n ∧ n < 2 ^ 64
    · rw [contains_fin I _ n (isnan_int n h) rfl]
      constructor
      · intro hi; exact ⟨n, .inl rfl, hi, h⟩
      · rintro ⟨m, h1 | ⟨b, h1, _⟩, hi, _⟩
        · cases h1; exact hi
        · cases h1
    · constructor
      · intro h'
        unfold Interval.contains at h'
        simp only [isnan, if_neg h] at h'
        cases h'
      · rintro ⟨m, h1 | ⟨b, h1, _⟩, hi, h2⟩
        · cases h1; exact absurd h2 h
        · cases h1
  | bool b =>
    simp only [isInstance, if_true]
    rw [contains_fin I _ (if b then 1 else 0) rfl rfl]
    constructor
    · intro hi
      refine ⟨if b then 1 else 0, .inr ⟨b, rfl, rfl⟩, ?_, ?_⟩
      · cases b <;> simpa using hi
      · cases b <;> simp
    · rintro ⟨m, h1 | ⟨b', h1, rfl⟩, hi, _⟩
      · cases h1
      · cases h1; cases b <;> simpa using hi
  | npBool b =>
    simp only [isInstance]
    constructor
    · intro h; cases h
    · rintro ⟨m, h1 | ⟨b', h1, rfl⟩, hi, _⟩ <;> cases h1
  | float f =>
    simp only [isInstance]
    constructor
    · intro h; cases h
    · rintro ⟨m, h1 | ⟨b', h1, rfl⟩, hi, _⟩ <;> cases h1
  | other t =>
    simp only [isInstance]
    constructor
    · intro h; cases h
    · rintro ⟨m, h1 | ⟨b', h1, rfl⟩, hi, _⟩ <;> cases h1

theorem sat_bool (v : PyVal) : Constraint.boolean.satisfied v = .ok true ↔ ∃ b, IsSwitch v b := by
  cases v <;> simp [Constraint.satisfied, isInstance, IsSwitch]

theorem any_one (v : PyVal) (c : Constraint) : anySatisfied v [c] = .ok true ↔ c.satisfied v = .ok true := by
  unfold anySatisfied
  cases h : c.satisfied v with
  | error e => simp [bind, Except.bind]
  | ok b => cases b <;> simp [bind, Except.bind, anySatisfied]

theorem bind_ok {α β : Type} {x : Except Exc α} {f : α → Except Exc β} {r : β} :
    (x >>= f) = .ok r ↔ ∃ a, x = .ok a ∧ f a = .ok r := by
  cases x with
  | error e => simp [bind, Except.bind]
  | ok a => simp [bind, Except.bind]

/-- A parameter with a constraint. -/
theorem validate_cons {name : String} {c : Constraint} (h : table.lookup name = some [c]) (v : PyVal)
    (rest : List (String × PyVal)) :
    validate ((name, v) :: rest) = .ok () ↔ c.satisfied v = .ok true ∧ validate rest = .ok () := by
  rw [validate, h]
  simp only [bind_ok]
  rw [← any_one]
  constructor
  · rintro ⟨b, h1, h2⟩
    cases b with
    | true => exact ⟨h1, h2⟩
    | false => cases h2
  · rintro ⟨h1, h2⟩
    exact ⟨true, h1, h2⟩

/-- One without. -/
theorem validate_skip {name : String} (h : table.lookup name = none) (v : PyVal) (rest : List (String × PyVal)) :
    validate ((name, v) :: rest) = .ok () ↔ validate rest = .ok () := by
  rw [validate, h]

theorem check1d_ok (a : Arr) : check1d a = .ok () ↔ ∃ n, a = .nd [n] := by
  cases a with
  | missing => simp [check1d]
  | seq n => simp [check1d]
  | nd s =>
    match s with
    | [] => simp [check1d]
    | [n] => simp [check1d]
    | _ :: _ :: _ => simp [check1d]

theorem asVector_ok (a : Arr) (n : Nat) : asVector a = .ok n ↔ a = .nd [n] := by
  cases a with
  | missing => simp [asVector]
  | seq n => simp [asVector]
  | nd s =>
    match s with
    | [] => simp [asVector]
    | [m] => simp [asVector]
    | _ :: _ :: _ => simp [asVector]

theorem asVectors_ok (d : Data) (n : Nat) : asVectors d = .ok n ↔
    (∃ m, d.dates = .nd [m]) ∧ (∃ m, d.tsB = .nd [m]) ∧ (∃ m, d.tsG = .nd [m]) ∧ (∃ m, d.tsR = .nd [m]) ∧
    (∃ m, d.tsN = .nd [m]) ∧ (∃ m, d.tsS1 = .nd [m]) ∧ (∃ m, d.tsS2 = .nd [m]) ∧ (∃ m, d.tsT = .nd [m]) ∧
    d.qas = .nd [n] := by
  unfold asVectors
  simp only [bind_ok, asVector_ok, exists_and_left, exists_and_right]

/-- Data accepted by both stages. -/
theorem data_ok (d : Data) (n : Nat) : (validateData d none = .ok () ∧ asVectors d = .ok n) ↔ Vectors d n := by
  constructor
  · rintro ⟨h1, h2⟩
    obtain ⟨⟨m1, e1⟩, ⟨m2, e2⟩, ⟨m3, e3⟩, ⟨m4, e4⟩, ⟨m5, e5⟩, ⟨m6, e6⟩, ⟨m7, e7⟩, ⟨m8, e8⟩, e9⟩ := (asVectors_ok d n).mp h2
    unfold validateData at h1
    simp only [bind_ok] at h1
    obtain ⟨_, hc, _⟩ := h1
    rw [e1, e2, e3, e4, e5, e6, e7, e8, e9] at hc
    unfold consistent at hc
    simp only [ne_eq, reduceCtorEq, not_false_eq_true, decide_true, List.filter_cons_of_pos, List.filter_nil,
      List.mapM_cons, List.mapM_nil, numSamples, bind, Except.bind, pure, Except.pure] at hc
    have hl : ([m1, m2, m3, m4, m5, m6, m7, m8, n].dedup).length ≤ 1 := by
      by_contra hh
      rw [if_pos (by omega)] at hc
      cases hc
    have key : ∀ a ∈ [m1, m2, m3, m4, m5, m6, m7, m8, n], a = n := by
      intro a ha
      have h1 := List.mem_dedup.mpr ha
      have h2 : n ∈ [m1, m2, m3, m4, m5, m6, m7, m8, n].dedup := List.mem_dedup.mpr (by simp)
      generalize [m1, m2, m3, m4, m5, m6, m7, m8, n].dedup = l at *
      match l, hl with
      | [], _ => simp at h1
      | [x], _ => simp at h1 h2; omega
    refine ⟨?_, ?_, ?_, ?_, ?_, ?_, ?_, ?_, e9⟩
    · rw [e1, key m1 (by simp)]
    · rw [e2, key m2 (by simp)]
    · rw [e3, key m3 (by simp)]
    · rw [e4, key m4 (by simp)]
    · rw [e5, key m5 (by simp)]
    · rw [e6, key m6 (by simp)]
    · rw [e7, key m7 (by simp)]
    · rw [e8, key m8 (by simp)]
  · rintro ⟨e1, e2, e3, e4, e5, e6, e7, e8, e9⟩
    refine ⟨?_, (asVectors_ok d n).mpr ⟨⟨n, e1⟩, ⟨n, e2⟩, ⟨n, e3⟩, ⟨n, e4⟩, ⟨n, e5⟩, ⟨n, e6⟩, ⟨n, e7⟩, ⟨n, e8⟩, e9⟩⟩
    unfold validateData
    rw [e1, e2, e3, e4, e5, e6, e7, e8, e9]
    simp [consistent, check1d, astype, numSamples, bind, Except.bind, pure, Except.pure, List.dedup_cons_of_mem]

end Pycold.Validation
