import Verif.Spec.Pack
/-!
# Proofs about saved packs and the export of S-CCD maps
-/
namespace Pycold.Pack
open Spec
variable {F : Type} {single : F → F}

theorem store_fits {k : Kind} {v : Num F} (h : Fits single k v) : store single k v = some v := by
  cases k <;> cases v <;> simp_all [Fits, store]

theorem mapM_fix {α : Type} {f : α → Option α} : ∀ {l : List α}, (∀ x ∈ l, f x = some x) → l.mapM f = some l
  | [], _ => rfl
  | x :: xs, h => by
    rw [List.mapM_cons, h x (by simp), mapM_fix (fun y hy => h y (by simp [hy]))]
    rfl

theorem storeCell_fits {f : Field} {c : Cell F} (h : c.shape = f.shape ∧ ∀ v ∈ c.data, Fits single f.kind v) :
    storeCell single f c = some c := by
  unfold storeCell
  rw [if_pos h.1, mapM_fix (fun v hv => store_fits (h.2 v hv))]
  rfl

theorem storeRow_fits {dt : List Field} {row : Row F}
    (h : List.Forall₂ (fun f c => c.shape = f.shape ∧ ∀ v ∈ c.data, Fits single f.kind v) dt row) :
    storeRow single dt row = some row := by
  induction h with
  | nil => rfl
  | cons h1 _ ih => simp [storeRow, storeCell_fits h1, ih]

theorem asarray_typed {dt : List Field} {rows : List (Row F)} (h : Typed single dt rows) :
    asarray single dt (.tuples rows) = some (.records dt rows) := by
  show (rows.mapM (storeRow single dt)).map (Item.records dt) = _
  rw [mapM_fix (f := storeRow single dt) (fun r hr => storeRow_fits (h r hr))]
  rfl

/-- A component saved and loaded. -/
theorem back {dt : List Field} {i : Item F} (h : i = .void ∨ ∃ rows, i = .records dt rows ∧ Typed single dt rows) :
    ∃ s, unindexItem i = some s ∧ indexItem single dt s = some i := by
  unfold unindexItem indexItem
  rcases h with rfl | ⟨rows, rfl, ht⟩
  · exact ⟨.void, rfl, rfl⟩
  · by_cases hr : rows.length > 0
    · refine ⟨.tuples rows, ?_, ?_⟩
      · rw [if_pos (show (Item.records dt rows).len > 0 from hr)]; rfl
      · rw [if_pos (show (Item.tuples rows).len > 0 from hr), asarray_typed ht]
    · refine ⟨.records dt rows, ?_, ?_⟩
      · rw [if_neg (show ¬ (Item.records dt rows).len > 0 from hr)]
      · rw [if_neg (show ¬ (Item.records dt rows).len > 0 from hr)]

theorem back_recs {dt : List Field} {i : Item F}
    (h : i = .void ∨ ∃ rows, rows ≠ [] ∧ i = .records dt rows ∧ Typed single dt rows) :
    ∃ s, tolist i = some s ∧ indexRecs single dt s = some i := by
  unfold indexRecs
  rcases h with rfl | ⟨rows, hne, rfl, ht⟩
  · exact ⟨.tuples [], rfl, rfl⟩
  · refine ⟨.tuples rows, rfl, ?_⟩
    rw [if_neg (show ¬ (Item.tuples rows).len = 0 by
      intro h; exact hne (List.length_eq_zero_iff.mp h)), asarray_typed ht]

theorem storeRow_length {dt : List Field} : ∀ {row row' : Row F}, storeRow single dt row = some row' → row.length = dt.length := by
  induction dt with
  | nil =>
    intro row row' h
    cases row with
    | nil => rfl
    | cons c cs => simp [storeRow] at h
  | cons f fs ih =>
    intro row row' h
    cases row with
    | nil => simp [storeRow] at h
    | cons c cs =>
      simp only [storeRow, bind, Option.bind] at h
      split at h
      · simp at h
      · dsimp only at h
        split at h
        · simp at h
        · rename_i h2
          simp [ih h2]

/-- The record type of the export does not take a model. -/
theorem export_model {row : Row F} (h : Typed single nrtmodel_dt [row]) :
    asarray single output_nrtmodel (.tuples [row]) = none := by
  have hl : row.length = 11 := by
    have := (h row (by simp)).length_eq
    rw [← this]; rfl
  unfold asarray
  cases hs : storeRow single output_nrtmodel row with
  | some r' =>
    have := storeRow_length hs
    rw [hl] at this
    exact absurd this (by decide)
  | none => simp [hs]

theorem mapM_pick {α β : Type} {f : α → Option β} : ∀ {l : List α}, (∀ x ∈ l, (f x).isSome) →
    ∃ l', l.mapM f = some l' ∧ l' = l.filterMap f
  | [], _ => ⟨[], rfl, rfl⟩
  | x :: xs, h => by
    obtain ⟨l', h1, h2⟩ := mapM_pick (l := xs) (fun y hy => h y (by simp [hy]))
    obtain ⟨y, hy⟩ := Option.isSome_iff_exists.mp (h x (by simp))
    exact ⟨y :: l', by rw [List.mapM_cons, hy, h1]; rfl, by simp [hy, h2]⟩

theorem mapM_none {α β : Type} {f : α → Option β} : ∀ {l : List α} {x : α}, x ∈ l → f x = none → l.mapM f = none
  | y :: ys, x, hx, hf => by
    rw [List.mapM_cons]
    rcases List.mem_cons.mp hx with rfl | hx
    · rw [hf]; rfl
    · cases f y with
      | none => rfl
      | some z => rw [mapM_none hx hf]; rfl

section
variable {M : Type} (fill : Nat → List (Pack F) → Option (Int → M)) (empty : M) (J : Job F)

/-- What the blocks in `l` leave on disk. -/
theorem blocks_disk : ∀ (l : List Nat) (D D' : Disk M), l.foldlM (block single fill empty J) D = some D' →
    D'.breaks = D.breaks ∧ D'.tmpCoef = D.tmpCoef ∧
    ∀ b y, D'.tmp b y = if b ∈ l ∧ J.file b = none ∧ J.low ≤ y ∧ y ≤ J.upp then some empty else D.tmp b y
  | [], D, D', h => by
    have : D = D' := Option.some.inj h
    subst this
    exact ⟨rfl, rfl, fun b y => by simp⟩
  | c :: cs, D, D', h => by
    rw [List.foldlM_cons] at h
    cases hb : block single fill empty J D c with
    | none => rw [hb] at h; simp at h
    | some D1 =>
      rw [hb] at h
      obtain ⟨h1, h2, h3⟩ := blocks_disk cs D1 D' h
      unfold block at hb
      cases hf : J.file c with
      | none =>
        rw [hf] at hb
        have hb := (Option.some.inj hb).symm
        refine ⟨by rw [h1, hb], by rw [h2, hb], fun b y => ?_⟩
        rw [h3, hb]
        dsimp only
        by_cases hbc : b = c
        · subst hbc
          simp only [hf, List.mem_cons, true_or, true_and]
          by_cases hy : J.low ≤ y ∧ y ≤ J.upp
          · simp [hy]
          · simp [hy]
        · simp [hbc]
      | some saved =>
        rw [hf] at hb
        simp only [bind, Option.bind] at hb
        have hD : D1 = D := by
          split at hb
          · simp at hb
          · dsimp only at hb
            split at hb
            · simp at hb
            · exact (Option.some.inj hb).symm
        refine ⟨by rw [h1, hD], by rw [h2, hD], fun b y => ?_⟩
        rw [h3, hD]
        by_cases hbc : b = c
        · subst hbc; simp [hf]
        · simp [hbc]

/-- A block that raises. -/
theorem blocks_raise : ∀ (l : List Nat) (D : Disk M) (b : Nat), b ∈ l →
    (∀ D : Disk M, block single fill empty J D b = none) → l.foldlM (block single fill empty J) D = none
  | c :: cs, D, b, hb, h => by
    rw [List.foldlM_cons]
    rcases List.mem_cons.mp hb with rfl | hb
    · rw [h]; rfl
    · cases block single fill empty J D c with
      | none => rfl
      | some D1 => exact blocks_raise cs D1 b hb h

theorem blocks_missing : ∀ (l : List Nat) (D : Disk M), (∀ b ∈ l, J.file b = none) →
    ∃ D', l.foldlM (block single fill empty J) D = some D'
  | [], D, _ => ⟨D, rfl⟩
  | c :: cs, D, h => by
    rw [List.foldlM_cons]
    unfold block
    rw [h c (by simp)]
    exact blocks_missing cs _ (fun b hb => h b (by simp [hb]))

end

theorem mem_years {low upp y : Int} : y ∈ years low upp ↔ low ≤ y ∧ y ≤ upp := by
  unfold years
  simp only [List.mem_map, List.mem_range]
  constructor
  · rintro ⟨k, hk, rfl⟩; omega
  · intro h; exact ⟨(y - low).toNat, by omega, by omega⟩

theorem years_cons {low upp : Int} (h : low ≤ upp) : ∃ ys, years low upp = low :: ys := by
  unfold years
  obtain ⟨n, hn⟩ : ∃ n, (upp + 1 - low).toNat = n + 1 := ⟨(upp - low).toNat, by omega⟩
  rw [hn, List.range_succ_eq_map]
  exact ⟨_, by rw [List.map_cons, show low + ((0 : Nat) : Int) = low by omega]⟩

theorem years_nodup (low upp : Int) : (years low upp).Nodup := by
  unfold years
  refine List.Pairwise.map _ ?_ List.nodup_range
  intro a b h e
  exact h (by omega)

/-- All years of which every block is there are assembled. -/
theorem assemble_all {M : Type} (n : Nat) : ∀ (ys : List Int) (D : Disk M) (m : Nat → Int → M), ys.Nodup →
    (∀ y ∈ ys, ∀ b < n, D.tmp b y = some (m b y)) →
    ∃ D', assembleYears n ys D = (D', false) ∧ D'.tmpCoef = D.tmpCoef ∧
      ∀ y, D'.breaks y = if y ∈ ys then some ((List.range n).map fun b => m b y) else D.breaks y
  | [], D, m, _, _ => ⟨D, rfl, rfl, fun y => by simp⟩
  | y :: ys, D, m, hnd, h => by
    have h1 : (List.range n).mapM (fun b => D.tmp b y) = some ((List.range n).map fun b => m b y) := by
      have : ∀ l : List Nat, (∀ b ∈ l, b < n) → l.mapM (fun b => D.tmp b y) = some (l.map fun b => m b y) := by
        intro l
        induction l with
        | nil => intro _; rfl
        | cons b bs ih =>
          intro hl
          rw [List.mapM_cons, h y (by simp) b (hl b (by simp)), ih (fun x hx => hl x (by simp [hx]))]
          rfl
      exact this _ (fun b hb => List.mem_range.mp hb)
    have hnd' := List.nodup_cons.mp hnd
    obtain ⟨D', e, ec, hb⟩ := assemble_all n ys
      { D with tmp := fun b y' => if b < n ∧ y' = y then none else D.tmp b y',
               breaks := fun y' => if y' = y then some ((List.range n).map fun b => m b y) else D.breaks y' } m hnd'.2 (by
        intro y' hy' b hb
        have : y' ≠ y := by rintro rfl; exact hnd'.1 hy'
        simp [this, h y' (by simp [hy']) b hb])
    refine ⟨D', ?_, ec, ?_⟩
    · rw [assembleYears]
      unfold assembleYear
      rw [h1]
      exact e
    · intro y'
      rw [hb]
      by_cases hy : y' ∈ ys
      · simp [hy]
      · by_cases hyy : y' = y
        · subst hyy; simp [hy]
        · simp [hy, hyy]

theorem assemble_coef {M : Type} (n : Nat) : ∀ ys (D : Disk M), (assembleYears n ys D).1.tmpCoef = D.tmpCoef := by
  intro ys
  induction ys with
  | nil => intro D; rfl
  | cons y ys ih =>
    intro D
    rw [assembleYears]
    cases hA : assembleYear n y D with
    | none => rfl
    | some D' =>
      dsimp only
      rw [ih]
      unfold assembleYear at hA
      simp only [bind, Option.bind] at hA
      split at hA
      · simp at hA
      · rw [← Option.some.inj hA]

theorem coefYears_all {M : Type} (n : Nat) (D : Disk M) : ∀ ys, (∀ y ∈ ys, ∀ b < n, (D.tmpCoef b y).isSome) → coefYears n D ys = true
  | [], _ => rfl
  | y :: ys, h => by
    rw [coefYears, coefYears_all n D ys (fun z hz => h z (by simp [hz])), Bool.and_true]
    obtain ⟨l', e, _⟩ := mapM_pick (f := fun b => D.tmpCoef b y) (l := List.range n)
      (fun b hb => h y (by simp) b (List.mem_range.mp hb))
    rw [e]; rfl

theorem coefYears_missing {M : Type} (n : Nat) (D : Disk M) : ∀ ys y b, y ∈ ys → b < n → D.tmpCoef b y = none →
    coefYears n D ys = false
  | z :: ys, y, b, hy, hb, h => by
    rw [coefYears]
    rcases List.mem_cons.mp hy with rfl | hy
    · rw [mapM_none (List.mem_range.mpr hb) h]; rfl
    · rw [coefYears_missing n D ys y b hy hb h, Bool.and_false]

section
variable {α M : Type} (fill : Nat → α → Option (Int → M)) (coefMap : Nat → α → Int → M) (empty : M) (J : JobCold α)

/-- What the blocks of COLD leave on disk, if the maps of every record file can be filled. -/
theorem blocksCold_disk (maps : Nat → Int → M) (hmaps : ∀ b a, J.file b = some a → fill b a = some (maps b)) :
    ∀ (l : List Nat) (D : Disk M), ∃ D', l.foldlM (blockCold fill coefMap empty J) D = some D' ∧ D'.breaks = D.breaks ∧
      (∀ b y, D'.tmp b y = if b ∈ l ∧ J.low ≤ y ∧ y ≤ J.upp then some (if J.file b = none then empty else maps b y)
        else D.tmp b y) ∧
      (∀ b y, (D'.tmpCoef b y).isSome = ((decide (J.coefs = true ∧ b ∈ l ∧ J.low ≤ y ∧ y ≤ J.upp) && (J.file b).isSome) || (D.tmpCoef b y).isSome))
  | [], D => ⟨D, rfl, rfl, fun b y => by simp, fun b y => by simp⟩
  | c :: cs, D => by
    rw [List.foldlM_cons]
    cases hf : J.file c with
    | none =>
      obtain ⟨D', h1, h2, h3, h4⟩ := blocksCold_disk maps hmaps cs
        { D with tmp := fun b' y => if b' = c ∧ J.low ≤ y ∧ y ≤ J.upp then some empty else D.tmp b' y }
      have hb : blockCold fill coefMap empty J D c =
          some { D with tmp := fun b' y => if b' = c ∧ J.low ≤ y ∧ y ≤ J.upp then some empty else D.tmp b' y } := by
        unfold blockCold; rw [hf]
      rw [hb]
      refine ⟨D', h1, h2, fun b y => ?_, fun b y => ?_⟩
      · rw [h3]
        by_cases hbc : b = c
        · subst hbc
          by_cases hy : J.low ≤ y ∧ y ≤ J.upp
          · simp [hy, hf]
          · simp [hy]
        · simp [hbc]
      · rw [h4]
        by_cases hbc : b = c
        · subst hbc; simp [hf]
        · simp [hbc]
    | some a =>
      have hb : blockCold fill coefMap empty J D c =
          some { D with
            tmp := fun b' y => if b' = c ∧ J.low ≤ y ∧ y ≤ J.upp then some (maps c y) else D.tmp b' y
            tmpCoef := fun b' y => if J.coefs = true ∧ b' = c ∧ J.low ≤ y ∧ y ≤ J.upp then some (coefMap c a y) else D.tmpCoef b' y } := by
        unfold blockCold; rw [hf]
        simp [hmaps c a hf]
      obtain ⟨D', h1, h2, h3, h4⟩ := blocksCold_disk maps hmaps cs
        { D with
            tmp := fun b' y => if b' = c ∧ J.low ≤ y ∧ y ≤ J.upp then some (maps c y) else D.tmp b' y
            tmpCoef := fun b' y => if J.coefs = true ∧ b' = c ∧ J.low ≤ y ∧ y ≤ J.upp then some (coefMap c a y) else D.tmpCoef b' y }
      rw [hb]
      refine ⟨D', h1, h2, fun b y => ?_, fun b y => ?_⟩
      · rw [h3]
        by_cases hbc : b = c
        · subst hbc
          by_cases hy : J.low ≤ y ∧ y ≤ J.upp
          · simp [hy, hf]
          · simp [hy]
        · simp [hbc]
      · rw [h4]
        by_cases hbc : b = c
        · subst hbc
          by_cases hy : J.coefs = true ∧ J.low ≤ y ∧ y ≤ J.upp
          · simp [hy, hf]
          · simp only [hf, Option.isSome_some, Bool.and_true, List.mem_cons, true_or, true_and]
            rw [if_neg hy]
            simp only [hy, decide_false, Bool.false_or]
            have : ¬ (J.coefs = true ∧ b ∈ cs ∧ J.low ≤ y ∧ y ≤ J.upp) := fun h => hy ⟨h.1, h.2.2⟩
            simp [this]
        · simp [hbc]

end

end Pycold.Pack
