import Verif.Spec.Obia
import Mathlib.Tactic.Linarith
import Mathlib.Tactic.Ring
import Mathlib.Tactic.NormNum
import Mathlib.Data.List.Dedup
/-!
# Object-based analysis
-/
namespace Pycold.Obia

open Spec

theorem mem_pixels {rows cols : Nat} {p : Pixel} : p ∈ pixels rows cols ↔ Inside rows cols p := by
  unfold pixels Inside
  obtain ⟨a, b⟩ := p
  simp [List.pair_mem_product]

theorem pixels_nodup (rows cols : Nat) : (pixels rows cols).Nodup :=
  List.Nodup.product List.nodup_range List.nodup_range

theorem near_iff (p q : Pixel) : near p q = true ↔ Neighbour p q := by simp [near, Neighbour]

theorem neighbour_symm {p q : Pixel} (h : Neighbour p q) : Neighbour q p := ⟨h.2.1, h.1, h.2.2.2, h.2.2.1⟩

/-! ## Seeds -/

instance (g : Pixel → ℚ) : Std.Total fun a b : Pixel => g b ≤ g a := ⟨fun a b => le_total _ _⟩
instance (g : Pixel → ℚ) : IsTrans Pixel fun a b : Pixel => g b ≤ g a := ⟨fun _ _ _ h1 h2 => le_trans h2 h1⟩

theorem seeds_spec (rows cols : Nat) (g : Pixel → ℚ) (peak : ℚ) : SeedList rows cols g peak (seeds rows cols g peak) := by
  have hp := List.perm_insertionSort (fun a b : Pixel => g b ≤ g a) ((pixels rows cols).filter fun p => decide (peak < g p))
  refine ⟨?_, ?_, ?_⟩
  · exact hp.nodup_iff.mpr ((pixels_nodup rows cols).filter _)
  · intro p
    unfold seeds
    rw [hp.mem_iff, List.mem_filter, mem_pixels]
    simp
  · exact List.pairwise_insertionSort (fun a b : Pixel => g b ≤ g a) _

/-! ## One fill -/

section Fill
variable {all : List Pixel} {allowed : Pixel → Bool}

theorem mem_grow {s : List Pixel} {p : Pixel} : p ∈ grow all allowed s ↔
    p ∈ s ∨ (p ∈ all ∧ p ∉ s ∧ allowed p = true ∧ ∃ q ∈ s, Neighbour q p) := by
  unfold grow
  simp only [List.mem_append, List.mem_filter, Bool.and_eq_true, Bool.not_eq_true', List.any_eq_true, near_iff]
  simp only [List.contains_iff_mem, ← Bool.not_eq_true]

theorem grow_closed {s : List Pixel} (h : grow all allowed s = s) :
    ∀ q ∈ s, ∀ p ∈ all, allowed p = true → Neighbour q p → p ∈ s := by
  intro q hq p hp ha hn
  by_cases hs : p ∈ s
  · exact hs
  · have : p ∈ grow all allowed s := mem_grow.mpr (Or.inr ⟨hp, hs, ha, q, hq, hn⟩)
    rwa [h] at this

theorem grow_nodup {s : List Pixel} (hall : all.Nodup) (hs : s.Nodup) : (grow all allowed s).Nodup := by
  unfold grow
  refine List.Nodup.append hs (hall.filter _) ?_
  intro p h1 h2
  rw [List.mem_filter] at h2
  have := h2.2
  simp only [Bool.and_eq_true, Bool.not_eq_true', ← Bool.not_eq_true, List.contains_iff_mem] at this
  exact this.1 h1

theorem grow_length (s : List Pixel) : s.length ≤ (grow all allowed s).length := by
  unfold grow; rw [List.length_append]; omega

theorem grow_eq_of_length {s : List Pixel} (h : (grow all allowed s).length = s.length) : grow all allowed s = s := by
  unfold grow at *
  rw [List.length_append] at h
  have : (all.filter fun p => !s.contains p && (allowed p && s.any fun q => near q p)) = [] :=
    List.length_eq_zero_iff.mp (by omega)
  rw [this, List.append_nil]

theorem rounds_fix {s : List Pixel} (h : grow all allowed s = s) : ∀ n, rounds all allowed n s = s
  | 0 => rfl
  | n + 1 => by rw [rounds, h, rounds_fix h n]

theorem rounds_sub : ∀ (n : Nat) {s : List Pixel} {p : Pixel}, p ∈ s → p ∈ rounds all allowed n s
  | 0, _, _, h => h
  | n + 1, _, _, h => rounds_sub n (mem_grow.mpr (Or.inl h))

/-- Enough rounds end in a list that does not grow. -/
theorem rounds_closed (hall : all.Nodup) : ∀ (n : Nat) {s : List Pixel}, s.Nodup → (∀ p ∈ s, p ∈ all) →
    all.length ≤ n + s.length → grow all allowed (rounds all allowed n s) = rounds all allowed n s
  | 0, s, hs, hsub, hn => by
    rw [rounds]
    have h1 : (grow all allowed s).length ≤ all.length := by
      refine (List.subperm_of_subset (grow_nodup hall hs) ?_).length_le
      intro p hp
      rcases mem_grow.mp hp with h | h
      · exact hsub p h
      · exact h.1
    have := grow_length (all := all) (allowed := allowed) s
    exact grow_eq_of_length (by omega)
  | n + 1, s, hs, hsub, hn => by
    rw [rounds]
    have hlen := grow_length (all := all) (allowed := allowed) s
    rcases Nat.eq_or_lt_of_le hlen with h | h
    · have h' := grow_eq_of_length h.symm
      rw [h', rounds_fix h', h']
    · refine rounds_closed hall n (grow_nodup hall hs) ?_ (by omega)
      intro p hp
      rcases mem_grow.mp hp with h | h
      · exact hsub p h
      · exact h.1

theorem rounds_sound {seed : Pixel} : ∀ (n : Nat) {s : List Pixel},
    (∀ p ∈ s, Joined (fun p => p ∈ all ∧ allowed p = true) seed p) →
    ∀ p ∈ rounds all allowed n s, Joined (fun p => p ∈ all ∧ allowed p = true) seed p
  | 0, _, h => h
  | n + 1, s, h => by
    rw [rounds]
    refine rounds_sound n ?_
    intro p hp
    rcases mem_grow.mp hp with hp | ⟨h1, _, h3, q, hq, hn⟩
    · exact h p hp
    · exact .step (h q hq) hn ⟨h1, h3⟩

theorem mem_rounds (hall : all.Nodup) {seed : Pixel} (hs : seed ∈ all) (ha : allowed seed = true) (p : Pixel) :
    p ∈ rounds all allowed all.length [seed] ↔ Joined (fun p => p ∈ all ∧ allowed p = true) seed p := by
  constructor
  · refine rounds_sound _ ?_ p
    intro q hq
    rw [List.mem_singleton] at hq
    subst hq
    exact .seed ⟨hs, ha⟩
  · intro h
    have hc := rounds_closed (all := all) (allowed := allowed) hall all.length (s := [seed]) (List.nodup_singleton _)
      (by intro q hq; rw [List.mem_singleton] at hq; subst hq; exact hs) (by simp)
    induction h with
    | seed _ => exact rounds_sub _ (List.mem_singleton.mpr rfl)
    | step _ hn hf ih => exact grow_closed hc _ ih _ hf.1 hf.2 hn

end Fill

theorem joined_free {free : Pixel → Prop} {seed p : Pixel} (h : Joined free seed p) : free p := by
  cases h <;> assumption

theorem joined_seed_free {free : Pixel → Prop} {seed p : Pixel} (h : Joined free seed p) : free seed := by
  induction h with
  | seed h => exact h
  | step _ _ _ ih => exact ih

theorem joined_congr {f1 f2 : Pixel → Prop} (h : ∀ p, f1 p ↔ f2 p) (seed p : Pixel) : Joined f1 seed p ↔ Joined f2 seed p := by
  have : f1 = f2 := funext fun p => propext (h p)
  rw [this]

theorem floodFill_spec {all : List Pixel} (hall : all.Nodup) {ok : Pixel → Bool} {seed : Pixel} (hs : seed ∈ all)
    (hok : ok seed = true) (v : Nat) (mask : Pixel → Nat) (p : Pixel) :
    (Joined (fun q => q ∈ all ∧ mask q = 0 ∧ ok q = true) seed p → floodFill all ok seed v mask p = v) ∧
    (¬ Joined (fun q => q ∈ all ∧ mask q = 0 ∧ ok q = true) seed p → floodFill all ok seed v mask p = mask p) := by
  unfold floodFill
  by_cases hm : mask seed ≠ 0
  · rw [if_pos hm]
    refine ⟨fun h => absurd (joined_seed_free h).2.1 hm, fun _ => rfl⟩
  · rw [if_neg hm]
    simp only [ne_eq, not_not] at hm
    have h1 := mem_rounds (allowed := fun p => decide (mask p = 0) && ok p) hall hs (by simp [hm, hok]) p
    rw [joined_congr (f2 := fun q => q ∈ all ∧ mask q = 0 ∧ ok q = true) (by intro q; simp)] at h1
    refine ⟨fun h => by rw [if_pos (h1.mpr h)], fun h => by rw [if_neg fun hh => h (h1.mp hh)]⟩

/-! ## The loop over the seeds -/

/-- The free pixels for seed number `i`: in the image, close to the seed, without a label of an earlier seed. -/
def Free (all : List Pixel) (ok : Pixel → Pixel → Bool) (lab : Pixel → Nat) (i : Nat) (s q : Pixel) : Prop :=
  q ∈ all ∧ ok s q = true ∧ ¬ (1 ≤ lab q ∧ lab q ≤ i)

/-- What the loop has computed after `n` seeds: `full` is the label every pixel will have. -/
structure Inv (all : List Pixel) (ok : Pixel → Pixel → Bool) (sd : List Pixel) (n : Nat) (mask lab full : Pixel → Nat) : Prop where
  bound : ∀ p, full p ≤ n
  joined : ∀ i s, i < n → sd[i]? = some s → ∀ p, full p = i + 1 ↔ Joined (Free all ok full i s) s p
  mask : ∀ p, mask p = if full p = 0 then 0 else (full p - 1) % 255 + 1
  lab : ∀ p, lab p = if full p = 0 ∨ n / 255 * 255 < full p then 0 else full p

theorem flood_step {all : List Pixel} (hall : all.Nodup) {ok : Pixel → Pixel → Bool} {sd : List Pixel} {n : Nat}
    {mask lab full : Pixel → Nat} (hI : Inv all ok sd n mask lab full) {s : Pixel} (hs : sd[n]? = some s) (hsall : s ∈ all)
    (hok : ok s s = true) :
    ∃ full', Inv all ok sd (n + 1) (floodFill all (ok s) s (n % 255 + 1) mask)
      (if n % 255 = 254 then transfer (n / 255) (floodFill all (ok s) s (n % 255 + 1) mask) lab else lab) full' := by
  classical
  have hmask0 : ∀ q, mask q = 0 ↔ full q = 0 := by
    intro q; rw [hI.mask]; split <;> omega
  set J : Pixel → Prop := Joined (fun q => q ∈ all ∧ mask q = 0 ∧ ok s q = true) s with hJ
  have hJ0 : ∀ p, J p → full p = 0 := fun p h => (hmask0 p).mp (joined_free h).2.1
  have hff := floodFill_spec hall (ok := ok s) hsall hok (n % 255 + 1) mask
  refine ⟨fun p => if J p then n + 1 else full p, ?_⟩
  have hmask' : ∀ p, floodFill all (ok s) s (n % 255 + 1) mask p =
      if (if J p then n + 1 else full p) = 0 then 0 else ((if J p then n + 1 else full p) - 1) % 255 + 1 := by
    intro p
    by_cases h : J p
    · rw [(hff p).1 h]; simp [h]
    · rw [(hff p).2 h, hI.mask]; simp [h]
  refine ⟨?_, ?_, hmask', ?_⟩
  · intro p
    have := hI.bound p
    split <;> omega
  · intro i s' hi hs' p
    rcases Nat.lt_or_ge i n with h | h
    · have h1 := hI.joined i s' h hs' p
      have h2 : ∀ q, Free all ok full i s' q ↔ Free all ok (fun p => if J p then n + 1 else full p) i s' q := by
        intro q
        unfold Free
        by_cases hq : J q
        · have := hJ0 q hq
          simp [hq, this]
          omega
        · simp [hq]
      rw [← joined_congr h2, ← h1]
      by_cases hp : J p
      · have := hJ0 p hp
        simp [hp, this]; omega
      · simp [hp]
    · obtain rfl : i = n := by omega
      rw [hs] at hs'
      cases hs'
      have h2 : ∀ q, (q ∈ all ∧ mask q = 0 ∧ ok s q = true) ↔
          Free all ok (fun p => if J p then i + 1 else full p) i s q := by
        intro q
        unfold Free
        rw [hmask0]
        by_cases hq : J q
        · have := hJ0 q hq
          simp [hq, this]
        · have := hI.bound q
          simp only [hq, if_false]
          constructor
          · rintro ⟨a, b, c⟩; exact ⟨a, c, by omega⟩
          · rintro ⟨a, b, c⟩; exact ⟨a, by omega, b⟩
      rw [← joined_congr h2]
      by_cases hp : J p
      · simp [hp]; exact hp
      · have := hI.bound p
        simp only [hp, if_false]
        constructor
        · intro h; omega
        · intro h; exact absurd h hp
  · intro p
    have hb := hI.bound p
    have hl := hI.lab p
    split
    · rename_i h254
      unfold transfer
      rw [hmask']
      rw [show (n + 1) / 255 * 255 = n + 1 by omega]
      by_cases hp : J p
      · have := hJ0 p hp
        simp only [hp, if_true]
        rw [hl]
        simp [this]
        omega
      · simp only [hp, if_false]
        rw [hl]
        by_cases h0 : full p = 0
        · simp [h0]
        · simp only [h0, if_false, false_or]
          rw [if_neg (show ¬ n + 1 < full p by omega)]
          by_cases hlt : n / 255 * 255 < full p
          · rw [if_pos hlt, if_pos ⟨rfl, by omega⟩]; omega
          · rw [if_neg hlt, if_neg (by omega)]
    · rename_i h254
      have e : (n + 1) / 255 = n / 255 := by omega
      rw [e, hl]
      by_cases hp : J p
      · have := hJ0 p hp
        simp only [hp, if_true]
        simp [this]
        omega
      · simp only [hp, if_false]

theorem flood_inv {all : List Pixel} (hall : all.Nodup) {ok : Pixel → Pixel → Bool} {sd : List Pixel}
    (hsd : ∀ s ∈ sd, s ∈ all ∧ ok s s = true) : ∀ (rest : List Pixel) (n : Nat) (mask lab full : Pixel → Nat),
      Inv all ok sd n mask lab full → sd.drop n = rest →
      ∃ full', Inv all ok sd (n + rest.length) (flood all ok n rest (mask, lab)).1 (flood all ok n rest (mask, lab)).2 full'
  | [], n, mask, lab, full, hI, _ => ⟨full, by simpa [flood] using hI⟩
  | s :: rest, n, mask, lab, full, hI, hd => by
    have hs : sd[n]? = some s := by
      have : (sd.drop n)[0]? = some s := by rw [hd]; rfl
      rw [List.getElem?_drop] at this
      simpa using this
    obtain ⟨h1, h2⟩ := hsd s (List.mem_of_getElem? hs)
    obtain ⟨full1, hI1⟩ := flood_step hall hI hs h1 h2
    have hd' : sd.drop (n + 1) = rest := by
      rw [← List.drop_drop, hd]; rfl
    obtain ⟨full2, hI2⟩ := flood_inv hall hsd rest (n + 1) _ _ full1 hI1 hd'
    refine ⟨full2, ?_⟩
    rw [show n + (s :: rest).length = n + 1 + rest.length by simp only [List.length_cons]; omega]
    exact hI2

/-- The object map: seed number `i` has the label `i + 1`, and its object is what the fill of the seed reaches. -/
theorem objectMap_spec (rows cols : Nat) (g : Pixel → ℚ) (date : Pixel → Int) (peak ratio : ℚ) (interval : Int)
    (hpeak : 0 ≤ peak) (hratio : 0 ≤ ratio) (hint : 0 ≤ interval) :
    (∀ p, objectMap rows cols g date peak ratio interval p ≤ (seeds rows cols g peak).length) ∧
    ∀ i s, (seeds rows cols g peak)[i]? = some s → ∀ p,
      objectMap rows cols g date peak ratio interval p = i + 1 ↔
        Joined (Free (pixels rows cols) (inRange g date ratio interval) (objectMap rows cols g date peak ratio interval) i s) s p := by
  have hsd : ∀ s ∈ seeds rows cols g peak, s ∈ pixels rows cols ∧ inRange g date ratio interval s s = true := by
    intro s hs
    obtain ⟨h1, h2⟩ := (seeds_spec rows cols g peak).2.1 s |>.mp hs
    refine ⟨mem_pixels.mpr h1, ?_⟩
    unfold inRange
    have : 0 ≤ g s * ratio := mul_nonneg (le_of_lt (lt_of_le_of_lt hpeak h2)) hratio
    simp [this, hint]
  have h0 : Inv (pixels rows cols) (inRange g date ratio interval) (seeds rows cols g peak) 0 (fun _ => 0) (fun _ => 0) (fun _ => 0) :=
    ⟨fun _ => le_refl _, fun i s h => by omega, fun _ => by simp, fun _ => by simp⟩
  obtain ⟨full, hI⟩ := flood_inv (pixels_nodup rows cols) hsd (seeds rows cols g peak) 0 _ _ _ h0 rfl
  rw [Nat.zero_add] at hI
  have key : objectMap rows cols g date peak ratio interval = full := by
    unfold objectMap
    simp only
    funext p
    have hb := hI.bound p
    have hl := hI.lab p
    have hm := hI.mask p
    split
    · unfold transfer
      rw [hl, hm]
      by_cases h0 : full p = 0
      · simp [h0]
      · simp only [h0, if_false, false_or]
        by_cases hlt : (seeds rows cols g peak).length / 255 * 255 < full p
        · rw [if_pos hlt, if_pos ⟨rfl, by omega⟩]; omega
        · rw [if_neg hlt, if_neg (by omega)]
    · rw [hl]
      have : full p = 0 := by omega
      simp [this]
  rw [key]
  refine ⟨hI.bound, fun i s hs p => hI.joined i s ?_ hs p⟩
  exact (List.getElem?_eq_some_iff.mp hs).1

/-! ## Grouping -/

section Unique

theorem unique_sorted (l : List Nat) : (unique l).Pairwise (· < ·) := by
  have h1 : (unique l).Pairwise (· ≤ ·) := List.pairwise_insertionSort _ _
  have h2 : (unique l).Nodup := (List.perm_insertionSort (· ≤ ·) l.dedup).nodup_iff.mpr (List.nodup_dedup l)
  have h3 := List.Pairwise.and h1 h2
  exact h3.imp fun h => by omega

theorem mem_unique {l : List Nat} {v : Nat} : v ∈ unique l ↔ v ∈ l := by
  unfold unique
  rw [(List.perm_insertionSort (· ≤ ·) l.dedup).mem_iff, List.mem_dedup]

theorem eq_of_sorted {a b : List Nat} (ha : a.Pairwise (· < ·)) (hb : b.Pairwise (· < ·)) (h : ∀ v, v ∈ a ↔ v ∈ b) : a = b := by
  have hp : a.Perm b := (List.perm_ext_iff_of_nodup (ha.imp fun h => by omega) (hb.imp fun h => by omega)).mpr h
  exact hp.eq_of_pairwise (fun x y _ _ h1 h2 => by omega) ha hb

theorem unique_perm {l l' : List Nat} (h : l.Perm l') : unique l = unique l' :=
  eq_of_sorted (unique_sorted l) (unique_sorted l') fun v => by rw [mem_unique, mem_unique, h.mem_iff]

theorem mode_perm {l l' : List Nat} (h : l.Perm l') : mode l = mode l' := by
  unfold mode
  rw [unique_perm h]
  congr 1
  funext v
  congr 1
  funext w
  rw [h.count_eq, h.count_eq]

theorem mode_spec {l : List Nat} {v : Nat} (h : mode l = some v) : Mode l v := by
  unfold mode at h
  rw [List.find?_eq_some_iff_append] at h
  obtain ⟨h1, as, bs, h2, h3⟩ := h
  simp only [List.all_eq_true, decide_eq_true_eq] at h1
  have hv : v ∈ unique l := by rw [h2]; simp
  refine ⟨mem_unique.mp hv, fun w hw => ⟨h1 w (mem_unique.mpr hw), fun he => ?_⟩⟩
  have hw' : w ∈ unique l := mem_unique.mpr hw
  have hs := unique_sorted l
  rw [h2] at hw' hs
  rcases List.mem_append.mp hw' with ha | ha
  · exfalso
    have := h3 w ha
    simp only [Bool.not_eq_true', ← Bool.not_eq_true, List.all_eq_true, decide_eq_true_eq] at this
    exact this fun u hu => by rw [he]; exact h1 u hu
  · rcases List.mem_cons.mp ha with rfl | ha
    · exact le_refl _
    · have := (List.pairwise_cons.mp (List.pairwise_append.mp hs).2.1).1 w ha
      omega

theorem mode_exists {l : List Nat} (h : l ≠ []) : ∃ v, mode l = some v := by
  have : ∃ m ∈ l, ∀ w ∈ l, l.count w ≤ l.count m := by
    have key : ∀ t : List Nat, t ≠ [] → ∃ m ∈ t, ∀ w ∈ t, l.count w ≤ l.count m := by
      intro t
      induction t with
      | nil => intro h; exact absurd rfl h
      | cons a t ih =>
        intro _
        by_cases ht : t = []
        · subst ht; exact ⟨a, by simp, by simp⟩
        · obtain ⟨m, hm, hm2⟩ := ih ht
          by_cases hc : l.count a ≤ l.count m
          · refine ⟨m, List.mem_cons_of_mem _ hm, fun w hw => ?_⟩
            rcases List.mem_cons.mp hw with rfl | hw
            · exact hc
            · exact hm2 w hw
          · refine ⟨a, List.mem_cons_self, fun w hw => ?_⟩
            rcases List.mem_cons.mp hw with rfl | hw
            · exact le_refl _
            · have := hm2 w hw; omega
    exact key l h
  obtain ⟨m, hm, hm2⟩ := this
  have hsome : (mode l).isSome := by
    unfold mode
    rw [List.find?_isSome]
    refine ⟨m, mem_unique.mpr hm, ?_⟩
    simp only [List.all_eq_true, decide_eq_true_eq]
    exact fun w hw => hm2 w (mem_unique.mp hw)
  exact Option.isSome_iff_exists.mp hsome

theorem mode_iff {l : List Nat} {v : Nat} : mode l = some v ↔ Mode l v := by
  refine ⟨mode_spec, fun h => ?_⟩
  obtain ⟨w, hw⟩ := mode_exists (l := l) (by rintro rfl; exact absurd h.1 (by simp))
  have h2 := mode_spec hw
  have a := h.2 w h2.1
  have b := h2.2 v h.1
  have : v = w := Nat.le_antisymm (a.2 (by omega)) (b.2 (by omega))
  rw [hw, this]

theorem mode_const {l : List Nat} {v : Nat} (hne : l ≠ []) (h : ∀ w ∈ l, w = v) : mode l = some v := by
  rw [mode_iff]
  obtain ⟨a, ha⟩ := List.exists_mem_of_ne_nil l hne
  refine ⟨by rw [← h a ha]; exact ha, fun w hw => ?_⟩
  rw [h w hw]
  exact ⟨le_refl _, fun _ => le_refl _⟩

/-- The keys of the runs. -/
def runKeys {α : Type} : List (Nat × α) → List Nat
  | [] => []
  | (k, _) :: rest =>
    match rest with
    | [] => [k]
    | (k', _) :: _ => if k = k' then runKeys rest else k :: runKeys rest

variable {α : Type}

theorem mem_runKeys : ∀ {l : List (Nat × α)} {v : Nat}, v ∈ runKeys l ↔ v ∈ l.map (·.1)
  | [], v => by simp [runKeys]
  | [(k, a)], v => by simp [runKeys]
  | (k, a) :: (k', a') :: rest, v => by
    have ih := mem_runKeys (l := (k', a') :: rest) (v := v)
    rw [runKeys]
    split
    · rename_i h
      rw [ih]
      subst h
      simp
    · rw [List.mem_cons, ih]; simp

theorem runKeys_sorted : ∀ {l : List (Nat × α)}, (l.Pairwise fun a b => a.1 ≤ b.1) → (runKeys l).Pairwise (· < ·)
  | [], _ => List.Pairwise.nil
  | [(k, a)], _ => List.pairwise_singleton _ _
  | (k, a) :: (k', a') :: rest, h => by
    have h2 := (List.pairwise_cons.mp h).2
    have ih := runKeys_sorted h2
    rw [runKeys]
    split
    · exact ih
    · rename_i hne
      refine List.pairwise_cons.mpr ⟨fun v hv => ?_, ih⟩
      rw [mem_runKeys] at hv
      obtain ⟨x, hx, rfl⟩ := List.mem_map.mp hv
      have h1 : k ≤ k' := (List.pairwise_cons.mp h).1 (k', a') List.mem_cons_self
      have h3 : k' ≤ x.1 := by
        rcases List.mem_cons.mp hx with rfl | hx
        · exact le_refl _
        · exact (List.pairwise_cons.mp h2).1 x hx
      omega

theorem runs_eq : ∀ {l : List (Nat × α)}, (l.Pairwise fun a b => a.1 ≤ b.1) →
    runs l = (runKeys l).map fun k => (l.filter fun x => decide (x.1 = k)).map (·.2)
  | [], _ => rfl
  | [(k, a)], _ => by simp [runs, runKeys]
  | (k, a) :: (k', a') :: rest, h => by
    have h2 := (List.pairwise_cons.mp h).2
    have ih := runs_eq h2
    rw [runs, runKeys]
    have hle : ∀ v ∈ runKeys ((k', a') :: rest), k' ≤ v := by
      intro v hv
      rw [mem_runKeys] at hv
      obtain ⟨x, hx, rfl⟩ := List.mem_map.mp hv
      rcases List.mem_cons.mp hx with rfl | hx
      · exact le_refl _
      · exact (List.pairwise_cons.mp h2).1 x hx
    have hs := runKeys_sorted h2
    split
    · rename_i hk
      subst hk
      rw [ih]
      -- the first key of the rest is `k`
      have hmem : k ∈ runKeys ((k, a') :: rest) := mem_runKeys.mpr (by simp)
      obtain ⟨t, ht⟩ : ∃ t, runKeys ((k, a') :: rest) = k :: t := by
        match he : runKeys ((k, a') :: rest) with
        | [] => rw [he] at hmem; cases hmem
        | b :: t =>
          rw [he] at hmem hs hle
          rcases List.mem_cons.mp hmem with rfl | hb
          · exact ⟨t, rfl⟩
          · have := (List.pairwise_cons.mp hs).1 k hb
            have := hle b List.mem_cons_self
            omega
      rw [ht]
      simp only [List.map_cons]
      rw [List.cons.injEq]
      refine ⟨by simp, ?_⟩
      refine List.map_congr_left fun v hv => ?_
      rw [ht] at hs
      have := (List.pairwise_cons.mp hs).1 v hv
      rw [List.filter_cons_of_neg (l := (k, a') :: rest) (by simp; omega)]
    · rename_i hk
      have h1 : k ≤ k' := (List.pairwise_cons.mp h).1 (k', a') List.mem_cons_self
      rw [ih, List.map_cons, List.cons.injEq]
      constructor
      · rw [List.filter_cons_of_pos (by simp)]
        have : ((k', a') :: rest).filter (fun x => decide (x.1 = k)) = [] := by
          rw [List.filter_eq_nil_iff]
          intro x hx
          have h3 : k' ≤ x.1 := by
            rcases List.mem_cons.mp hx with rfl | hx
            · exact le_refl _
            · exact (List.pairwise_cons.mp h2).1 x hx
          simp; omega
        rw [this]; rfl
      · refine List.map_congr_left fun v hv => ?_
        have := hle v hv
        rw [List.filter_cons_of_neg (l := (k', a') :: rest) (by simp; omega)]

end Unique

instance {α : Type} : Std.Total fun a b : Nat × α => a.1 ≤ b.1 := ⟨fun a b => le_total _ _⟩
instance {α : Type} : IsTrans (Nat × α) fun a b : Nat × α => a.1 ≤ b.1 := ⟨fun _ _ _ h1 h2 => le_trans h1 h2⟩

/-- `modeby` gives, in the order of the labels, the mode over the pixels of the label. -/
theorem modeby_eq (all : List Pixel) (f lab : Pixel → Nat) :
    modeby (all.map f) (all.map lab) =
      (unique (all.map lab)).map fun k => mode ((all.filter fun p => decide (lab p = k)).map f) := by
  unfold modeby
  set z := (all.map lab).zip (all.map f) with hz
  have hze : z = all.map fun p => (lab p, f p) := by rw [hz, List.zip_map']
  have hp : (z.insertionSort fun a b => a.1 ≤ b.1).Perm z := List.perm_insertionSort _ _
  have hs : (z.insertionSort fun a b => a.1 ≤ b.1).Pairwise fun a b => a.1 ≤ b.1 :=
    List.pairwise_insertionSort (fun a b : Nat × Nat => a.1 ≤ b.1) z
  have hk : runKeys (z.insertionSort fun a b => a.1 ≤ b.1) = unique (all.map lab) := by
    refine eq_of_sorted (runKeys_sorted hs) (unique_sorted _) fun v => ?_
    rw [mem_runKeys, (hp.map _).mem_iff, mem_unique, hze, List.map_map]
    rfl
  rw [runs_eq hs, hk, List.map_map]
  refine List.map_congr_left fun k _ => ?_
  refine mode_perm ?_
  refine ((hp.filter _).map _).trans ?_
  rw [hze, List.filter_map, List.map_map]
  exact List.Perm.refl _

/-! ## The decision -/

theorem scale_eq (lg : Nat → ℚ) (slope : ℚ) (size : Nat) : scale lg slope size = min 2 (lg size * slope + 95/100) := by
  unfold scale
  split
  · rename_i h; rw [min_eq_right h.le]
  · rename_i h; rw [min_eq_left (not_lt.mp h)]

theorem exceeds_iff (lg : Nat → ℚ) (c : Class) (size : Nat) (m : ℚ) : exceeds lg c size m = true ↔ Exceeds lg c size m := by
  unfold exceeds Exceeds
  rw [decide_eq_true_eq, scale_eq]

theorem isChange_iff (lg : Nat → ℚ) (par : Parameters) (withMap : Bool) (uniform : Option ℚ × Option ℚ) (mode size : Nat)
    (m : ℚ) : isChange lg par withMap uniform mode size m = some true ↔
      ∃ c, classFor par withMap uniform mode c ∧ Exceeds lg c size m := by
  unfold isChange classFor
  cases withMap with
  | false => simp [exceeds_iff]
  | true =>
    simp only [Bool.not_true, Bool.false_eq_true, if_false, Bool.true_eq_false]
    obtain ⟨t, s⟩ := uniform
    have hgen : (if mode = 255 then some (exceeds lg par.default size m)
        else if 1 ≤ mode ∧ mode ≤ 8 then some (exceeds lg (par.cls mode) size m) else none) = some true ↔
        ∃ c, ((mode = 255 ∧ c = par.default) ∨ (1 ≤ mode ∧ mode ≤ 8 ∧ c = par.cls mode)) ∧ Exceeds lg c size m := by
      split
      · rename_i h
        subst h
        simp [exceeds_iff]
      · rename_i h
        split
        · rename_i h8
          simp [exceeds_iff, h, h8.1, h8.2]
        · rename_i h8
          constructor
          · intro hh; cases hh
          · rintro ⟨c, hc | hc, _⟩
            · exact absurd hc.1 h
            · exact absurd ⟨hc.1, hc.2.1⟩ h8
    cases t <;> cases s <;> first | exact hgen | simp [exceeds_iff]

end Pycold.Obia
