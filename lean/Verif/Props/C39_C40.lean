import Verif.Proof.Obia
import Verif.Model.Tile
import Mathlib.Tactic.LinearCombination
/-!
# C39, C40, C62: object-based analysis of change magnitudes
-/
namespace Pycold.Obia

open Spec

/-! ## C39 -/

/-- **C39.** For any image, any magnitudes and dates, any number of seeds.  The seeds are the pixels above the
threshold, the strongest first.  A pixel has the label `i + 1` iff it is reached from seed number `i` through
neighbouring pixels that are close to the seed in magnitude and date and that do not belong to an earlier
seed; no label is above the number of seeds.  So every region has its own label, and a pixel keeps the label
of the first region that reached it. -/
theorem C39_labels (rows cols : Nat) (g : Pixel → ℚ) (date : Pixel → Int) (peak ratio : ℚ) (interval : Int)
    (hpeak : 0 ≤ peak) (hratio : 0 ≤ ratio) (hint : 0 ≤ interval) :
    ∃ sd, SeedList rows cols g peak sd ∧
      (∀ p, objectMap rows cols g date peak ratio interval p ≤ sd.length) ∧
      ∀ i s, sd[i]? = some s → ∀ p,
        objectMap rows cols g date peak ratio interval p = i + 1 ↔
          Joined (fun q => Inside rows cols q ∧ Close g date ratio interval s q ∧
            ¬ (1 ≤ objectMap rows cols g date peak ratio interval q ∧ objectMap rows cols g date peak ratio interval q ≤ i)) s p := by
  obtain ⟨h1, h2⟩ := objectMap_spec rows cols g date peak ratio interval hpeak hratio hint
  refine ⟨_, seeds_spec rows cols g peak, h1, fun i s hs p => ?_⟩
  rw [h2 i s hs p]
  refine joined_congr (fun q => ?_) s p
  unfold Free
  rw [mem_pixels]
  simp [inRange, Close]

/-- The objects as sets of pixels. -/
theorem object_seed {rows cols : Nat} {g : Pixel → ℚ} {date : Pixel → Int} {peak ratio : ℚ} {interval : Int}
    (hpeak : 0 ≤ peak) (hratio : 0 ≤ ratio) (hint : 0 ≤ interval) {p : Pixel}
    (hp : objectMap rows cols g date peak ratio interval p ≠ 0) :
    ∃ s, Inside rows cols s ∧ peak < g s ∧ Close g date ratio interval s p ∧ Inside rows cols p ∧
      ∀ q, objectMap rows cols g date peak ratio interval q = objectMap rows cols g date peak ratio interval p →
        Joined (fun r => Inside rows cols r ∧
          objectMap rows cols g date peak ratio interval r = objectMap rows cols g date peak ratio interval p) s q := by
  obtain ⟨sd, hs, hb, hj⟩ := C39_labels rows cols g date peak ratio interval hpeak hratio hint
  obtain ⟨i, hi⟩ : ∃ i, objectMap rows cols g date peak ratio interval p = i + 1 := ⟨objectMap rows cols g date peak ratio interval p - 1, by omega⟩
  have hlt : i < sd.length := by have := hb p; omega
  have hget : sd[i]? = some sd[i] := List.getElem?_eq_getElem hlt
  have hseed := (hs.2.1 sd[i]).mp (List.getElem_mem hlt)
  have hfree := joined_free ((hj i _ hget p).mp hi)
  refine ⟨sd[i], hseed.1, hseed.2, hfree.2.1, hfree.1, fun q hq => ?_⟩
  rw [hi] at hq ⊢
  have hjq := (hj i _ hget q).mp hq
  induction hjq with
  | seed h => exact .seed ⟨hseed.1, (hj i _ hget _).mpr (.seed h)⟩
  | step h1 h2 h3 ih =>
    refine .step (ih ((hj i _ hget _).mpr h1)) h2 ⟨h3.1, (hj i _ hget _).mpr (.step h1 h2 h3)⟩

/-- **C39.** Every pixel above the threshold belongs to an object. -/
theorem C39_covered (rows cols : Nat) (g : Pixel → ℚ) (date : Pixel → Int) (peak ratio : ℚ) (interval : Int)
    (hpeak : 0 ≤ peak) (hratio : 0 ≤ ratio) (hint : 0 ≤ interval) {p : Pixel} (hp : Inside rows cols p) (hg : peak < g p) :
    objectMap rows cols g date peak ratio interval p ≠ 0 := by
  obtain ⟨sd, hs, hb, hj⟩ := C39_labels rows cols g date peak ratio interval hpeak hratio hint
  intro h0
  obtain ⟨i, hi⟩ := List.mem_iff_getElem?.mp ((hs.2.1 p).mpr ⟨hp, hg⟩)
  have := (hj i p hi p).mpr (.seed ⟨hp, ⟨by
    rw [sub_self, abs_zero]
    exact mul_nonneg (le_of_lt (lt_of_le_of_lt hpeak hg)) hratio, by simpa using hint⟩, by omega⟩)
  omega

/-- **C39.** Every pixel of an object has at least the magnitude `(1 - ratio) * peak`; in particular a pixel
without a value (−9999) is in no object. -/
theorem C39_magnitude (rows cols : Nat) (g : Pixel → ℚ) (date : Pixel → Int) (peak ratio : ℚ) (interval : Int)
    (hpeak : 0 ≤ peak) (hratio : 0 ≤ ratio) (hr1 : ratio ≤ 1) (hint : 0 ≤ interval) {p : Pixel}
    (hp : objectMap rows cols g date peak ratio interval p ≠ 0) :
    (1 - ratio) * peak ≤ g p ∧ Inside rows cols p := by
  obtain ⟨s, _, h2, h3, h4, _⟩ := object_seed hpeak hratio hint hp
  refine ⟨?_, h4⟩
  have h5 := (abs_le.mp h3.1).1
  have h6 : (1 - ratio) * peak ≤ (1 - ratio) * g s := mul_le_mul_of_nonneg_left h2.le (by linarith)
  linarith

/-- **C39.** Where objects can be, for the magnitudes of a snapshot and of the one before (−9999 without a
value), whatever the smoothing: a pixel of an object has a magnitude of at least `(1 - ratio)` of the threshold in
the current snapshot; or it has none there, and one of the previous snapshot that is at least the limit. -/
theorem C39_support (rows cols : Nat) (smooth : (Pixel → Option ℚ) → Pixel → ℚ) (cm prev : Pixel → Int) (date : Pixel → Int)
    (limit cmScale peak ratio : ℚ) (interval : Int) (hpeak : 0 ≤ peak) (hratio : 0 ≤ ratio) (hr1 : ratio ≤ 1)
    (hint : 0 ≤ interval) (hscale : 0 < cmScale) {p : Pixel}
    (hp : objectMap rows cols (smoothed smooth fun q => scaled cmScale peak ratio (mergeCm limit (cm q) (prev q))) date peak
      ratio interval p ≠ 0) :
    (cm p ≠ -9999 ∧ peak * (1 - ratio) ≤ cm p / cmScale) ∨
    (cm p = -9999 ∧ prev p ≠ -9999 ∧ limit ≤ prev p ∧ peak * (1 - ratio) ≤ prev p / cmScale) := by
  have h := (C39_magnitude rows cols _ date peak ratio interval hpeak hratio hr1 hint hp).1
  have h0 : (0 : ℚ) ≤ (1 - ratio) * peak := mul_nonneg (by linarith) hpeak
  unfold smoothed at h
  have neg : ∀ x : ℚ, x = -9999 → ¬ peak * (1 - ratio) ≤ x / cmScale := by
    intro x hx hle
    rw [le_div_iff₀ hscale] at hle
    have := mul_nonneg (mul_nonneg hpeak (show (0 : ℚ) ≤ 1 - ratio by linarith)) hscale.le
    rw [hx] at hle
    linarith
  by_cases hs : scaled cmScale peak ratio (mergeCm limit (cm p) (prev p)) = none
  · simp only [hs] at h
    linarith
  · unfold scaled at hs
    simp only at hs
    split at hs
    · exact absurd rfl hs
    · rename_i hv
      rw [not_lt] at hv
      unfold mergeCm NAN at hv
      simp only at hv
      by_cases hc : cm p = -9999
      · right
        rw [if_pos hc] at hv
        by_cases hl : (prev p : ℚ) < limit
        · rw [if_pos hl] at hv
          exact absurd hv (neg _ (by norm_num))
        · rw [if_neg hl] at hv
          exact ⟨hc, fun hn => neg _ (by rw [hn]; norm_num) hv, not_lt.mp hl, hv⟩
      · left
        rw [if_neg hc] at hv
        exact ⟨hc, hv⟩

theorem joined_trans {free : Pixel → Prop} {a b c : Pixel} (hab : Joined free a b) (hbc : Joined free b c) : Joined free a c := by
  induction hbc with
  | seed _ => exact hab
  | step _ hn hf ih => exact .step ih hn hf

theorem joined_symm {free : Pixel → Prop} {a b : Pixel} (hab : Joined free a b) : Joined free b a := by
  induction hab with
  | seed h => exact .seed h
  | step hab hn hf ih => exact joined_trans (.step (.seed hf) (neighbour_symm hn) (joined_free hab)) ih

/-- **C39.** An object is connected: any two of its pixels are joined by neighbouring pixels of the object. -/
theorem C39_connected (rows cols : Nat) (g : Pixel → ℚ) (date : Pixel → Int) (peak ratio : ℚ) (interval : Int)
    (hpeak : 0 ≤ peak) (hratio : 0 ≤ ratio) (hint : 0 ≤ interval) {p q : Pixel}
    (hp : objectMap rows cols g date peak ratio interval p ≠ 0)
    (hq : objectMap rows cols g date peak ratio interval q = objectMap rows cols g date peak ratio interval p) :
    Joined (fun r => Inside rows cols r ∧
      objectMap rows cols g date peak ratio interval r = objectMap rows cols g date peak ratio interval p) p q := by
  obtain ⟨s, _, _, _, h4, h5⟩ := object_seed hpeak hratio hint hp
  have h1 := h5 p rfl
  have h2 := h5 q hq
  exact joined_trans (joined_symm h1) h2

/-- Magnitudes 20, 15, 1, 30 in a row, dates equal but for the second pixel. -/
def sampleG (p : Pixel) : ℚ := if p.2 = 0 then 20 else if p.2 = 1 then 15 else if p.2 = 2 then 1 else 30

-- the strongest pixel is seed 0; the first two pixels are close to each other, unless the dates are apart
example : (List.range 4).map (fun c => objectMap 1 4 sampleG (fun _ => 0) 9 (2/5) 60 (0, c)) = [2, 2, 0, 1] ∧
    (List.range 4).map (fun c => objectMap 1 4 sampleG (fun p => if p.2 = 1 then 100 else 0) 9 (2/5) 60 (0, c)) = [2, 3, 0, 1] := by
  decide +kernel

/-! ## C40 -/

/-- **C40.** With a slope that is not negative, an object that is change at some average magnitude is change at
any larger one, whatever its size (at least one pixel), its class and the values passed. -/
theorem C40_monotone (lg : Nat → ℚ) (hlg : ∀ n, 1 ≤ n → 0 ≤ lg n) (par : Parameters) (withMap : Bool)
    (uniform : Option ℚ × Option ℚ) (mode size : Nat) (hsize : 1 ≤ size)
    (hpar : 0 ≤ par.default.slope ∧ ∀ k, 1 ≤ k → k ≤ 8 → 0 ≤ (par.cls k).slope) (huni : ∀ s, uniform.2 = some s → 0 ≤ s)
    {m m' : ℚ} (hm : m ≤ m') (h : isChange lg par withMap uniform mode size m = some true) :
    isChange lg par withMap uniform mode size m' = some true := by
  rw [isChange_iff] at *
  obtain ⟨c, h1, h2⟩ := h
  refine ⟨c, h1, ?_⟩
  have hs : 0 ≤ c.slope := by
    unfold classFor at h1
    split at h1
    · rw [h1]; exact hpar.1
    · obtain ⟨t, s⟩ := uniform
      cases t <;> cases s <;> simp only at h1 <;> first
        | (rcases h1 with h | h
           · rw [h.2]; exact hpar.1
           · rw [h.2.2]; exact hpar.2 _ h.1 h.2.1)
        | (rw [h1]; exact huni _ rfl)
  unfold Exceeds at *
  have h0 : 0 ≤ min 2 (lg size * c.slope + 95/100) := le_min (by norm_num) (by
    have := mul_nonneg (hlg size hsize) hs
    linarith)
  exact lt_of_lt_of_le h2 (mul_le_mul_of_nonneg_right hm h0)

/-- **C40.** A larger patch with the same magnitude (not negative) is change if a smaller one is. -/
theorem C40_size_monotone (lg : Nat → ℚ) (hlg : ∀ a b, a ≤ b → lg a ≤ lg b) (c : Class) (hs : 0 ≤ c.slope) {a b : Nat}
    (hab : a ≤ b) {m : ℚ} (hm : 0 ≤ m) (h : Exceeds lg c a m) : Exceeds lg c b m := by
  unfold Exceeds at *
  refine lt_of_lt_of_le h (mul_le_mul_of_nonneg_left ?_ hm)
  exact min_le_min (le_refl _) (by have := mul_le_mul_of_nonneg_right (hlg a b hab) hs; linarith)

/-- The constants shipped with the program satisfy the hypotheses. -/
theorem C40_shipped : 0 ≤ shipped.default.slope ∧ 0 ≤ shipped.default.threshold ∧
    ∀ k, 0 ≤ (shipped.cls k).slope ∧ 0 ≤ (shipped.cls k).threshold := by
  refine ⟨by norm_num [shipped], by norm_num [shipped], fun k => ?_⟩
  simp only [shipped]
  split <;> norm_num

/-- **C40, refuted for negative slopes.** With the slope −1 an object of 1000 pixels is change at magnitude −10
and not at magnitude 10 (threshold 0). -/
theorem C40_negative_slope (lg : Nat → ℚ) (h : lg 1000 = 3) :
    isChange lg shipped true (some 0, some (-1)) 4 1000 (-10) = some true ∧
    isChange lg shipped true (some 0, some (-1)) 4 1000 10 = some false := by
  unfold isChange exceeds scale
  simp only [h]
  norm_num

/-- Without a classification map the uniform threshold and slope are ignored; with a map they are used only if
both are given. -/
theorem C40_uniform_ignored (lg : Nat → ℚ) (par : Parameters) (u v : Option ℚ × Option ℚ) (mode size : Nat) (m : ℚ) :
    isChange lg par false u mode size m = isChange lg par false v mode size m ∧
    (∀ t, isChange lg par true (some t, none) mode size m = isChange lg par true (none, none) mode size m) ∧
    ∀ s, isChange lg par true (none, some s) mode size m = isChange lg par true (none, none) mode size m :=
  ⟨rfl, fun _ => rfl, fun _ => rfl⟩

/-- The pixels of the image that have the label of `p`; the pixels joined with `p` within objects. -/
theorem C40_core {lg : Nat → ℚ} {par : Parameters} {uniform : Option ℚ × Option ℚ} {rows cols : Nat} {lab patch : Pixel → Nat}
    {g : Pixel → ℚ} (classification : Option (Pixel → Nat)) :
    ∃ ch, objectAnalysis lg par uniform (pixels rows cols) lab patch g classification = some ch ∧
      ∀ p, Inside rows cols p → (ch p = 0 ∨ ch p = 1) ∧ (ch p = 1 ↔ ∃ m s,
        ObjectClass classification ((pixels rows cols).filter fun q => decide (lab q = lab p)) m ∧
        Mode (((pixels rows cols).filter fun q => decide (lab q = lab p)).map fun q =>
          ((pixels rows cols).filter fun r => decide (patch r = patch q)).length) s ∧
        isChange lg par classification.isSome uniform m s (mean (pixels rows cols) lab g (lab p)) = some true) := by
  unfold objectAnalysis
  simp only
  rw [modeby_eq]
  set all := pixels rows cols
  set labels := unique (all.map lab) with hlabels
  set sizeOf := fun p => (all.filter fun q => decide (patch q = patch p)).length
  have hcl : ∃ clsOf : Nat → Option Nat, classesOf all lab classification = labels.map clsOf ∧
      ∀ k m, clsOf k = some m ↔ ObjectClass classification (all.filter fun q => decide (lab q = k)) m := by
    cases classification with
    | none => exact ⟨fun _ => some 255, rfl, fun k m => by simp [ObjectClass, eq_comm]⟩
    | some c => exact ⟨_, modeby_eq all c lab, fun k m => mode_iff⟩
  obtain ⟨clsOf, hcl1, hcl2⟩ := hcl
  rw [hcl1, if_neg (by simp)]
  refine ⟨_, rfl, fun p hp => ?_⟩
  have hzip : labels.zip ((labels.map clsOf).zip (labels.map fun k => mode ((all.filter fun p => decide (lab p = k)).map sizeOf))) =
      labels.map fun k => (k, (clsOf k, mode ((all.filter fun p => decide (lab p = k)).map sizeOf))) := by
    rw [List.zip_map']
    conv_lhs => rw [show labels = labels.map id from (List.map_id _).symm]
    rw [List.map_map, List.zip_map']
    simp
  rw [hzip]
  refine ⟨by split <;> simp, ?_⟩
  have hmem : lab p ∈ labels := by
    rw [hlabels, mem_unique]
    exact List.mem_map_of_mem (mem_pixels.mpr hp)
  have key : lab p ∈ ((labels.map fun k => (k, (clsOf k, mode ((all.filter fun p => decide (lab p = k)).map sizeOf)))).filter fun r =>
      match r.2.1, r.2.2 with
      | some m, some s => isChange lg par classification.isSome uniform m s (mean all lab g r.1) == some true
      | _, _ => false).map (·.1) ↔
      ∃ m s, clsOf (lab p) = some m ∧ mode ((all.filter fun q => decide (lab q = lab p)).map sizeOf) = some s ∧
        isChange lg par classification.isSome uniform m s (mean all lab g (lab p)) = some true := by
    rw [List.mem_map]
    constructor
    · rintro ⟨r, hr, hrp⟩
      rw [List.mem_filter, List.mem_map] at hr
      obtain ⟨⟨k, hk, rfl⟩, hr⟩ := hr
      simp only at hrp hr
      subst hrp
      split at hr
      · rename_i m s h1 h2
        exact ⟨m, s, h1, h2, by simpa using hr⟩
      · cases hr
    · rintro ⟨m, s, h1, h2, h3⟩
      refine ⟨_, List.mem_filter.mpr ⟨List.mem_map.mpr ⟨lab p, hmem, rfl⟩, ?_⟩, rfl⟩
      simp only [h1, h2, h3]
      rfl
  have e1 : ∀ (P : Prop) [Decidable P], (if P then 1 else 0) = 1 ↔ P := by intro P _; split <;> simp [*]
  rw [e1]
  refine Iff.trans key ?_
  constructor
  · rintro ⟨m, s, h1, h2, h3⟩
    exact ⟨m, s, (hcl2 _ _).mp h1, mode_iff.mp h2, h3⟩
  · rintro ⟨m, s, h1, h2, h3⟩
    exact ⟨m, s, (hcl2 _ _).mpr h1, mode_iff.mpr h2, h3⟩

open Classical in
/-- Every map of objects has a labelling of its connected parts, so the hypothesis on `patch` below can be met. -/
theorem labels_exist (rows cols : Nat) (lab : Pixel → Nat) : ∃ patch, Labels rows cols lab patch := by
  set J := Joined (fun r => Inside rows cols r ∧ lab r ≠ 0) with hJ
  refine ⟨fun p => if lab p = 0 then 0 else (pixels rows cols).findIdx (fun q => decide (J p q)) + 1,
    fun p _ => by by_cases h : lab p = 0 <;> simp [h], fun p q hp hq hp0 hq0 => ?_⟩
  simp only [hp0, hq0, if_false]
  constructor
  · intro h
    have hself : J q q := .seed ⟨hq, hq0⟩
    have hselfp : J p p := .seed ⟨hp, hp0⟩
    have hlt : (pixels rows cols).findIdx (fun r => decide (J q r)) < (pixels rows cols).length :=
      List.findIdx_lt_length_of_exists ⟨q, mem_pixels.mpr hq, by simpa using hself⟩
    have h1 := List.findIdx_getElem (w := hlt)
    have hlt' : (pixels rows cols).findIdx (fun r => decide (J p r)) < (pixels rows cols).length :=
      List.findIdx_lt_length_of_exists ⟨p, mem_pixels.mpr hp, by simpa using hselfp⟩
    have h2 := List.findIdx_getElem (w := hlt')
    have he : (pixels rows cols).findIdx (fun r => decide (J p r)) = (pixels rows cols).findIdx (fun r => decide (J q r)) := by omega
    simp only [he, decide_eq_true_eq] at h1 h2
    exact joined_trans h2 (joined_symm h1)
  · intro h
    have : (fun r => decide (J p r)) = fun r => decide (J q r) := by
      funext r
      exact decide_eq_decide.mpr ⟨fun hr => joined_trans (joined_symm h) hr, fun hr => joined_trans h hr⟩
    rw [this]

/-- **C40.** The change map for the objects of the flood-fill segmentation: a pixel `p` that belongs to an
object is change iff the mean magnitude over the pixels of its object, scaled by the number of pixels of the
patch (the objects connected with it), exceeds the threshold for the most frequent class of the object (for
class 255, or without a map, the default threshold). -/
theorem C40_change_map (lg : Nat → ℚ) (par : Parameters) (uniform : Option ℚ × Option ℚ) (rows cols : Nat) (g : Pixel → ℚ)
    (date : Pixel → Int) (peak ratio : ℚ) (interval : Int) (hpeak : 0 ≤ peak) (hratio : 0 ≤ ratio) (hint : 0 ≤ interval)
    (patch : Pixel → Nat) (hpatch : Labels rows cols (objectMap rows cols g date peak ratio interval) patch)
    (classification : Option (Pixel → Nat)) :
    ∃ ch, objectAnalysis lg par uniform (pixels rows cols) (objectMap rows cols g date peak ratio interval) patch g
        classification = some ch ∧
      ∀ p, Inside rows cols p → objectMap rows cols g date peak ratio interval p ≠ 0 → ∀ object together : List Pixel,
        object.Nodup → (∀ q, q ∈ object ↔ Inside rows cols q ∧
          objectMap rows cols g date peak ratio interval q = objectMap rows cols g date peak ratio interval p) →
        together.Nodup → (∀ q, q ∈ together ↔ Joined (fun r => Inside rows cols r ∧
          objectMap rows cols g date peak ratio interval r ≠ 0) p q) →
        (ch p = 0 ∨ ch p = 1) ∧
        (ch p = 1 ↔ ∃ m c, ObjectClass classification object m ∧
          classFor par classification.isSome uniform m c ∧
          Exceeds lg c together.length ((object.map g).sum / object.length)) := by
  set lab := objectMap rows cols g date peak ratio interval with hlab
  obtain ⟨ch, h1, h2⟩ := C40_core (lg := lg) (par := par) (uniform := uniform) (rows := rows) (cols := cols) (lab := lab)
    (patch := patch) (g := g) classification
  refine ⟨ch, h1, fun p hp hp0 object together ho1 ho2 ht1 ht2 => ?_⟩
  obtain ⟨h3, h4⟩ := h2 p hp
  refine ⟨h3, ?_⟩
  rw [h4]
  -- the object
  have hobj : ((pixels rows cols).filter fun q => decide (lab q = lab p)).Perm object := by
    refine (List.perm_ext_iff_of_nodup ((pixels_nodup rows cols).filter _) ho1).mpr fun q => ?_
    rw [ho2, List.mem_filter, mem_pixels]; simp
  -- the patch of every pixel of the object
  have hsize : ∀ q ∈ (pixels rows cols).filter fun q => decide (lab q = lab p),
      ((pixels rows cols).filter fun r => decide (patch r = patch q)).length = together.length := by
    intro q hq
    rw [hobj.mem_iff, ho2] at hq
    have hq0 : lab q ≠ 0 := by rw [hq.2]; exact hp0
    have hpq : patch p = patch q := by
      rw [hpatch.2 p q hp hq.1 hp0 hq0]
      have hc := C39_connected rows cols g date peak ratio interval hpeak hratio hint hp0 hq.2
      have key : ∀ {x}, Joined (fun r => Inside rows cols r ∧ lab r = lab p) p x → Joined (fun r => Inside rows cols r ∧ lab r ≠ 0) p x := by
        intro x h
        induction h with
        | seed h => exact .seed ⟨h.1, hp0⟩
        | step _ hn hf ih => exact .step ih hn ⟨hf.1, by rw [hf.2]; exact hp0⟩
      exact key hc
    refine List.Perm.length_eq ((List.perm_ext_iff_of_nodup ((pixels_nodup rows cols).filter _) ht1).mpr fun r => ?_)
    rw [ht2, List.mem_filter, mem_pixels, decide_eq_true_eq]
    constructor
    · rintro ⟨hr, hr2⟩
      have hr0 : lab r ≠ 0 := by
        intro h0
        have := (hpatch.1 r hr).mpr h0
        have := (hpatch.1 q hq.1).mp (by omega)
        exact hq0 this
      rw [← hpatch.2 p r hp hr hp0 hr0, hpq, hr2]
    · intro hj
      have hf := joined_free hj
      exact ⟨hf.1, by rw [← hpq, (hpatch.2 p r hp hf.1 hp0 hf.2).mpr hj]⟩
  have hne : ((pixels rows cols).filter fun q => decide (lab q = lab p)) ≠ [] := by
    intro h
    have : p ∈ (pixels rows cols).filter fun q => decide (lab q = lab p) := by
      rw [hobj.mem_iff, ho2]; exact ⟨hp, rfl⟩
    rw [h] at this
    cases this
  have hmode : ∀ s, Mode (((pixels rows cols).filter fun q => decide (lab q = lab p)).map fun q =>
      ((pixels rows cols).filter fun r => decide (patch r = patch q)).length) s ↔ s = together.length := by
    intro s
    rw [← mode_iff, mode_const (v := together.length)]
    · simp [eq_comm]
    · simpa using hne
    · intro w hw
      obtain ⟨q, hq, rfl⟩ := List.mem_map.mp hw
      exact hsize q hq
  have hcls : ∀ m, ObjectClass classification ((pixels rows cols).filter fun q => decide (lab q = lab p)) m ↔
      ObjectClass classification object m := by
    intro m
    cases classification with
    | none => rfl
    | some c =>
      show Mode _ _ ↔ Mode _ _
      rw [← mode_iff, ← mode_iff, mode_perm (hobj.map c)]
  have hmean : mean (pixels rows cols) lab g (lab p) = (object.map g).sum / object.length := by
    unfold mean
    rw [if_neg hp0, (hobj.map g).sum_eq, hobj.length_eq]
  rw [hmean]
  constructor
  · rintro ⟨m, s, a1, a2, a3⟩
    rw [hmode] at a2
    subst a2
    obtain ⟨c, c1, c2⟩ := (isChange_iff ..).mp a3
    exact ⟨m, c, (hcls m).mp a1, c1, c2⟩
  · rintro ⟨m, c, a1, a2, a3⟩
    exact ⟨m, _, (hcls m).mpr a1, (hmode _).mpr rfl, (isChange_iff ..).mpr ⟨c, a2, a3⟩⟩

/-- **C40.** Pixels without an object are never change, if slopes and thresholds are not negative. -/
theorem C40_background (lg : Nat → ℚ) (hlg : ∀ n, 1 ≤ n → 0 ≤ lg n) (par : Parameters) (uniform : Option ℚ × Option ℚ)
    (hpar : (0 ≤ par.default.slope ∧ 0 ≤ par.default.threshold) ∧
      ∀ k, 1 ≤ k → k ≤ 8 → 0 ≤ (par.cls k).slope ∧ 0 ≤ (par.cls k).threshold)
    (huni : ∀ t s, uniform = (some t, some s) → 0 ≤ s ∧ 0 ≤ t) (rows cols : Nat) (lab patch : Pixel → Nat) (g : Pixel → ℚ)
    (classification : Option (Pixel → Nat)) :
    ∃ ch, objectAnalysis lg par uniform (pixels rows cols) lab patch g classification = some ch ∧
      ∀ p, Inside rows cols p → lab p = 0 → ch p = 0 := by
  obtain ⟨ch, h1, h2⟩ := C40_core (lg := lg) (par := par) (uniform := uniform) (rows := rows) (cols := cols) (lab := lab)
    (patch := patch) (g := g) classification
  refine ⟨ch, h1, fun p hp h0 => ?_⟩
  obtain ⟨h3, h4⟩ := h2 p hp
  rcases h3 with h3 | h3
  · exact h3
  · exfalso
    obtain ⟨m, s, a1, a2, a3⟩ := h4.mp h3
    obtain ⟨c, c1, c2⟩ := (isChange_iff ..).mp a3
    have hs : 1 ≤ s := by
      have := a2.1
      obtain ⟨q, hq, rfl⟩ := List.mem_map.mp this
      have hq' := (List.mem_filter.mp hq).1
      exact List.length_pos_iff.mpr (List.ne_nil_of_mem (List.mem_filter.mpr ⟨hq', by simp⟩))
    have hc : 0 ≤ c.slope ∧ 0 ≤ c.threshold := by
      unfold classFor at c1
      split at c1
      · rw [c1]; exact hpar.1
      · obtain ⟨t, u⟩ := uniform
        cases t <;> cases u <;> simp only at c1 <;> first
          | (rcases c1 with h | h
             · rw [h.2]; exact hpar.1
             · rw [h.2.2]; exact hpar.2 _ h.1 h.2.1)
          | (rw [c1]; exact huni _ _ rfl)
    unfold Exceeds mean at c2
    rw [if_pos h0] at c2
    have h0 : 0 ≤ min 2 (lg s * c.slope + 95/100) := le_min (by norm_num) (by
      have := mul_nonneg (hlg s hs) hc.1
      linarith)
    nlinarith [hc.2]

/-! ## C62 -/

/-- **C62.** The break date handed on for a pixel: if the pixel is change, the date of the current snapshot, or
else that of the previous one, counted from the launch of Landsat 4; 0 if it is not change or has no date. -/
theorem C62_date (launch d prev : Int) (hl : 0 ≤ launch) (hd : d = -9999 ∨ 0 ≤ d) (hp : prev = -9999 ∨ 0 ≤ prev) :
    saved 0 (mergeDate launch d prev) = 0 ∧
    (d ≠ -9999 → saved 1 (mergeDate launch d prev) = d + launch) ∧
    (d = -9999 → prev ≠ -9999 → saved 1 (mergeDate launch d prev) = prev + launch) ∧
    (d = -9999 → prev = -9999 → saved 1 (mergeDate launch d prev) = 0) := by
  unfold saved mergeDate NAN
  refine ⟨by simp, fun h => ?_, fun h h' => ?_, fun h h' => ?_⟩
  · simp only [h, if_false]
    rw [if_neg (show ¬ d + launch = -9999 by omega), if_neg (show ¬ d + launch < 0 by omega)]; simp
  · simp only [h, h', if_true, if_false]
    rw [if_neg (show ¬ prev + launch < 0 by omega)]; simp
  · simp [h, h']

/-- **C62.** The value read back for pixel number `pos` of a block is the one of the pixel in the tile whose row
and column are passed to the reconstruction. -/
theorem C62_pixel (nbx bw bh i j pos : Nat) (hpos : pos < bw * bh) :
    ((Tile.strideOffset (nbx * bw) bh bw i j (pos / bw) (pos % bw) : Nat) : Int) =
      ((Tile.rowcolInTile pos bw bh (j + 1) (i + 1)).1 - 1) * ((nbx * bw : Nat) : Int) +
        ((Tile.rowcolInTile pos bw bh (j + 1) (i + 1)).2 - 1) := by
  have hbw : 0 < bw := by
    rcases Nat.eq_zero_or_pos bw with h | h
    · subst h; simp at hpos
    · exact h
  unfold Tile.rowcolInTile Tile.strideOffset
  have e : ((pos : Int) + (((i : Int) + 1 - 1) * bh + 1) * bw).tdiv bw = ((pos / bw + (i * bh + 1) : Nat) : Int) := by
    have : ((pos : Int) + (((i : Int) + 1 - 1) * bh + 1) * bw) = ((pos + (i * bh + 1) * bw : Nat) : Int) := by push_cast; ring
    rw [this, ← Int.ofNat_tdiv, Nat.add_mul_div_right _ _ hbw]
  simp only [e]
  push_cast
  ring

example : (Tile.strideOffset 15 4 5 2 1 (17 / 5) (17 % 5) : Nat) = 172 ∧ Tile.rowcolInTile 17 5 4 2 3 = (12, 8) := by decide

-- the whole analysis of a row of 4 pixels, one patch {0, 1}, one patch {3}: both are change
example : (objectAnalysis (fun _ => 0) shipped (none, none) (pixels 1 4) (objectMap 1 4 sampleG (fun _ => 0) 9 (2/5) 60)
    (fun p => if p.2 ≤ 1 then 1 else if p.2 = 3 then 2 else 0) sampleG none).map
      (fun ch => (List.range 4).map fun c => ch (0, c)) = some [1, 1, 0, 1] := by
  decide +kernel

end Pycold.Obia
