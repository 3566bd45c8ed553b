import Verif.Proof.Stack
/-!
# Properties C63–C68: from scenes to time series

* C63: the class of a packed quality value.
* C64: every usable observation reaches the detection of its pixel, once, in the order of dates.
* C65: the scaling of Collection 2.
* C66: the blocks cover the tile.
* C67: the first and last date.
* C68: the scenes are shared out among the ranks.
-/
namespace Pycold.Stack
open Spec

/-! ## C63 -/

/-- HLS: the class of a value is the highest of those it flags; there is always one. -/
theorem C63_hls (k : Kind) (hk : Hls k) (p : Nat) :
    (∃ c, Highest k p (fun _ => True) c) ∧ ∀ c, Highest k p (fun _ => True) c → decodeQa k p = c.code := by
  have key : ∀ (a1 a2 a3 a4 a5 : Bool), (∃ c : Class, ∀ (F : Class → Prop),
      ((F .fill ↔ p = 255) ∧ (F .cloud ↔ (a1 = true ∨ a2 = true)) ∧ (F .shadow ↔ a3 = true) ∧ (F .snow ↔ a4 = true) ∧
        (F .water ↔ a5 = true) ∧ (F .clear ↔ True)) →
      (F c ∧ ∀ d, F d → d.rank ≤ c.rank) ∧
      (if p = 255 then 255 else if a1 then 4 else if a2 then 4 else if a3 then 2 else if a4 then 3 else if a5 then 1 else 0) = c.code) := by
    intro a1 a2 a3 a4 a5
    by_cases hp : p = 255
    · refine ⟨.fill, ?_⟩
      rintro F ⟨f1, f2, f3, f4, f5, f6⟩
      refine ⟨⟨f1.2 hp, fun d _ => by cases d <;> decide⟩, by simp [hp, Class.code]⟩
    · refine ⟨if a1 || a2 then .cloud else if a3 then .shadow else if a4 then .snow else if a5 then .water else .clear, ?_⟩
      rintro F ⟨f1, f2, f3, f4, f5, f6⟩
      refine ⟨⟨?_, ?_⟩, ?_⟩
      · revert f1 f2 f3 f4 f5 f6
        cases a1 <;> cases a2 <;> cases a3 <;> cases a4 <;> cases a5 <;> simp_all
      · intro d
        revert f1 f2 f3 f4 f5 f6
        cases d <;> cases a1 <;> cases a2 <;> cases a3 <;> cases a4 <;> cases a5 <;> simp_all [Class.rank]
      · rw [if_neg hp]
        cases a1 <;> cases a2 <;> cases a3 <;> cases a4 <;> cases a5 <;> simp [Class.code]
  obtain ⟨c, hc⟩ := key (p.testBit 1) (p.testBit 2) (p.testBit 3) (p.testBit 4) (p.testBit 5)
  obtain ⟨⟨h1, h2⟩, h3⟩ := hc (flagged k p) (by cases k <;> simp [Hls] at hk <;> simp [flagged])
  have hdec : decodeQa k p = c.code := by
    rw [← h3]
    cases k <;> simp [Hls] at hk <;> simp only [decodeQa, qaHls, bit_eq]
  refine ⟨⟨c, trivial, h1, fun d _ => h2 d⟩, ?_⟩
  rintro c' ⟨-, g1, g2⟩
  have e1 := h2 c' g1
  have e2 := g2 c trivial h1
  have : c = c' := by cases c <;> cases c' <;> simp [Class.rank] at e1 e2 <;> rfl
  rw [hdec, this]

/-- The classes of Landsat, by bits. -/
theorem landsat_decode (k : Kind) (hk : ¬ Hls k) (p : Nat) (F : Class → Bool)
    (hF : ∀ c, c ≠ .fill → (F c = true ↔ flagged k p c)) :
    decodeQa k p = if F .cloud then 4 else if F .shadow then 2 else if F .snow then 3 else if F .water then 1 else
      if F .clear then 0 else 255 := by
  have h1 := hF .cloud (by simp)
  have h2 := hF .shadow (by simp)
  have h3 := hF .snow (by simp)
  have h4 := hF .water (by simp)
  have h5 := hF .clear (by simp)
  cases k <;> simp only [Hls, not_true_eq_false, not_false_eq_true] at hk <;>
    simp only [flagged] at h1 h2 h3 h4 h5 <;>
    simp only [decodeQa, qaC1, qaC2, bit_eq, Nat.reduceAdd] <;>
    simp only [h1, h2, h3, h4, h5] <;>
    split_ifs <;> simp_all

/-- Landsat: if the flag for fill does not come with another one, the class of a value is the highest of those it flags;
a value that flags nothing is fill. -/
theorem C63_landsat_partial (k : Kind) (hk : ¬ Hls k) (p : Nat) (hf : flagged k p .fill → ∀ d, d ≠ .fill → ¬ flagged k p d) :
    (∀ c, Highest k p (fun _ => True) c → decodeQa k p = c.code) ∧ ((∀ d, ¬ flagged k p d) → decodeQa k p = Class.fill.code) := by
  classical
  have h := landsat_decode k hk p (fun c => decide (flagged k p c)) (by simp)
  refine ⟨?_, ?_⟩
  · rintro c ⟨-, h1, h2⟩
    rw [h]
    have a1 := h2 .cloud trivial
    have a2 := h2 .shadow trivial
    have a3 := h2 .snow trivial
    have a4 := h2 .water trivial
    have a5 := h2 .clear trivial
    cases c <;> simp only [Class.rank] at a1 a2 a3 a4 a5 <;> simp only [decide_eq_true_eq, Class.code]
    · rw [if_neg (fun e => absurd (a1 e) (by decide)), if_neg (fun e => absurd (a2 e) (by decide)),
        if_neg (fun e => absurd (a3 e) (by decide)), if_neg (fun e => absurd (a4 e) (by decide)), if_pos h1]
    · rw [if_neg (fun e => absurd (a1 e) (by decide)), if_neg (fun e => absurd (a2 e) (by decide)),
        if_neg (fun e => absurd (a3 e) (by decide)), if_pos h1]
    · rw [if_neg (fun e => absurd (a1 e) (by decide)), if_pos h1]
    · rw [if_neg (fun e => absurd (a1 e) (by decide)), if_neg (fun e => absurd (a2 e) (by decide)), if_pos h1]
    · rw [if_pos h1]
    · have hn := hf h1
      rw [if_neg (hn _ (by simp)), if_neg (hn _ (by simp)), if_neg (hn _ (by simp)), if_neg (hn _ (by simp)), if_neg (hn _ (by simp))]
  · intro hn
    rw [h]
    simp [hn, Class.code]

/-- The full claim fails: with the flag for fill and another flag a Landsat value is never fill. -/
theorem C63_fill_flag_loses (k : Kind) (hk : ¬ Hls k) (p : Nat) (d : Class) (hd : d ≠ .fill) (h : flagged k p d) :
    decodeQa k p ≠ Class.fill.code := by
  classical
  rw [landsat_decode k hk p (fun c => decide (flagged k p c)) (by simp)]
  simp only [decide_eq_true_eq, Class.code]
  split_ifs <;> first | decide | skip
  cases d <;> simp_all

instance (k : Kind) (p : Nat) (c : Class) : Decidable (flagged k p c) := by
  cases k <;> cases c <;> simp only [flagged] <;> infer_instance

/-- 0b1100011 flags fill, dilated cloud, snow and clear in Collection 2, and 0b100010 clear and cloud in Collection 1. -/
example : flagged .c2 99 .fill ∧ flagged .c2 99 .snow ∧ decodeQa .c2 99 = 4 := by decide +kernel
example : decodeQa .ard 34 = 4 ∧ decodeQa .ard 322 = 0 ∧ decodeQa .c2 21824 = 0 ∧ decodeQa .c2 1 = 255 ∧ decodeQa .hls 64 = 0 := by decide +kernel
example : Highest .hls 40 (fun _ => True) .shadow :=
  ⟨trivial, by decide, fun d _ h => by cases d <;> revert h <;> decide⟩

/-! ## C64 -/

/-- The date in the name of the saved file is the date of acquisition in the name of the scene. -/
theorem C64_names (k : Kind) (f : Name) (o : Int) (h : Acquired k f o) :
    ∃ p, parse k f = some p ∧ dateOfFile p.name = some o ∧ (p.name.head? = some 'L' ∨ p.name.head? = some 'S') := by
  obtain ⟨p, hp⟩ := known h
  exact ⟨p, hp.parsed, hp.file, by simpa using hp.first⟩

example : Acquired .ard "LT05_CU_027009_19990214_20190101_C01_V01_SR".toList 729799 :=
  ⟨⟨'5', by decide, rfl⟩, "LT05_CU_027009_".toList, "_20190101_C01_V01_SR".toList, 1999, 2, 14, rfl, rfl, by
    refine ⟨?_, ?_, ?_, ?_, ?_, ?_, ?_⟩ <;> decide +kernel⟩

example : Acquired .hls "HLS.S30.T18TYM.2022074T153619.v2.0".toList 738229 :=
  ⟨"HLS".toList, "S30".toList, "T18TYM".toList, "2022074T153619".toList, "v2".toList, "0".toList, rfl,
    by decide +kernel, rfl, Or.inr rfl, rfl, 2022, 74, "T153619".toList, rfl, by decide, by decide, ⟨by decide +kernel, by decide +kernel⟩, by decide +kernel⟩

/-- The name of the file saved for a scene. -/
def nameOf (c : Config) (s : Scene) : Option Name := (parse c.kind s.folder).map (·.name)

open Classical in
/-- Scenes with regular names, images of the size of the tile and different file names, processed in any order; the folders
of the blocks, listed in any order; any range of dates.  Reading the stack of a block fails exactly if the range has
none of its scenes, and otherwise yields each scene used for the block once, in the order of dates, with its values at every pixel. -/
theorem C64_stack (c : Config) (ht : Tiled c) (scenes : List Scene) (date : Scene → Int)
    (hs : ∀ s ∈ scenes, Sized c s ∧ Acquired c.kind s.folder (date s))
    (hn : scenes.Pairwise fun s t => nameOf c s ≠ nameOf c t) :
    ∃ fs, runScenes c scenes [] = .ok fs ∧ ∀ i j, i < c.nby → j < c.nbx → ∀ listing, listing.Perm (folder fs i j) →
      ∀ low high : Int, ∃ used : List Scene,
        used.Perm (scenes.filter fun s => Used c date i j s ∧ InRange low high (date s)) ∧
        (used.Pairwise fun s t => date s ≤ date t) ∧
        ((∀ s ∈ scenes, ¬ Used c date i j s) → getStackDate (c.bh * c.bw) listing low high = .ok none) ∧
        ((∃ s ∈ scenes, Used c date i j s) → used = [] → getStackDate (c.bh * c.bw) listing low high = .raised) ∧
        (used ≠ [] → ∃ stack, getStackDate (c.bh * c.bw) listing low high = .ok (some stack) ∧
          argDates stack = used.map date ∧
          ∀ pos b, pos < c.bh * c.bw → b < 8 → argBand stack pos b = used.map fun s => valueAt c s (pixel c i j pos) b) := by
  have hname : ∀ s ∈ scenes, ∃ p, Known c.kind s.folder (date s) p ∧ (nameOf c s).getD [] = p.name := by
    intro s h
    obtain ⟨p, hp⟩ := known (hs s h).2
    exact ⟨p, hp, by simp [nameOf, hp.parsed]⟩
  have hd : scenes.Pairwise fun s t => (nameOf c s).getD [] ≠ (nameOf c t).getD [] := by
    refine List.Pairwise.imp_of_mem ?_ hn
    intro s t h1 h2 hst e
    obtain ⟨p, hp, e1⟩ := hname s h1
    obtain ⟨q, hq, e2⟩ := hname t h2
    apply hst
    simp only [nameOf, hp.parsed, hq.parsed, Option.map_some, Option.getD_some] at e ⊢
    rw [e]
  obtain ⟨fs, h1, h2⟩ := folder_run ht (date := date) (name := fun s => (nameOf c s).getD [])
    (fun s h => ⟨(hs s h).1, hname s h⟩) hd
  refine ⟨fs, h1, fun i j hi hj listing hl low high => ?_⟩
  generalize hm : (scenes.filter fun s => decide (Used c date i j s)) = m at h2
  have hmem : ∀ s, s ∈ m ↔ s ∈ scenes ∧ Used c date i j s := by intro s; rw [← hm]; simp
  have hmd : m.Pairwise fun s t => (nameOf c s).getD [] ≠ (nameOf c t).getD [] := by rw [← hm]; exact hd.filter _
  have hperm := h2 i j hi hj
  rw [hm] at hperm
  have hget := getStackDate_eq (npix := c.bh * c.bw) low high (hl.trans hperm) (date := date)
    (fun s h => by
      obtain ⟨p, hp, e⟩ := hname s ((hmem s).1 h).1
      refine ⟨by rw [e]; exact hp.file, by rw [e]; exact hp.first, by simp [content]⟩) hmd
  have hfil : (scenes.filter fun s => decide (Used c date i j s ∧ InRange low high (date s))) =
      m.filter fun s => decide (InRange low high (date s)) := by
    rw [← hm, List.filter_filter]
    refine List.filter_congr fun s _ => ?_
    simp [Bool.and_comm]
  generalize hB : (m.filter fun s => decide (InRange low high (date s))) = B at hget hfil
  let g : Scene → Int × Name × Block := fun s => (date s, (nameOf c s).getD [], content c s i j)
  refine ⟨B.insertionSort fun s t => Le (g s) (g t), ?_, ?_, ?_, ?_, ?_⟩
  · rw [hfil]; exact List.perm_insertionSort _ _
  · have : Std.Total fun s t => Le (g s) (g t) := ⟨fun s t => Le.total _ _⟩
    have : IsTrans Scene fun s t => Le (g s) (g t) := ⟨fun _ _ _ => Le.trans⟩
    refine (List.pairwise_insertionSort (fun s t => Le (g s) (g t)) B).imp ?_
    intro s t h
    rcases h with h | ⟨h, -⟩
    · exact Int.le_of_lt h
    · exact Int.le_of_eq h
  · intro hnone
    rw [hget, if_pos]
    rw [List.eq_nil_iff_forall_not_mem]
    intro s h
    exact hnone s ((hmem s).1 h).1 ((hmem s).1 h).2
  · rintro ⟨s, h3, h4⟩ he
    have hne : m ≠ [] := List.ne_nil_of_mem ((hmem s).2 ⟨h3, h4⟩)
    have hBe : B = [] := by
      have := (List.perm_insertionSort (fun s t => Le (g s) (g t)) B).length_eq
      rw [he] at this
      exact List.length_eq_zero_iff.1 this.symm
    rw [hget, if_neg hne, if_pos hBe]
  · intro he
    have hBe : B ≠ [] := by
      intro e; rw [e] at he; exact he rfl
    have hne : m ≠ [] := by
      rintro rfl; rw [← hB] at hBe; exact hBe rfl
    have hsort := List.map_insertionSort (r := fun s t => Le (g s) (g t)) (s := Le) g B (fun _ _ _ _ => Iff.rfl)
    refine ⟨(B.insertionSort fun s t => Le (g s) (g t)).map fun s => (date s, content c s i j), ?_, ?_, ?_⟩
    · rw [hget, if_neg hne, if_neg hBe]
      congr 2
      show (List.insertionSort Le (B.map g)).map _ = _
      rw [← hsort, List.map_map]
      rfl
    · simp [argDates, Function.comp_def]
    · intro pos b hp hb
      rw [argBand, List.map_map]
      refine List.map_congr_left fun s _ => ?_
      have e : (content c s i j).getD pos [] = (List.range 8).map fun b => valueAt c s (pixel c i j pos) b := by
        rw [content, List.getD_eq_getElem _ _ (by simpa using hp), List.getElem_map, List.getElem_range]
      simp only [Function.comp, e]
      rw [List.getD_eq_getElem _ _ (by simpa using hb), List.getElem_map, List.getElem_range]

/-- A pixel at which an admitted scene shows the ground lies in a block for which that scene is used. -/
theorem C64_observation (c : Config) (ht : Tiled c) (date : Scene → Int) (s : Scene) (packed : List Nat) (bands : Nat → List Int)
    (ha : Admitted c s (date s) packed bands) (r col : Nat) (hr : r < c.nRows) (hc : col < c.nCols)
    (hseen : Seen (classAt c s packed (place c r col))) :
    ∃ i j pos, i < c.nby ∧ j < c.nbx ∧ pos < c.bh * c.bw ∧ pixel c i j pos = place c r col ∧ Used c date i j s := by
  obtain ⟨hw, hh, e1, e2⟩ := ht
  have m1 := Nat.mod_lt col hw
  have m2 := Nat.mod_lt r hh
  have hpos : (r % c.bh) * c.bw + col % c.bw < c.bh * c.bw := by
    have : (r % c.bh + 1) * c.bw ≤ c.bh * c.bw := Nat.mul_le_mul_right _ m2
    rw [Nat.add_mul] at this; omega
  have d1 : ((r % c.bh) * c.bw + col % c.bw) / c.bw = r % c.bh := by
    rw [Nat.mul_comm, Nat.mul_add_div hw, Nat.div_eq_of_lt m1, Nat.add_zero]
  have d2 : ((r % c.bh) * c.bw + col % c.bw) % c.bw = col % c.bw := by
    rw [Nat.mul_comm, Nat.mul_add_mod, Nat.mod_eq_of_lt m1]
  have hpix : pixel c (r / c.bh) (col / c.bw) ((r % c.bh) * c.bw + col % c.bw) = place c r col := by
    rw [pixel, d1, d2, Nat.div_add_mod', Nat.div_add_mod']
  refine ⟨r / c.bh, col / c.bw, (r % c.bh) * c.bw + col % c.bw, ?_, ?_, hpos, hpix, packed, bands, ha, _, hpos, ?_⟩
  · exact (Nat.div_lt_iff_lt_mul hh).2 (by rw [← e2]; exact hr)
  · exact (Nat.div_lt_iff_lt_mul hw).2 (by rw [← e1]; exact hc)
  · rw [hpix]; exact hseen

open Classical in
/-- The order in which the scenes are processed and the order in which the folder is listed make no difference. -/
theorem C64_schedule (c : Config) (ht : Tiled c) (scenes scenes' : List Scene) (date : Scene → Int)
    (hs : ∀ s ∈ scenes, Sized c s ∧ Acquired c.kind s.folder (date s))
    (hn : scenes.Pairwise fun s t => nameOf c s ≠ nameOf c t) (hp : scenes.Perm scenes') :
    ∃ fs fs', runScenes c scenes [] = .ok fs ∧ runScenes c scenes' [] = .ok fs' ∧ ∀ i j, i < c.nby → j < c.nbx →
      ∀ listing listing', listing.Perm (folder fs i j) → listing'.Perm (folder fs' i j) → ∀ low high,
        getStackDate (c.bh * c.bw) listing low high = getStackDate (c.bh * c.bw) listing' low high := by
  have hname : ∀ s ∈ scenes, ∃ p, Known c.kind s.folder (date s) p ∧ (nameOf c s).getD [] = p.name := by
    intro s h
    obtain ⟨p, hp⟩ := known (hs s h).2
    exact ⟨p, hp, by simp [nameOf, hp.parsed]⟩
  have hd : scenes.Pairwise fun s t => (nameOf c s).getD [] ≠ (nameOf c t).getD [] := by
    refine List.Pairwise.imp_of_mem ?_ hn
    intro s t h1 h2 hst e
    obtain ⟨p, hp, e1⟩ := hname s h1
    obtain ⟨q, hq, e2⟩ := hname t h2
    apply hst
    simp only [nameOf, hp.parsed, hq.parsed, Option.map_some, Option.getD_some] at e ⊢
    rw [e]
  have hd' : scenes'.Pairwise fun s t => (nameOf c s).getD [] ≠ (nameOf c t).getD [] :=
    (hp.pairwise_iff (fun h => h.symm)).1 hd
  obtain ⟨fs, h1, h2⟩ := folder_run ht (date := date) (name := fun s => (nameOf c s).getD [])
    (fun s h => ⟨(hs s h).1, hname s h⟩) hd
  obtain ⟨fs', h1', h2'⟩ := folder_run ht (date := date) (name := fun s => (nameOf c s).getD [])
    (fun s h => ⟨(hs s (hp.mem_iff.2 h)).1, hname s (hp.mem_iff.2 h)⟩) hd'
  refine ⟨fs, fs', h1, h1', fun i j hi hj listing listing' hl hl' low high => ?_⟩
  have hfp : (scenes'.filter fun s => decide (Used c date i j s)).Perm (scenes.filter fun s => decide (Used c date i j s)) :=
    hp.symm.filter _
  have hk : ∀ s ∈ scenes.filter (fun s => decide (Used c date i j s)), dateOfFile ((nameOf c s).getD []) = some (date s) ∧
      (((nameOf c s).getD []).head? = some 'L' || ((nameOf c s).getD []).head? = some 'S') = true ∧
      (content c s i j).length = c.bh * c.bw := by
    intro s h
    obtain ⟨p, hp, e⟩ := hname s (List.mem_filter.1 h).1
    refine ⟨by rw [e]; exact hp.file, by rw [e]; exact hp.first, by simp [content]⟩
  rw [getStackDate_eq low high (hl.trans (h2 i j hi hj)) hk (hd.filter _),
    getStackDate_eq low high (hl'.trans ((h2' i j hi hj).trans (hfp.map _))) hk (hd.filter _)]

/-- Scenes of a satellite that is not known end the process. -/
theorem C64_unknown_satellite (c : Config) (hk : ¬ Hls c.kind) (s : Scene) (packed : List Nat) (hq : s.qa = some packed)
    (hc : ClearEnough c.threshold (packed.map (decodeQa c.kind)))
    (hf : ∀ x ∈ ['4', '5', '7', '8', '9'], s.folder[3]? ≠ some x) : stackScene c s = .raised := by
  have hsens : s.folder[3]?.bind sensorOf = none := by
    cases h : s.folder[3]? with
    | none => rfl
    | some x =>
      rw [h] at hf
      have h4 := hf '4' (by decide)
      have h5 := hf '5' (by decide)
      have h7 := hf '7' (by decide)
      have h8 := hf '8' (by decide)
      have h9 := hf '9' (by decide)
      simp only [ne_eq, Option.some.injEq] at h4 h5 h7 h8 h9
      simp [sensorOf, h4, h5, h7, h8, h9]
  have hp : parse c.kind s.folder = none := by
    revert hk
    cases c.kind <;> intro hk <;> simp [Hls] at hk <;> simp [parse, hsens]
  rw [stackScene, hq]
  simp only
  rw [if_pos ((enoughClear_iff _ _).2 hc), hp]
  rfl

/-! ### A concrete case: two scenes of a tile of 2 × 2 pixels in two blocks -/

def exConfig : Config := ⟨.ard, 2, 2, 2, 1, 0, none, none, none⟩
def exA : Scene := ⟨"LT05_CU_027009_19990214_20190101_C01_V01_SR".toList, some [66, 96, 66, 96], some fun b => [b, b + 1, b + 2, b + 3], none⟩
def exB : Scene := ⟨"LE07_CU_027009_19980101_20190101_C01_V01_SR".toList, some [66, 66, 130, 68], some fun b => [10, b, 20, b], none⟩

example : Tiled exConfig := by refine ⟨?_, ?_, ?_, ?_⟩ <;> decide
example : Sized exConfig exA ∧ Sized exConfig exB := by
  refine ⟨⟨?_, ?_, ?_⟩, ?_, ?_, ?_⟩
  · intro p h; cases h; rfl
  · intro b h; cases h; intros; rfl
  · intro m h; cases h
  · intro p h; cases h; rfl
  · intro b h; cases h; intros; rfl
  · intro m h; cases h
example : nameOf exConfig exA ≠ nameOf exConfig exB := by decide +kernel
/-- The earlier scene comes first; in the second block the later one shows only cloud and is left out. -/
example : ∃ fs, runScenes exConfig [exA, exB] [] = .ok fs ∧
    getStackDate 2 (folder fs 0 0) 0 0 = .ok (some [(729390, [[10, 10, 10, 10, 10, 10, 10, 0], [20, 20, 20, 20, 20, 20, 20, 0]]),
      (729799, [[0, 1, 2, 3, 4, 5, 6, 0], [2, 3, 4, 5, 6, 7, 8, 0]])]) ∧
    getStackDate 2 (folder fs 0 1) 0 0 = .ok (some [(729390, [[0, 1, 2, 3, 4, 5, 6, 0], [0, 1, 2, 3, 4, 5, 6, 1]])]) ∧
    getStackDate 2 (folder fs 0 1) 729391 0 = .raised := ⟨_, rfl, by decide +kernel, by decide +kernel, by decide +kernel⟩

/-! ## C65 -/

theorem trunc_close (x n : Int) (hn : 0 < n) : |(x : ℚ) / n - (x.tdiv n : Int)| < 1 := by
  have h1 := Int.mul_tdiv_add_tmod x n
  have h2 := Int.tmod_lt_of_pos x hn
  have h3 : -n < x.tmod n := Int.lt_tmod_of_pos x hn
  generalize x.tdiv n = q at h1
  generalize x.tmod n = r at h1 h2 h3
  have hq : (0 : ℚ) < n := by exact_mod_cast hn
  have e : (x : ℚ) / n - q = r / n := by
    rw [← h1]; push_cast; field_simp; ring
  rw [e, abs_lt]
  constructor
  · rw [lt_div_iff₀ hq]; have : ((-n : Int) : ℚ) < (r : ℚ) := by exact_mod_cast h3
    push_cast at this; linarith
  · rw [div_lt_one hq]; exact_mod_cast h2

theorem reflectance_close (dn : Int) : |10000 * reflectanceOf dn - reflectance dn| < 1 := by
  have h := trunc_close (275 * dn - 2000000) 1000 (by decide)
  have e : 10000 * reflectanceOf dn = ((275 * dn - 2000000 : Int) : ℚ) / (1000 : Int) := by
    simp only [reflectanceOf]; push_cast; ring
  rw [e]; exact h

theorem thermal_close (dn : Int) : |10 * kelvinOf dn - thermal dn| < 1 := by
  have h := trunc_close (341802 * dn + 14900000000) 10000000 (by decide)
  have e : 10 * kelvinOf dn = ((341802 * dn + 14900000000 : Int) : ℚ) / (10000000 : Int) := by
    simp only [kelvinOf]; push_cast; ring
  rw [e]; exact h

theorem wrap_fits {v : Int} (h0 : -32768 ≤ v) (h1 : v ≤ 32767) : wrap16 v = v := by
  simp only [wrap16, Int.bmod]; omega

theorem reflectance_fits {dn : Int} (h0 : 0 ≤ dn) (h1 : dn ≤ 65535) : wrap16 (reflectance dn) = reflectance dn := by
  have h := abs_lt.1 (reflectance_close dn)
  have g0 : (0 : ℚ) ≤ dn := by exact_mod_cast h0
  have g1 : (dn : ℚ) ≤ 65535 := by exact_mod_cast h1
  simp only [reflectanceOf] at h
  refine wrap_fits ?_ ?_
  · have : ((-32768 : Int) : ℚ) ≤ (reflectance dn : ℚ) := by push_cast; linarith
    exact_mod_cast this
  · have : (reflectance dn : ℚ) ≤ ((32767 : Int) : ℚ) := by push_cast; linarith
    exact_mod_cast this

theorem thermal_fits {dn : Int} (h0 : 0 ≤ dn) (h1 : dn ≤ 65535) : wrap16 (thermal dn) = thermal dn := by
  have h := abs_lt.1 (thermal_close dn)
  have g0 : (0 : ℚ) ≤ dn := by exact_mod_cast h0
  have g1 : (dn : ℚ) ≤ 65535 := by exact_mod_cast h1
  simp only [kelvinOf] at h
  refine wrap_fits ?_ ?_
  · have : ((-32768 : Int) : ℚ) ≤ (thermal dn : ℚ) := by push_cast; linarith
    exact_mod_cast this
  · have : (thermal dn : ℚ) ≤ ((32767 : Int) : ℚ) := by push_cast; linarith
    exact_mod_cast this

/-- The values of the first five bands: reflectance times 10000, cut to a whole number. -/
theorem C65_first_bands_partial (k : Kind) (hk : k = .ardC2 ∨ k = .c2) (b : Nat) (hb : b < 5) (dn : Int) (h0 : 0 ≤ dn) (h1 : dn ≤ 65535) :
    |10000 * reflectanceOf dn - stored k b dn| < 1 := by
  have e : stored k b dn = reflectance dn := by
    rcases hk with e | e <;> rw [e, stored, if_neg (by omega), reflectance_fits h0 h1]
  rw [e]; exact reflectance_close dn

/-- Collection 1 and HLS: the values as they are (HLS has no thermal band). -/
theorem C65_unscaled (k : Kind) (hk : k = .ard ∨ Hls k) (b : Nat) (hb : Hls k → b < 6) (dn : Int) (h0 : -32768 ≤ dn) (h1 : dn ≤ 32767) :
    stored k b dn = dn := by
  rcases hk with e | e
  · rw [e, stored, wrap_fits h0 h1]
  · have := hb e
    cases k <;> simp only [Hls] at e <;> rw [stored, if_neg (by omega), wrap_fits h0 h1]

/-- The second short-wave band is scaled as a temperature: away from one number its value is not the reflectance. -/
theorem C65_swir2_wrong (k : Kind) (hk : k = .ardC2 ∨ k = .c2) (dn : Int) (h0 : 0 ≤ dn) (h1 : dn ≤ 65535)
    (h : dn ≤ 14000 ∨ 15000 ≤ dn) :
    |10 * kelvinOf dn - stored k 5 dn| < 1 ∧ 100 < |10000 * reflectanceOf dn - stored k 5 dn| := by
  have e : stored k 5 dn = thermal dn := by
    rcases hk with e | e <;> rw [e, stored, if_pos rfl, thermal_fits h0 h1]
  rw [e]
  have hc := thermal_close dn
  refine ⟨hc, ?_⟩
  have hc' := abs_lt.1 hc
  rw [lt_abs]
  simp only [kelvinOf, reflectanceOf] at hc' ⊢
  rcases h with h | h
  · right
    have g : (dn : ℚ) ≤ 14000 := by exact_mod_cast h
    linarith
  · left
    have g : (15000 : ℚ) ≤ dn := by exact_mod_cast h
    linarith

/-- The thermal band is scaled as a reflectance: away from the same number its value is not the temperature. -/
theorem C65_thermal_wrong (k : Kind) (hk : k = .ardC2 ∨ k = .c2) (dn : Int) (h0 : 0 ≤ dn) (h1 : dn ≤ 65535)
    (h : dn ≤ 14000 ∨ 15000 ≤ dn) :
    |10000 * reflectanceOf dn - stored k 6 dn| < 1 ∧ 100 < |10 * kelvinOf dn - stored k 6 dn| := by
  have e : stored k 6 dn = reflectance dn := by
    rcases hk with e | e <;> rw [e, stored, if_neg (by decide), reflectance_fits h0 h1]
  rw [e]
  have hc := reflectance_close dn
  refine ⟨hc, ?_⟩
  have hc' := abs_lt.1 hc
  rw [lt_abs]
  simp only [kelvinOf, reflectanceOf] at hc' ⊢
  rcases h with h | h
  · left
    have g : (dn : ℚ) ≤ 14000 := by exact_mod_cast h
    linarith
  · right
    have g : (15000 : ℚ) ≤ dn := by exact_mod_cast h
    linarith

/-- 43000 is 295.97 K; 10000 is a reflectance of 0.075.  The program saves 9825 and 1831 instead of 2959 and 750. -/
example : stored .c2 6 43000 = 9825 ∧ thermal 43000 = 2959 ∧ stored .c2 5 10000 = 1831 ∧ reflectance 10000 = 750 := by decide +kernel

/-! ## C66 -/

theorem place_inj {c : Config} {r r' col col' : Nat} (h : col < c.nCols) (h' : col' < c.nCols) (e : place c r col = place c r' col') :
    r = r' ∧ col = col' := by
  simp only [place] at e
  have hpos : 0 < c.nCols := by omega
  have d1 : (r * c.nCols + col) / c.nCols = r := by rw [Nat.mul_comm, Nat.mul_add_div hpos, Nat.div_eq_of_lt h, Nat.add_zero]
  have d2 : (r' * c.nCols + col') / c.nCols = r' := by rw [Nat.mul_comm, Nat.mul_add_div hpos, Nat.div_eq_of_lt h', Nat.add_zero]
  have : r = r' := by rw [← d1, ← d2, e]
  subst this
  exact ⟨rfl, by omega⟩

/-- The blocks fill the tile exactly if their numbers divide the numbers of columns and rows. -/
theorem C66_divides (c : Config) (h1 : 0 < c.nCols) (h2 : 0 < c.nRows) : Tiled c ↔ c.nbx ∣ c.nCols ∧ c.nby ∣ c.nRows := by
  constructor
  · rintro ⟨-, -, e1, e2⟩
    exact ⟨⟨_, e1⟩, ⟨_, e2⟩⟩
  · rintro ⟨d1, d2⟩
    have e1 : c.nCols = c.nbx * c.bw := by rw [Config.bw, Nat.mul_div_cancel' d1]
    have e2 : c.nRows = c.nby * c.bh := by rw [Config.bh, Nat.mul_div_cancel' d2]
    refine ⟨Nat.pos_of_ne_zero fun h => ?_, Nat.pos_of_ne_zero fun h => ?_, e1, e2⟩
    · rw [h] at e1; omega
    · rw [h] at e2; omega

/-- Then every pixel of the tile is in exactly one block, in one place, and the configuration passes the check. -/
theorem C66_cover_partial (c : Config) (ht : Tiled c) :
    acceptsConfig c = true ∧
    ∀ r col, r < c.nRows → col < c.nCols → ∃ i j pos, (i < c.nby ∧ j < c.nbx ∧ pos < c.bh * c.bw ∧ pixel c i j pos = place c r col) ∧
      ∀ i' j' pos', i' < c.nby → j' < c.nbx → pos' < c.bh * c.bw → pixel c i' j' pos' = place c r col → i' = i ∧ j' = j ∧ pos' = pos := by
  have ht' := ht
  obtain ⟨hw, hh, e1, e2⟩ := ht
  refine ⟨?_, ?_⟩
  · simp only [acceptsConfig, decide_eq_true_eq]
    generalize c.bw = w at *
    generalize c.bh = h at *
    rw [e1, e2]; simp
  · intro r col hr hc
    have m1 := Nat.mod_lt col hw
    have m2 := Nat.mod_lt r hh
    have hpos : (r % c.bh) * c.bw + col % c.bw < c.bh * c.bw := by
      have : (r % c.bh + 1) * c.bw ≤ c.bh * c.bw := Nat.mul_le_mul_right _ m2
      rw [Nat.add_mul] at this; omega
    have d1 : ((r % c.bh) * c.bw + col % c.bw) / c.bw = r % c.bh := by
      rw [Nat.mul_comm, Nat.mul_add_div hw, Nat.div_eq_of_lt m1, Nat.add_zero]
    have d2 : ((r % c.bh) * c.bw + col % c.bw) % c.bw = col % c.bw := by
      rw [Nat.mul_comm, Nat.mul_add_mod, Nat.mod_eq_of_lt m1]
    refine ⟨r / c.bh, col / c.bw, (r % c.bh) * c.bw + col % c.bw, ⟨?_, ?_, hpos, ?_⟩, ?_⟩
    · exact (Nat.div_lt_iff_lt_mul hh).2 (by rw [← e2]; exact hr)
    · exact (Nat.div_lt_iff_lt_mul hw).2 (by rw [← e1]; exact hc)
    · rw [pixel, d1, d2, Nat.div_add_mod', Nat.div_add_mod']
    · intro i' j' pos' hi hj hp e
      have n1 := Nat.mod_lt pos' hw
      have n2 : pos' / c.bw < c.bh := (Nat.div_lt_iff_lt_mul hw).2 hp
      have hlt : j' * c.bw + pos' % c.bw < c.nCols := by
        have : (j' + 1) * c.bw ≤ c.nbx * c.bw := Nat.mul_le_mul_right _ hj
        rw [Nat.add_mul] at this; rw [e1]; omega
      obtain ⟨a, b⟩ := place_inj hlt hc e
      have a1 : r / c.bh = i' := by rw [← a, Nat.mul_comm, Nat.mul_add_div hh, Nat.div_eq_of_lt n2, Nat.add_zero]
      have a2 : r % c.bh = pos' / c.bw := by rw [← a, Nat.mul_comm, Nat.mul_add_mod, Nat.mod_eq_of_lt n2]
      have b1 : col / c.bw = j' := by rw [← b, Nat.mul_comm, Nat.mul_add_div hw, Nat.div_eq_of_lt n1, Nat.add_zero]
      have b2 : col % c.bw = pos' % c.bw := by rw [← b, Nat.mul_comm, Nat.mul_add_mod, Nat.mod_eq_of_lt n1]
      refine ⟨a1.symm, b1.symm, ?_⟩
      rw [a2, b2, Nat.div_add_mod']

/-- The columns beyond the last block belong to no block. -/
theorem C66_lost (c : Config) (hw : 0 < c.bw) (r col : Nat) (h1 : c.nbx * c.bw ≤ col) (h2 : col < c.nCols) :
    ∀ i j pos, i < c.nby → j < c.nbx → pos < c.bh * c.bw → pixel c i j pos ≠ place c r col := by
  intro i j pos hi hj hp e
  have n1 := Nat.mod_lt pos hw
  have hlt : j * c.bw + pos % c.bw < c.nbx * c.bw := by
    have : (j + 1) * c.bw ≤ c.nbx * c.bw := Nat.mul_le_mul_right _ hj
    rw [Nat.add_mul] at this; omega
  obtain ⟨-, b⟩ := place_inj (by omega) h2 e
  omega

/-- The check lets such configurations pass: with 10 columns in 4 blocks, columns 8 and 9 are never processed. -/
theorem C66_check_insufficient : ∃ c : Config, acceptsConfig c = true ∧ 0 < c.bw ∧ 0 < c.bh ∧ ∃ col, col < c.nCols ∧
    ∀ r i j pos, i < c.nby → j < c.nbx → pos < c.bh * c.bw → pixel c i j pos ≠ place c r col :=
  ⟨⟨.ard, 10, 10, 4, 5, 0, none, none, none⟩, by decide, by decide, by decide, 8, by decide,
    fun r => C66_lost _ (by decide) r 8 (by decide) (by decide)⟩

example : Tiled ⟨.ard, 5000, 5000, 20, 25, 0, none, none, none⟩ := (C66_divides _ (by decide) (by decide)).2 (by decide)

/-! ## C67 -/

theorem date_pos {k : Kind} {f : Name} {o : Int} (h : Acquired k f o) : 1 ≤ o := by
  have hb : ∀ y : Nat, 1 ≤ y → 0 ≤ Pycold.Spec.daysBeforeYear y := by
    intro y hy; simp only [Pycold.Spec.daysBeforeYear]; omega
  have hl : ∀ at_, Landsat at_ f o → 1 ≤ o := by
    rintro at_ ⟨-, pre, post, y, m, d, -, -, h1, h2, h3, h4, h5, h6, h7⟩
    have := hb y h1
    have := beforeMonth_eq y m h3 h4
    rw [h7, Pycold.Spec.ordinal]; omega
  have hp : ∀ {product sensor tile time v1 v2}, HlsParts product sensor tile time v1 v2 o → 1 ≤ o := by
    rintro _ _ _ _ _ _ ⟨-, -, -, -, y, doy, rest, -, h1, -, h2, h3⟩
    have := hb y h1
    have := h2.1
    rw [h3, Pycold.Spec.ordinal]; omega
  cases k with
  | ard => exact hl _ h
  | ardC2 => exact hl _ h
  | c2 => exact hl _ h
  | hls => obtain ⟨_, _, _, _, _, _, -, h⟩ := h; exact hp h
  | hls14 => obtain ⟨_, _, _, _, _, _, _, _, -, -, -, h⟩ := h; exact hp h

/-- Every scene that is not turned away is dated between the two dates in the file (without an upper bound: up to the year
2738); without bounds these are the dates of scenes. -/
theorem C67_bounds (c : Config) (scenes : List Scene) (date : Scene → Int) (hs : ∀ s ∈ scenes, Acquired c.kind s.folder (date s))
    (hne : scenes ≠ []) (hmax : c.upp = none → ∀ s ∈ scenes, date s ≤ 999999) :
    ∃ a b, startLast c (scenes.map (·.folder)) = some (a, b) ∧
      (∀ s ∈ scenes, ∀ packed bands, Admitted c s (date s) packed bands → a ≤ date s ∧ date s ≤ b) ∧
      (c.low = none → ∃ s ∈ scenes, a = date s) ∧ (c.upp = none → ∃ s ∈ scenes, b = date s) := by
  have hmap : (scenes.map (·.folder)).mapM (folderDate c.kind) = some (scenes.map date) := by
    have h1 := ChangeMap.mapM_some (folderDate c.kind) (fun f => (folderDate c.kind f).getD 0) (scenes.map (·.folder)) (by
      intro f hf
      obtain ⟨s, h, e⟩ := List.mem_map.1 hf
      obtain ⟨p, hp⟩ := known (hs s h)
      rw [← e, hp.folder]; rfl)
    rw [h1, List.map_map]
    congr 1
    refine List.map_congr_left fun s h => ?_
    obtain ⟨p, hp⟩ := known (hs s h)
    simp only [Function.comp, hp.folder, Option.getD_some]
  rw [startLast, hmap]
  simp only [Option.bind_eq_bind, Option.bind_some]
  have hsorted := List.pairwise_insertionSort (· ≤ ·) (scenes.map date)
  have hperm := List.perm_insertionSort (· ≤ ·) (scenes.map date)
  generalize hl : (scenes.map date).insertionSort (· ≤ ·) = l at hsorted hperm
  have hmem : ∀ d, d ∈ l ↔ ∃ s ∈ scenes, date s = d := by
    intro d; rw [hperm.mem_iff, List.mem_map]
  cases l with
  | nil =>
    exfalso
    obtain ⟨s, h⟩ := List.exists_mem_of_ne_nil _ hne
    exact absurd ((hmem (date s)).2 ⟨s, h, rfl⟩) (by simp)
  | cons d rest =>
    simp only
    have hlast : (d :: rest).getLastD 0 = (d :: rest).getLast (by simp) := by
      rw [List.getLastD_eq_getLast?, List.getLast?_eq_some_getLast (by simp)]; rfl
    have hlow : ∀ x ∈ d :: rest, d ≤ x := by
      intro x hx
      rcases List.mem_cons.1 hx with e | e
      · omega
      · exact (List.pairwise_cons.1 hsorted).1 x e
    have hupp : ∀ x ∈ d :: rest, x ≤ (d :: rest).getLastD 0 := by
      intro x hx
      rw [hlast]
      obtain ⟨n, hn, e⟩ := List.getElem_of_mem hx
      rw [List.getLast_eq_getElem, ← e]
      rcases Nat.lt_or_ge n ((d :: rest).length - 1) with h | h
      · exact List.pairwise_iff_getElem.1 hsorted n _ hn (by simp) h
      · have : n = (d :: rest).length - 1 := by omega
        simp only [this]; exact Int.le_refl _
    have hlm : (d :: rest).getLastD 0 ∈ d :: rest := by rw [hlast]; exact List.getLast_mem _
    generalize (d :: rest).getLastD 0 = z at *
    obtain ⟨s1, m1, e1⟩ := (hmem d).1 (by simp)
    obtain ⟨s2, m2, e2⟩ := (hmem z).1 hlm
    refine ⟨_, _, rfl, ?_, ?_, ?_⟩
    · intro s hm packed bands ha
      have g1 := hlow _ ((hmem _).2 ⟨s, hm, rfl⟩)
      have g2 := hupp _ ((hmem _).2 ⟨s, hm, rfl⟩)
      have g3 := date_pos (hs s hm)
      obtain ⟨-, -, -, hlo, hup, -⟩ := ha
      constructor
      · refine max_le g1 ?_
        cases hlc : c.low with
        | none => simp; omega
        | some v => exact hlo v hlc
      · refine le_min g2 ?_
        cases huc : c.upp with
        | none => exact hmax huc s hm
        | some v => exact hup v huc
    · intro h
      refine ⟨s1, m1, ?_⟩
      have := date_pos (hs s1 m1)
      rw [h, e1]; simp only [Option.getD_none]; omega
    · intro h
      refine ⟨s2, m2, ?_⟩
      have := hmax h s2 m2
      rw [h, e2]; simp only [Option.getD_none]; omega

example : startLast exConfig ([exA, exB].map (·.folder)) = some (729390, 729799) := by decide +kernel

/-! ## C68 -/

/-- With ranks 1 to `cores`, every scene of the list is processed by exactly one rank, and by it once. -/
theorem C68_scenes (n cores : Nat) (hc : 1 ≤ cores) :
    Tile.Spec.SharedOut (fun k => k < n) (fun rank => 1 ≤ rank ∧ rank ≤ cores) (scenesOf n cores) := by
  obtain ⟨h1, h2⟩ := Pycold.C36_export n cores hc
  refine ⟨?_, ?_⟩
  · intro w hw
    exact h1 (w - 1) (by omega)
  · intro k hk
    obtain ⟨w, hw, hm, hu⟩ := h2 k hk
    refine ⟨w + 1, by omega, by simpa [scenesOf] using hm, ?_⟩
    intro w' hw' hm'
    have := hu (w' - 1) (by omega) hm'
    omega

example : scenesOf 7 3 1 = [0, 3, 6] ∧ scenesOf 7 3 2 = [1, 4] ∧ scenesOf 7 3 3 = [2, 5] := by decide

end Pycold.Stack
