import Verif.Proof.ChangeMap
import Mathlib.Tactic.IntervalCases
/-!
# C46, C60, C61: features and change maps from change records
-/
namespace Pycold.ChangeMap

open Spec

/-! ## C46 -/

/-- **C46.** In both versions, for the nine names documented for both, any segments, days and fill value: the
call succeeds and, for every name and every day, gives the value of the name in a segment that covers the day
(it has begun, the next one has not; the last one ends at `t_end`, or at 31 December of its year), or the fill
value if no segment covers the day. -/
theorem C46_features (ver : Version) (plot : List Rec) (band : Nat) (days : List Int) (fill : Q) (fs : List Feature)
    (hf : ∀ f ∈ fs, Named f) :
    ∃ M : Feature → Int → Q,
      extractFeatures ver plot band days fill fs = some (fs.map fun f => days.map fun day => M f day) ∧
      ∀ f ∈ fs, ∀ day ∈ days,
        (∃ i c, plot[i]? = some c ∧
          Covers (match ver with
            | .classifier => fun c => c.tEnd
            | .export_ => fun c => Pycold.Spec.ordinal (yearOf c.tEnd + 1) 1 - 1) plot day i ∧
          M f day = some (featureValue c band day f)) ∨
        ((∀ i, ¬ Covers (match ver with
            | .classifier => fun c => c.tEnd
            | .export_ => fun c => Pycold.Spec.ordinal (yearOf c.tEnd + 1) 1 - 1) plot day i) ∧ M f day = fill) := by
  have e : (match ver with
            | .classifier => fun c => c.tEnd
            | .export_ => fun c => Pycold.Spec.ordinal (yearOf c.tEnd + 1) 1 - 1) = lastDays ver := by
    cases ver with
    | classifier => rfl
    | export_ =>
      funext c
      simp only [lastDays]
      rw [dec31_eq, jan1_eq]
  rw [e]
  refine ⟨fun f day => match pick ver day plot with
      | none => fill
      | some c => some (featureValue c band day f), ?_, ?_⟩
  · unfold extractFeatures
    refine mapM_some _ _ fs fun f h => mapM_some _ _ days fun day _ => ?_
    exact entry_eq (hf f h)
  · intro f _ day _
    simp only
    cases hp : pick ver day plot with
    | none => exact Or.inr ⟨pick_none hp, rfl⟩
    | some c =>
      obtain ⟨i, h1, h2⟩ := pick_some hp
      exact Or.inl ⟨i, c, h1, h2, rfl⟩

/-- **C46.** The year used is the year of the day. -/
theorem C46_year (d : Int) : InYear d (yearOf d) ∧ ∀ y, InYear d y → y = yearOf d :=
  ⟨yearOf_inYear d, fun _ h => inYear_unique h (yearOf_inYear d)⟩

/-- **C46.** For segments that begin one after the other, at most one covers a day. -/
theorem C46_unique_segment {plot : List Rec} (ho : Ordered plot) (fin : Rec → Int) (day : Int) {i j : Nat}
    (hi : Covers fin plot day i) (hj : Covers fin plot day j) : i = j :=
  covers_unique ho hi hj

/-- **C46.** Before the first segment no segment covers the day. -/
theorem C46_before_first {plot : List Rec} (ho : Ordered plot) (fin : Rec → Int) {first : Rec} (h0 : plot[0]? = some first)
    {day : Int} (hd : day < first.tStart) (i : Nat) : ¬ Covers fin plot day i := by
  rintro ⟨c, h1, h2, _⟩
  rcases Nat.eq_zero_or_pos i with rfl | hi
  · rw [h0] at h1
    cases h1
    omega
  · have := ordered_get ho h0 h1 hi
    omega

/-- **C46.** A day from the beginning of the first segment up to the beginning of the last segment is covered
by a segment — also when it lies in a gap between two segments (after the end of one and before the beginning
of the next). -/
theorem C46_gap (fin : Rec → Int) {day : Int} : ∀ (plot : List Rec) {first last : Rec}, plot[0]? = some first →
    plot.getLast? = some last → first.tStart ≤ day → day < last.tStart → ∃ i, Covers fin plot day i
  | [], _, _, h0, _, _, _ => by simp at h0
  | [c], _, _, h0, h1, h2, h3 => by
    simp only [List.getElem?_cons_zero, Option.some.injEq, List.getLast?_singleton] at h0 h1
    subst h0; subst h1; omega
  | c :: c' :: cs, first, last, h0, h1, h2, h3 => by
    simp only [List.getElem?_cons_zero, Option.some.injEq] at h0
    subst h0
    by_cases hd : day < c'.tStart
    · exact ⟨0, c, rfl, h2, hd⟩
    · rw [List.getLast?_cons_cons] at h1
      obtain ⟨i, x, g1, g2, g3⟩ := C46_gap fin (c' :: cs) rfl h1 (by omega) h3
      exact ⟨i + 1, x, g1, g2, g3⟩

/-- **C46.** The last day of the last segment is not covered (`t_end` itself in the classifier's version, 31
December of its year in the other), nor any later day. -/
theorem C46_last_day {plot : List Rec} (ho : Ordered plot) (fin : Rec → Int) {last : Rec} (hl : plot.getLast? = some last)
    {day : Int} (hd : last.tStart ≤ day) (hf : fin last ≤ day) (i : Nat) : ¬ Covers fin plot day i := by
  rintro ⟨c, h1, h2, h3⟩
  have hlen : plot[plot.length - 1]? = some last := by rw [← List.getLast?_eq_getElem?]; exact hl
  have hi := (List.getElem?_eq_some_iff.mp h1).1
  rcases Nat.lt_or_ge (i + 1) plot.length with h | h
  · rw [List.getElem?_eq_getElem h] at h3
    simp only at h3
    rcases Nat.lt_or_ge (i + 1) (plot.length - 1) with g | g
    · have := ordered_get ho (List.getElem?_eq_getElem h) hlen g
      omega
    · have : plot[i + 1]? = some last := by rw [show i + 1 = plot.length - 1 by omega]; exact hlen
      rw [List.getElem?_eq_getElem h] at this
      cases this
      omega
  · rw [List.getElem?_eq_none h] at h3
    simp only at h3
    have : plot[i]? = some last := by rw [show i = plot.length - 1 by omega]; exact hlen
    rw [h1] at this
    cases this
    omega

/-- **C46.** The classifier's version refuses other names as soon as a day is covered; the other one gives the
fill value for them. -/
theorem C46_other_names (plot : List Rec) (band : Nat) (day : Int) (fill : Q) (i : Nat) :
    (Covers (fun c => c.tEnd) plot day i → ∀ f, ¬ Named f → extractFeatures .classifier plot band [day] fill [f] = none) ∧
    extractFeatures .export_ plot band [day] fill [.other] = some [[fill]] := by
  constructor
  · intro h f hf
    have : ∃ c, pick .classifier day plot = some c := by
      cases hp : pick .classifier day plot with
      | none => exact absurd h (pick_none (ver := .classifier) hp i)
      | some c => exact ⟨c, rfl⟩
    obtain ⟨c, hc⟩ := this
    have hr : rawFeature c band day f = none := by
      unfold Named at hf
      cases f <;> first | rfl | simp at hf
    unfold extractFeatures
    simp only [List.mapM_cons, List.mapM_nil, entry, hc, hr]
    rfl
  · unfold extractFeatures
    simp only [List.mapM_cons, List.mapM_nil, entry]
    cases pick .export_ day plot <;> rfl

theorem cvOf_spec (band : Nat) (day : Int) : ∀ (plot : List Rec),
    (∃ (i : Nat) (c : Rec), plot[i]? = some c ∧ c.tBreak ≠ 0 ∧ c.prob = 100 ∧ InYear c.tBreak (yearOf day) ∧
      (∀ j, j < i → ∀ c' : Rec, plot[j]? = some c' → ¬ (c'.tBreak ≠ 0 ∧ c'.prob = 100 ∧ InYear c'.tBreak (yearOf day))) ∧
      cvOf band day plot = some (c.magnitude band)) ∨
    ((∀ c ∈ plot, ¬ (c.tBreak ≠ 0 ∧ c.prob = 100 ∧ InYear c.tBreak (yearOf day))) ∧ cvOf band day plot = none)
  | [] => Or.inr ⟨by simp, rfl⟩
  | c :: cs => by
    by_cases h : c.tBreak ≠ 0 ∧ c.prob = 100 ∧ InYear c.tBreak (yearOf day)
    · left
      refine ⟨0, c, rfl, h.1, h.2.1, h.2.2, fun j hj => by omega, ?_⟩
      rw [cvOf, if_neg (by rw [not_or]; exact ⟨h.1, not_not.mpr h.2.1⟩), if_pos (yearOf_iff.mpr h.2.2)]
    · have hskip : cvOf band day (c :: cs) = cvOf band day cs := by
        rw [cvOf]
        split
        · rfl
        · rename_i hh
          rw [not_or, not_not] at hh
          rw [if_neg fun e => h ⟨hh.1, hh.2, yearOf_iff.mp e⟩]
      rw [hskip]
      rcases cvOf_spec band day cs with ⟨i, c', g1, g2, g3, g4, g5, g6⟩ | ⟨g1, g2⟩
      · left
        refine ⟨i + 1, c', g1, g2, g3, g4, ?_, g6⟩
        intro j hj x hx
        cases j with
        | zero =>
          simp only [List.getElem?_cons_zero, Option.some.injEq] at hx
          subst hx
          exact h
        | succ j => exact g5 j (by omega) x hx
      · right
        refine ⟨?_, g2⟩
        intro x hx
        rcases List.mem_cons.mp hx with rfl | hx
        · exact h
        · exact g1 x hx

/-- **C46.** The change vector `cv` of the export version: the magnitude of the first confirmed break in the
year of the day, or the fill value if there is none. -/
theorem C46_cv (plot : List Rec) (band : Nat) (day : Int) (fill : Q) :
    (∃ (i : Nat) (c : Rec), plot[i]? = some c ∧ c.tBreak ≠ 0 ∧ c.prob = 100 ∧ InYear c.tBreak (yearOf day) ∧
      (∀ j, j < i → ∀ c' : Rec, plot[j]? = some c' → ¬ (c'.tBreak ≠ 0 ∧ c'.prob = 100 ∧ InYear c'.tBreak (yearOf day))) ∧
      extractFeatures .export_ plot band [day] fill [.cv] = some [[c.magnitude band]]) ∨
    ((∀ c ∈ plot, ¬ (c.tBreak ≠ 0 ∧ c.prob = 100 ∧ InYear c.tBreak (yearOf day))) ∧
      extractFeatures .export_ plot band [day] fill [.cv] = some [[fill]]) := by
  have e : ∀ v, cvOf band day plot = v → extractFeatures .export_ plot band [day] fill [.cv] = some [[v.getD fill]] := by
    rintro v rfl
    unfold extractFeatures
    simp only [List.mapM_cons, List.mapM_nil, entry, if_true]
    rfl
  rcases cvOf_spec band day plot with ⟨i, c, h1, h2, h3, h4, h5, h6⟩ | ⟨h1, h2⟩
  · exact Or.inl ⟨i, c, h1, h2, h3, h4, h5, e _ h6⟩
  · exact Or.inr ⟨h1, e _ h2⟩

/-! ## C60 -/

/-- **C60.** No confirmed break of the pixel in the year: the break map has −9999 there.  Any block whose
records all lie in it, both methods. -/
theorem C60_no_break (m : Method) (B : Block) (block : List Rec) (hat : ∀ r ∈ block, ∃ i j, At B r.pos i j)
    (hne : block ≠ []) : ∃ map, breakMaps m B block = .ok map ∧
      ∀ y p i j, B.low ≤ y → y ≤ B.upp → At B p i j →
        (∀ r ∈ block, r.pos = p → Confirmed r → ¬ InYear r.tBreak y) → map y i j = -9999 := by
  obtain ⟨st, h1, h2⟩ := breakMaps_inv m B block hat hne
  refine ⟨st.map, h1, fun y p i j g1 g2 g3 g4 => h2.empty y p i j g1 g2 g3 ?_⟩
  rintro k _ ⟨r, k1, k2, k3, k4, _⟩
  exact g4 r (sort_mem.mp (List.mem_of_getElem? k1)) k2 k3 k4

theorem break_cell (m : Method) (B : Block) (block : List Rec) (hat : ∀ r ∈ block, ∃ i j, At B r.pos i j)
    (hd : Distinct block) (hne : block ≠ []) : ∃ map, breakMaps m B block = .ok map ∧
      ∀ y i j r next, B.low ≤ y → y ≤ B.upp → At B r.pos i j → LastBreak block y r → Next block r next →
        ∃ k d, (sortBlock block)[k]? = some r ∧ (sortBlock block)[k + 1]? = some next ∧ Typed m (sortBlock block) k d ∧
          map y i j = d * 1000 + (r.tBreak - Pycold.Spec.ordinal y 1 + 1) := by
  obtain ⟨st, h1, h2⟩ := breakMaps_inv m B block hat hne
  refine ⟨st.map, h1, ?_⟩
  rintro y i j r next g1 g2 g3 ⟨g4, g5, g6, g7⟩ g8
  obtain ⟨k, k1, k2, k3⟩ := next_index hd g4 g8
  have hlt : k + 1 < (sortBlock block).length := (List.getElem?_eq_some_iff.mp k2).1
  obtain ⟨d, d1, d2⟩ := h2.full y r.pos i j k r g1 g2 g3 (by omega) k1 ⟨r, k1, rfl, g5, g6, hlt⟩ (by
    rintro k' f1 _ ⟨s, e1, e2, e3, e4, _⟩
    have := k3 s k' f1 e1 e2
    have := g7 s (sort_mem.mp (List.mem_of_getElem? e1)) e2 e3 e4
    omega)
  exact ⟨k, d, k1, k2, d1, by rw [d2, jan1_eq]⟩

/-- **C60 (COLD), partial.** A block in any order, whose records lie in it and of which those of one pixel
begin on different days.  If the last confirmed break of the pixel in the year has a next segment, the break
map gives its kind, times 1000, plus the day of the year.

Missing: the break without a next segment in its pixel, see `C60_last_record_skipped` and
`C60_next_pixel_read`. -/
theorem C60_break_map_partial (B : Block) (block : List Rec) (hat : ∀ r ∈ block, ∃ i j, At B r.pos i j)
    (hd : Distinct block) (hne : block ≠ []) : ∃ map, breakMaps .cold B block = .ok map ∧
      ∀ y i j r next, B.low ≤ y → y ≤ B.upp → At B r.pos i j → LastBreak block y r → Next block r next →
        map y i j = kind r next * 1000 + (r.tBreak - Pycold.Spec.ordinal y 1 + 1) := by
  obtain ⟨map, h1, h2⟩ := break_cell .cold B block hat hd hne
  refine ⟨map, h1, fun y i j r next g1 g2 g3 g4 g5 => ?_⟩
  obtain ⟨k, d, k1, k2, ⟨r', next', e1, e2, rfl⟩, k4⟩ := h2 y i j r next g1 g2 g3 g4 g5
  rw [k1] at e1
  rw [k2] at e2
  cases e1
  cases e2
  exact k4

/-- **C60 (OBCOLD), partial.** Likewise, with the kinds of OBCOLD.

Missing: as for COLD. -/
theorem C60_obcold_partial (B : Block) (block : List Rec) (hat : ∀ r ∈ block, ∃ i j, At B r.pos i j)
    (hd : Distinct block) (hne : block ≠ []) : ∃ map kinds, breakMaps .obcold B block = .ok map ∧ ObKinds block kinds ∧
      ∀ y i j r next, B.low ≤ y → y ≤ B.upp → At B r.pos i j → LastBreak block y r → Next block r next →
        map y i j = kinds r * 1000 + (r.tBreak - Pycold.Spec.ordinal y 1 + 1) := by
  obtain ⟨map, h1, h2⟩ := break_cell .obcold B block hat hd hne
  refine ⟨map, obKind block, h1, obKind_kinds hd, fun y i j r next g1 g2 g3 g4 g5 => ?_⟩
  obtain ⟨k, d, k1, k2, k3, k4⟩ := h2 y i j r next g1 g2 g3 g4 g5
  rw [k4, obKind_eq hd k1]
  unfold obValue
  rw [show categoryObcold (sortBlock block) k (before (sortBlock block) k) = some d from k3, Option.getD_some]

/-- The kinds of OBCOLD are determined by the block: two assignments agree at every confirmed break with a
next segment. -/
theorem C60_obcold_kinds_unique {block : List Rec} {k1 k2 : Rec → Int} (h1 : ObKinds block k1) (h2 : ObKinds block k2)
    (hd : Distinct block) {r next : Rec} (hr : r ∈ block) (hc : Confirmed r) (hn : Next block r next) : k1 r = k2 r := by
  classical
  obtain ⟨k, hk⟩ := List.mem_iff_getElem?.mp (sort_mem.mpr hr)
  induction k using Nat.strongRecOn generalizing r next with
  | _ k ih =>
    rw [h1 r hr next hc hn, h2 r hr next hc hn]
    have e : (∃ c, LastBefore block c r ∧ k1 c = 1) ↔ (∃ c, LastBefore block c r ∧ k2 c = 1) := by
      have key : ∀ c, LastBefore block c r → k1 c = k2 c := by
        rintro c ⟨c1, c2, c3, c4, _⟩
        obtain ⟨q, hq, hs⟩ := earlier_index hd hk c1 c2 c4
        obtain ⟨n, hn⟩ := has_next hd hs hk hq c2
        exact ih q hq c1 c3 hn hs
      constructor
      · rintro ⟨c, g1, g2⟩
        exact ⟨c, g1, by rw [← key c g1]; exact g2⟩
      · rintro ⟨c, g1, g2⟩
        exact ⟨c, g1, by rw [key c g1]; exact g2⟩
    simp only [e]

/-- Days within a year: the value is a type and a day of the year from 1 to 366. -/
theorem C60_day_of_year {d y : Int} (h : InYear d y) :
    1 ≤ d - Pycold.Spec.ordinal y 1 + 1 ∧ d - Pycold.Spec.ordinal y 1 + 1 ≤ 366 := by
  unfold InYear at h
  have := Pycold.yearLength_bounds y
  have e : Pycold.Spec.ordinal (y + 1) 1 = Pycold.Spec.ordinal y 1 + Pycold.Spec.yearLength y := by
    unfold Pycold.Spec.ordinal
    rw [daysBeforeYear_succ]
    omega
  omega

/-- A record for the examples: a confirmed break on the day (if not 0), the same magnitude in all bands. -/
def sample (pos tStart tBreak : Int) (mag : ℚ) (slope : ℚ) : Rec :=
  ⟨tStart, tStart + 300, tBreak, pos, 100, fun b i => some (if i = 1 then (if b = 3 then slope else -slope) else 1),
    fun _ => some 1, fun _ => some mag⟩

/-- A tile of 10 columns, blocks of 5 × 5, the first block, years 2000–2010. -/
def sampleBlock : Block := ⟨10, 5, 5, 1, 1, 2000, 2010⟩

/-- The break map of a result, at a year, row and column (0 if there is none). -/
def cell (r : Res (Int → Nat → Nat → Int)) (y : Int) (i j : Nat) : Int :=
  match r with
  | .ok map => map y i j
  | _ => 0

-- two breaks of one pixel in 2001 and 2004, the last segment without a break
example : cell (breakMaps .cold sampleBlock
    [sample 13 731650 0 0 1, sample 13 730200 730500 700 1, sample 13 730600 731600 (-700) 1]) 2001 1 2 = 1000 + 15 ∧
    cell (breakMaps .cold sampleBlock
    [sample 13 731650 0 0 1, sample 13 730200 730500 700 1, sample 13 730600 731600 (-700) 1]) 2004 1 2 = 1000 + 20 := by
  decide +kernel

-- OBCOLD: the second break undoes the first one
example : cell (breakMaps .obcold sampleBlock
    [sample 13 731650 0 0 1, sample 13 730200 730500 700 1, sample 13 730600 731600 (-700) 1]) 2004 1 2 = 4000 + 20 := by
  decide +kernel

/-- **C60, refuted for the last record of a block.** A confirmed break that is the last record of the block
does not appear in the map. -/
theorem C60_last_record_skipped : LastBreak [sample 13 730200 730500 700 1] 2001 (sample 13 730200 730500 700 1) ∧
    At sampleBlock 13 1 2 ∧ cell (breakMaps .cold sampleBlock [sample 13 730200 730500 700 1]) 2001 1 2 = -9999 := by
  refine ⟨⟨List.mem_singleton.mpr rfl, ⟨by decide, by decide⟩, ⟨by decide, by decide⟩, ?_⟩, ?_, by decide +kernel⟩
  · intro s hs _ _ _
    rw [List.mem_singleton.mp hs]
  · exact ⟨by decide, by decide, by decide, by decide, by decide, by decide⟩

/-- **C60, refuted for the last record of a pixel.** If the last record of a pixel is a confirmed break, its
type depends on the first record of the next pixel: the same pixel is given type 2 or type 3. -/
theorem C60_next_pixel_read :
    cell (breakMaps .cold sampleBlock [sample 13 730200 730500 100 1, sample 14 730200 0 0 1]) 2001 1 2 = 2000 + 15 ∧
    cell (breakMaps .cold sampleBlock [sample 13 730200 730500 100 1, sample 14 730200 0 0 2]) 2001 1 2 = 3000 + 15 := by
  decide +kernel

/-! ## C61 -/

/-- **C61.** The recent-disturbance map has the latest year of the range whose break map is of type 1 at the
pixel, and 0 if there is none. -/
theorem C61_recent (low upp : Int) (map : Int → Nat → Nat → Int) (r c : Nat) :
    (∃ y, low ≤ y ∧ y ≤ upp ∧ Disturbed (map y r c) ∧ (∀ z, y < z → z ≤ upp → ¬ Disturbed (map z r c)) ∧
      recentDist low upp map r c = y) ∨
    ((∀ z, low ≤ z → z ≤ upp → ¬ Disturbed (map z r c)) ∧ recentDist low upp map r c = 0) := by
  classical
  by_cases h : ∃ z ∈ years low upp, Disturbed (map z r c)
  · left
    obtain ⟨ys, y, zs, e1, e2, e3⟩ : ∃ ys y zs, years low upp = ys ++ y :: zs ∧ Disturbed (map y r c) ∧
        ∀ z ∈ zs, ¬ Disturbed (map z r c) := by
      generalize years low upp = l at h
      induction l with
      | nil => obtain ⟨z, hz, _⟩ := h; cases hz
      | cons a l ih =>
        by_cases hl : ∃ z ∈ l, Disturbed (map z r c)
        · obtain ⟨ys, y, zs, e1, e2, e3⟩ := ih hl
          exact ⟨a :: ys, y, zs, by rw [e1]; rfl, e2, e3⟩
        · refine ⟨[], a, l, rfl, ?_, fun z hz hd => hl ⟨z, hz, hd⟩⟩
          obtain ⟨z, hz, hd⟩ := h
          rcases List.mem_cons.mp hz with rfl | hz
          · exact hd
          · exact absurd ⟨z, hz, hd⟩ hl
    have hy : y ∈ years low upp := by rw [e1]; simp
    rw [mem_years] at hy
    refine ⟨y, hy.1, hy.2, e2, ?_, ?_⟩
    · intro z hz hzu
      have hm : z ∈ years low upp := mem_years.mpr ⟨by omega, hzu⟩
      have hs := years_sorted low upp
      rw [e1] at hm hs
      rcases List.mem_append.mp hm with hm | hm
      · exfalso
        have := (List.pairwise_append.mp hs).2.2 z hm y List.mem_cons_self
        omega
      · rcases List.mem_cons.mp hm with rfl | hm
        · omega
        · exact e3 z hm
    · unfold recentDist
      rw [e1]
      exact overwrite_last ys zs y 0 e2 e3
  · right
    refine ⟨fun z h1 h2 hd => h ⟨z, mem_years.mpr ⟨h1, h2⟩, hd⟩, ?_⟩
    exact overwrite_none _ _ fun z hz hd => h ⟨z, hz, hd⟩

/-- **C61.** The first-disturbance map has the earliest such year, and 0 if there is none. -/
theorem C61_first (low upp : Int) (map : Int → Nat → Nat → Int) (r c : Nat) :
    (∃ y, low ≤ y ∧ y ≤ upp ∧ Disturbed (map y r c) ∧ (∀ z, low ≤ z → z < y → ¬ Disturbed (map z r c)) ∧
      firstDist low upp map r c = y) ∨
    ((∀ z, low ≤ z → z ≤ upp → ¬ Disturbed (map z r c)) ∧ firstDist low upp map r c = 0) := by
  classical
  by_cases h : ∃ z ∈ years low upp, Disturbed (map z r c)
  · left
    obtain ⟨ys, y, zs, e1, e2, e3⟩ : ∃ ys y zs, years low upp = ys ++ y :: zs ∧ Disturbed (map y r c) ∧
        ∀ z ∈ ys, ¬ Disturbed (map z r c) := by
      generalize years low upp = l at h
      induction l with
      | nil => obtain ⟨z, hz, _⟩ := h; cases hz
      | cons a l ih =>
        by_cases ha : Disturbed (map a r c)
        · exact ⟨[], a, l, rfl, ha, by simp⟩
        · have : ∃ z ∈ l, Disturbed (map z r c) := by
            obtain ⟨z, hz, hd⟩ := h
            rcases List.mem_cons.mp hz with rfl | hz
            · exact absurd hd ha
            · exact ⟨z, hz, hd⟩
          obtain ⟨ys, y, zs, e1, e2, e3⟩ := ih this
          refine ⟨a :: ys, y, zs, by rw [e1]; rfl, e2, ?_⟩
          intro z hz
          rcases List.mem_cons.mp hz with rfl | hz
          · exact ha
          · exact e3 z hz
    have hy : y ∈ years low upp := by rw [e1]; simp
    rw [mem_years] at hy
    refine ⟨y, hy.1, hy.2, e2, ?_, ?_⟩
    · intro z hzl hz
      have hm : z ∈ years low upp := mem_years.mpr ⟨hzl, by omega⟩
      have hs := years_sorted low upp
      rw [e1] at hm hs
      rcases List.mem_append.mp hm with hm | hm
      · exact e3 z hm
      · exfalso
        rcases List.mem_cons.mp hm with rfl | hm
        · omega
        · have := (List.pairwise_cons.mp (List.pairwise_append.mp hs).2.1).1 z hm
          omega
    · unfold firstDist
      rw [e1, List.reverse_append, List.reverse_cons, List.append_assoc]
      refine overwrite_last _ _ y 0 e2 fun z hz => e3 z (List.mem_reverse.mp hz)
  · right
    refine ⟨fun z h1 h2 hd => h ⟨z, mem_years.mpr ⟨h1, h2⟩, hd⟩, ?_⟩
    exact overwrite_none _ _ fun z hz hd => h ⟨z, List.mem_reverse.mp hz, hd⟩

/-- **C61 with C60.** A year in the recent- or first-disturbance map of COLD is the year of a confirmed break
of the pixel whose magnitudes are not those of greening. -/
theorem C61_sound (B : Block) (block : List Rec) (hat : ∀ r ∈ block, ∃ i j, At B r.pos i j) (hne : block ≠ []) :
    ∃ map, breakMaps .cold B block = .ok map ∧ ∀ y p i j, At B p i j → y ≠ 0 →
      (recentDist B.low B.upp map i j = y ∨ firstDist B.low B.upp map i j = y) →
      ∃ r ∈ block, r.pos = p ∧ Confirmed r ∧ InYear r.tBreak y ∧ ¬ Greening 200 r := by
  obtain ⟨st, h1, h2⟩ := breakMaps_inv .cold B block hat hne
  refine ⟨st.map, h1, ?_⟩
  intro y p i j hp hy0 hy
  have hd : B.low ≤ y ∧ y ≤ B.upp ∧ Disturbed (st.map y i j) := by
    rcases hy with hy | hy
    · rcases C61_recent B.low B.upp st.map i j with ⟨z, k1, k2, k3, _, k5⟩ | ⟨_, k⟩
      · rw [hy] at k5; subst k5; exact ⟨k1, k2, k3⟩
      · omega
    · rcases C61_first B.low B.upp st.map i j with ⟨z, k1, k2, k3, _, k5⟩ | ⟨_, k⟩
      · rw [hy] at k5; subst k5; exact ⟨k1, k2, k3⟩
      · omega
  obtain ⟨l1, l2, l3⟩ := hd
  classical
  by_cases hex : ∃ k, k < (sortBlock block).length ∧ Hit (sortBlock block) p y k
  · obtain ⟨k, k1, k2, k3⟩ : ∃ k, k < (sortBlock block).length ∧ Hit (sortBlock block) p y k ∧
        ∀ k', k < k' → k' < (sortBlock block).length → ¬ Hit (sortBlock block) p y k' := by
      generalize (sortBlock block).length = n at hex
      induction n with
      | zero => obtain ⟨k, hk, _⟩ := hex; omega
      | succ n ih =>
        by_cases hn : Hit (sortBlock block) p y n
        · exact ⟨n, by omega, hn, fun k' a b => by omega⟩
        · obtain ⟨k, hk, hh⟩ := hex
          have hkn : k ≠ n := by rintro rfl; exact hn hh
          obtain ⟨q, q1, q2, q3⟩ := ih ⟨k, by omega, hh⟩
          refine ⟨q, by omega, q2, fun k' a b => ?_⟩
          by_cases hkn' : k' = n
          · subst hkn'; exact hn
          · exact q3 k' a (by omega)
    have hhit := k2
    obtain ⟨r, r1, r2, r3, r4, r5⟩ := k2
    obtain ⟨d, ⟨r', next, d1, d2, rfl⟩, d4⟩ := h2.full y p i j k r l1 l2 hp k1 r1 hhit k3
    rw [r1] at d1
    cases d1
    refine ⟨r, sort_mem.mp (List.mem_of_getElem? r1), r2, r3, r4, fun hg => ?_⟩
    have hdoy := C60_day_of_year r4
    rw [← jan1_eq] at hdoy
    rw [d4] at l3
    unfold Disturbed at l3
    have : kind r next = 2 ∨ kind r next = 3 := by
      unfold kind
      rw [if_pos hg]
      split <;> simp
    omega
  · exfalso
    have := h2.empty y p i j l1 l2 hp fun k hk hh => hex ⟨k, hk, hh⟩
    rw [this] at l3
    unfold Disturbed at l3
    omega

-- a disturbance in 2001 and one in 2004
example : recentDist 2000 2010 (fun y i j => cell (breakMaps .cold sampleBlock
      [sample 13 731950 0 0 1, sample 13 730200 730500 700 1, sample 13 730600 731600 (-700) 1,
        sample 13 731700 731900 700 1]) y i j) 1 2 = 2004 ∧
    firstDist 2000 2010 (fun y i j => cell (breakMaps .cold sampleBlock
      [sample 13 731950 0 0 1, sample 13 730200 730500 700 1, sample 13 730600 731600 (-700) 1,
        sample 13 731700 731900 700 1]) y i j) 1 2 = 2001 := by
  decide +kernel

-- three segments, one with a NaN coefficient; days in each of them, in a gap, before and after
example : extractFeatures .classifier [sample 1 100 0 0 1, sample 1 500 0 0 2] 3 [50, 100, 450, 600, 800] (some (-1)) [.a0, .rmse] =
    some [[some (-1), some (1 + 100 / 10000), some (1 + 450 / 10000), some (1 + 2 * 600 / 10000), some (-1)],
      [some (-1), some 1, some 1, some 1, some (-1)]] := by
  decide +kernel

end Pycold.ChangeMap
