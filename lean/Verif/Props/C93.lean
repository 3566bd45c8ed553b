import Verif.Proof.Snapshots
import Mathlib.Data.List.Nodup
/-!
# C93: the object analysis of a snapshot uses the maps of its own and of the previous date
-/
namespace Pycold.Snapshots

open Spec
open Pycold.ChangeMap (yearOf yearOf_iff)
open Pycold.ChangeMap.Spec (InYear)
open Pycold.Tile (Grid assembleCm)
open Pycold.Obia (Pixel pixels NAN mergeCm mergeDate scaled smoothed objectMap objectAnalysis saved)
open Pycold.Obia.Spec (Inside Joined Labels ObjectClass classFor Exceeds)

/-- The number of snapshots. -/
theorem plan_n {start last interval : Int} (hi : 0 < interval) (hl : start ≤ last) :
    ((plan start last interval).n : Int) = (last - start + 1) / interval + 1 := by
  unfold plan
  simp only
  rw [Int.tdiv_eq_ediv_of_nonneg (by omega)]
  have := Int.ediv_nonneg (show 0 ≤ last - start + 1 by omega) hi.le
  omega

/-- **C93.** Every date from the first to the last date of the dataset belongs to exactly one of the snapshots, and no
snapshot is more than one day after the last date. -/
theorem C93_slots {start last interval : Int} (hi : 0 < interval) (hl : start ≤ last) :
    (∀ d, start ≤ d → d ≤ last → ∃ k, k < (plan start last interval).n ∧ InSnapshot start interval d k ∧
      ∀ j, InSnapshot start interval d j → j = k) ∧
    ∀ k, k < (plan start last interval).n → start + (k : Int) * interval ≤ last + 1 := by
  have hn := plan_n hi hl
  constructor
  · intro d h1 h2
    have hq := Int.ediv_nonneg (show 0 ≤ d - start by omega) hi.le
    have hle : (d - start) / interval ≤ (last - start + 1) / interval := Int.ediv_le_ediv hi (by omega)
    have e1 := Int.mul_ediv_add_emod (d - start) interval
    have e2 := Int.emod_nonneg (d - start) (show interval ≠ 0 by omega)
    have e3 := Int.emod_lt_of_pos (d - start) hi
    have hk : (((d - start) / interval).toNat : Int) = (d - start) / interval := by omega
    refine ⟨((d - start) / interval).toNat, by omega, ⟨?_, ?_⟩, ?_⟩
    · rw [hk, Int.mul_comm]; omega
    · rw [hk, Int.add_mul, Int.mul_comm]; omega
    · rintro j ⟨j1, j2⟩
      have : (d - start) / interval = (j : Int) := by
        rw [Int.ediv_eq_iff_of_pos hi]
        constructor <;> linarith
      omega
  · intro k hk
    have h1 : (k : Int) ≤ (last - start + 1) / interval := by omega
    have h2 : (k : Int) * interval ≤ last - start + 1 := (Int.le_ediv_iff_mul_le hi).mp h1
    omega

example : (plan 723546 723700 60).n = 3 ∧ InSnapshot 723546 60 723700 2 := by
  unfold InSnapshot; decide

/-- **C93.** The first snapshot never finds a change, whatever the maps contain. -/
theorem C93_first (E : Env) {start interval : Int} (hi : 0 < interval) (cms : Dir (Grid Int))
    (covers : Option (Dir (Pixel → Nat))) : obiaExecute E start interval cms covers start = some fun _ => 0 := by
  unfold obiaExecute
  rw [if_pos (by omega)]
  rfl

theorem assemble_square (pre : String) (nb bw bh : Nat) (hnb : 1 ≤ nb) (P : Plan) (file : Nat → Nat → Nat → Int) :
    ∃ gs : Nat → Grid Int, (∀ k, view (gs k) = stored nb bw bh P.n file k) ∧
      assemble pre nb nb bw bh P (fun x y => some (file x y)) =
        some ((List.range P.n).map fun k => (savedName pre (P.date k), gs k)) := by
  have h := fun k => C35_cm_maps_partial NAN nb bw bh P.n k hnb file
  choose gs h1 h2 using h
  refine ⟨gs, fun k => view_placed (h2 k), ?_⟩
  unfold assemble
  refine mapM_some fun k _ => ?_
  rw [h1 k]
  rfl

theorem date_nonneg {P : Plan} (h0 : 0 ≤ P.start) (hi : 0 < P.interval) (k : Nat) : 0 ≤ P.date k := by
  unfold Plan.date
  have := mul_nonneg (Int.natCast_nonneg k) hi.le
  omega

theorem date_inj {P : Plan} (hi : 0 < P.interval) {j k : Nat} (h : P.date j = P.date k) : j = k := by
  unfold Plan.date at h
  have : (j : Int) * P.interval = (k : Int) * P.interval := by omega
  have := Int.eq_of_mul_eq_mul_right (by omega) this
  omega

/-- **C93** (partial: as many block columns as rows, and every block file readable; the other cases are refuted in C35).
Detection has left the files of the blocks, with the magnitudes and the dates of the snapshots.  After both kinds of maps
have been written, in any order or interleaving and over whatever the directory contained before, the ranks that wait
for them go on; and the analysis of snapshot `k + 1` works on the magnitudes and dates that detection stored for every
pixel under the numbers `k + 1` and `k`; with cover maps, on the one of the year before the snapshot (in the first year
of the dataset, of that year). -/
theorem C93_snapshot_partial (E : Env) (nb bw bh : Nat) (hnb : 1 ≤ nb) {start last interval : Int} (h0 : 0 ≤ start)
    (hi : 0 < interval) (_ : start ≤ last) (cmFile dateFile : Nat → Nat → Nat → Int) (old : Dir (Grid Int)) :
    ∃ cms dates,
      assemble "CM" nb nb bw bh (plan start last interval) (fun x y => some (cmFile x y)) = some cms ∧
      assemble "CM_date" nb nb bw bh (plan start last interval) (fun x y => some (dateFile x y)) = some dates ∧
      ∀ ws : List (String × Grid Int), ws.Perm (cms ++ dates) →
        assembled (plan start last interval) (ws.foldl save old) = true ∧
        ∀ k n, n = (plan start last interval).n → k + 1 < n →
          obiaExecute E start interval (ws.foldl save old) none (start + ((k : Int) + 1) * interval) =
            analyse E (stored nb bw bh n cmFile (k + 1)) (stored nb bw bh n cmFile k) (stored nb bw bh n dateFile (k + 1))
              (stored nb bw bh n dateFile k) none ∧
          ∀ covers y c, YearBefore start (start + ((k : Int) + 1) * interval) y → covers (coverName y) = some c →
            obiaExecute E start interval (ws.foldl save old) (some covers) (start + ((k : Int) + 1) * interval) =
              analyse E (stored nb bw bh n cmFile (k + 1)) (stored nb bw bh n cmFile k)
                (stored nb bw bh n dateFile (k + 1)) (stored nb bw bh n dateFile k) (some c) := by
  set P := plan start last interval with hP
  have hPs : P.start = start := rfl
  have hPi : P.interval = interval := rfl
  have hdn : ∀ k, 0 ≤ P.date k := date_nonneg (by rw [hPs]; exact h0) (by rw [hPi]; exact hi)
  have hdi : ∀ {j k}, P.date j = P.date k → j = k := date_inj (by rw [hPi]; exact hi)
  obtain ⟨gs, hg1, hg2⟩ := assemble_square "CM" nb bw bh hnb P cmFile
  obtain ⟨ds, hd1, hd2⟩ := assemble_square "CM_date" nb bw bh hnb P dateFile
  refine ⟨_, _, hg2, hd2, fun ws hws => ?_⟩
  have hnod : (ws.map Prod.fst).Nodup := by
    rw [(hws.map Prod.fst).nodup_iff, List.map_append, List.map_map, List.map_map, List.nodup_append]
    refine ⟨?_, ?_, ?_⟩
    · refine List.Nodup.map_on (fun a _ b _ h => ?_) List.nodup_range
      simp only [Function.comp, savedName_cm] at h
      exact hdi (cmName_inj (hdn _) (hdn _) h)
    · refine List.Nodup.map_on (fun a _ b _ h => ?_) List.nodup_range
      simp only [Function.comp, savedName_date] at h
      exact hdi (cmDateName_inj (hdn _) (hdn _) h)
    · intro a ha b hb hab
      obtain ⟨i, _, rfl⟩ := List.mem_map.mp ha
      obtain ⟨j, _, rfl⟩ := List.mem_map.mp hb
      simp only [Function.comp, savedName_cm, savedName_date] at hab
      exact names_apart _ _ hab
  have hcm : ∀ k, k < P.n → ws.foldl save old (cmName (P.date k)) = some (gs k) := by
    intro k hk
    have := saveAll_mem hnod (w := (savedName "CM" (P.date k), gs k))
      (hws.mem_iff.mpr (List.mem_append_left _ (List.mem_map.mpr ⟨k, List.mem_range.mpr hk, rfl⟩))) old
    rwa [savedName_cm] at this
  have hdt : ∀ k, k < P.n → ws.foldl save old (cmDateName (P.date k)) = some (ds k) := by
    intro k hk
    have := saveAll_mem hnod (w := (savedName "CM_date" (P.date k), ds k))
      (hws.mem_iff.mpr (List.mem_append_right _ (List.mem_map.mpr ⟨k, List.mem_range.mpr hk, rfl⟩))) old
    rwa [savedName_date] at this
  refine ⟨?_, ?_⟩
  · unfold assembled
    rw [List.all_eq_true]
    intro k hk
    rw [List.mem_range] at hk
    rw [awaitedCm_eq, awaitedDate_eq, hcm k hk, hdt k hk]
    rfl
  · rintro k n rfl hk
    have e1 : start + ((k : Int) + 1) * interval = P.date (k + 1) := by unfold Plan.date; rw [hPs, hPi]; push_cast; rfl
    have e2 : P.date (k + 1) - interval = P.date k := by unfold Plan.date; rw [hPs, hPi]; push_cast; ring
    have e3 : ¬ P.date (k + 1) - interval < start := by
      rw [e2]; unfold Plan.date; rw [hPs, hPi]
      have := mul_nonneg (Int.natCast_nonneg k) hi.le
      omega
    have e4 : start ≤ P.date (k + 1) := by omega
    rw [e1]
    constructor
    · unfold obiaExecute
      rw [if_neg e3, e2, hdt _ hk, hdt k (by omega), hcm _ hk, hcm k (by omega)]
      simp only [Option.bind_some, hg1, hd1]
    · intro covers y c hy hc
      have hye : coverYear start (P.date (k + 1)) = y := by
        have hs := coverYear_spec e4
        unfold YearBefore at hs hy
        rcases hs with ⟨a1, a2⟩ | ⟨a1, a2⟩ <;> rcases hy with ⟨b1, b2⟩ | ⟨b1, b2⟩
        · rw [← yearOf_iff] at a1 b1; omega
        · rw [← yearOf_iff] at a1 b1
          exact absurd (show InYear start (y + 1) by rw [show y + 1 = coverYear start (P.date (k + 1)) by omega]; exact a2) b2
        · rw [← yearOf_iff] at a1 b1
          exact absurd (show InYear start (coverYear start (P.date (k + 1)) + 1) by
            rw [show coverYear start (P.date (k + 1)) + 1 = y by omega]; exact b2) a2
        · rw [← yearOf_iff] at a1 b1; omega
      unfold obiaExecute
      rw [if_neg e3, e2, hdt _ hk, hdt k (by omega), hcm _ hk, hcm k (by omega), hye]
      simp only [Option.bind_some, hg1, hd1, hc]

/-- **C93.** If the first and the last snapshot lie in different years, every snapshot finds its cover map: the map that
was predicted for the year, whatever the order in which they were written and whatever the directory contained. -/
theorem C93_cover {start last interval : Int} (h0 : 1 ≤ start) (hi : 0 < interval) (maps : Int → Pixel → Nat)
    (old : Dir (Pixel → Nat)) {ws : List (String × (Pixel → Nat))}
    (hws : ws.Perm ((predicted (plan start last interval)).map fun y => (coverName y, maps y)))
    {first lastYear : Int} (hf : InYear start first)
    (hly : InYear (start + (((plan start last interval).n : Int) - 1) * interval) lastYear) (hne : first ≠ lastYear) :
    ∀ k, k < (plan start last interval).n → ∀ y, YearBefore start (start + (k : Int) * interval) y →
      ws.foldl save old (coverName y) = some (maps y) := by
  intro k hk y hy
  set P := plan start last interval with hP
  have hPs : P.start = start := rfl
  have hPi : P.interval = interval := rfl
  have hpos : ∀ z ∈ predicted P, 0 ≤ z := by
    intro z hz
    have h1 := (mem_predicted.mp hz).1
    have h2 : yearOf 1 ≤ yearOf start := yearOf_mono h0
    have h3 : yearOf 1 = 1 := by decide
    rw [hPs] at h1
    omega
  have hmem : y ∈ predicted P := by
    rw [mem_predicted, hPs, hPi]
    rw [← yearOf_iff] at hf hly
    have hmono : yearOf (start + (k : Int) * interval) ≤ yearOf (start + ((P.n : Int) - 1) * interval) := by
      refine yearOf_mono ?_
      have : (k : Int) * interval ≤ ((P.n : Int) - 1) * interval := mul_le_mul_of_nonneg_right (by omega) hi.le
      omega
    have hlow : yearOf start ≤ yearOf (start + (k : Int) * interval) := by
      refine yearOf_mono ?_
      have := mul_nonneg (Int.natCast_nonneg k) hi.le
      omega
    unfold YearBefore at hy
    rcases hy with ⟨a1, a2⟩ | ⟨a1, a2⟩
    · rw [← yearOf_iff] at a1 a2; omega
    · rw [← yearOf_iff] at a1 a2; omega
  have hnod : (ws.map Prod.fst).Nodup := by
    rw [(hws.map Prod.fst).nodup_iff, List.map_map]
    refine List.Nodup.map_on (fun a ha b hb h => coverName_inj (hpos a ha) (hpos b hb) h) ?_
    unfold predicted
    refine List.Nodup.map_on (fun a _ b _ h => ?_) List.nodup_range
    omega
  exact saveAll_mem hnod (w := (coverName y, maps y)) (hws.mem_iff.mpr (List.mem_map_of_mem hmem)) old

-- two years and a bit, a snapshot every 60 days: the cover maps of two years are predicted
example : (plan 723546 724400 60).n = 15 ∧ predicted (plan 723546 724400 60) = [1982, 1983] ∧
    coverYear 723546 724386 = 1983 ∧ coverYear 723546 723606 = 1982 := by decide

/-- **C93, refuted for a dataset whose snapshots lie in one year:** no cover map is predicted, and with an empty
directory the analysis of every snapshot but the first ends with an exception. -/
theorem C93_one_year (E : Env) {start last interval : Int} (hi : 0 < interval) {y : Int} (hf : InYear start y)
    (hly : InYear (start + (((plan start last interval).n : Int) - 1) * interval) y) (cms : Dir (Grid Int)) :
    predicted (plan start last interval) = [] ∧
    ∀ k : Nat, obiaExecute E start interval cms (some fun _ => none) (start + ((k : Int) + 1) * interval) = none := by
  constructor
  · rw [List.eq_nil_iff_forall_not_mem]
    intro z hz
    rw [mem_predicted] at hz
    rw [← yearOf_iff] at hf hly
    have e1 : (plan start last interval).start = start := rfl
    have e2 : (plan start last interval).interval = interval := rfl
    rw [e1, e2] at hz
    omega
  · intro k
    unfold obiaExecute
    have : ¬ start + ((k : Int) + 1) * interval - interval < start := by
      have := mul_nonneg (Int.natCast_nonneg k) hi.le
      rw [Int.add_mul]; omega
    rw [if_neg this]
    simp

example : InYear 723546 1982 ∧ (plan 723546 723700 60).n = 3 ∧ InYear (723546 + (3 - 1) * 60) 1982 := by
  refine ⟨yearOf_iff.mp (by decide), by decide, yearOf_iff.mp (by decide)⟩

/-- **C93.** What is saved for a pixel.  A pixel that belongs to no object gets 0.  A pixel of an object gets 0 unless the
mean magnitude of the object, scaled by the number of pixels of its patch, exceeds the threshold of its most frequent
class; then it gets the date of the snapshot, or of the previous one if the snapshot has none, as an ordinal date. -/
theorem C93_result (E : Env) (hpeak : 0 ≤ E.peak) (hratio : 0 ≤ E.ratio) (hwithin : 0 ≤ E.within) (hlaunch : 0 ≤ E.launch)
    (hlg : ∀ n, 1 ≤ n → 0 ≤ E.lg n)
    (hpar : (0 ≤ E.par.default.slope ∧ 0 ≤ E.par.default.threshold) ∧
      ∀ k, 1 ≤ k → k ≤ 8 → 0 ≤ (E.par.cls k).slope ∧ 0 ≤ (E.par.cls k).threshold)
    (huni : ∀ t s, E.uniform = (some t, some s) → 0 ≤ s ∧ 0 ≤ t)
    (hpatch : ∀ lab, Labels E.rows E.cols lab (E.patch lab))
    (cm prev date datePrev : Pixel → Int) (hd : ∀ p, date p = -9999 ∨ 0 ≤ date p)
    (hdp : ∀ p, datePrev p = -9999 ∨ 0 ≤ datePrev p) (cover : Option (Pixel → Nat)) :
    ∃ g lab, g = (smoothed E.smooth fun q => scaled E.cmScale E.peak E.ratio (mergeCm E.limit (cm q) (prev q))) ∧
      lab = objectMap E.rows E.cols g (fun q => mergeDate E.launch (date q) (datePrev q)) E.peak E.ratio E.within ∧
      ∃ res, analyse E cm prev date datePrev cover = some res ∧
        (∀ p, Inside E.rows E.cols p → lab p = 0 → res p = 0) ∧
        ∀ p, Inside E.rows E.cols p → lab p ≠ 0 → ∀ object together : List Pixel,
          object.Nodup → (∀ q, q ∈ object ↔ Inside E.rows E.cols q ∧ lab q = lab p) →
          together.Nodup → (∀ q, q ∈ together ↔ Joined (fun r => Inside E.rows E.cols r ∧ lab r ≠ 0) p q) →
          ∀ changed : Prop, (changed ↔ ∃ m c, ObjectClass cover object m ∧ classFor E.par cover.isSome E.uniform m c ∧
              Exceeds E.lg c together.length ((object.map g).sum / object.length)) →
            (¬ changed → res p = 0) ∧
            (changed → date p ≠ -9999 → res p = date p + E.launch) ∧
            (changed → date p = -9999 → datePrev p ≠ -9999 → res p = datePrev p + E.launch) ∧
            (changed → date p = -9999 → datePrev p = -9999 → res p = 0) := by
  refine ⟨_, _, rfl, rfl, ?_⟩
  set g := smoothed E.smooth fun q => scaled E.cmScale E.peak E.ratio (mergeCm E.limit (cm q) (prev q)) with hg
  set dates := fun q => mergeDate E.launch (date q) (datePrev q) with hdates
  obtain ⟨ch, h1, h2⟩ := Obia.C40_change_map E.lg E.par E.uniform E.rows E.cols g dates E.peak E.ratio E.within hpeak hratio
    hwithin _ (hpatch (objectMap E.rows E.cols g dates E.peak E.ratio E.within)) cover
  obtain ⟨ch', h1', h2'⟩ := Obia.C40_background E.lg hlg E.par E.uniform hpar huni E.rows E.cols
    (objectMap E.rows E.cols g dates E.peak E.ratio E.within)
    (E.patch (objectMap E.rows E.cols g dates E.peak E.ratio E.within)) g cover
  have hch : ch' = ch := Option.some.inj (h1'.symm.trans h1)
  subst hch
  refine ⟨fun p => saved (ch' p) (dates p), ?_, ?_, ?_⟩
  · unfold analyse
    simp only
    rw [← hg, ← hdates, h1]
    rfl
  · intro p hp hl
    simp only [h2' p hp hl]
    unfold saved; simp
  · intro p hp hl object together ho1 ho2 ht1 ht2 changed hchg
    obtain ⟨h3, h4⟩ := h2 p hp hl object together ho1 ho2 ht1 ht2
    obtain ⟨d1, d2, d3, d4⟩ := Obia.C62_date E.launch (date p) (datePrev p) hlaunch (hd p) (hdp p)
    rw [← hchg] at h4
    refine ⟨fun hn => ?_, fun hc => ?_, fun hc => ?_, fun hc => ?_⟩
    · have : ch' p = 0 := h3.resolve_right fun h => hn (h4.mp h)
      simp only [this]; exact d1
    all_goals
      have hc1 := h4.mpr hc
      simp only [hc1]
    · exact d2
    · exact d3
    · exact d4

open Classical in
/-- The constants of the program (the quantile of chi-square rounded) and some labelling of connected parts. -/
noncomputable def sampleEnv (rows cols : Nat) : Env :=
  { rows := rows, cols := cols, limit := 924, cmScale := 100, peak := 924/100, ratio := 4/10, within := 60, launch := 723742,
    smooth := fun v p => (v p).getD 0, patch := fun lab => Classical.choose (Obia.labels_exist rows cols lab),
    lg := fun _ => 0, par := Obia.shipped, uniform := (none, none) }

-- it satisfies the hypotheses of `C93_result`
example (rows cols : Nat) : 0 ≤ (sampleEnv rows cols).peak ∧ 0 ≤ (sampleEnv rows cols).ratio ∧
    (∀ lab, Labels rows cols lab ((sampleEnv rows cols).patch lab)) ∧
    ((0 ≤ (sampleEnv rows cols).par.default.slope ∧ 0 ≤ (sampleEnv rows cols).par.default.threshold) ∧
      ∀ k, 1 ≤ k → k ≤ 8 → 0 ≤ ((sampleEnv rows cols).par.cls k).slope ∧ 0 ≤ ((sampleEnv rows cols).par.cls k).threshold) :=
  ⟨by norm_num [sampleEnv], by norm_num [sampleEnv], fun lab => Classical.choose_spec (Obia.labels_exist rows cols lab),
    ⟨Obia.C40_shipped.1, Obia.C40_shipped.2.1⟩, fun k _ _ => Obia.C40_shipped.2.2 k⟩

-- a row of four pixels, every pixel of an object its own patch; magnitudes 2000, none, 100, 3000 now and 0, 1500, 0, 0
-- before: three breaks, one of them with the date of the previous snapshot
example : ((analyse
    { rows := 1, cols := 4, limit := 924, cmScale := 100, peak := 924/100, ratio := 4/10, within := 60,
      launch := 723742, smooth := fun v p => (v p).getD 0, patch := fun lab p => if lab p = 0 then 0 else p.2 + 1,
      lg := fun _ => 0, par := Obia.shipped, uniform := (none, none) }
    (fun p => if p.2 = 0 then 2000 else if p.2 = 1 then -9999 else if p.2 = 2 then 100 else 3000)
    (fun p => if p.2 = 1 then 1500 else 0) (fun p => if p.2 = 1 then -9999 else 130 + p.2)
    (fun p => if p.2 = 1 then 111 else 50) none).map fun res => (List.range 4).map fun c => res (0, c)) =
      some [723872, 723853, 0, 723875] := by
  decide +kernel

end Pycold.Snapshots
