import Verif.Proof.Classifier
/-!
# C91, C92: yearly cover maps and training samples
-/
namespace Pycold.Classifier

open Pycold.ChangeMap (Rec Feature Q)
open Pycold.ChangeMap.Spec (Covers featureValue Named)
open Pycold.Tile (Grid assembleArray)
open Spec

/-! ## C91 -/

/-- **C91** (tiles with as many block columns as block rows).  Steps 1, 3 and 4 for any record files that hold the
records of their own block, those of a pixel together; any years, bands and features; any classifier; any order in
which the ranks take the blocks and the directory lists the files; and whatever files an earlier run for the tile left:
the run succeeds, and in the map of every year each pixel has the class that the classifier gives to the features of
its own records on 1 July of that year, and 255 if all of these are -9999. -/
theorem C91_cover_maps_partial (T : Info) (hx : 1 ≤ T.nbx) (hsq : T.nby = T.nbx) (bands : Nat) (hb : 1 ≤ bands) (fs : List Feature)
    (hf : ∀ f ∈ fs, Named f) (years : List Int) (records : Files) (hst : Stored T records) (predict : List Q → Nat)
    (order : Dir (Grid Nat) → Dir (Grid Nat)) (ho : ∀ d, (order d).Perm d) (ids1 ids3 : List Nat)
    (h1 : ∀ id, id ∈ ids1 ↔ 1 ≤ id ∧ id ≤ T.nbx * T.nby) (h3 : ∀ id, id ∈ ids3 ↔ 1 ≤ id ∧ id ≤ T.nbx * T.nby)
    (d1 : Dir Feat) (n1 : (d1.map (·.1)).Nodup) (l1 : ∀ e ∈ d1, 1 ≤ e.1.2 ∧ e.1.2 ≤ T.nbx * T.nby)
    (d3 : Dir (Grid Nat)) (n3 : (d3.map (·.1)).Nodup) (l3 : ∀ e ∈ d3, 1 ≤ e.1.2 ∧ e.1.2 ≤ T.nbx * T.nby) :
    ∃ M : Int → Grid Nat, coverMaps T bands fs years records predict order ids1 ids3 d1 d3 = some (years.map M) ∧
      ∀ y ∈ years, (M y).rows = T.nby * T.bh ∧ (M y).cols = T.nbx * T.bw ∧
        ∀ r c, r < T.nby * T.bh → c < T.nbx * T.bw → ∃ row, Row bands fs (recsAt T records r c) y row ∧
          (M y).at_ r c = if ∀ v ∈ row, v = some (-9999) then 255 else predict row := by
  obtain ⟨M, m1, m2⟩ := cover_general hx (by omega) years hf hb hst predict ho h1 h3 n1 l1 n3 l3
  refine ⟨M, m1, ?_⟩
  intro y hy
  obtain ⟨a1, a2, a3⟩ := m2 y hy
  refine ⟨by rw [a1, hsq], by rw [a2, hsq], ?_⟩
  intro r c hr hc
  have hbh : 0 < T.bh := by rcases Nat.eq_zero_or_pos T.bh with h | h; · simp [h] at hr
                            · exact h
  have hbw : 0 < T.bw := by rcases Nat.eq_zero_or_pos T.bw with h | h; · simp [h] at hc
                            · exact h
  have er : r / T.bh * T.bh + r % T.bh = r := by have := Nat.div_add_mod r T.bh; rw [Nat.mul_comm] at this; exact this
  have ec : c / T.bw * T.bw + c % T.bw = c := by have := Nat.div_add_mod c T.bw; rw [Nat.mul_comm] at this; exact this
  have hi : r / T.bh < T.nbx := Nat.div_lt_of_lt_mul (by rw [Nat.mul_comm, ← hsq]; exact hr)
  have hj : c / T.bw < T.nbx := Nat.div_lt_of_lt_mul (by rw [Nat.mul_comm]; exact hc)
  obtain ⟨row, r1, r2⟩ := a3 (r / T.bh) (c / T.bw) (r % T.bh) (c % T.bw) hi (by rw [hsq]; exact hj) (Nat.mod_lt _ hbh) (Nat.mod_lt _ hbw)
  have e1 : (r / T.bh * T.nby + c / T.bw) / T.nbx = r / T.bh := by
    rw [hsq, Nat.add_comm, Nat.add_mul_div_right _ _ (by omega), Nat.div_eq_of_lt hj, Nat.zero_add]
  have e2 : (r / T.bh * T.nby + c / T.bw) % T.nbx = c / T.bw := by
    rw [hsq, Nat.add_comm, Nat.add_mul_mod_self_right, Nat.mod_eq_of_lt hj]
  rw [e1, e2, er, ec] at r1
  rw [er, ec] at r2
  exact ⟨row, r1, r2⟩

/-- A pixel whose records do not cover 1 July of the year has no value but -9999 in its row: the map says 255. -/
theorem C91_uncovered {bands : Nat} {fs : List Feature} {recs : List Rec} {year : Int} {row : List Q} (h : Row bands fs recs year row)
    (hc : ∀ i, ¬ Covers (fun c => c.tEnd) recs (Spec.july1 year) i) : ∀ v ∈ row, v = some (-9999) := by
  intro v hv
  obtain ⟨m, hm⟩ := List.getElem?_of_mem hv
  have hlt : m < bands * fs.length := by rw [← h.1]; exact (List.getElem?_eq_some_iff.mp hm).1
  have hpos : 0 < fs.length := by
    rcases Nat.eq_zero_or_pos fs.length with e | e
    · rw [e, Nat.mul_zero] at hlt; omega
    · exact e
  have hk := Nat.mod_lt m hpos
  obtain ⟨w, w1, w2⟩ := h.2 (m / fs.length) (m % fs.length) fs[m % fs.length] (Nat.div_lt_of_lt_mul (by rw [Nat.mul_comm]; exact hlt))
    (List.getElem?_eq_getElem hk)
  have e : m / fs.length * fs.length + m % fs.length = m := by
    have := Nat.div_add_mod m fs.length; rw [Nat.mul_comm] at this; exact this
  rw [e, hm] at w1
  rcases w2 with ⟨i, _, _, hi, _⟩ | ⟨_, hw⟩
  · exact absurd hi (hc i)
  · rw [Option.some.inj w1]; exact hw

/-- A pixel with a segment that covers the day gets the classifier's answer, as soon as one of its features is not
-9999. -/
theorem C91_covered {bands : Nat} {fs : List Feature} {recs : List Rec} {year : Int} {row : List Q} (h : Row bands fs recs year row)
    (ho : ChangeMap.Spec.Ordered recs) {i : Nat} {seg : Rec} (hs : recs[i]? = some seg)
    (hc : Covers (fun c => c.tEnd) recs (Spec.july1 year) i) {b k : Nat} {f : Feature} (hb : b < bands) (hk : fs[k]? = some f)
    (hv : featureValue seg b (Spec.july1 year) f ≠ -9999) : ¬ ∀ v ∈ row, v = some (-9999) := by
  intro hall
  obtain ⟨v, v1, v2⟩ := h.2 b k f hb hk
  have hv' := hall v (List.mem_of_getElem? v1)
  rcases v2 with ⟨i', seg', h1, h2, h3⟩ | ⟨h1, _⟩
  · have : i' = i := ChangeMap.covers_unique ho h2 hc
    rw [this, hs] at h1
    rw [hv', ← Option.some.inj h1] at h3
    exact hv (Option.some.inj h3).symm
  · exact h1 i hc

/-- On any other grid of blocks the maps are saved too, but with the wrong numbers of rows and columns. -/
theorem C91_not_square (T : Info) (hx : 1 ≤ T.nbx) (hy : 1 ≤ T.nby) (hne : T.nbx ≠ T.nby) (hh : 1 ≤ T.bh) (bands : Nat) (hb : 1 ≤ bands)
    (fs : List Feature) (hf : ∀ f ∈ fs, Named f) (years : List Int) (records : Files) (hst : Stored T records) (predict : List Q → Nat)
    (order : Dir (Grid Nat) → Dir (Grid Nat)) (ho : ∀ d, (order d).Perm d) (ids1 ids3 : List Nat)
    (h1 : ∀ id, id ∈ ids1 ↔ 1 ≤ id ∧ id ≤ T.nbx * T.nby) (h3 : ∀ id, id ∈ ids3 ↔ 1 ≤ id ∧ id ≤ T.nbx * T.nby) :
    ∃ M : Int → Grid Nat, coverMaps T bands fs years records predict order ids1 ids3 [] [] = some (years.map M) ∧
      ∀ y ∈ years, (M y).rows = T.nbx * T.bh ∧ (M y).cols = T.nby * T.bw ∧ (M y).rows ≠ T.nby * T.bh := by
  obtain ⟨M, m1, m2⟩ := cover_general hx hy years hf hb hst predict ho h1 h3 (d1 := []) (by simp [Named1]) (by simp)
    (d3 := []) (by simp [Named1]) (by simp)
  refine ⟨M, m1, fun y hyr => ⟨(m2 y hyr).1, (m2 y hyr).2.1, ?_⟩⟩
  rw [(m2 y hyr).1]
  intro e
  exact hne (Nat.eq_of_mul_eq_mul_right (by omega) e)

/-- Records sorted by position are together. -/
theorem C91_sorted {l : List Rec} (h : l.Pairwise fun a b => a.pos ≤ b.pos) : Together l := by
  intro i j k a b c hij hjk ha hb hc he
  rw [List.pairwise_iff_getElem] at h
  obtain ⟨i1, i2⟩ := List.getElem?_eq_some_iff.mp ha
  obtain ⟨j1, j2⟩ := List.getElem?_eq_some_iff.mp hb
  obtain ⟨k1, k2⟩ := List.getElem?_eq_some_iff.mp hc
  have x := h i j i1 j1 hij
  have y := h j k j1 k1 hjk
  rw [i2, j2] at x
  rw [j2, k2] at y
  omega

/-- A record for the examples. -/
def exRec (pos tStart tEnd : Int) (a : ℚ) : Rec :=
  { tStart := tStart, tEnd := tEnd, tBreak := 0, pos := pos, prob := 0, coefs := fun _ i => some (if i = 0 then a else 0),
    rmse := fun _ => some 1, magnitude := fun _ => some 0 }

/-- A tile of 2 × 2 blocks, each one pixel wide and two pixels high; only the block at the top right has a file, with
two records of its upper and one of its lower pixel. -/
def exTile : Info := ⟨2, 2, 1, 2⟩

def exFile : List Rec := [exRec 2 729000 730000 4, exRec 2 730000 731000 5, exRec 4 729000 730100 6]

def exFiles : Files := fun x y => if x = 2 ∧ y = 1 then some exFile else none

theorem exStored : Stored exTile exFiles := by
  intro i j hi hj
  by_cases h : i = 0 ∧ j = 1
  · obtain ⟨rfl, rfl⟩ := h
    have e : file exFiles 0 1 = exFile := rfl
    rw [e]
    refine ⟨C91_sorted (by simp [exFile, exRec]), ?_⟩
    intro a ha
    simp only [exFile, List.mem_cons, List.not_mem_nil, or_false] at ha
    rcases ha with rfl | rfl | rfl
    · exact ⟨0, 0, by decide, by decide, rfl⟩
    · exact ⟨0, 0, by decide, by decide, rfl⟩
    · exact ⟨1, 0, by decide, by decide, rfl⟩
  · have e : file exFiles i j = [] := by
      unfold file exFiles
      rw [if_neg (by omega)]; rfl
    rw [e]
    exact ⟨C91_sorted (by simp), by simp⟩

/-- The theorem applies to the example … -/
example : (coverMaps exTile 2 [.a0, .rmse] [2000, 1998] exFiles (fun row => row.length) (fun d => d.reverse)
      [4, 2, 3, 1] [1, 2, 3, 4] [] []).isSome = true := by
  obtain ⟨M, h, _⟩ := C91_cover_maps_partial exTile (by decide) rfl 2 (by decide) [.a0, .rmse] (by simp [Named]) [2000, 1998] exFiles
    exStored (fun row => row.length) (fun d => d.reverse) (fun d => List.reverse_perm d) [4, 2, 3, 1] [1, 2, 3, 4]
    (by intro id; simp [exTile]; omega) (by intro id; simp [exTile]; omega) [] (by simp) (by simp) [] (by simp) (by simp)
  rw [h]; rfl

/-- … and this is the map of 2000: the lower pixel's record ended in December 1999. -/
example : (coverMaps exTile 1 [.a0, .rmse] [2000] exFiles (fun row => if row = [some 5, some 1] then 7 else 3) (fun d => d.reverse)
      [4, 2, 3, 1] [1, 2, 3, 4] [] []).map (fun l => l.map fun g => (pixels g.rows g.cols).map fun p => g.at_ p.1 p.2) =
    some [[255, 7, 255, 255, 255, 255, 255, 255]] := by decide +kernel

/-! ## C92 -/

/-- **C92** (tiles with as many block columns as block rows, labels from 0, and label 0 only in maps that also have the
last category).  After step 1 as in C91, for a year among those predicted, a reference map of the size of the tile with
at least one pixel of a category, and any way of choosing: training succeeds; the rows are those of different pixels
of the tile, each with the features of its own records on 1 July of the year and its own label; and of every category
there are as many as its share of the total, raised or lowered into the limits, and no more than it has pixels. -/
theorem C92_training_partial (P : Params) (hK : 1 ≤ P.categories) (choose : Nat → Nat → List Nat) (hch : Chooses choose) (T : Info)
    (hx : 1 ≤ T.nbx) (hsq : T.nby = T.nbx) (bands : Nat) (hb : 1 ≤ bands) (fs : List Feature) (hf : ∀ f ∈ fs, Named f)
    (years : List Int) (records : Files) (hst : Stored T records) (order : Dir Feat → Dir Feat) (ho : ∀ d, (order d).Perm d)
    (ids1 : List Nat) (h1 : ∀ id, id ∈ ids1 ↔ 1 ≤ id ∧ id ≤ T.nbx * T.nby) (d1 : Dir Feat) (n1 : (d1.map (·.1)).Nodup)
    (l1 : ∀ e ∈ d1, 1 ≤ e.1.2 ∧ e.1.2 ≤ T.nbx * T.nby) (refYear : Int) (hy : refYear ∈ years) (L : Labels)
    (hr : L.rows = T.nby * T.bh) (hc : L.cols = T.nbx * T.bw) (h0 : ∀ v ∈ flat L, 0 ≤ v)
    (hbg : (0 : Int) ∈ flat L → (P.categories : Int) ∈ flat L) (hany : 1 ≤ countedUpTo L P.categories) :
    ∃ (sample : List (Nat × Nat)) (row : Nat × Nat → List Q),
      training P choose T bands fs years records order ids1 d1 refYear L =
        some (sample.map fun p => (row p, (L.at_ p.1 p.2).toNat)) ∧
      sample.Nodup ∧
      (∀ p ∈ sample, p.1 < T.nby * T.bh ∧ p.2 < T.nbx * T.bw ∧ 1 ≤ L.at_ p.1 p.2 ∧ L.at_ p.1 p.2 ≤ P.categories ∧
        Row bands fs (recsAt T records p.1 p.2) refYear (row p)) ∧
      ∀ v : Nat, 1 ≤ v → v ≤ P.categories →
        Quota P (counted L v) (countedUpTo L P.categories) (sample.filter fun p => decide (L.at_ p.1 p.2 = v)).length := by
  obtain ⟨full, f1, f2⟩ := full_spec hx hsq years hf hb hst ho h1 n1 l1 hy
  obtain ⟨ks, k1, k2, k3⟩ := sampleNum_spec hK h0 hbg hany
  obtain ⟨s, s1, s2, s3, s4⟩ := sampleLoop_spec hch L ks 0 (by
    intro n k hn
    obtain ⟨m, _, hm⟩ := k3 n k hn
    rw [Nat.zero_add, hm]
    exact Nat.min_le_left _ _)
  have hlab : ∀ e ∈ s, e.2 = (L.at_ e.1.1 e.1.2).toNat := fun e he => by rw [(s3 e he).2.2.1]; simp
  refine ⟨s.map (·.1), fun p => (List.range (bands * fs.length)).map (full.at_ p.1 p.2), ?_, s2, ?_, ?_⟩
  · rw [f1]
    unfold trainingSet
    rw [if_pos ⟨hr, hc⟩, k1, Option.bind_some, s1, Option.map_some, List.map_map]
    congr 1
    apply List.map_congr_left
    intro e he
    simp only [Function.comp]
    rw [← hlab e he]
  · intro p hp
    simp only [List.mem_map] at hp
    obtain ⟨e, he, rfl⟩ := hp
    obtain ⟨a, b, c, d, e'⟩ := s3 e he
    rw [hr] at a
    rw [hc] at b
    refine ⟨a, b, by rw [c]; omega, by rw [c]; omega, f2 _ _ a b⟩
  · intro v v1 v2
    have hn : ks[v - 1]? = some ks[v - 1] := List.getElem?_eq_getElem (by omega)
    have hq := k3 _ _ hn
    have hs := s4 _ _ hn
    rw [show ((v - 1 : Nat) : Int) + 1 = (v : Int) by omega] at hq
    rw [List.filter_map, List.length_map]
    have : (s.filter ((fun p : Nat × Nat => decide (L.at_ p.1 p.2 = (v : Int))) ∘ fun x => x.1)) =
        s.filter fun e => decide (e.2 = 0 + (v - 1) + 1) := by
      apply List.filter_congr
      intro e he
      simp only [Function.comp, decide_eq_decide]
      rw [(s3 e he).2.2.1]
      omega
    rw [this, hs]
    exact hq

/-- A reference map with pixels labelled 0 but none of the last category: the pixels labelled 0 are counted for the
last category, of which there are none to choose, and training raises. -/
theorem C92_background (P : Params) (hK : 1 ≤ P.categories) (hmin : 1 ≤ P.minSamples) (choose : Nat → Nat → List Nat) (T : Info)
    (bands : Nat) (fs : List Feature) (years : List Int) (records : Files) (order : Dir Feat → Dir Feat) (ids1 : List Nat) (d1 : Dir Feat)
    (refYear : Int) (L : Labels) (h0 : ∀ v ∈ flat L, 0 ≤ v) (hz : (0 : Int) ∈ flat L) (hlast : (P.categories : Int) ∉ flat L) :
    training P choose T bands fs years records order ids1 d1 refYear L = none := by
  have key : ∀ nF rows cols full, trainingSet P choose nF rows cols full L = none := by
    intro nF rows cols full
    unfold trainingSet
    split
    · obtain ⟨c, c1, c2⟩ := counts_spec hK h0
      have hzc : 1 ≤ (flat L).count 0 := List.count_pos_iff.mpr hz
      have hlen : c.length = P.categories := by rw [c2]; simp
      have hc : c[P.categories - 1]? = some ((flat L).count 0) := by
        rw [c2, List.getElem?_map, List.getElem?_range (by omega), Option.map_some, if_pos ⟨by omega, hlast⟩]
      have hsum : c.sum ≠ 0 := by
        intro e
        rw [List.sum_eq_zero_iff_forall_eq_nat] at e
        have := e _ (List.mem_of_getElem? hc)
        omega
      have hs : sampleNum P (flat L) = some (c.map (quota P c.sum)) := by
        unfold sampleNum
        rw [c1, Option.bind_some, if_neg (fun h => hsum h.1)]
      rw [hs, Option.bind_some]
      rw [sampleLoop_raises L (c.map (quota P c.sum)) 0 (P.categories - 1) (quota P c.sum ((flat L).count 0))
        (by rw [List.getElem?_map, hc]; rfl) ?_]
      · rfl
      · rw [counted_eq, show ((0 + (P.categories - 1) : Nat) : Int) + 1 = (P.categories : Int) by omega, List.count_eq_zero.mpr hlast]
        obtain ⟨n, _, hn⟩ := quota_spec P (x := (flat L).count 0) (sum := c.sum) (by omega)
        rw [hn]
        omega
    · rfl
  unfold training
  cases (ids1.foldlM (step1 T bands fs years records) d1) with
  | none => rfl
  | some feat =>
    rw [Option.bind_some]
    cases fullFeatures T order feat refYear with
    | none => rfl
    | some full => rw [Option.bind_some]; exact key _ _ _ _

/-- Without a pixel of any category training raises, too. -/
theorem C92_no_labels (P : Params) (hK : 1 ≤ P.categories) (choose : Nat → Nat → List Nat) (T : Info)
    (bands : Nat) (fs : List Feature) (years : List Int) (records : Files) (order : Dir Feat → Dir Feat) (ids1 : List Nat) (d1 : Dir Feat)
    (refYear : Int) (L : Labels) (h0 : ∀ v ∈ flat L, 0 < v) (hno : countedUpTo L P.categories = 0) :
    training P choose T bands fs years records order ids1 d1 refYear L = none := by
  have hs : sampleNum P (flat L) = none := by
    obtain ⟨c, c1, c2⟩ := counts_spec hK (fun v hv => Int.le_of_lt (h0 v hv))
    have hzero : ∀ v : Int, 1 ≤ v → v ≤ P.categories → (flat L).count v = 0 := by
      intro v v1 v2
      rw [List.count_eq_zero]
      intro hm
      have : v ∈ (flat L).filter fun x => decide (1 ≤ x ∧ x ≤ (P.categories : Int)) := List.mem_filter.mpr ⟨hm, by simp [v1, v2]⟩
      unfold countedUpTo at hno
      rw [List.length_eq_zero_iff.mp hno] at this
      simp at this
    have hsum : c.sum = 0 := by
      rw [List.sum_eq_zero_iff_forall_eq_nat, c2]
      intro x hx
      simp only [List.mem_map, List.mem_range] at hx
      obtain ⟨j, hj, rfl⟩ := hx
      split
      · exact List.count_eq_zero.mpr fun h => absurd (h0 0 h) (by omega)
      · exact hzero _ (by omega) (by omega)
    have hne : c ≠ [] := by
      intro e
      have : c.length = P.categories := by rw [c2]; simp
      rw [e] at this
      simp at this
      omega
    unfold sampleNum
    rw [c1, Option.bind_some, if_pos ⟨hsum, hne⟩]
  have key : ∀ nF rows cols full, trainingSet P choose nF rows cols full L = none := by
    intro nF rows cols full
    unfold trainingSet
    rw [hs]
    split <;> rfl
  unfold training
  cases (ids1.foldlM (step1 T bands fs years records) d1) with
  | none => rfl
  | some feat =>
    rw [Option.bind_some]
    cases fullFeatures T order feat refYear with
    | none => rfl
    | some full => rw [Option.bind_some]; exact key _ _ _ _

/-- If the year of the reference map is not among the years predicted, and no features of that year were left by an
earlier run, training raises. -/
theorem C92_other_year (P : Params) (choose : Nat → Nat → List Nat) (T : Info) (bands : Nat) (fs : List Feature) (years : List Int)
    (records : Files) (order : Dir Feat → Dir Feat) (ho : ∀ d, (order d).Perm d) (ids1 : List Nat) (d1 : Dir Feat) (refYear : Int)
    (hy : refYear ∉ years) (hd : ∀ e ∈ d1, e.1.1 ≠ refYear) (L : Labels) :
    training P choose T bands fs years records order ids1 d1 refYear L = none := by
  unfold training
  cases hf : ids1.foldlM (step1 T bands fs years records) d1 with
  | none => rfl
  | some feat =>
    have : ofYear order feat refYear = [] := by
      unfold ofYear
      rw [List.filter_eq_nil_iff.mpr]
      · rfl
      · intro e he
        have hm := (ho feat).mem_iff.mp he
        have := fold_years hy ids1 d1 feat hf hd e hm
        simpa using this
    rw [Option.bind_some]
    unfold fullFeatures
    rw [this]
    rfl

/-- A reference map for the examples: the tile of C91, of which two columns by four rows. -/
def exLabels (last : Int) : Labels := ⟨4, 2, fun r c => if r = 0 then last else if c = 0 then 2 else 1⟩

/-- Choosing the first ones. -/
theorem exChoose : Chooses fun _ k => List.range k := by
  intro n k h
  exact ⟨List.length_range, List.nodup_range, fun i hi => by have := List.mem_range.mp hi; omega⟩

/-- The theorem applies: two categories, limits 1 and 3, six samples in all. -/
example : (training ⟨1, 3, 6, 2⟩ (fun _ k => List.range k) exTile 1 [.a0] [2000] exFiles (fun d => d.reverse) [1, 2, 3, 4] []
      2000 (exLabels 2)).isSome = true := by
  obtain ⟨sample, row, h, _⟩ := C92_training_partial ⟨1, 3, 6, 2⟩ (by decide) _ exChoose exTile (by decide) rfl 1 (by decide) [.a0]
    (by simp [Named]) [2000] exFiles exStored (fun d => d.reverse) (fun d => List.reverse_perm d) [1, 2, 3, 4]
    (by intro id; simp [exTile]; omega) [] (by simp) (by simp) 2000 (by simp) (exLabels 2) rfl rfl (by decide) (by decide) (by decide)
  rw [h]; rfl

/-- Of eight pixels five have label 2 (share 15/4, rounded to 4, lowered to 3) and three label 1 (share 9/4). -/
example : (training ⟨1, 3, 6, 2⟩ (fun _ k => List.range k) exTile 1 [.a0] [2000] exFiles (fun d => d.reverse) [1, 2, 3, 4] []
      2000 (exLabels 2)).map (fun l => l.map (·.2)) = some [1, 1, 2, 2, 2] := by decide +kernel

/-- With label 0 in the first row and a third category that does not occur, training raises. -/
example : training ⟨1, 3, 6, 3⟩ (fun _ k => List.range k) exTile 1 [.a0] [2000] exFiles (fun d => d.reverse) [1, 2, 3, 4] []
      2000 (exLabels 0) = none :=
  C92_background ⟨1, 3, 6, 3⟩ (by decide) (by decide) _ _ _ _ _ _ _ _ _ _ _ (by decide) (by decide) (by decide)

end Pycold.Classifier
