import Verif.Proof.Recon
/-!
# C85: the third stage of OBCOLD rebuilds every pixel from its own series and its own breaks
-/
namespace Pycold.Recon
open Stack Stack.Spec Recon.Spec

/-- **C85.** Blocks fill the tile; the object analysis saves its decision for every date, in any order; files of an earlier
run with the same dates may be in the folder.  Then, whatever order the folder is listed in, every block is
reconstructed by one call for each pixel, in order, with the series of that pixel, the breaks of that pixel in the
order of time, and the number of that pixel in the tile.  A pixel whose call raises is left out; the others are not
affected.  Missing: blocks without scenes, blocks in which every call raises, and the bounds on the years; the code
fails there (below). -/
theorem C85_block_partial {R : Type} (c : Config) (ht : Tiled c) (decided : Nat → Decision) (dates order : List Nat) (hne : dates ≠ [])
    (hs : dates.Pairwise (· < ·)) (h6 : SixDigits dates) (hsz : ∀ d ∈ dates, (decided d).Sized c) (ho : order.Perm dates) (dir : Store)
    (hdir : OnlyEarlierRun c dates dir) :
    ∃ out, saveAll c (fun d => product (decided d).change (decided d).dates) order dir = .ok out ∧
      ∀ listing, listing.Perm out → ∀ i j, i < c.nby → j < c.nbx →
        ∀ (obcold : Call → Option R) (stack : List (Int × Block)), (∀ x ∈ stack, x.2.length = c.bw * c.bh) →
          ∀ (files : List (Name × Block)) (conse : Nat),
            reconstruct c obcold (i * c.nbx + j + 1) (some stack) files listing conse =
              .ok ((List.range (c.bw * c.bh)).filterMap fun pos => obcold (callOf c decided dates stack conse i j pos)) := by
  have hn : order.Nodup := ho.nodup_iff.2 (hs.imp fun h => Nat.ne_of_lt h)
  obtain ⟨out, h1, h2⟩ := saved_block (img := fun d => product (decided d).change (decided d).dates) ht hn
    (fun d hd => h6 d (ho.mem_iff.1 hd)) (fun d hd => product_length (hsz d (ho.mem_iff.1 hd)))
    (dir := dir) (fun f hf h => by
      obtain ⟨d, hd, r⟩ := hdir f hf h
      exact ⟨d, ho.mem_iff.2 hd, r⟩)
  refine ⟨out, h1, fun listing hl i j hi hj obcold stack hst files conse => ?_⟩
  exact reconstruct_eq ht hs h6 hsz hne hi hj ((hl.filter _).trans ((h2 i j hi hj).trans (ho.map _))) obcold stack hst files conse

/-- **C85, every pixel of the tile once.** The numbers passed on by all calls of all blocks are 1, 2, … up to the number of
pixels of the tile, each once. -/
theorem C85_every_pixel_once (c : Config) (ht : Tiled c) (k : Nat) (hk : k < c.nRows * c.nCols) :
    ∃ i j pos, (i < c.nby ∧ j < c.nbx ∧ pos < c.bw * c.bh ∧ pixel c i j pos = k) ∧
      ∀ i' j' pos', i' < c.nby → j' < c.nbx → pos' < c.bw * c.bh → pixel c i' j' pos' = k → i' = i ∧ j' = j ∧ pos' = pos := by
  obtain ⟨hw, hh, e1, e2⟩ := ht
  have hc : 0 < c.nCols := by
    rcases Nat.eq_zero_or_pos c.nCols with h | h
    · rw [h] at hk; simp at hk
    · exact h
  have hrow : k / c.nCols < c.nRows := (Nat.div_lt_iff_lt_mul hc).2 hk
  have hcol : k % c.nCols < c.nCols := Nat.mod_lt _ hc
  have key : ∀ i j pos, j < c.nbx → pos < c.bw * c.bh → (pixel c i j pos = k ↔
      k / c.nCols = i * c.bh + pos / c.bw ∧ k % c.nCols = j * c.bw + pos % c.bw) := by
    intro i j pos hj hpos
    have hx : j * c.bw + pos % c.bw < c.nCols := by
      have h1 : (j + 1) * c.bw ≤ c.nbx * c.bw := Nat.mul_le_mul_right _ hj
      have h2 := Nat.mod_lt pos hw
      rw [Nat.add_mul] at h1
      omega
    constructor
    · rintro rfl
      rw [pixel, place, Nat.add_comm, Nat.add_mul_div_right _ _ hc, Nat.add_mul_mod_self_right, Nat.div_eq_of_lt hx, Nat.mod_eq_of_lt hx]
      exact ⟨by omega, rfl⟩
    · rintro ⟨h1, h2⟩
      rw [pixel, place, ← h1, ← h2, Nat.mul_comm]
      exact Nat.div_add_mod _ _
  refine ⟨k / c.nCols / c.bh, k % c.nCols / c.bw, k / c.nCols % c.bh * c.bw + k % c.nCols % c.bw, ⟨?_, ?_, ?_, ?_⟩, ?_⟩
  · exact (Nat.div_lt_iff_lt_mul hh).2 (e2 ▸ hrow)
  · exact (Nat.div_lt_iff_lt_mul hw).2 (e1 ▸ hcol)
  · have h1 := Nat.mod_lt (k / c.nCols) hh
    have h2 := Nat.mod_lt (k % c.nCols) hw
    have h3 : (k / c.nCols % c.bh + 1) * c.bw ≤ c.bh * c.bw := Nat.mul_le_mul_right _ h1
    rw [Nat.add_mul] at h3
    rw [Nat.mul_comm c.bw]
    omega
  · refine (key _ _ _ ((Nat.div_lt_iff_lt_mul hw).2 (e1 ▸ hcol)) ?_).2 ⟨?_, ?_⟩
    · have h1 := Nat.mod_lt (k / c.nCols) hh
      have h2 := Nat.mod_lt (k % c.nCols) hw
      have h3 : (k / c.nCols % c.bh + 1) * c.bw ≤ c.bh * c.bw := Nat.mul_le_mul_right _ h1
      rw [Nat.add_mul] at h3
      rw [Nat.mul_comm c.bw]
      omega
    · rw [Nat.add_comm (_ * c.bw), Nat.add_mul_div_right _ _ hw, Nat.div_eq_of_lt (Nat.mod_lt _ hw), Nat.zero_add, Nat.mul_comm]
      exact (Nat.div_add_mod _ _).symm
    · rw [Nat.add_comm (k / c.nCols % c.bh * c.bw), Nat.add_mul_mod_self_right, Nat.mod_mod, Nat.mul_comm]
      exact (Nat.div_add_mod _ _).symm
  · intro i j pos _ hj hpos h
    obtain ⟨h1, h2⟩ := (key i j pos hj hpos).1 h
    have hb : pos / c.bw < c.bh := (Nat.div_lt_iff_lt_mul hw).2 (by rw [Nat.mul_comm]; exact hpos)
    have ha := Nat.mod_lt pos hw
    rw [h1, h2, Nat.add_comm (i * c.bh), Nat.add_comm (j * c.bw), Nat.add_mul_div_right _ _ hh, Nat.add_mul_div_right _ _ hw,
      Nat.add_mul_mod_self_right, Nat.add_mul_mod_self_right, Nat.div_eq_of_lt hb, Nat.mod_eq_of_lt hb, Nat.div_eq_of_lt ha,
      Nat.mod_eq_of_lt ha, Nat.mul_comm (pos / c.bw)]
    exact ⟨by omega, by omega, (Nat.div_add_mod _ _).symm⟩

/-! A tile of two rows and four columns in two blocks, two dates. -/

def sampleConfig : Config := ⟨.ard, 2, 4, 2, 1, 0, none, none, none⟩

def sampleDecided (d : Nat) : Decision :=
  if d = 731000 then ⟨[0, 1, 1, 0, 0, 0, 1, 1], [-9999, 730990, 730991, 730992, -9999, 0, -9999, 730993]⟩
  else ⟨[1, 0, 0, 0, 0, 0, 0, 1], [731020, 731021, -9999, 731022, 731023, 731024, 731025, 731026]⟩

def sampleImg (d : Nat) : List Int := product (sampleDecided d).change (sampleDecided d).dates

-- the hypotheses of `C85_block_partial` are met, with a folder that has results of an earlier run and other files
example : Tiled sampleConfig ∧ [731000, 731032].Pairwise (· < ·) ∧ SixDigits [731000, 731032] ∧
    (∀ d ∈ [731000, 731032], (sampleDecided d).Sized sampleConfig) ∧ [731032, 731000].Perm [731000, 731032] ∧
    OnlyEarlierRun sampleConfig [731000, 731032] [("tmp_OBIA_731000_finished.txt".toList, []), (obiaName 731032 2 1, [9])] := by
  refine ⟨by unfold Tiled; decide, by decide, by intro d hd; simp at hd; omega, ?_, List.Perm.swap _ _ _, ?_⟩
  · intro d hd
    simp only [List.mem_cons, List.not_mem_nil, or_false] at hd
    rcases hd with rfl | rfl <;> exact ⟨by decide, by decide, by decide⟩
  · intro f hf h
    simp only [List.mem_cons, List.not_mem_nil, or_false] at hf
    rcases hf with rfl | rfl
    · exact absurd h (by decide +kernel)
    · exact ⟨731032, by decide, 0, 1, by decide, by decide, rfl⟩

-- the breaks and the number of each pixel of the second block; the last pixel fails and is left out
example : (saveAll sampleConfig sampleImg [731032, 731000] [("tmp_OBIA_731000_finished.txt".toList, []), (obiaName 731032 2 1, [9])]).bind
      (fun out => reconstruct sampleConfig (fun x => if x.pos = 8 then none else some (x.pos, x.breaks)) 2
        (some [(730000, [[1], [2], [3], [4]])]) [] out 6) =
    .ok [(3, [730991, 0]), (4, [0, 0]), (7, [0, 0])] := by decide +kernel

example : (callOf sampleConfig sampleDecided [731000, 731032] [(730000, [[1], [2], [3], [4]])] 6 0 1 0).breaks = [730991, 0] ∧
    (callOf sampleConfig sampleDecided [731000, 731032] [(730000, [[1], [2], [3], [4]])] 6 0 1 0).pos = 3 := by decide +kernel

-- every pixel once: the pixel in the second row and third column is the third of the second block
example : 6 < sampleConfig.nRows * sampleConfig.nCols ∧ pixel sampleConfig 0 1 2 = 6 := by decide

/-! ## What the last loop does beyond that -/

/-- **C85, records saved.** With a stack, the last loop saves the records of all pixels of the block one after the other. -/
theorem C85_saved {R : Type} (c : Config) (obcold : Call → Option (List R)) (id conse : Nat) (files : List (Name × Block)) (listing : Store)
    (stack : List (Int × Block)) (calls : List Call) (h1 : getStackDate (c.bw * c.bh) files 0 0 = .ok (some stack))
    (h2 : reconstruct c obcold id (some stack) files listing conse = .ok (calls.filterMap obcold)) :
    lastStage c obcold id files listing conse =
      if calls.filterMap obcold = [] then .raised else .ok (calls.filterMap obcold).flatten := by
  unfold lastStage
  rw [h1]
  change Res.bind (reconstruct c obcold id (some stack) files listing conse) _ = _
  rw [h2]
  rfl

/-- **C85 fails for a block in which every call raises**: nothing can be joined, and the rank ends with an exception,
so its later blocks are not written. -/
theorem C85_all_fail_raises {R : Type} (c : Config) (obcold : Call → Option (List R)) (hob : ∀ x, obcold x = none) (id conse : Nat)
    (files : List (Name × Block)) (listing : Store) : ∀ out, lastStage c obcold id files listing conse ≠ .ok out := by
  intro out h
  unfold lastStage at h
  cases hg : getStackDate (c.bw * c.bh) files 0 0 with
  | raised => rw [hg] at h; cases h
  | ub => rw [hg] at h; cases h
  | ok stack =>
    rw [hg] at h
    change Res.bind (reconstruct c obcold id stack files listing conse) saveRecords = _ at h
    cases hr : reconstruct c obcold id stack files listing conse with
    | raised => rw [hr] at h; cases h
    | ub => rw [hr] at h; cases h
    | ok l =>
      have hl : l = [] := by
        have key : ∀ s : List (Int × Block), (Res.bind (allResults c (Tile.blockX id c.nbx).toNat (Tile.blockY id c.nbx).toNat listing)
            fun breaks => Res.ok ((List.range (c.bw * c.bh)).filterMap fun pos =>
              if s.all (fun x => decide (pos < x.2.length)) && breaks.all (fun b => decide (pos < b.length)) then
                let rc := Tile.rowcolInTile pos c.bw c.bh ((Tile.blockX id c.nbx).toNat) ((Tile.blockY id c.nbx).toNat)
                obcold ⟨argDates s, argBand s pos, breaks.map fun b => b.getD pos 0, Tile.posOf c.nCols rc.1 rc.2, conse, false⟩
              else none)) = .ok l → l = [] := by
          intro s hs
          cases ha : allResults c (Tile.blockX id c.nbx).toNat (Tile.blockY id c.nbx).toNat listing with
          | raised => rw [ha] at hs; cases hs
          | ub => rw [ha] at hs; cases hs
          | ok breaks =>
            rw [ha] at hs
            simp only [Res.bind, Res.ok.injEq] at hs
            rw [← hs, List.filterMap_eq_nil_iff]
            intro pos _
            simp [hob]
        cases stack with
        | some s => exact key s hr
        | none =>
          change Res.bind (readBlockdata (c.nCols * c.nRows) files) _ = _ at hr
          cases hb : readBlockdata (c.nCols * c.nRows) files with
          | raised => rw [hb] at hr; cases hr
          | ub => rw [hb] at hr; cases hr
          | ok s => rw [hb] at hr; exact key s hr
      rw [hr, hl] at h
      cases h

/-- **C85 fails for a block without scenes**, the sea or the edge of the tile: the rank ends with an exception, whereas
detection passes over such a block. -/
theorem C85_no_scenes_raises {R : Type} (c : Config) (obcold : Call → Option (List R)) (id conse : Nat) (files : List (Name × Block))
    (listing : Store) (h : ∀ f ∈ files, f.1.head? ≠ some 'L' ∧ f.1.head? ≠ some 'S') :
    lastStage c obcold id files listing conse = .raised := by
  have e1 : (files.filter fun f => f.1.head? = some 'L' || f.1.head? = some 'S') = [] := by
    rw [List.filter_eq_nil_iff]; intro f hf; simpa using h f hf
  have e2 : (files.filter fun f => f.1.head? = some 'L') = [] := by
    rw [List.filter_eq_nil_iff]; intro f hf; simpa using (h f hf).1
  have hg : getStackDate (c.bw * c.bh) files 0 0 = .ok none := by
    unfold getStackDate; simp only [e1, if_true]
  have hr : readBlockdata (c.nCols * c.nRows) files = .raised := by
    unfold readBlockdata; simp only [e2]; rfl
  unfold lastStage
  rw [hg]
  change Res.bind (Res.bind (readBlockdata (c.nCols * c.nRows) files) _) _ = _
  rw [hr]
  rfl

/-- **C85 fails when no stack is passed** (the default): files of the size of a block are read as files of the size of the
tile, so that a tile of more than one block cannot be reconstructed this way. -/
theorem C85_no_stack_raises {R : Type} (c : Config) (ht : Tiled c) (hb : 1 < c.nbx * c.nby) (obcold : Call → Option R) (id conse : Nat)
    (files : List (Name × Block)) (hsz : ∀ f ∈ files, f.2.length = c.bw * c.bh) (listing : Store) :
    reconstruct c obcold id none files listing conse = .raised := by
  have hr : readBlockdata (c.nCols * c.nRows) files = .raised := by
    unfold readBlockdata
    generalize hF : (files.filter fun f => f.1.head? = some 'L') = F
    cases hm : F.mapM fun f : Name × Block => (dateOfFile f.1).map fun d => (d, f) with
    | none => simp only [hm]; rfl
    | some l =>
      simp only [hm]
      change (if (l.insertionSort Stack.Le).all _ = true then _ else _) = _
      split_ifs with h1 h2
      · rfl
      · exfalso
        obtain ⟨x, hx⟩ := List.exists_mem_of_ne_nil _ h2
        have hlen := of_decide_eq_true (List.all_eq_true.1 h1 x hx)
        have hx' : x ∈ l := (List.perm_insertionSort _ _).mem_iff.1 hx
        have hmem : ∀ (F : List (Name × Block)) (l : List (Int × Name × Block)),
            (F.mapM fun f : Name × Block => (dateOfFile f.1).map fun d => (d, f)) = some l → ∀ x ∈ l, x.2 ∈ F := by
          intro F
          induction F with
          | nil => intro l e x hx; simp only [List.mapM_nil] at e; cases e; simp at hx
          | cons f F ih =>
            intro l e x hx
            rw [List.mapM_cons] at e
            cases hd : dateOfFile f.1 with
            | none => rw [hd] at e; cases e
            | some d =>
              cases hm : F.mapM fun f : Name × Block => (dateOfFile f.1).map fun d => (d, f) with
              | none => rw [hd, hm] at e; cases e
              | some l' =>
                rw [hd, hm] at e
                cases e
                rcases List.mem_cons.1 hx with rfl | hx
                · exact List.mem_cons_self
                · exact List.mem_cons_of_mem _ (ih l' hm x hx)
        have hf := hmem F l hm x hx'
        rw [← hF] at hf
        rw [hsz _ (List.mem_filter.1 hf).1] at hlen
        obtain ⟨hw, hh, e1, e2⟩ := ht
        rw [e1, e2] at hlen
        have : c.nbx * c.bw * (c.nby * c.bh) = (c.nbx * c.nby) * (c.bw * c.bh) := by ring
        rw [this] at hlen
        have hpos : 0 < c.bw * c.bh := Nat.mul_pos hw hh
        nlinarith
      · rfl
  change Res.bind (readBlockdata (c.nCols * c.nRows) files) _ = _
  rw [hr]
  rfl

/-! Two scenes of the first block, of the days 730120 and 730151; one image of break dates. -/

def sampleFiles : List (Name × Block) :=
  [("LE70000002000001".toList, [[1], [2], [3], [4]]), ("LE70000002000032".toList, [[5], [6], [7], [8]])]

def sampleListing : Store := [(obiaName 731000 1 1, [0, 730130, 0, 0]), (obiaName 731000 2 1, [0, 0, 0, 0])]

/-- **C85 fails with bounds on the years**: scenes that detection was told to leave out take part in the
reconstruction. -/
theorem C85_bounds_ignored : ∃ (c : Config) (files : List (Name × Block)) (listing : Store) (low d : Int) (detected : List (Int × Block))
    (rebuilt : List (List Int)), Tiled c ∧ getStackDate (c.bw * c.bh) files low 0 = .ok (some detected) ∧
      lastStage c (fun x => some [x.dates]) 1 files listing 6 = .ok rebuilt ∧ d < low ∧ d ∉ argDates detected ∧ ∀ ds ∈ rebuilt, d ∈ ds :=
  ⟨sampleConfig, sampleFiles, sampleListing, 730140, 730120, [(730151, [[5], [6], [7], [8]])],
    List.replicate 4 [730120, 730151], by unfold Tiled; decide, by decide +kernel, by decide +kernel, by decide, by decide, by decide⟩

-- the hypotheses of the theorems above are met
example : getStackDate (sampleConfig.bw * sampleConfig.bh) sampleFiles 0 0 =
    .ok (some [(730120, [[1], [2], [3], [4]]), (730151, [[5], [6], [7], [8]])]) := by decide +kernel

example : lastStage sampleConfig (fun x => if x.pos = 2 then none else some [(x.pos, x.breaks, x.bands 0)]) 1 sampleFiles sampleListing 6 =
    .ok [(1, [0], [1, 5]), (5, [0], [3, 7]), (6, [0], [4, 8])] := by decide +kernel

example : 1 < sampleConfig.nbx * sampleConfig.nby ∧ ∀ f ∈ sampleFiles, f.2.length = sampleConfig.bw * sampleConfig.bh := by decide +kernel

example : lastStage (R := Int) sampleConfig (fun _ => some [1]) 1 [("tmp.txt".toList, [])] sampleListing 6 = .raised := by decide +kernel

end Pycold.Recon
