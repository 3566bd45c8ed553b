import Verif.Proof.Tile
import Verif.Spec.Tile
/-!
# Properties C34–C36 and C49: pixel numbering, assembling tiles, sharing out blocks, splitting tiles
-/
namespace Pycold

open Pycold.Tile Pycold.Tile.Spec

/-! ## C34 -/

/-- A pixel given by block id and index in the block lies in the tile, and row, column, block and index
can be read back from the `pos` that is stored in its records. -/
theorem C34_read_back (nbx nby bw bh id idx : Int) (hx : 1 ≤ nbx) (hw : 1 ≤ bw) (hh : 1 ≤ bh)
    (hid : 1 ≤ id ∧ id ≤ nbx * nby) (hidx : 0 ≤ idx ∧ idx < bw * bh) :
    let bx := blockX id nbx
    let by_ := blockY id nbx
    let row := (rowcolInTile idx bw bh bx by_).1
    let col := (rowcolInTile idx bw bh bx by_).2
    let pos := posOf (nbx * bw) row col
    (1 ≤ bx ∧ bx ≤ nbx) ∧ (1 ≤ by_ ∧ by_ ≤ nby) ∧
    (1 ≤ row ∧ row ≤ nby * bh) ∧ (1 ≤ col ∧ col ≤ nbx * bw) ∧
    (1 ≤ pos ∧ pos ≤ (nby * bh) * (nbx * bw)) ∧
    -- the index in the block, and row and column in the block
    idInBlock pos bw bh (nbx * bw) = idx ∧
    rowIndex pos (nbx * bw) by_ bh = idx / bw ∧ colIndex pos (nbx * bw) bx bw = idx % bw ∧
    -- the block
    id = ((row - 1) / bh) * nbx + (col - 1) / bw + 1 := by
  intro bx by_ row col pos
  obtain ⟨h1, h2, h3, h4, h5⟩ := blockXY hx hid
  obtain ⟨a1, a2, a3, a4, a5⟩ := split (n := bw) (m := bh) (x := idx) (by omega) hidx.1
    (by rw [Int.mul_comm]; exact hidx.2)
  obtain ⟨p1, p2, p3, p4, p5, p6, p7, p8⟩ :=
    pixel (nbx := nbx) (nby := nby) hw hh ⟨h1, h2⟩ ⟨h3, h4⟩ hidx.1 hidx.2
  refine ⟨⟨h1, h2⟩, ⟨h3, h4⟩, p1, p2, ⟨p7, p8⟩, ?_, ?_, ?_, ?_⟩
  · show (pos - 1).tdiv (nbx * bw) % bh * bw + (pos - 1) % (nbx * bw) % bw = idx
    rw [p3, p4, p5, p6, emod_mul_add a1 a2, emod_mul_add a3 a4]
    omega
  · show (pos - 1).tdiv (nbx * bw) - (by_ - 1) * bh = _
    rw [p3, p5]; exact add_sub_cancel_left _ _
  · show (pos - 1) % (nbx * bw) - (bx - 1) * bw = _
    rw [p4, p6]; exact add_sub_cancel_left _ _
  · rw [p5, p6, ediv_mul_add a1 a2, ediv_mul_add a3 a4]
    omega

/-- Every position of the tile is the position of exactly one (block, index). -/
theorem C34_bijection (nbx nby bw bh pos : Int) (hx : 1 ≤ nbx) (hw : 1 ≤ bw) (hh : 1 ≤ bh)
    (hpos : 1 ≤ pos ∧ pos ≤ (nby * bh) * (nbx * bw)) :
    ∃ id idx, ((1 ≤ id ∧ id ≤ nbx * nby) ∧ (0 ≤ idx ∧ idx < bw * bh) ∧
        posOf (nbx * bw) (rowcolInTile idx bw bh (blockX id nbx) (blockY id nbx)).1
          (rowcolInTile idx bw bh (blockX id nbx) (blockY id nbx)).2 = pos) ∧
      ∀ id' idx', (1 ≤ id' ∧ id' ≤ nbx * nby) → (0 ≤ idx' ∧ idx' < bw * bh) →
        posOf (nbx * bw) (rowcolInTile idx' bw bh (blockX id' nbx) (blockY id' nbx)).1
          (rowcolInTile idx' bw bh (blockX id' nbx) (blockY id' nbx)).2 = pos → id' = id ∧ idx' = idx := by
  have hnc : 0 < nbx * bw := Int.mul_pos (by omega) (by omega)
  obtain ⟨r0, r1, c0, c1, e⟩ := split (n := nbx * bw) (m := nby * bh) (x := pos - 1) hnc (by omega) (by omega)
  obtain ⟨s0, s1, s2, s3, s4⟩ := split (n := bh) (m := nby) (x := (pos - 1) / (nbx * bw)) (by omega) r0 r1
  obtain ⟨t0, t1, t2, t3, t4⟩ := split (n := bw) (m := nbx) (x := (pos - 1) % (nbx * bw)) (by omega) c0 c1
  generalize hR : (pos - 1) / (nbx * bw) = R at *
  generalize hC : (pos - 1) % (nbx * bw) = C at *
  have hb := blockXY_of (nbx := nbx) (nby := nby) (bx := C / bw + 1) (by_ := R / bh + 1) (by omega) (by omega)
  simp only at hb
  rw [show R / bh + 1 - 1 = R / bh by omega] at hb
  obtain ⟨b1, b2, b3, b4⟩ := hb
  have i0 := combine_nonneg (n := bw) (q := R % bh) (a := C % bw) (by omega) s2 t2
  have i1 := combine_lt (n := bw) (m := bh) (q := R % bh) (a := C % bw) (by omega) s3 t3
  rw [Int.mul_comm bh] at i1
  refine ⟨R / bh * nbx + (C / bw + 1), R % bh * bw + C % bw, ⟨⟨b1, b2⟩, ⟨i0, i1⟩, ?_⟩, ?_⟩
  · rw [b3, b4, rowcol_eq hw hh i0 (by omega), ediv_mul_add t2 t3, emod_mul_add t2 t3]
    simp only [posOf]
    rw [show R % bh + (R / bh + 1 - 1) * bh + 1 - 1 = R by rw [show R / bh + 1 - 1 = R / bh by omega]; omega,
      show C % bw + (C / bw + 1 - 1) * bw + 1 = C + 1 by rw [show C / bw + 1 - 1 = C / bw by omega]; omega,
      Int.mul_comm]
    omega
  · intro id' idx' hid' hidx' he
    obtain ⟨q1, q2, q3, q4, q5, q6, _⟩ := pixel (nbx := nbx) (nby := nby) (idx := idx') hw hh
      ⟨(blockXY hx hid').1, (blockXY hx hid').2.1⟩ ⟨(blockXY hx hid').2.2.1, (blockXY hx hid').2.2.2.1⟩
      hidx'.1 hidx'.2
    have rb := C34_read_back nbx nby bw bh id' idx' hx hw hh hid' hidx'
    simp only [he] at q3 q4 rb
    rw [Int.tdiv_eq_ediv_of_nonneg (by omega), hR] at q3
    rw [hC] at q4
    obtain ⟨_, _, _, _, _, rb1, _, _, rb2⟩ := rb
    refine ⟨?_, ?_⟩
    · rw [rb2, ← q3, ← q4]; omega
    · rw [← rb1]; simp only [idInBlock]
      rw [Int.tdiv_eq_ediv_of_nonneg (by omega), hR, hC]

example : rowcolInTile 7 5 4 2 3 = (10, 8) ∧ idInBlock (posOf 15 10 8) 5 4 15 = 7 ∧
    blockX 8 3 = 2 ∧ blockY 8 3 = 3 := by decide

/-! ## C35 -/

/-- `assemble_array` puts every block in its place when the tile has as many block columns as rows. -/
theorem C35_assembly_partial {V : Type} (nb bw bh : Nat) (hnb : 1 ≤ nb) (block : Nat → Grid V)
    (hshape : ∀ k, k < nb * nb → (block k).rows = bh ∧ (block k).cols = bw) :
    ∃ g, assembleArray ((List.range (nb * nb)).map block) nb = some g ∧
      Placed nb nb bw bh (fun k => (block k).at_) g := by
  obtain ⟨g, h1, h2, h3, h4⟩ := assembleArray_spec nb nb bw bh hnb hnb ((List.range (nb * nb)).map block)
    (by simp) (by
      intro b hb
      simp only [List.mem_map, List.mem_range] at hb
      obtain ⟨k, hk, rfl⟩ := hb
      exact hshape k hk)
  refine ⟨g, h1, h2, h3, ?_⟩
  intro k r c hk hr hc
  have e : k / nb * nb + k % nb = k := by have := Nat.div_add_mod k nb; rw [Nat.mul_comm] at this; exact this
  exact h4 (k / nb) (k % nb) r c (block k) (Nat.div_lt_of_lt_mul hk) (Nat.mod_lt _ (by omega)) hr hc
    (by rw [e]; simp [hk])

/-- On any other grid it does not: the assembled array always has `nbx` block rows of `nby` blocks,
instead of `nby` block rows of `nbx` blocks. -/
theorem C35_assembly_not_square {V : Type} (nbx nby bw bh : Nat) (hx : 1 ≤ nbx) (hy : 1 ≤ nby)
    (hne : nbx ≠ nby) (hh : 1 ≤ bh) (block : Nat → Grid V)
    (hshape : ∀ k, k < nbx * nby → (block k).rows = bh ∧ (block k).cols = bw) :
    ∃ g, assembleArray ((List.range (nbx * nby)).map block) nbx = some g ∧
      g.rows = nbx * bh ∧ g.cols = nby * bw ∧
      (∀ k r c, k < nbx * nby → r < bh → c < bw →
        g.at_ (k / nby * bh + r) (k % nby * bw + c) = (block k).at_ r c) ∧
      ¬ Placed nbx nby bw bh (fun k => (block k).at_) g := by
  obtain ⟨g, h1, h2, h3, h4⟩ := assembleArray_spec nbx nby bw bh hx hy ((List.range (nbx * nby)).map block)
    (by simp) (by
      intro b hb
      simp only [List.mem_map, List.mem_range] at hb
      obtain ⟨k, hk, rfl⟩ := hb
      exact hshape k hk)
  refine ⟨g, h1, h2, h3, ?_, ?_⟩
  · intro k r c hk hr hc
    have e : k / nby * nby + k % nby = k := by
      have := Nat.div_add_mod k nby; rw [Nat.mul_comm] at this; exact this
    exact h4 (k / nby) (k % nby) r c (block k)
      (Nat.div_lt_of_lt_mul (by rw [Nat.mul_comm]; exact hk)) (Nat.mod_lt _ (by omega)) hr hc
      (by rw [e]; simp [hk])
  · rintro ⟨h, _, _⟩
    rw [h2] at h
    exact hne (Nat.eq_of_mul_eq_mul_right (by omega) h)

/-- Two blocks side by side come out one below the other. -/
example : ∃ g : Grid Nat, assembleArray ((List.range 2).map (fun k => ⟨1, 1, fun _ _ => k + 7⟩)) 2 = some g ∧
    g.rows = 2 ∧ g.cols = 1 ∧ g.at_ 0 0 = 7 ∧ g.at_ 1 0 = 8 := ⟨_, rfl, rfl, rfl, rfl, rfl⟩

example : ∃ g : Grid Nat, assembleArray ((List.range 4).map (fun k => ⟨1, 1, fun _ _ => k + 7⟩)) 2 = some g ∧
    g.at_ 0 0 = 7 ∧ g.at_ 0 1 = 8 ∧ g.at_ 1 0 = 9 ∧ g.at_ 1 1 = 10 := ⟨_, rfl, rfl, rfl, rfl, rfl⟩

/-- The change-magnitude maps: with as many block columns as rows and every block file readable, map
number `count` holds value `count` of every pixel (the file of block (x, y) holds the `nCm` values of
its pixels one after the other). -/
theorem C35_cm_maps_partial {V : Type} (fill : V) (nb bw bh nCm count : Nat) (hnb : 1 ≤ nb)
    (file : Nat → Nat → Nat → V) :
    ∃ g, assembleCm fill nb nb bw bh nCm count (fun x y => some (file x y)) = some g ∧
      Placed nb nb bw bh (fun k r c => file (k % nb + 1) (k / nb + 1) ((r * bw + c) * nCm + count)) g := by
  obtain ⟨g, h1, h2, h3, h4⟩ := cmLoop_square nb bw bh nCm count hnb (fun x y => some (file x y)) file
    (by intros; rfl) (List.range (nb * nb)) (by simp) none
    { rows := nb * bh, cols := nb * bw, at_ := fun _ _ => fill } rfl rfl
  refine ⟨g, h1, h2, h3, ?_⟩
  intro k r c hk hr hc
  have e : k / nb * nb + k % nb = k := by have := Nat.div_add_mod k nb; rw [Nat.mul_comm] at this; exact this
  exact (h4 (k / nb) (k % nb) r c (Nat.div_lt_of_lt_mul hk) (Nat.mod_lt _ (by omega)) hr hc).1
    (by rw [e]; simp [hk])

/-- With fewer block columns than rows, assembling the change-magnitude maps always fails, whatever the
files contain. -/
theorem C35_cm_maps_tall {V : Type} (fill : V) (nbx nby bw bh nCm count : Nat) (hx : 1 ≤ nbx)
    (hlt : nbx < nby) (hw : 1 ≤ bw) (files : Nat → Nat → Option (Nat → V)) :
    assembleCm fill nbx nby bw bh nCm count files = none := by
  refine cmLoop_outside hw ⟨nbx, ?_, ?_⟩ rfl
  · rw [List.mem_range]
    calc nbx < nby := hlt
      _ = 1 * nby := by omega
      _ ≤ nbx * nby := Nat.mul_le_mul_right _ hx
  · rw [Nat.mod_eq_of_lt hlt]

/-- With more block columns than rows, the columns of the tile beyond block column `nby` are never
written: they keep the fill value whatever the files contain. -/
theorem C35_cm_maps_wide {V : Type} (fill : V) (nbx nby bw bh nCm count : Nat) (hy : 1 ≤ nby)
    (files : Nat → Nat → Option (Nat → V)) (g : Grid V)
    (h : assembleCm fill nbx nby bw bh nCm count files = some g) :
    ∀ r c, nby * bw ≤ c → g.at_ r c = fill := by
  intro r c hc
  rw [cmLoop_untouched hy h r c hc]

/-- A block file that cannot be read is silently replaced by the block before it (which is readable). -/
theorem C35_cm_maps_missing_file {V : Type} (fill : V) (nb bw bh nCm count : Nat) (hnb : 1 ≤ nb) (k : Nat)
    (file : Nat → Nat → Nat → V) :
    let block : Nat → Nat → Nat → V := fun k r c => file (k % nb + 1) (k / nb + 1) ((r * bw + c) * nCm + count)
    ∃ g, assembleCm fill nb nb bw bh nCm count
        (fun x y => if x = (k + 1) % nb + 1 ∧ y = (k + 1) / nb + 1 then none else some (file x y)) = some g ∧
      Placed nb nb bw bh (fun k' => if k' = k + 1 then block k else block k') g := by
  intro block
  obtain ⟨g, h1, h2, h3, h4⟩ := C35_cm_maps_partial fill nb bw bh nCm count hnb
    (fun x y => if x = (k + 1) % nb + 1 ∧ y = (k + 1) / nb + 1 then file (k % nb + 1) (k / nb + 1) else file x y)
  refine ⟨g, ?_, h2, h3, ?_⟩
  · rw [← h1]
    unfold assembleCm
    rw [List.range_eq_range']
    refine cmLoop_missing hnb (k + 1) (by omega) _ _ ?_ ?_ ?_ _ _ _ _ (by omega)
    · intro b hb
      have : ¬ (b % nb + 1 = (k + 1) % nb + 1 ∧ b / nb + 1 = (k + 1) / nb + 1) := by
        rintro ⟨e1, e2⟩
        have d1 := Nat.div_add_mod b nb
        have d2 := Nat.div_add_mod (k + 1) nb
        rw [show b / nb = (k + 1) / nb by omega, show b % nb = (k + 1) % nb by omega] at d1
        omega
      simp only [this, if_false]
    · simp
    · have : ¬ (k % nb + 1 = (k + 1) % nb + 1 ∧ k / nb + 1 = (k + 1) / nb + 1) := by
        rintro ⟨e1, e2⟩
        have d1 := Nat.div_add_mod k nb
        have d2 := Nat.div_add_mod (k + 1) nb
        rw [show k / nb = (k + 1) / nb by omega, show k % nb = (k + 1) % nb by omega] at d1
        omega
      simp only [Nat.add_sub_cancel, and_self, if_true, if_neg this, Option.isSome_some]
  · intro k' r c hk' hr hc
    rw [h4 k' r c hk' hr hc]
    by_cases h : k' = k + 1
    · subst h; simp [block]
    · have : ¬ (k' % nb + 1 = (k + 1) % nb + 1 ∧ k' / nb + 1 = (k + 1) / nb + 1) := by
        rintro ⟨e1, e2⟩
        have d1 := Nat.div_add_mod k' nb
        have d2 := Nat.div_add_mod (k + 1) nb
        rw [show k' / nb = (k + 1) / nb by omega, show k' % nb = (k + 1) % nb by omega] at d1
        omega
      simp only [block, if_neg this, if_neg h]

/-- A 2 x 2 tile of one-pixel blocks; block (2, 1) unreadable. -/
example : ∃ g : Grid Nat, assembleCm 0 2 2 1 1 3 1
      (fun x y => if x = 2 ∧ y = 1 then none else some (fun i => 100 * x + 10 * y + i)) = some g ∧
    g.at_ 0 0 = 111 ∧ g.at_ 0 1 = 111 ∧ g.at_ 1 0 = 121 ∧ g.at_ 1 1 = 221 := ⟨_, rfl, rfl, rfl, rfl, rfl⟩

/-- A 2 x 1 tile: the second block overwrites the first, its own place keeps the fill value. -/
example : ∃ g : Grid Nat, assembleCm 0 2 1 1 1 1 0 (fun x y => some (fun i => 100 * x + 10 * y + i)) = some g ∧
    g.at_ 0 0 = 120 - 10 ∧ g.at_ 0 1 = 0 := ⟨_, rfl, rfl, rfl⟩

/-! ## C49 -/

/-- Splitting a tile into blocks (object-analysis results): cell (r, c) of block (bx, by) is read from its
place in the tile, and nothing outside the tile is read, for every grid. -/
theorem C49_split (nbx nby bw bh i j r c : Nat) (hi : i < nby) (hj : j < nbx) (hr : r < bh) (hc : c < bw) :
    let off := strideOffset (nbx * bw) bh bw i j r c
    off < (nby * bh) * (nbx * bw) ∧ off / (nbx * bw) = i * bh + r ∧ off % (nbx * bw) = j * bw + c := by
  have hcol : j * bw + c < nbx * bw := by
    have : (j + 1) * bw ≤ nbx * bw := Nat.mul_le_mul_right _ hj
    have : (j + 1) * bw = j * bw + bw := by ring
    omega
  have hrow : i * bh + r < nby * bh := by
    have : (i + 1) * bh ≤ nby * bh := Nat.mul_le_mul_right _ hi
    have : (i + 1) * bh = i * bh + bh := by ring
    omega
  have e : strideOffset (nbx * bw) bh bw i j r c = (i * bh + r) * (nbx * bw) + (j * bw + c) := by
    simp only [strideOffset]; ring
  simp only [e]
  refine ⟨?_, ?_, ?_⟩
  · have : (i * bh + r + 1) * (nbx * bw) ≤ nby * bh * (nbx * bw) := Nat.mul_le_mul_right _ hrow
    have : (i * bh + r + 1) * (nbx * bw) = (i * bh + r) * (nbx * bw) + nbx * bw := by ring
    omega
  · rw [Nat.add_comm, Nat.add_mul_div_right _ _ (by omega), Nat.div_eq_of_lt hcol]; omega
  · rw [Nat.add_comm, Nat.add_mul_mod_self_right, Nat.mod_eq_of_lt hcol]

example : strideOffset 15 4 5 2 1 3 2 = 172 ∧ 172 / 15 = 2 * 4 + 3 ∧ 172 % 15 = 1 * 5 + 2 := by decide

/-! ## C36 -/

/-- Ranks 1..cores share the blocks 1..n. -/
theorem C36_blocks (n cores : Nat) (hc : 1 ≤ cores) :
    SharedOut (fun b => 1 ≤ b ∧ b ≤ n) (fun rank => 1 ≤ rank ∧ rank ≤ cores) (share n cores) := by
  refine ⟨?_, ?_⟩
  · rintro rank ⟨h1, h2⟩
    refine ⟨nodup_shareFrom hc, ?_⟩
    intro b hb
    obtain ⟨h, j, e⟩ := (mem_share hc h1).1 hb
    omega
  · rintro b ⟨h1, h2⟩
    have hm := Nat.mod_lt (b - 1) (show 0 < cores by omega)
    have hd := Nat.div_add_mod (b - 1) cores
    refine ⟨(b - 1) % cores + 1, by omega, ?_, ?_⟩
    · exact (mem_share hc (by omega)).2 ⟨h2, (b - 1) / cores, by omega⟩
    · rintro r ⟨r1, r2⟩ hr
      obtain ⟨_, j, e⟩ := (mem_share hc r1).1 hr
      have := rank_unique (cores := cores) (b := b - 1) (r := r - 1) (j := j) (r' := (b - 1) % cores)
        (j' := (b - 1) / cores) (by omega) (by omega) (by omega) (by omega)
      omega

/-- The command-line default (rank 0, one core) never processes the last block, whatever the tile. -/
theorem C36_default_rank_misses_last (n : Nat) (hn : 1 ≤ n) :
    n ∉ share n 1 0 ∧ 0 ∈ share n 1 0 := by
  simp only [share, mem_shareFrom]
  have : perCore n 1 = n := by simp [perCore]
  rw [this]
  exact ⟨by rintro ⟨_, j, h1, h2, h3⟩; omega, by omega, 0, by omega, by omega, by omega⟩

/-- Instead it processes the last block of the first row twice: once as block 0, once as block nbx. -/
theorem C36_default_rank_repeats (nbx : Int) (hx : 2 ≤ nbx) :
    blockX 0 nbx = blockX nbx nbx ∧ blockY 0 nbx = blockY nbx nbx := by
  simp only [blockX, blockY]
  have e1 : (0 - 1 : Int) % nbx = nbx - 1 := by
    rw [show (0 - 1 : Int) = (-1) * nbx + (nbx - 1) by ring, emod_mul_add (by omega) (by omega)]
  have e2 : (nbx - 1) % nbx = nbx - 1 := Int.emod_eq_of_lt (by omega) (by omega)
  have e3 : (nbx - 1).tdiv nbx = 0 := by
    rw [Int.tdiv_eq_ediv_of_nonneg (by omega), Int.ediv_eq_zero_of_lt (by omega) (by omega)]
  have e4 : (0 - 1 : Int).tdiv nbx = 0 := by
    rw [show (0 - 1 : Int) = -1 by omega, Int.neg_tdiv, Int.tdiv_eq_ediv_of_nonneg (by omega),
      Int.ediv_eq_zero_of_lt (by omega) (by omega)]; rfl
  rw [e1, e2, e3, e4]
  exact ⟨rfl, rfl⟩

/-- The export loop: ranks 0..cores-1 share the blocks 0..n-1. -/
theorem C36_export (n cores : Nat) (hc : 1 ≤ cores) :
    SharedOut (fun b => b < n) (fun rank => rank < cores) (share0 n cores) := by
  refine ⟨?_, ?_⟩
  · intro rank h2
    refine ⟨nodup_share0From hc, ?_⟩
    intro b hb
    exact ((mem_share0 hc).1 hb).1
  · intro b h2
    have hm := Nat.mod_lt b (show 0 < cores by omega)
    have hd := Nat.div_add_mod b cores
    refine ⟨b % cores, hm, (mem_share0 hc).2 ⟨h2, b / cores, by omega⟩, ?_⟩
    intro r hr hmem
    obtain ⟨_, j, e⟩ := (mem_share0 hc).1 hmem
    exact rank_unique e (show b = cores * (b / cores) + b % cores by omega) hr hm

/-- The dates of the object analysis: ranks 1..cores share the dates of the n maps. -/
theorem C36_dates (start interval : Int) (n cores : Nat) (hc : 1 ≤ cores) (hi : 1 ≤ interval) :
    SharedOut (fun d => ∃ k : Nat, k < n ∧ d = start + k * interval) (fun rank => 1 ≤ rank ∧ rank ≤ cores)
      (fun rank => dateShare start interval n cores rank) := by
  refine ⟨?_, ?_⟩
  · rintro rank ⟨h1, h2⟩
    refine ⟨nodup_dateShareFrom hc hi, ?_⟩
    intro d hd
    obtain ⟨hle, j, _, _, e⟩ := (mem_dateShareFrom hi).1 hd
    refine ⟨rank - 1 + j * cores, ?_, ?_⟩
    · by_contra hcon
      have : (n : Int) * interval ≤ ((rank : Int) - 1 + j * cores) * interval := by
        apply Int.mul_le_mul_of_nonneg_right _ (by omega)
        have : ((rank - 1 + j * cores : Nat) : Int) = (rank : Int) - 1 + j * cores := by
          rw [Nat.cast_add, Nat.cast_mul, Nat.cast_sub h1, Nat.cast_one]
        omega
      have : ((n : Int) - 1) * interval = n * interval - interval := by ring
      omega
    · rw [e, Nat.cast_add, Nat.cast_mul, Nat.cast_sub h1, Nat.cast_one]
  · rintro d ⟨k, hk, rfl⟩
    have hm := Nat.mod_lt k (show 0 < cores by omega)
    have hd := Nat.div_add_mod k cores
    have hrow := row_lt (n := n) (j := k / cores) (a := k % cores) hc (by omega)
    refine ⟨k % cores + 1, by omega, ?_, ?_⟩
    · refine (mem_dateShareFrom hi).2 ⟨?_, k / cores, Nat.zero_le _, by rw [Nat.zero_add]; exact hrow, ?_⟩
      · have : (k : Int) * interval ≤ ((n : Int) - 1) * interval :=
          Int.mul_le_mul_of_nonneg_right (by omega) (by omega)
        omega
      · have : (k : Int) = (((k % cores + 1 : Nat) : Int) - 1 + ((k / cores : Nat) : Int) * cores) := by
          have : ((cores * (k / cores) + k % cores : Nat) : Int) = k := by exact_mod_cast hd
          rw [Nat.cast_add, Nat.cast_mul, Int.mul_comm] at this
          push_cast at *
          omega
        rw [← this]
    · rintro r ⟨r1, r2⟩ hr
      obtain ⟨_, j, _, _, e⟩ := (mem_dateShareFrom hi).1 hr
      have e' : (k : Int) * interval = ((r : Int) - 1 + j * cores) * interval := by omega
      have e2 : (k : Int) = (r : Int) - 1 + j * cores := Int.eq_of_mul_eq_mul_right (by omega) e'
      have e3 : k = cores * j + (r - 1) := by
        have : ((cores * j + (r - 1) : Nat) : Int) = (r : Int) - 1 + j * cores := by
          rw [Nat.cast_add, Nat.cast_mul, Nat.cast_sub r1, Nat.cast_one]; ring
        omega
      have := rank_unique e3 (show k = cores * (k / cores) + k % cores by omega) (by omega) hm
      omega

example : share 10 4 1 = [1, 5, 9] ∧ share 10 4 2 = [2, 6, 10] ∧ share 10 4 3 = [3, 7] ∧
    share 10 4 4 = [4, 8] ∧ share 4 1 0 = [0, 1, 2, 3] ∧ share0 5 2 0 = [0, 2, 4] ∧
    share0 5 2 1 = [1, 3] ∧ dateShare 100 60 5 2 2 = [160, 280] := by decide

end Pycold
