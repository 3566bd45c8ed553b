/-!
# Tile and block arithmetic

`src/python/pycold/utils.py` (block and pixel numbering, assembly of maps), the work-sharing loops of
`imagetool/tile_processing.py`, `imagetool/export_change_map.py`, and `save_obiaresult` of `ob_analyst.py`.

Python integers are `Int`.  `int(a / b)` goes through a float in Python; it is modelled as exact division
truncated towards zero (exact below 2^53).  Python's `%` with a positive divisor is `Int.emod`.
-/
namespace Pycold.Tile

/-- `get_block_y`, `utils.py` 13–24, and `tile_processing.py` 406, 730. -/
def blockY (blockId nBlockX : Int) : Int := (blockId - 1).tdiv nBlockX + 1

/-- `get_block_x`, `utils.py` 27–38, and `tile_processing.py` 407, 731. -/
def blockX (blockId nBlockX : Int) : Int := (blockId - 1) % nBlockX + 1

/-- `get_col_index`, `utils.py` 41–54 (also inlined in `export_change_map.py`). -/
def colIndex (pos nCols curBlockX blockWidth : Int) : Int := (pos - 1) % nCols - (curBlockX - 1) * blockWidth

/-- `get_row_index`, `utils.py` 57–70. -/
def rowIndex (pos nCols curBlockY blockHeight : Int) : Int :=
  (pos - 1).tdiv nCols - (curBlockY - 1) * blockHeight

/-- `get_rowcol_intile`, `utils.py` 176–198: `int(index / w + (by - 1) * h + 1)` is the truncation of the
exact sum, here brought over the common denominator `w`. -/
def rowcolInTile (index blockWidth blockHeight bx by_ : Int) : Int × Int :=
  ((index + ((by_ - 1) * blockHeight + 1) * blockWidth).tdiv blockWidth,
   index % blockWidth + (bx - 1) * blockWidth + 1)

/-- `get_id_inblock`, `utils.py` 201–212. -/
def idInBlock (pos blockWidth blockHeight nCols : Int) : Int :=
  ((pos - 1).tdiv nCols % blockHeight) * blockWidth + (pos - 1) % nCols % blockWidth

/-- The value passed as `pos` for every pixel: `n_cols * (original_row - 1) + original_col`
(`tile_processing.py` 465, 508, 530). -/
def posOf (nCols row col : Int) : Int := nCols * (row - 1) + col

/-! ### Sharing out -/

/-- `int(np.ceil(n * 1.0 / cores))`, `tile_processing.py` 398, 701; `export_change_map.py` 397. -/
def perCore (n cores : Nat) : Nat := (n + cores - 1) / cores

/-- The loop `for i in range(nblock_eachcore): block_id = n_cores * i + rank; if block_id > nblocks: break`
(`tile_processing.py` 399–404, 665–668, 678–681, 723–728): the ids one rank processes, in order. -/
def shareFrom (n cores rank : Nat) : Nat → Nat → List Nat
  | 0, _ => []
  | k + 1, i => if cores * i + rank > n then [] else (cores * i + rank) :: shareFrom n cores rank k (i + 1)

def share (n cores rank : Nat) : List Nat := shareFrom n cores rank (perCore n cores) 0

/-- The loop of `export_change_map.py` 397–401: 0-based ids, `if iblock >= n_blocks: break`. -/
def share0From (n cores rank : Nat) : Nat → Nat → List Nat
  | 0, _ => []
  | k + 1, i => if cores * i + rank ≥ n then [] else (cores * i + rank) :: share0From n cores rank k (i + 1)

def share0 (n cores rank : Nat) : List Nat := share0From n cores rank (perCore n cores) 0

/-- The dates one rank analyses (`tile_processing.py` 701–706): start + (rank-1+i*cores)*interval, up to
the date of the last map. -/
def dateShareFrom (start interval : Int) (nMaps cores : Nat) (rank : Int) : Nat → Nat → List Int
  | 0, _ => []
  | k + 1, i =>
    let d := start + (rank - 1 + i * cores) * interval
    if d > start + (nMaps - 1) * interval then []
    else d :: dateShareFrom start interval nMaps cores rank k (i + 1)

def dateShare (start interval : Int) (nMaps cores : Nat) (rank : Int) : List Int :=
  dateShareFrom start interval nMaps cores rank (perCore nMaps cores) 0

/-! ### Arrays -/

/-- A two-dimensional array. -/
structure Grid (V : Type) where
  rows : Nat
  cols : Nat
  at_ : Nat → Nat → V

variable {V : Type}

/-- `np.hstack` of two arrays with as many rows. -/
def hcat (a b : Grid V) : Grid V :=
  { rows := a.rows, cols := a.cols + b.cols,
    at_ := fun r c => if c < a.cols then a.at_ r c else b.at_ r (c - a.cols) }

/-- `np.vstack` of two arrays with as many columns. -/
def vcat (a b : Grid V) : Grid V :=
  { rows := a.rows + b.rows, cols := a.cols,
    at_ := fun r c => if r < a.rows then a.at_ r c else b.at_ (r - a.rows) c }

/-- `np.hstack`: `none` for an empty list (numpy raises) or unequal heights. -/
def hstack : List (Grid V) → Option (Grid V)
  | [] => none
  | [a] => some a
  | a :: rest =>
    match hstack rest with
    | none => none
    | some b => if a.rows = b.rows then some (hcat a b) else none

def vstack : List (Grid V) → Option (Grid V)
  | [] => none
  | [a] => some a
  | a :: rest =>
    match vstack rest with
    | none => none
    | some b => if a.cols = b.cols then some (vcat a b) else none

/-- `np.hsplit(a, n)`: `n` parts of equal width; numpy raises when the width is not divisible. -/
def hsplit (a : Grid V) (n : Nat) : Option (List (Grid V)) :=
  if n = 0 ∨ a.cols % n ≠ 0 then none
  else some ((List.range n).map (fun j =>
    { rows := a.rows, cols := a.cols / n, at_ := fun r c => a.at_ r (j * (a.cols / n) + c) }))

/-- `assemble_array`, `utils.py` 301–317; the same lines in `export_change_map.py` 578–581, 604–607.
`blocks` are the blocks in the order of their ids. -/
def assembleArray (blocks : List (Grid V)) (nBlockX : Nat) : Option (Grid V) :=
  match hstack blocks with
  | none => none
  | some full =>
    match hsplit full nBlockX with
    | none => none
    | some parts => vstack parts

/-! ### Change-magnitude maps -/

/-- Overwriting a slice of a map with a block; numpy clips the slice to the array and raises when the
remaining shape differs from the block's (simplified: for blocks one pixel wide or high numpy would
instead broadcast into the empty slice; here that is `none` too). -/
def putBlock (m : Grid V) (r0 c0 : Nat) (b : Grid V) : Option (Grid V) :=
  if r0 + b.rows ≤ m.rows ∧ c0 + b.cols ≤ m.cols then
    some { m with at_ := fun r c =>
      if (r0 ≤ r ∧ r < r0 + b.rows) ∧ (c0 ≤ c ∧ c < c0 + b.cols) then b.at_ (r - r0) (c - c0) else m.at_ r c }
  else none

/-- The block of map number `count` out of a per-block file: the file holds, pixel after pixel, the
`nCm` values of the pixel (`np.hstack(CM_collect)`, `tile_processing.py` 560–568); `assemble_cmmaps` reshapes
it to (pixels, nCm), takes column `count` and reshapes that to (height, width) (`utils.py` 143–157). -/
def blockOfFile (bw bh nCm count : Nat) (file : Nat → V) : Grid V :=
  { rows := bh, cols := bw, at_ := fun r c => file ((r * bw + c) * nCm + count) }

/-- The loop over the blocks of `assemble_cmmaps` for one map (`utils.py` 125–157).  `files x y` is the
contents of the file of block (x, y), `none` if it cannot be read; then the message is printed and
`cm_block` keeps the previous block's contents (132–141); for the very first block that is an unbound
variable (`none`).  Note `iblock % n_block_y` (127). -/
def cmLoop (nbx nby bw bh nCm count : Nat) (files : Nat → Nat → Option (Nat → V)) :
    List Nat → Option (Nat → V) → Grid V → Option (Grid V)
  | [], _, m => some m
  | ib :: rest, prev, m =>
    let cy := ib / nbx + 1
    let cx := ib % nby + 1
    match (files cx cy).or prev with
    | none => none
    | some f =>
      match putBlock m ((cy - 1) * bh) ((cx - 1) * bw) (blockOfFile bw bh nCm count f) with
      | none => none
      | some m' => cmLoop nbx nby bw bh nCm count files rest (some f) m'

/-- `assemble_cmmaps` for one of the maps, starting from the array full of the fill value. -/
def assembleCm (fill : V) (nbx nby bw bh nCm count : Nat) (files : Nat → Nat → Option (Nat → V)) :
    Option (Grid V) :=
  cmLoop nbx nby bw bh nCm count files (List.range (nbx * nby)) none
    { rows := nby * bh, cols := nbx * bw, at_ := fun _ _ => fill }

/-! ### Splitting a tile into blocks -/

/-- `save_obiaresult`, `ob_analyst.py` 1002–1022: the flat offset (in elements) that `as_strided` reads for
cell (r, c) of block (j, i); `n_cols * block_height`, `block_width`, `n_cols`, 1 are the strides. -/
def strideOffset (nCols bh bw i j r c : Nat) : Nat := i * (nCols * bh) + j * bw + r * nCols + c

end Pycold.Tile
