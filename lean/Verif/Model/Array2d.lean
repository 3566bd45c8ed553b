/-!
# Two-dimensional arrays in one allocation

Model of `src/cxx/2d_array.c` (`allocate_2d_array` 69–126, `free_2d_array` 199–222) and of the accesses
`a[r][c]` that the callers make through the returned table of row pointers, on a byte-addressed memory
with 8-byte pointers (little endian; `sizeof(LSRD_2D_ARRAY)` is 32 and `memory_block` begins at its end).
A result `none` is undefined behaviour: signed overflow, or an access outside every live block.

Not modelled: alignment, negative row or column counts (no caller passes one).
-/
namespace Pycold.Array2d

/-- Memory: the bytes, and the live allocations (address and size) of the process. -/
structure Mem where
  byte : Nat → UInt8
  live : List (Nat × Nat)

/-- The `n` bytes at `a` belong to one live allocation. -/
def Mem.ok (m : Mem) (a n : Nat) : Bool := m.live.any fun B => decide (B.1 ≤ a ∧ a + n ≤ B.1 + B.2)

/-- A read of `n` bytes. -/
def Mem.load (m : Mem) (a n : Nat) : Option (List UInt8) :=
  if m.ok a n then some ((List.range n).map fun i => m.byte (a + i)) else none

/-- A write of some bytes. -/
def Mem.store (m : Mem) (a : Nat) (bs : List UInt8) : Option Mem :=
  if m.ok a bs.length then
    some { m with byte := fun x => if a ≤ x ∧ x < a + bs.length then bs.getD (x - a) 0 else m.byte x }
  else none

/-- The little-endian representation of `v` modulo `2 ^ (8 n)`. -/
def encode : Nat → Nat → List UInt8
  | 0, _ => []
  | n + 1, v => UInt8.ofNat v :: encode n (v / 256)

/-- The number represented. -/
def decode : List UInt8 → Nat
  | [] => 0
  | b :: bs => b.toNat + 256 * decode bs

/-- `SIGNATURE`, `defines.h` 41. -/
def signature : Nat := 0x326589ab

/-- The addition, in `size_t`, of 87–88. -/
def blockSize (rows columns memberSize : Nat) : Nat :=
  (32 + rows * 8 + rows * columns * memberSize + 2 * 8) % 2 ^ 64

/-- The loop 118–122 from row `row` on: `fuel` rows are left.  `row * columns` is computed in `int`. -/
def setRows (table dataPtr columns memberSize : Nat) : (fuel row : Nat) → Mem → Option Mem
  | 0, _, m => some m
  | fuel + 1, row, m =>
    if 2 ^ 31 ≤ row * columns then none
    else do
      let m ← m.store (table + 8 * row) (encode 8 (dataPtr + row * columns * memberSize))
      setRows table dataPtr columns memberSize fuel (row + 1) m

/-- `allocate_2d_array`; `base` is what `malloc` returns (`none` for `NULL`, in which case the function
returns `NULL`, written 0).  `rows * columns` (88) and the index of the first data element (108–111) are
computed in `int`. -/
def allocate (m : Mem) (base : Option Nat) (rows columns memberSize : Nat) : Option (Nat × Mem) :=
  if 2 ^ 31 ≤ rows * columns then none
  else match base with
  | none => some (0, m)
  | some b => do
    let m := { m with live := (b, blockSize rows columns memberSize) :: m.live }
    let m ← m.store b (encode 4 signature)
    let m ← m.store (b + 4) (encode 4 rows)
    let m ← m.store (b + 8) (encode 4 columns)
    let m ← m.store (b + 12) (encode 4 memberSize)
    let m ← m.store (b + 24) (encode 8 (b + 32))
    let dataStart := rows * 8 / 8
    if rows % 2 = 1 ∧ dataStart + 1 = 2 ^ 31 then none
    else
      let dataStart := if rows % 2 = 1 then dataStart + 1 else dataStart
      let m ← m.store (b + 16) (encode 8 (b + 32 + 8 * dataStart))
      let m ← setRows (b + 32) (b + 32 + 8 * dataStart) columns memberSize rows 0 m
      some (b + 32, m)

/-- The C library's `free`: undefined for an address that was not allocated. -/
def release (m : Mem) (b : Nat) : Option Mem :=
  if m.live.any fun B => decide (B.1 = b) then some { m with live := m.live.eraseP fun B => decide (B.1 = b) }
  else none

/-- `free_2d_array`; the result tells whether it returned `SUCCESS`. -/
def free (m : Mem) (p : Nat) : Option (Bool × Mem) :=
  if p = 0 then some (true, m)
  else do
    let s ← m.load (p - 32) 4
    if decode s ≠ signature then some (false, m)
    else do
      let m ← release m (p - 32)
      some (true, m)

/-- The expression `a[r][c]` for an element of `memberSize` bytes: its address. -/
def address (m : Mem) (p r c memberSize : Nat) : Option Nat := do
  let q ← m.load (p + 8 * r) 8
  some (decode q + c * memberSize)

/-- `a[r][c] = v` -/
def write (m : Mem) (p r c : Nat) (v : List UInt8) : Option Mem := do
  let a ← address m p r c v.length
  m.store a v

/-- the value of `a[r][c]` -/
def read (m : Mem) (p r c memberSize : Nat) : Option (List UInt8) := do
  let a ← address m p r c memberSize
  m.load a memberSize

/-! A program that uses such arrays. -/

inductive Op where
  /-- `allocate_2d_array(rows, columns, size)`, with the answer of `malloc` -/
  | alloc (rows columns size : Nat) (base : Option Nat)
  /-- `p[r][c] = v` -/
  | write (p r c : Nat) (v : List UInt8)
  /-- read `p[r][c]`, of type size `size` -/
  | read (p r c size : Nat)
  /-- `free_2d_array(p)` -/
  | free (p : Nat)

/-- What the program sees. -/
inductive Out where
  | pointer (p : Nat)
  | written
  | value (v : List UInt8)
  | status (success : Bool)
deriving DecidableEq

def step (m : Mem) : Op → Option (Out × Mem)
  | .alloc rows columns size base => (allocate m base rows columns size).map fun q => (.pointer q.1, q.2)
  | .write p r c v => (write m p r c v).map fun m => (.written, m)
  | .read p r c size => (read m p r c size).map fun v => (.value v, m)
  | .free p => (free m p).map fun q => (.status q.1, q.2)

def run (m : Mem) : List Op → Option (List Out × Mem)
  | [] => some ([], m)
  | o :: os => do
    let (x, m) ← step m o
    let (xs, m) ← run m os
    some (x :: xs, m)

end Pycold.Array2d
