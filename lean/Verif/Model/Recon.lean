import Verif.Model.Stack
import Verif.Model.Obia
/-!
# The third stage of OBCOLD: from object maps to records

Model of `save_obiaresult`, `get_allobiaresult_asarray`, `reconstruct_reccg` and `save_obcoldrecords` in
`src/python/pycold/ob_analyst.py`, of `read_blockdata` in `utils.py`, and of the last loop of `main` in
`imagetool/tile_processing.py`.

The folder of object results is a list of files with their contents, the order standing for that of `os.listdir`.
`obcold_reconstruct` is any function of its arguments; it returns records, or raises.

Not modelled: files that vanish or are torn while they are read (see C51 for that), dates outside years 1 to 9999.
-/
namespace Pycold.Recon

open Stack (Name Block Config Res orRaise orUb parseNat slice digit pad3 blockOf argDates argBand getStackDate dateOfFile blockIds)

/-- `str(n)` -/
def str (n : Nat) : Name := if n < 10 then [digit n] else str (n / 10) ++ [digit n]
termination_by n

/-- The folder of object results: names and contents (a block, in row-major order). -/
abbrev Store := List (Name × List Int)

/-- `np.save`: a file of that name is replaced. -/
def write (dir : Store) (name : Name) (data : List Int) : Store := (name, data) :: dir.filter fun f => decide (f.1 ≠ name)

/-- The end of a name, `_x{}_y{}.npy` (1021, 1055). -/
def suffix (bx by_ : Nat) : Name := ['_', 'x'] ++ str bx ++ (['_', 'y'] ++ str by_ ++ ['.', 'n', 'p', 'y'])

def obiaresult : Name := ['o', 'b', 'i', 'a', 'r', 'e', 's', 'u', 'l', 't']

/-- `obiaresname_fromdate`, `ob_analyst.py` 59–71, with the end of the name; a date is an ordinal above 0. -/
def obiaName (date bx by_ : Nat) : Name :=
  obiaresult ++ ['_'] ++ str date ++ (['_'] ++ str (ChangeMap.yearOf date).toNat ++
    pad3 (date - ChangeMap.jan1 (ChangeMap.yearOf date) + 1).toNat) ++ suffix bx by_

/-- What is saved for a pixel, 998–1003: change map (0 or 1) times break date. -/
def product (change : List Nat) (dates : List Int) : List Int := List.zipWith Obia.saved change dates

/-- `save_obiaresult`, 985–1024, of the values of one date: `img` is the product; `ub` is a read outside it
(`as_strided`).  The loops 1017–1018 are those of `blockIds`. -/
def saveResult (c : Config) (date : Nat) (img : List Int) (dir : Store) : Res Store :=
  (blockIds c).foldlM (fun dir x => do
    let data ← orUb (blockOf c x.1 x.2 img)
    .ok (write dir (obiaName date (x.2 + 1) (x.1 + 1)) data)) dir

/-- All dates, in some order (the ranks work in parallel; every rank saves its own dates). -/
def saveAll (c : Config) (img : Nat → List Int) (order : List Nat) (dir : Store) : Res Store :=
  order.foldlM (fun dir d => saveResult c d (img d) dir) dir

/-- `sorted(zip(cm_dates, obia_files))`: by date, then by name. -/
def Le (a b : Nat × Name × List Int) : Prop := a.1 < b.1 ∨ (a.1 = b.1 ∧ a.2.1 ≤ b.2.1)

instance : DecidableRel Le := fun a b => inferInstanceAs (Decidable (_ ∨ _))

/-- `get_allobiaresult_asarray`, 1040–1075: the blocks of all dates, one under the other.  `f.find("obiaresult_")` is 0 or,
for a name without the underscore, −1; then the slice is `f[10:16]`.  No files: `np.vstack` raises. -/
def allResults (c : Config) (bx by_ : Nat) (listing : Store) : Res (List (List Int)) := do
  let files := listing.filter fun f => obiaresult.isPrefixOf f.1 && (suffix bx by_).isSuffixOf f.1
  let l ← orRaise (files.mapM fun f =>
    (parseNat (if (obiaresult ++ ['_']).isPrefixOf f.1 then slice f.1 11 17 else slice f.1 10 16)).map fun d => (d, f))
  let l := l.insertionSort Le
  if l.all fun x => decide (x.2.2.length = c.bw * c.bh) then
    if l = [] then .raised else .ok (l.map fun x => x.2.2)
  else .raised

/-- The arguments of `obcold_reconstruct`: dates, bands (7 is the mask), break dates, position, and the options. -/
structure Call where
  dates : List Int
  bands : Nat → List Int
  breaks : List Int
  pos : Int
  conse : Nat
  bC2 : Bool

/-- `read_blockdata`, `utils.py` 318–339: only files beginning with `L`; no files: `np.dstack` raises. -/
def readBlockdata (total : Nat) (files : List (Name × Block)) : Res (List (Int × Block)) := do
  let files := files.filter fun f => f.1.head? = some 'L'
  let l ← orRaise (files.mapM fun f => (dateOfFile f.1).map fun d => (d, f))
  let l := l.insertionSort Stack.Le
  if l.all fun x => decide (x.2.2.length = total) then
    if l = [] then .raised else .ok (l.map fun x => (x.1, x.2.2))
  else .raised

/-- `reconstruct_reccg`, 1077–1145: block number from 1, the stack if one is passed, the files of the block's folder,
the folder of object results.  `none` of `obcold` is an exception; both handlers skip the pixel.  `b_c2` is not passed:
`obcold_reconstruct` takes it as `False` (`colds.py` 264). -/
def reconstruct {R : Type} (c : Config) (obcold : Call → Option R) (blockId : Nat) (stack : Option (List (Int × Block)))
    (files : List (Name × Block)) (listing : Store) (conse : Nat) : Res (List R) := do
  let by_ := (Tile.blockY blockId c.nbx).toNat
  let bx := (Tile.blockX blockId c.nbx).toNat
  let stack ← match stack with
    | some s => .ok s
    | none => readBlockdata (c.nCols * c.nRows) files
  let breaks ← allResults c bx by_ listing
  .ok ((List.range (c.bw * c.bh)).filterMap fun pos =>
    if stack.all (fun x => decide (pos < x.2.length)) && breaks.all (fun b => decide (pos < b.length)) then
      let rc := Tile.rowcolInTile pos c.bw c.bh bx by_
      obcold ⟨argDates stack, argBand stack pos, breaks.map fun b => b.getD pos 0, Tile.posOf c.nCols rc.1 rc.2, conse, false⟩
    else none)

/-- `save_obcoldrecords`, 1147–1155: `np.hstack` of no arrays raises. -/
def saveRecords {R : Type} (results : List (List R)) : Res (List R) := if results = [] then .raised else .ok results.flatten

/-- One block of the last loop of `main`, `tile_processing.py` 724–741: the stack is read without the date bounds, and
`b_c2` is not passed on. -/
def lastStage {R : Type} (c : Config) (obcold : Call → Option (List R)) (blockId : Nat) (files : List (Name × Block))
    (listing : Store) (conse : Nat) : Res (List R) := do
  let stack ← getStackDate (c.bw * c.bh) files 0 0
  let results ← reconstruct c obcold blockId stack files listing conse
  saveRecords results

end Pycold.Recon
