/-!
# Saving and loading packs of S-CCD, and what the export of S-CCD maps leaves on disk
-/
namespace Pycold.Pack

/-- The element types of the record types. -/
inductive Kind
  | short | int32 | uint32 | ubyte | float32
  deriving DecidableEq, Repr

/-- A field of a record type: name, element type, shape (`[]` for a single number). -/
structure Field where
  name : String
  kind : Kind
  shape : List Nat
  deriving DecidableEq, Repr

/-- `reccg_dt`, `src/python/pycold/common.py` 9–26. -/
def reccg_dt : List Field :=
  [⟨"t_start", .int32, []⟩, ⟨"t_end", .int32, []⟩, ⟨"t_break", .int32, []⟩, ⟨"pos", .int32, []⟩, ⟨"num_obs", .int32, []⟩,
   ⟨"category", .short, []⟩, ⟨"change_prob", .short, []⟩, ⟨"coefs", .float32, [7, 8]⟩, ⟨"rmse", .float32, [7]⟩,
   ⟨"magnitude", .float32, [7]⟩]

/-- `sccd_dt`, `common.py` 31–41 (`NRT_BAND` and `SCCD_NUM_C` are 6). -/
def sccd_dt : List Field :=
  [⟨"t_start", .int32, []⟩, ⟨"t_break", .int32, []⟩, ⟨"num_obs", .int32, []⟩, ⟨"coefs", .float32, [6, 6]⟩,
   ⟨"rmse", .float32, [6]⟩, ⟨"magnitude", .float32, [6]⟩]

/-- `nrtqueue_dt`, `common.py` 43. -/
def nrtqueue_dt : List Field := [⟨"clry", .short, [6]⟩, ⟨"clrx_since1982", .short, []⟩]

/-- `nrtmodel_dt`, `common.py` 45–60 (`DEFAULT_CONSE` is 8 here). -/
def nrtmodel_dt : List Field :=
  [⟨"t_start_since1982", .short, []⟩, ⟨"num_obs", .short, []⟩, ⟨"obs", .short, [6, 8]⟩, ⟨"obs_date_since1982", .short, [8]⟩,
   ⟨"covariance", .float32, [6, 36]⟩, ⟨"nrt_coefs", .float32, [6, 6]⟩, ⟨"H", .float32, [6]⟩, ⟨"rmse_sum", .uint32, [6]⟩,
   ⟨"norm_cm", .short, []⟩, ⟨"cm_angle", .short, []⟩, ⟨"conse_last", .ubyte, []⟩]

/-- `pinpoint_dt`, `common.py` 63–73. -/
def pinpoint_dt : List Field :=
  [⟨"t_break", .int32, []⟩, ⟨"coefs", .float32, [6, 6]⟩, ⟨"obs", .short, [6, 8]⟩, ⟨"obs_date_since1982", .short, [8]⟩,
   ⟨"norm_cm", .short, [8]⟩, ⟨"cm_angle", .short, [8]⟩]

/-- `output_sccd`, `src/python/pycold/imagetool/export_change_map.py` 18–28. -/
def output_sccd : List Field :=
  [⟨"t_start", .int32, []⟩, ⟨"t_break", .int32, []⟩, ⟨"num_obs", .int32, []⟩, ⟨"coefs", .float32, [6, 6]⟩,
   ⟨"rmse", .float32, [6]⟩, ⟨"magnitude", .float32, [6]⟩]

/-- `output_nrtqueue`, `export_change_map.py` 30. -/
def output_nrtqueue : List Field := [⟨"clry", .short, [6]⟩, ⟨"clrx_since1982", .short, []⟩]

/-- `output_nrtmodel`, `export_change_map.py` 31–45. -/
def output_nrtmodel : List Field :=
  [⟨"t_start_since1982", .short, []⟩, ⟨"num_obs", .short, []⟩, ⟨"obs", .short, [6, 5]⟩, ⟨"obs_date_since1982", .short, [5]⟩,
   ⟨"covariance", .float32, [6, 36]⟩, ⟨"nrt_coefPs", .float32, [6, 6]⟩, ⟨"H", .float32, [6]⟩, ⟨"rmse_sum", .uint32, [6]⟩,
   ⟨"cm_outputs", .short, []⟩, ⟨"cm_outputs_date", .short, []⟩]

/-! ## Places of the fields in memory -/

/-- Size in bytes, and alignment, of an element. -/
def Kind.size : Kind → Nat
  | .short => 2 | .int32 => 4 | .uint32 => 4 | .ubyte => 1 | .float32 => 4

/-- Bytes of a field. -/
def Field.size (f : Field) : Nat := f.shape.foldl (· * ·) 1 * f.kind.size

def roundUp (n a : Nat) : Nat := (n + a - 1) / a * a

/-- numpy's places of the fields from byte `at` on: without gaps, or with `align=True` at multiples of the size of
the elements. -/
def npPlaces (align : Bool) : Nat → List Field → List (String × Nat × Nat)
  | _, [] => []
  | at_, f :: fs =>
    let o := if align then roundUp at_ f.kind.size else at_
    (f.name, o, f.size) :: npPlaces align (o + f.size) fs

/-- A member of a C struct: name, size of the element type, dimensions. -/
structure Member where
  name : String
  elem : Nat
  dims : List Nat

/-- Places of the members of a C struct from byte `at` on (System V ABI): at multiples of the size of the elements. -/
def cPlaces : Nat → List Member → List (String × Nat × Nat)
  | _, [] => []
  | at_, m :: ms =>
    let pad := (m.elem - at_ % m.elem) % m.elem
    let sz := m.elem * m.dims.foldl (· * ·) 1
    (m.name, at_ + pad, sz) :: cPlaces (at_ + pad + sz) ms

/-- The end of the last place, rounded up to the largest alignment (`sizeof`, `itemsize` with `align=True`). -/
def extent (alignment : Nat) (l : List (String × Nat × Nat)) : Nat :=
  match l.getLast? with
  | none => 0
  | some (_, o, s) => roundUp (o + s) alignment

/-- `Output_t`, `src/cxx/output.h` 14–49 (`int` 4 bytes, `short int` 2, `float` 4; `TOTAL_IMAGE_BANDS` 7, `NUM_COEFFS` 8). -/
def Output_t : List Member :=
  [⟨"t_start", 4, []⟩, ⟨"t_end", 4, []⟩, ⟨"t_break", 4, []⟩, ⟨"pos", 4, []⟩, ⟨"num_obs", 4, []⟩, ⟨"category", 2, []⟩,
   ⟨"change_prob", 2, []⟩, ⟨"coefs", 4, [7, 8]⟩, ⟨"rmse", 4, [7]⟩, ⟨"magnitude", 4, [7]⟩]

/-- `Output_sccd`, `output.h` 51–67 (`TOTAL_IMAGE_BANDS_SCCD` and `SCCD_NUM_C` are 6). -/
def Output_sccd : List Member :=
  [⟨"t_start", 4, []⟩, ⟨"t_break", 4, []⟩, ⟨"num_obs", 4, []⟩, ⟨"coefs", 4, [6, 6]⟩, ⟨"rmse", 4, [6]⟩, ⟨"magnitude", 4, [6]⟩]

/-- `Output_sccd_pinpoint`, `output.h` 69–77 (`DEFAULT_CONSE_SCCD` is 8). -/
def Output_sccd_pinpoint : List Member :=
  [⟨"t_break", 4, []⟩, ⟨"coefs", 4, [6, 6]⟩, ⟨"obs", 2, [6, 8]⟩, ⟨"obs_date_since1982", 2, [8]⟩, ⟨"norm_cm", 2, [8]⟩,
   ⟨"cm_angle", 2, [8]⟩]

/-- `output_nrtmodel`, `output.h` 79–92 (`DEFAULT_N_STATE` is 6). -/
def C_nrtmodel : List Member :=
  [⟨"t_start_since1982", 2, []⟩, ⟨"num_obs", 2, []⟩, ⟨"obs", 2, [6, 8]⟩, ⟨"obs_date_since1982", 2, [8]⟩,
   ⟨"covariance", 4, [6, 6 * 6]⟩, ⟨"nrt_coefs", 4, [6, 6]⟩, ⟨"H", 4, [6]⟩, ⟨"rmse_sum", 4, [6]⟩, ⟨"norm_cm", 2, []⟩,
   ⟨"cm_angle", 2, []⟩, ⟨"conse_last", 1, []⟩]

/-- `output_nrtqueue`, `output.h` 94–98. -/
def C_nrtqueue : List Member := [⟨"clry", 2, [6]⟩, ⟨"clrx_since1982", 2, []⟩]

/-! ## Packs -/

/-- A number: integer or floating point (`F`). -/
inductive Num (F : Type)
  | int (n : Int)
  | flt (x : F)

/-- The value of one field of one record. -/
structure Cell (F : Type) where
  shape : List Nat
  data : List (Num F)

abbrev Row (F : Type) := List (Cell F)

/-- What the components `rec_cg`, `nrt_model` and `nrt_queue` can be: the array `np.array([])` (of `float64`, empty), a
record array, or a list of tuples (`tolist`). -/
inductive Item (F : Type)
  | void
  | records (dt : List Field) (rows : List (Row F))
  | tuples (rows : List (Row F))

/-- `len` -/
def Item.len {F : Type} : Item F → Nat
  | .void => 0
  | .records _ rows => rows.length
  | .tuples rows => rows.length

/-- `SccdOutput`, `common.py` 29. -/
structure Pack (F : Type) where
  position : Int
  rec_cg : Item F
  min_rmse : List Int
  nrt_mode : Int
  nrt_model : Item F
  nrt_queue : Item F

/-- An element of a saved pack. -/
inductive Py (F : Type)
  | num (n : Int)
  | shorts (l : List Int)
  | item (i : Item F)

/-- `x.tolist()` of an array.  The fields keep their values (a single-precision number becomes a double with the same
value).  Lists have no `tolist`. -/
def tolist {F : Type} : Item F → Option (Item F)
  | .void => some (.tuples [])
  | .records _ rows => some (.tuples rows)
  | .tuples _ => none

/-- `unindex_sccdpack`, 396–400, of `nrt_model` or `nrt_queue`. -/
def unindexItem {F : Type} (i : Item F) : Option (Item F) := if i.len > 0 then tolist i else some i

/-- `unindex_sccdpack`, `src/python/pycold/utils.py` 388–402. -/
def unindex {F : Type} (p : Pack F) : Option (List (Py F)) :=
  (tolist p.rec_cg).bind fun r => (unindexItem p.nrt_model).bind fun m => (unindexItem p.nrt_queue).bind fun q =>
    some [.num p.position, .item r, .shorts p.min_rmse, .num p.nrt_mode, .item m, .item q]

/-- Storing a number in an element; `single` rounds to single precision.  Integers out of range raise (older numpy
wraps); integers into floats and floats into integers do not occur and are not modelled. -/
def store {F : Type} (single : F → F) : Kind → Num F → Option (Num F)
  | .short, .int n => if -32768 ≤ n ∧ n ≤ 32767 then some (.int n) else none
  | .int32, .int n => if -2147483648 ≤ n ∧ n ≤ 2147483647 then some (.int n) else none
  | .uint32, .int n => if 0 ≤ n ∧ n ≤ 4294967295 then some (.int n) else none
  | .ubyte, .int n => if 0 ≤ n ∧ n ≤ 255 then some (.int n) else none
  | .float32, .flt x => some (.flt (single x))
  | _, _ => none

/-- Storing a value in a field.  (numpy also broadcasts values of smaller shape, which do not occur.) -/
def storeCell {F : Type} (single : F → F) (f : Field) (c : Cell F) : Option (Cell F) :=
  if c.shape = f.shape then (c.data.mapM (store single f.kind)).map fun d => ⟨c.shape, d⟩ else none

/-- Storing a tuple in a record: the number of elements must be that of the fields. -/
def storeRow {F : Type} (single : F → F) : List Field → Row F → Option (Row F)
  | [], [] => some []
  | f :: fs, c :: cs => do
    let c' ← storeCell single f c
    let cs' ← storeRow single fs cs
    return c' :: cs'
  | _, _ => none

/-- `np.asarray(x, dtype=dt)` of a list of tuples.  (Of an array of that type: the array itself.) -/
def asarray {F : Type} (single : F → F) (dt : List Field) : Item F → Option (Item F)
  | .tuples rows => (rows.mapM (storeRow single dt)).map (.records dt)
  | .records d rows => if d = dt then some (.records d rows) else none
  | .void => none

/-- `index_sccdpack`, `utils.py` 422–429, of `rec_cg`: an empty list becomes `np.asarray([], dtype=np.float64)`. -/
def indexRecs {F : Type} (single : F → F) (dt : List Field) (i : Item F) : Option (Item F) :=
  if i.len = 0 then some .void else asarray single dt i

/-- `index_sccdpack`, 430–437, of `nrt_model` or `nrt_queue`. -/
def indexItem {F : Type} (single : F → F) (dt : List Field) (i : Item F) : Option (Item F) :=
  if i.len > 0 then asarray single dt i else some i

/-- `index_sccdpack`, `utils.py` 405–438, with its three record types; `export_change_map.py` 161–190 is a copy with
record types of its own.  `PACK_ITEM` is 6 (`constants.yaml` 39, `export_change_map.py` 16).  `len` of a number
raises. -/
def indexWith {F : Type} (single : F → F) (recDt modelDt queueDt : List Field) : List (Py F) → Option (Pack F)
  | [.num position, .item rec, .shorts minRmse, .num mode, .item model, .item queue] =>
    (indexRecs single recDt rec).bind fun r => (indexItem single modelDt model).bind fun m =>
      (indexItem single queueDt queue).bind fun q => some ⟨position, r, minRmse, mode, m, q⟩
  | _ => none

/-- `utils.index_sccdpack` -/
def index {F : Type} (single : F → F) : List (Py F) → Option (Pack F) := indexWith single sccd_dt nrtmodel_dt nrtqueue_dt

/-- `export_change_map.index_sccdpack` -/
def exportIndex {F : Type} (single : F → F) : List (Py F) → Option (Pack F) :=
  indexWith single output_sccd output_nrtmodel output_nrtqueue

/-! ## The export of S-CCD maps -/

/-- Files in `out_path`: the temporary maps of blocks and years, those of the coefficients, and the break maps. -/
structure Disk (M : Type) where
  tmp : Nat → Int → Option M
  tmpCoef : Nat → Int → Option M
  breaks : Int → Option (List M)

/-- What `main` is called with (`export_change_map.py` 286–296, method `SCCDOFFLINE`): the number of blocks, the years,
whether coefficients are asked for, and the record files; `none` is a missing file. -/
structure Job (F : Type) where
  nBlocks : Nat
  low : Int
  upp : Int
  coefs : Bool
  file : Nat → Option (List (List (Py F)))

/-- One block, 386–565: a missing file gives maps of −9999 (427–433); otherwise the packs are read (434–442) and the maps
filled (452–481; `fill`), but the lines that save them, 560–567, belong to the branch of the other methods.
`none`: an exception. -/
def block {F M : Type} (single : F → F) (fill : Nat → List (Pack F) → Option (Int → M)) (empty : M) (J : Job F) (D : Disk M)
    (b : Nat) : Option (Disk M) :=
  match J.file b with
  | none => some { D with tmp := fun b' y => if b' = b ∧ J.low ≤ y ∧ y ≤ J.upp then some empty else D.tmp b' y }
  | some saved => do
    let packs ← saved.mapM (exportIndex single)
    let _ ← fill b packs
    return D

/-- All blocks.  (They are shared out over the ranks; no block depends on another one.) -/
def blocks {F M : Type} (single : F → F) (fill : Nat → List (Pack F) → Option (Int → M)) (empty : M) (J : Job F) (D : Disk M) :
    Option (Disk M) :=
  (List.range J.nBlocks).foldlM (block single fill empty J) D

/-- The break map of a year, 574–596: all blocks are loaded and put together (`join`), the temporary files removed. -/
def assembleYear {M : Type} (n : Nat) (y : Int) (D : Disk M) : Option (Disk M) := do
  let l ← (List.range n).mapM fun b => D.tmp b y
  return { D with tmp := fun b y' => if b < n ∧ y' = y then none else D.tmp b y',
                  breaks := fun y' => if y' = y then some l else D.breaks y' }

/-- The years in turn; the second component: an exception was raised. -/
def assembleYears {M : Type} (n : Nat) : List Int → Disk M → Disk M × Bool
  | [], D => (D, false)
  | y :: ys, D =>
    match assembleYear n y D with
    | none => (D, true)
    | some D' => assembleYears n ys D'

/-- The maps of the coefficients, 598–627: all blocks are loaded (whatever is written then is not modelled). -/
def coefYears {M : Type} (n : Nat) (D : Disk M) : List Int → Bool
  | [] => true
  | y :: ys => ((List.range n).mapM fun b => D.tmpCoef b y).isSome && coefYears n D ys

/-- `range(low, upp + 1)` -/
def years (low upp : Int) : List Int := (List.range (upp + 1 - low).toNat).map fun k : Nat => low + (k : Int)

/-- The end of `main`, 571–664, by the first process: break maps, maps of coefficients, maps of recent and first
disturbance; the second component: it came to the end. -/
def finish {M : Type} (n : Nat) (low upp : Int) (coefs : Bool) (D : Disk M) : Disk M × Bool :=
  match assembleYears n (years low upp) D with
  | (D2, true) => (D2, false)
  | (D2, false) => (D2, !coefs || coefYears n D2 (years low upp))

/-- `main` with method `SCCDOFFLINE`.  An exception in a block ends the run before the barrier (569); the temporary maps
of other blocks, which may be there by then, are not shown. -/
def exportSccd {F M : Type} (single : F → F) (fill : Nat → List (Pack F) → Option (Int → M)) (empty : M) (J : Job F)
    (D : Disk M) : Disk M × Bool :=
  match blocks single fill empty J D with
  | none => (D, false)
  | some D1 => finish J.nBlocks J.low J.upp J.coefs D1

/-- What `main` is called with for COLD and OBCOLD; `α` is what a record file holds. -/
structure JobCold (α : Type) where
  nBlocks : Nat
  low : Int
  upp : Int
  coefs : Bool
  file : Nat → Option α

/-- One block for COLD and OBCOLD, 386–567: `fill` are the break maps of a block (483–532; `none`: an exception or the
`return` at 515), `coefMap` the maps of coefficients (534–557).  For a missing file only break maps are saved (427–433). -/
def blockCold {α M : Type} (fill : Nat → α → Option (Int → M)) (coefMap : Nat → α → Int → M) (empty : M) (J : JobCold α)
    (D : Disk M) (b : Nat) : Option (Disk M) :=
  match J.file b with
  | none => some { D with tmp := fun b' y => if b' = b ∧ J.low ≤ y ∧ y ≤ J.upp then some empty else D.tmp b' y }
  | some a => (fill b a).map fun maps =>
    { D with
      tmp := fun b' y => if b' = b ∧ J.low ≤ y ∧ y ≤ J.upp then some (maps y) else D.tmp b' y
      tmpCoef := fun b' y => if J.coefs = true ∧ b' = b ∧ J.low ≤ y ∧ y ≤ J.upp then some (coefMap b a y) else D.tmpCoef b' y }

/-- `main` for COLD and OBCOLD. -/
def exportCold {α M : Type} (fill : Nat → α → Option (Int → M)) (coefMap : Nat → α → Int → M) (empty : M) (J : JobCold α)
    (D : Disk M) : Disk M × Bool :=
  match (List.range J.nBlocks).foldlM (blockCold fill coefMap empty J) D with
  | none => (D, false)
  | some D1 => finish J.nBlocks J.low J.upp J.coefs D1

end Pycold.Pack
