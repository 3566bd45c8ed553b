import Verif.Model.Tile
/-!
# The per-pixel phase of tile processing, with crashes

`src/python/pycold/imagetool/tile_processing.py`, `main`, 394–577: every rank works through its blocks; a
block's result files are saved and then a flag file is created; blocks with a flag are skipped.  Processes
run concurrently, may be killed at any point and may be started again.

What `cold_detect` and `sccd_detect` return for a pixel is a parameter (`Pixel`).  File contents are lists
of values of an arbitrary type `V` (records or change magnitudes).
-/
namespace Pycold.Blocks

variable {V : Type}

/-- The method option (`tile_processing.py` 275–279). -/
inductive Method | cold | obcold | sccd
deriving DecidableEq, Repr

/-- What detection yields for one pixel: results (`rec`; for OBCOLD also the change magnitudes and
their dates), a `RuntimeError`, or another exception. -/
inductive Pixel (V : Type) | ok (rec cm date : List V) | runtimeError | otherError
deriving DecidableEq, Repr

/-- The result files of a block: `record_change_x{}_y{}_cold.npy` (for SCCDOFFLINE `…_sccd.npy`),
`CM_date_x{}_y{}.npy`, `CM_x{}_y{}.npy`. -/
inductive Kind | record | cmDate | cm
deriving DecidableEq, Repr

/-- A file: absent, opened for writing but not completely written, or complete. -/
inductive File (V : Type) | absent | torn | full (v : List V)
deriving DecidableEq, Repr

/-- The actions of a process on the files of one block: open a file (which empties it), complete it, or
die of an exception that nobody handles. -/
inductive Act (V : Type) | open_ (k : Kind) | close (k : Kind) (v : List V) | die
deriving DecidableEq, Repr

/-- `np.save` of one file. -/
def save (k : Kind) (v : List V) : List (Act V) := [.open_ k, .close k v]

/-- What the pixel loop has collected: `result_collect` (flattened, and whether it is non-empty),
`CM_collect`, `date_collect`. -/
structure Collected (V : Type) where
  any : Bool
  recs : List V
  cms : List V
  dates : List V
deriving DecidableEq, Repr

/-- The pixel loop of COLD and OBCOLD, `tile_processing.py` 492–549.  The handler of `RuntimeError`
evaluates `datetime.now.strftime` (537), which raises `AttributeError`: the process dies (`none`).  Any
other exception leaves the pixel out and, for OBCOLD, puts the fill value into both lists (540–543);
`finally` appends (546–549). -/
def pixelLoop (fill : List V) : List (Pixel V) → Collected V → Option (Collected V)
  | [], c => some c
  | .ok r m d :: ps, c =>
    pixelLoop fill ps { any := true, recs := c.recs ++ r, cms := c.cms ++ m, dates := c.dates ++ d }
  | .otherError :: ps, c => pixelLoop fill ps { c with cms := c.cms ++ fill, dates := c.dates ++ fill }
  | .runtimeError :: _, _ => none

/-- The pixel loop of SCCDOFFLINE, 447–477: results are written to the open file one by one;
`RuntimeError` is reported and the pixel left out; any other exception is not handled. -/
def sccdLoop : List (Pixel V) → List V → Option (List V)
  | [], acc => some acc
  | .ok r _ _ :: ps, acc => sccdLoop ps (acc ++ r)
  | .runtimeError :: ps, acc => sccdLoop ps acc
  | .otherError :: _, _ => none

/-- What a process does for a block, between finding no flag and creating it (415–568).  `none` as
pixels: the block has no images (424).  `nPix` is the number of pixels of a block. -/
def planOf (method : Method) (fill : List V) (nPix : Nat) : Option (List (Pixel V)) → List (Act V)
  | none =>
    match method with
    | .obcold => save .cmDate ((List.replicate nPix fill).flatten) ++ save .cm ((List.replicate nPix fill).flatten)
    | _ => []
  | some pixels =>
    match method with
    | .sccd =>
      match sccdLoop pixels [] with
      | none => [.open_ .record, .die]
      | some v => save .record v
    | _ =>
      match pixelLoop fill pixels { any := false, recs := [], cms := [], dates := [] } with
      | none => [.die]
      | some c =>
        (if c.any then save .record c.recs else []) ++
        (if method = .obcold then save .cmDate c.dates ++ save .cm c.cms else [])

/-! ### Processes -/

/-- A process of a rank: not running, running (blocks still to do, and the remaining actions for the
first of them once its flag has been looked at), or ended normally. -/
inductive Proc (V : Type)
  | idle
  | running (todo : List Nat) (acts : Option (List (Act V)))
  | done
deriving DecidableEq, Repr

structure World (V : Type) where
  file : Nat → Kind → File V
  flag : Nat → Bool
  proc : Nat → Proc V

def setFile (f : Nat → Kind → File V) (b : Nat) (k : Kind) (x : File V) : Nat → Kind → File V :=
  fun b' k' => if b' = b ∧ k' = k then x else f b' k'

def setProc (p : Nat → Proc V) (r : Nat) (x : Proc V) : Nat → Proc V := fun r' => if r' = r then x else p r'

/-- One step of a running process (399–577).  `none`: it is not running. -/
def procStep (plan : Nat → List (Act V)) (w : World V) (r : Nat) : Option (World V) :=
  match w.proc r with
  | .idle => none
  | .done => none
  | .running [] _ => some { w with proc := setProc w.proc r .done }
  | .running (b :: t) none =>
    -- 408: the block has been finished before
    if w.flag b then some { w with proc := setProc w.proc r (.running t none) }
    else some { w with proc := setProc w.proc r (.running (b :: t) (some (plan b))) }
  | .running (b :: t) (some []) =>
    -- 570: the flag file
    some { w with flag := fun b' => if b' = b then true else w.flag b',
                  proc := setProc w.proc r (.running t none) }
  | .running (b :: t) (some (.open_ k :: as)) =>
    some { w with file := setFile w.file b k .torn, proc := setProc w.proc r (.running (b :: t) (some as)) }
  | .running (b :: t) (some (.close k v :: as)) =>
    some { w with file := setFile w.file b k (.full v), proc := setProc w.proc r (.running (b :: t) (some as)) }
  | .running (_ :: _) (some (.die :: _)) => some { w with proc := setProc w.proc r .idle }

/-- What can happen: a rank's process makes a step, is killed, or is started (again).  `ids r` are the
blocks of rank `r`. -/
inductive Step (plan : Nat → List (Act V)) (rank : Nat → Prop) (ids : Nat → List Nat) : World V → World V → Prop
  | run (w w' : World V) (r : Nat) (hr : rank r) (h : procStep plan w r = some w') : Step plan rank ids w w'
  | kill (w : World V) (r : Nat) (hr : rank r) : Step plan rank ids w { w with proc := setProc w.proc r .idle }
  | start (w : World V) (r : Nat) (hr : rank r) (h : w.proc r = .idle ∨ w.proc r = .done) :
      Step plan rank ids w { w with proc := setProc w.proc r (.running (ids r) none) }

/-- Before anything has run. -/
def init : World V := { file := fun _ _ => .absent, flag := fun _ => false, proc := fun _ => .idle }

/-- Every history of steps, kills and restarts. -/
inductive Reach (plan : Nat → List (Act V)) (rank : Nat → Prop) (ids : Nat → List Nat) : World V → Prop
  | init : Reach plan rank ids init
  | step (w w' : World V) (h : Reach plan rank ids w) (hs : Step plan rank ids w w') : Reach plan rank ids w'

/-- A stretch of a history from `w` on with no kill: `k` steps of running processes. -/
inductive Runs (plan : Nat → List (Act V)) (rank : Nat → Prop) (w : World V) : Nat → World V → Prop
  | refl : Runs plan rank w 0 w
  | step (k : Nat) (w' w'' : World V) (r : Nat) (h : Runs plan rank w k w') (hr : rank r)
      (hs : procStep plan w' r = some w'') : Runs plan rank w (k + 1) w''

end Pycold.Blocks
