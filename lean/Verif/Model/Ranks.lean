import Verif.Model.Stack
/-!
# The ranks that prepare a tile, side by side

Model of `main` of `src/python/pycold/imagetool/prepare_ard.py` (1805–2132), run by the ranks 1 to `n_cores` at the same time
on one output folder, in the partitioned mode.  The program of a rank is the list of its effects on the output folder; a
schedule interleaves them in any order.  Rank 1 makes the folders; all ranks wait until the file of dates is there.

A rank that is killed is one that makes no further step.

Simplified: every rank sees the scenes in the same order (`listdir` of one folder); the saving of one file is one step (as is
its flag); the temporary folder is the rank's own (`tmp{rank}`, 1846), so that it is left out; the log file is left out;
the first archive can be opened when the map of paths is made (1881–1922); bounds are given as days.
-/
namespace Pycold.Ranks
open Pycold.Stack

/-- What a rank does to the output folder. -/
inductive Act where
  /-- `os.mkdir(out_dir)` unless it is there, 1867–1868 -/
  | mkOut
  /-- `os.mkdir(block_x…_y…)` unless it is there, 1870–1875 -/
  | mkBlock (bx by_ : Nat)
  /-- the map of paths of the tile, 1880–1922; takes the first scene of the list -/
  | warp
  /-- the dates in the names of the scenes, 1924–1951 -/
  | parse
  /-- `open(…starting_last_dates.txt, "w+")`, 1953 -/
  | openDates
  /-- its two lines, 1955–1965; takes the first of the sorted dates -/
  | writeDates
  /-- the loop that waits for the file, 1974–1975 and 1669–1676 -/
  | await
  /-- `LoadFile(singlepath_landsat_tile.tif)`, 1984 -/
  | loadPaths
  /-- `np.save` of one block of one scene -/
  | save (f : File)
  /-- an exception while a scene is stacked -/
  | fail
  /-- `rank…_finished.txt`, 2107–2109 -/
  | finished (rank : Nat)

/-- The output folder: there or not; the block folders; the map of paths; the file of dates (`some none`: there but empty);
the files of the blocks; the ranks that have left their flag. -/
structure World where
  out : Bool
  folders : List (Nat × Nat)
  paths : Bool
  dates : Option (Option (Int × Int))
  files : List File
  flags : List Nat

/-- The command line: the configuration, `--hpc`, the number of ranks, and the scenes in the source folder. -/
structure Job where
  c : Config
  hpc : Bool
  cores : Nat
  scenes : List Stack.Scene

/-- How an effect ends: the new folder, an exception, or the rank has to wait. -/
inductive Out where
  | ok (w : World)
  | raised
  | wait

/-- One effect. -/
def exec (J : Job) (w : World) : Act → Out
  | .mkOut => .ok { w with out := true }
  | .mkBlock bx b => if w.out then .ok { w with folders := if (bx, b) ∈ w.folders then w.folders else (bx, b) :: w.folders } else .raised
  | .warp => if w.out ∧ J.scenes ≠ [] then .ok { w with paths := true } else .raised
  | .parse => if ((J.scenes.map (·.folder)).mapM (folderDate J.c.kind)).isSome then .ok w else .raised
  | .openDates => if w.out then .ok { w with dates := some none } else .raised
  | .writeDates =>
    match startLast J.c (J.scenes.map (·.folder)) with
    | none => .raised
    | some ab => .ok { w with dates := some (some ab) }
  | .await => if w.dates.isSome then .ok w else .wait
  | .loadPaths => if w.paths then .ok w else .raised
  | .save f => if (f.bx, f.by_) ∈ w.folders then .ok { w with files := write w.files f } else .raised
  | .fail => .raised
  | .finished r => if w.out then .ok { w with flags := r :: w.flags } else .raised

/-- The stacking of one scene. -/
def sceneActs (c : Config) (s : Stack.Scene) : List Act :=
  match stackScene c s with
  | .ok fs => fs.map .save
  | _ => [.fail]

/-- What rank 1 does before it waits, 1856–1965. -/
def setup (J : Job) : List Act :=
  .mkOut :: (blockIds J.c).map (fun x => .mkBlock (x.2 + 1) (x.1 + 1)) ++
    (if J.hpc ∧ J.c.kind.usesPath then [.warp] else []) ++ [.parse, .openDates, .writeDates]

/-- What every rank does after it has waited, 1977–2109. -/
def work (J : Job) (r : Nat) : List Act :=
  (if J.hpc ∧ J.c.kind.usesPath ∧ J.c.pathMap.isSome then [.loadPaths] else []) ++
    (scenesOf J.scenes.length J.cores r).flatMap (fun k => (J.scenes[k]?.map (sceneActs J.c)).getD []) ++ [.finished r]

/-- `main` of one rank. -/
def program (J : Job) (r : Nat) : List Act := (if r = 1 then setup J else []) ++ .await :: work J r

/-- The output folder, what each rank has left to do, and the ranks that an exception has ended. -/
structure State where
  w : World
  left : Nat → List Act
  dead : List Nat

/-- The ranks are started on an output folder. -/
def start (J : Job) (w : World) : State := ⟨w, program J, []⟩

/-- One of the ranks 1 to `n_cores` makes its next step. -/
inductive Step (J : Job) : State → State → Prop where
  | run {s : State} {r : Nat} {a : Act} {rest : List Act} {w : World} (h1 : 1 ≤ r) (h2 : r ≤ J.cores) (hl : s.left r = a :: rest)
      (he : exec J s.w a = .ok w) : Step J s ⟨w, Function.update s.left r rest, s.dead⟩
  | raise {s : State} {r : Nat} {a : Act} {rest : List Act} (h1 : 1 ≤ r) (h2 : r ≤ J.cores) (hl : s.left r = a :: rest)
      (he : exec J s.w a = .raised) : Step J s ⟨s.w, Function.update s.left r [], r :: s.dead⟩

/-- `n` steps in some order. -/
inductive Run (J : Job) (s : State) : Nat → State → Prop where
  | zero : Run J s 0 s
  | more {n : Nat} {t u : State} : Run J s n t → Step J t u → Run J s (n + 1) u

end Pycold.Ranks
