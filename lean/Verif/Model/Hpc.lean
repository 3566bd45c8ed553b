import Verif.Model.Tile
/-!
# The phases of OBCOLD tile processing and how the ranks wait for each other

`src/python/pycold/imagetool/tile_processing.py`, `main`, 394–741, with `step1_…`–`step4_…` of
`pyclassifier.py` 539–680 and `obia_execute`/`save_obiaresult` of `ob_analyst.py` 870–1038.

Only the existence of files matters here, so a file is a flag; the map files, which are not protected by
flag files (`is_finished_assemble_cmmaps` and `is_finished_step4_assemble` look at the maps themselves), are
absent, being written, or complete.  Block results are covered by `Model/Blocks.lean`; here the per-pixel
work on a block is one step.  Exceptions inside the phases are left out, except that classification dies if
the feature file it reads is gone.
-/
namespace Pycold.Hpc

open Pycold.Tile

/-- The parameters of a run: number of blocks, of ranks, of change-magnitude maps, of years to classify;
whether a seed map is given; first date and interval of the maps. -/
structure Config where
  nb : Nat
  cores : Nat
  nMaps : Nat
  ny : Nat
  seed : Bool
  start : Int
  interval : Int

/-- A map file. -/
inductive Map | absent | torn | full
deriving DecidableEq, Repr

/-- Where a rank is. -/
inductive Pc
  | blocks (todo : List Nat)            -- 399–577
  | waitBlocks                          -- 579–583
  | checkMaps                           -- 622
  | cmMaps (k : Nat) (opened : Bool)    -- 625–635, `utils.py` 160–171
  | dateMaps (k : Nat) (opened : Bool)  -- 636–646
  | waitMaps                            -- 648–651
  | checkCover                          -- 657
  | checkFeat                           -- 664
  | feats (todo : List Nat)             -- 665–668
  | waitFeats                           -- 670–671, `step2_train_rf` 568
  | classify (todo : List Nat)          -- 678–681, `step3_classification` 593
  | waitCls                             -- 683–684, `step4_assemble` 646
  | covers (y : Nat) (opened : Bool)    -- `step4_assemble` 648–652
  | clean                               -- `step4_assemble` 653–654
  | waitCover                           -- 685–686
  | checkObia                           -- 696
  | obia (todo : List Int)              -- 701–707
  | waitObia                            -- 709–716
  | rebuild (todo : List Nat)           -- 723–741
  | done
  | dead
deriving DecidableEq, Repr

structure World where
  blk : Nat → Bool      -- COLD_block{}_finished.txt
  cm : Nat → Map        -- CM_maps_…
  cd : Nat → Map        -- CM_date_maps_…
  feat : Nat → Bool     -- tmp_step1_predict_{}_finished.txt and the feature files
  rf : Bool             -- rf.model
  cls : Nat → Bool      -- tmp_step3_classification_{}_finished.txt
  cover : Nat → Map     -- yearlyclassification_{}.npy
  obia : Int → Bool     -- tmp_OBIA_{}_finished.txt
  pc : Nat → Pc

/-- `is_finished_cold_blockfinished`, `tile_processing.py` 148–163 (block ids from 1). -/
def allBlk (c : Config) (w : World) : Bool := (List.range c.nb).all (fun b => w.blk (b + 1))
/-- `is_finished_assemble_cmmaps`, 166–203: the files exist. -/
def allMaps (c : Config) (w : World) : Bool := (List.range c.nMaps).all (fun k => w.cm k != .absent && w.cd k != .absent)
/-- `is_finished_step1_predict_features`, `pyclassifier.py` 432–439. -/
def allFeat (c : Config) (w : World) : Bool := (List.range c.nb).all (fun b => w.feat (b + 1))
/-- `_is_finished_step3_classification`, 456–465. -/
def allCls (c : Config) (w : World) : Bool := (List.range c.nb).all (fun b => w.cls (b + 1))
/-- `is_finished_step4_assemble`, 672–680. -/
def allCover (c : Config) (w : World) : Bool := (List.range c.ny).all (fun y => w.cover y != .absent)
/-- `is_finished_object_analysis`, `ob_analyst.py` 1027–1038, with the dates of `tile_processing.py` 697. -/
def allObia (c : Config) (w : World) : Bool := (List.range c.nMaps).all (fun k => w.obia (c.start + k * c.interval))

def upd {A B : Type} [DecidableEq A] (f : A → B) (a : A) (b : B) : A → B := fun x => if x = a then b else f x

/-- The blocks and dates of a rank. -/
def mine (c : Config) (r : Nat) : List Nat := share c.nb c.cores r
def myDates (c : Config) (r : Nat) : List Int := dateShare c.start c.interval c.nMaps c.cores r

/-- After the maps: classification only if a seed map is given (656). -/
def afterMaps (c : Config) : Pc := if c.seed then .checkCover else .checkObia

/-- After step 1: rank 1 trains (670), the others go on to step 3. -/
def afterFeat (c : Config) (r : Nat) : Pc := if r = 1 then .waitFeats else .classify (mine c r)

/-- After step 3: rank 1 assembles (683). -/
def afterCls (r : Nat) : Pc := if r = 1 then .waitCls else .waitCover

def goto (w : World) (r : Nat) (p : Pc) : World := { w with pc := upd w.pc r p }

/-- One step of rank `r`; `none`: it waits (the loop sleeps and looks again), has ended or is dead. -/
def step (c : Config) (w : World) (r : Nat) : Option World :=
  match w.pc r with
  | .blocks [] => some (goto w r .waitBlocks)
  | .blocks (b :: t) => some { goto w r (.blocks t) with blk := upd w.blk b true }
  | .waitBlocks => if allBlk c w then some (goto w r .checkMaps) else none
  | .checkMaps =>
    if allMaps c w then some (goto w r (afterMaps c))
    else if r = 1 then some (goto w r (.cmMaps 0 false))
    else if r = 16 then some (goto w r (.dateMaps 0 false))
    else some (goto w r .waitMaps)
  | .cmMaps k opened =>
    if k < c.nMaps then
      if opened then some { goto w r (.cmMaps (k + 1) false) with cm := upd w.cm k .full }
      else some { goto w r (.cmMaps k true) with cm := upd w.cm k .torn }
    else some (goto w r .waitMaps)
  | .dateMaps k opened =>
    if k < c.nMaps then
      if opened then some { goto w r (.dateMaps (k + 1) false) with cd := upd w.cd k .full }
      else some { goto w r (.dateMaps k true) with cd := upd w.cd k .torn }
    else some (goto w r .waitMaps)
  | .waitMaps => if allMaps c w then some (goto w r (afterMaps c)) else none
  | .checkCover => if allCover c w then some (goto w r .waitCover) else some (goto w r .checkFeat)
  | .checkFeat => if allFeat c w then some (goto w r (afterFeat c r)) else some (goto w r (.feats (mine c r)))
  | .feats [] => some (goto w r (afterFeat c r))
  | .feats (b :: t) => some { goto w r (.feats t) with feat := upd w.feat b true }
  | .waitFeats => if allFeat c w then some { goto w r (.classify (mine c r)) with rf := true } else none
  | .classify [] => some (goto w r (afterCls r))
  | .classify (b :: t) =>
    if w.rf then
      if w.feat b then some { goto w r (.classify t) with cls := upd w.cls b true }
      else some (goto w r .dead)
    else none
  | .waitCls => if allCls c w then some (goto w r (.covers 0 false)) else none
  | .covers y opened =>
    if y < c.ny then
      if opened then some { goto w r (.covers (y + 1) false) with cover := upd w.cover y .full }
      else some { goto w r (.covers y true) with cover := upd w.cover y .torn }
    else some (goto w r .clean)
  | .clean => some { goto w r .waitCover with feat := fun _ => false, cls := fun _ => false }
  | .waitCover => if allCover c w then some (goto w r .checkObia) else none
  | .checkObia => if allObia c w then some (goto w r (.rebuild (mine c r))) else some (goto w r (.obia (myDates c r)))
  | .obia [] => some (goto w r .waitObia)
  | .obia (d :: t) => some { goto w r (.obia t) with obia := upd w.obia d true }
  | .waitObia => if allObia c w then some (goto w r (.rebuild (mine c r))) else none
  | .rebuild [] => some (goto w r .done)
  | .rebuild (_ :: t) => some (goto w r (.rebuild t))
  | .done => none
  | .dead => none

def IsRank (c : Config) (r : Nat) : Prop := 1 ≤ r ∧ r ≤ c.cores

/-- The state when the ranks start, with whatever files an earlier, killed run has left; there are no other
processes. -/
def Starts (c : Config) (w : World) : Prop :=
  ∀ r, (IsRank c r → w.pc r = .blocks (mine c r)) ∧ (¬ IsRank c r → w.pc r = .done)

/-- All ranks are killed and started again: the files stay. -/
def restart (c : Config) (w : World) : World :=
  { w with pc := fun r => if 1 ≤ r ∧ r ≤ c.cores then .blocks (mine c r) else .done }

/-- Nothing has been written yet. -/
def fresh (c : Config) : World :=
  restart c ⟨fun _ => false, fun _ => .absent, fun _ => .absent, fun _ => false, false, fun _ => false,
    fun _ => .absent, fun _ => false, fun _ => .done⟩

/-- `k` steps of any of the ranks, in any order. -/
inductive Runs (c : Config) (w : World) : Nat → World → Prop
  | refl : Runs c w 0 w
  | step (k : Nat) (w' w'' : World) (r : Nat) (h : Runs c w k w') (hr : IsRank c r)
      (hs : Hpc.step c w' r = some w'') : Runs c w (k + 1) w''

end Pycold.Hpc
