import Verif.Proof.HpcLive
/-!
# Properties C38, C51 and C52: the phases of OBCOLD tile processing

A run is any interleaving of the steps of ranks 1..cores (`Runs`).  It starts with all ranks at the
beginning, and any files left by earlier runs (`Starts`).
-/
namespace Pycold

open Pycold.Hpc

/-- Every file an OBCOLD run is to produce exists. -/
def AllProduced (c : Config) (w : World) : Prop :=
  (∀ b, 1 ≤ b ∧ b ≤ c.nb → w.blk b = true) ∧
  (∀ k, k < c.nMaps → w.cm k ≠ .absent ∧ w.cd k ≠ .absent) ∧
  (c.seed = true → ∀ y, y < c.ny → w.cover y ≠ .absent) ∧
  (∀ k : Nat, k < c.nMaps → w.obia (c.start + k * c.interval) = true)

/-! ## C38: with 16 ranks or more, all ranks finish -/

/-- With at least 16 ranks, and no classification flags left from a killed run (or nothing to classify):
every run ends after a bounded number of steps, no rank ever dies, and as long as some rank has not finished
some rank can go on. -/
theorem C38_no_deadlock (c : Config) (hc : 16 ≤ c.cores) (hi : 1 ≤ c.interval) (w : World) (hs : Starts c w)
    (hcls : (∀ b, w.cls b = false) ∨ c.seed = false ∨ ∀ y, y < c.ny → w.cover y ≠ .absent) :
    ∃ bound, ∀ k w', Runs c w k w' →
      k ≤ bound ∧ (∀ r, IsRank c r → w'.pc r ≠ .dead) ∧
      ((∃ r, IsRank c r ∧ w'.pc r ≠ .done) → ∃ r, IsRank c r ∧ ∃ w'', step c w' r = some w'') := by
  have hg := Good.init hc hs (by rwa [allCover_iff])
  refine ⟨total c w c.cores, fun k w' hr => ⟨?_, (hg.runs hc hi hr).live, ?_⟩⟩
  · have := runs_bounded hr; omega
  · rintro ⟨r, hr1, hr2⟩
    refine Classical.byContradiction fun hn => hr2 ?_
    refine (hg.runs hc hi hr).stuck hc hi (fun r' hr' => ?_) r hr1
    cases h : step c w' r' with
    | none => rfl
    | some w'' => exact absurd ⟨r', hr', w'', h⟩ hn

/-- What is known about the files when a rank is far enough. -/
structure Past (c : Config) (w : World) : Prop where
  blk : ∀ r, IsRank c r → 2 ≤ stage (w.pc r) → allBlk c w = true
  maps : ∀ r, IsRank c r → 5 ≤ stage (w.pc r) → allMaps c w = true
  cover : c.seed = true → ∀ r, IsRank c r → 14 ≤ stage (w.pc r) → w.pc r ≠ .dead → allCover c w = true
  obia : ∀ r, IsRank c r → 17 ≤ stage (w.pc r) → w.pc r ≠ .dead → allObia c w = true

theorem allBlk_mono {c : Config} {w w' : World} {r : Nat} (hs : Did c w r w') (h : allBlk c w = true) :
    allBlk c w' = true := by
  rw [allBlk_iff] at *
  intro y h1 h2
  have := h y h1 h2
  cases hs <;> simp only [goto, upd] <;> grind

theorem allMaps_mono {c : Config} {w w' : World} {r : Nat} (hs : Did c w r w') (h : allMaps c w = true) :
    allMaps c w' = true := by
  rw [allMaps_iff] at *
  intro y hy
  have := h y hy
  cases hs <;> simp only [goto, upd] <;> grind

theorem allObia_mono {c : Config} {w w' : World} {r : Nat} (hs : Did c w r w') (h : allObia c w = true) :
    allObia c w' = true := by
  rw [allObia_iff] at *
  intro y hy
  have := h y hy
  cases hs <;> simp only [goto, upd] <;> grind

theorem Past.step {c : Config} {w w' : World} {r : Nat} (h : Past c w) (hr : IsRank c r) (hs : Did c w r w') :
    Past c w' := by
  refine ⟨?_, ?_, ?_, ?_⟩
  · intro r' hr' hst
    refine allBlk_mono hs ?_
    have h1 := h.blk r' hr'
    revert hst
    cases hs <;> by_cases e : r' = r <;> simp only [goto, upd, e, if_true, if_false] <;>
      grind [stage]
  · intro r' hr' hst
    refine allMaps_mono hs ?_
    have h1 := h.maps r' hr'
    revert hst
    cases hs <;> by_cases e : r' = r <;> simp only [goto, upd, e, if_true, if_false] <;>
      grind [stage]
  · intro hc r' hr' hst
    have h1 := h.cover hc r' hr'
    revert hst
    intro hst hd
    refine allCover_mono hs ?_
    revert hst hd
    cases hs <;> by_cases e : r' = r <;> simp only [goto, upd, e, if_true, if_false] <;>
      grind [stage, afterMaps, afterFeat, afterCls]
  · intro r' hr' hst hd
    refine allObia_mono hs ?_
    have h1 := h.obia r' hr'
    revert hst hd
    cases hs <;> by_cases e : r' = r <;> simp only [goto, upd, e, if_true, if_false] <;>
      grind [stage, afterMaps, afterFeat, afterCls]

theorem Past.runs {c : Config} {w w' : World} {k : Nat} (h : Past c w) (hr : Runs c w k w') : Past c w' := by
  induction hr with
  | refl => exact h
  | step k w' w'' r _ hr hs ih => exact ih.step hr (step_did hs)

theorem Past.init {c : Config} {w : World} (hs : Starts c w) : Past c w := by
  refine ⟨?_, ?_, ?_, ?_⟩
  · intro r hr h; rw [(hs r).1 hr] at h; simp [stage] at h
  · intro r hr h; rw [(hs r).1 hr] at h; simp [stage] at h
  · intro _ r hr h; rw [(hs r).1 hr] at h; simp [stage] at h
  · intro r hr h; rw [(hs r).1 hr] at h; simp [stage] at h

/-- A rank that has finished has everything produced, whatever the number of ranks and the files left over. -/
theorem C38_finished_means_produced (c : Config) (w : World) (hs : Starts c w) (k : Nat) (w' : World)
    (hr : Runs c w k w') (r : Nat) (hrank : IsRank c r) (hd : w'.pc r = .done) : AllProduced c w' := by
  have h := (Past.init hs).runs hr
  refine ⟨fun b hb => ?_, ?_, fun hc => ?_, ?_⟩
  · exact allBlk_iff.1 (h.blk r hrank (by rw [hd]; simp [stage])) b hb.1 hb.2
  · exact allMaps_iff.1 (h.maps r hrank (by rw [hd]; simp [stage]))
  · exact allCover_iff.1 (h.cover hc r hrank (by rw [hd]; simp [stage]) (by rw [hd]; simp))
  · exact allObia_iff.1 (h.obia r hrank (by rw [hd]; simp [stage]) (by rw [hd]; simp))

/-- With fewer than 16 ranks nobody writes the maps of dates: if one is missing at the start it stays
missing, and no rank ever finishes. -/
theorem C38_fewer_than_16_ranks_hang (c : Config) (hc : c.cores < 16) (w : World) (hs : Starts c w)
    (j : Nat) (hj : j < c.nMaps) (hm : w.cd j = .absent) (k : Nat) (w' : World) (hr : Runs c w k w') :
    w'.cd j = .absent ∧ ∀ r, IsRank c r → w'.pc r ≠ .done := by
  have h : w'.cd j = .absent ∧ (∀ r k o, IsRank c r → w'.pc r ≠ .dateMaps k o) ∧
      ∀ r, IsRank c r → stage (w'.pc r) ≤ 4 := by
    induction hr with
    | refl =>
      refine ⟨hm, ?_, ?_⟩
      · intro r k o hr; rw [(hs r).1 hr]; simp
      · intro r hr; rw [(hs r).1 hr]; simp [stage]
    | step k w1 w2 r _ hr hstep ih =>
      obtain ⟨h1, h2, h3⟩ := ih
      have hno : allMaps c w1 = false := by
        cases e : allMaps c w1
        · rfl
        · exact absurd h1 (allMaps_iff.1 e j hj).2
      have h3r := h3 r hr
      have h2r := fun k o => h2 r k o hr
      have h16 : r ≠ 16 := by have := hr.2; omega
      have hd := step_did hstep
      refine ⟨?_, ?_, ?_⟩
      · clear h3 h2
        cases hd <;> simp only [goto, upd] <;> grind
      · intro r' k o hr'
        have a1 := h2 r' k o hr'
        clear h3 h2
        cases hd <;> by_cases e : r' = r <;> simp only [goto, upd, e, if_true, if_false] <;>
          grind [afterMaps, afterFeat, afterCls]
      · intro r' hr'
        have a1 := h3 r' hr'
        clear h3 h2
        cases hd <;> by_cases e : r' = r <;> simp only [goto, upd, e, if_true, if_false] <;> grind [stage]
  refine ⟨h.1, fun r hr e => ?_⟩
  have := h.2.2 r hr
  rw [e] at this; simp [stage] at this

/-! ## C51: the maps the object analysis reads are complete -/

set_option maxHeartbeats 4000000 in
/-- If one of the maps is missing at the start, all maps of its kind are complete once all ranks have
finished. -/
theorem C51_missing_maps_are_completed_partial (c : Config) (w : World) (hs : Starts c w)
    (j : Nat) (hj : j < c.nMaps) (k : Nat) (w' : World) (hr : Runs c w k w')
    (hd : ∀ r, IsRank c r → w'.pc r = .done) (hcores : 16 ≤ c.cores) :
    (w.cm j = .absent → ∀ i, i < c.nMaps → w'.cm i = .full) ∧
    (w.cd j = .absent → ∀ i, i < c.nMaps → w'.cd i = .full) := by
  have r1 : IsRank c 1 := ⟨by omega, by omega⟩
  have r16 : IsRank c 16 := ⟨by omega, by omega⟩
  have hrk : ∀ (k : Nat) (w' : World), Runs c w k w' →
      (∀ r k o, IsRank c r → w'.pc r = .cmMaps k o → r = 1) ∧
      (∀ r k o, IsRank c r → w'.pc r = .dateMaps k o → r = 16) := by
    intro k w' hr
    induction hr with
    | refl =>
      constructor
      · intro r k o hr h; rw [(hs r).1 hr] at h; simp at h
      · intro r k o hr h; rw [(hs r).1 hr] at h; simp at h
    | step k w1 w2 r _ hr hstep ih =>
      obtain ⟨h1, h2⟩ := ih
      have hdid := step_did hstep
      constructor
      · intro r' k o hr'
        have a1 := fun k o => h1 r' k o hr'
        clear h1 h2
        cases hdid <;> by_cases e : r' = r <;> simp only [goto, upd, e, if_true, if_false] <;>
          grind [afterMaps, afterFeat, afterCls]
      · intro r' k o hr'
        have a1 := fun k o => h2 r' k o hr'
        clear h1 h2
        cases hdid <;> by_cases e : r' = r <;> simp only [goto, upd, e, if_true, if_false] <;>
          grind [afterMaps, afterFeat, afterCls]
  constructor
  · intro hm
    have h : ∀ (k : Nat) (w' : World), Runs c w k w' →
        (stage (w'.pc 1) ≤ 2 → w'.cm j = .absent) ∧
        (∀ i x o, w'.pc 1 = .cmMaps x o → i < x → w'.cm i = .full) ∧
        (4 ≤ stage (w'.pc 1) → ∀ i, i < c.nMaps → w'.cm i = .full) := by
      intro k w' hr
      induction hr with
      | refl =>
        refine ⟨fun _ => hm, ?_, ?_⟩
        · intro i x o h; rw [(hs 1).1 r1] at h; simp at h
        · intro h; rw [(hs 1).1 r1] at h; simp [stage] at h
      | step k w1 w2 r hruns hr hstep ih =>
        obtain ⟨h1, h2, h3⟩ := ih
        have hk := fun k o => (hrk _ _ hruns).1 r k o hr
        have hk16 := fun k o => (hrk _ _ hruns).2 r k o hr
        have hall : allMaps c w1 = true → w1.cm j ≠ .absent := fun h => (allMaps_iff.1 h j hj).1
        have hdid := step_did hstep
        refine ⟨?_, ?_, ?_⟩
        · cases hdid <;> by_cases e : 1 = r <;> simp only [goto, upd, e, if_true, if_false] <;>
            grind [stage, afterMaps, afterFeat, afterCls]
        · intro i x o hp hi
          have h2' := fun x o h => h2 i x o h
          clear h2 h3
          revert hp
          cases hdid <;> by_cases e : 1 = r <;> simp only [goto, upd, e, if_true, if_false] <;>
            grind [stage, afterMaps, afterFeat, afterCls]
        · intro hst i hi
          have h2' := fun x o h => h2 i x o h
          have h3' := fun h => h3 h i hi
          clear h2 h3
          revert hst
          cases hdid <;> by_cases e : 1 = r <;> simp only [goto, upd, e, if_true, if_false] <;>
            grind [stage, afterMaps, afterFeat, afterCls]
    exact (h k w' hr).2.2 (by rw [hd 1 r1]; simp [stage])
  · intro hm
    have h : ∀ (k : Nat) (w' : World), Runs c w k w' →
        (stage (w'.pc 16) ≤ 2 → w'.cd j = .absent) ∧
        (∀ i x o, w'.pc 16 = .dateMaps x o → i < x → w'.cd i = .full) ∧
        (4 ≤ stage (w'.pc 16) → ∀ i, i < c.nMaps → w'.cd i = .full) := by
      intro k w' hr
      induction hr with
      | refl =>
        refine ⟨fun _ => hm, ?_, ?_⟩
        · intro i x o h; rw [(hs 16).1 r16] at h; simp at h
        · intro h; rw [(hs 16).1 r16] at h; simp [stage] at h
      | step k w1 w2 r hruns hr hstep ih =>
        obtain ⟨h1, h2, h3⟩ := ih
        have hk := fun k o => (hrk _ _ hruns).1 r k o hr
        have hk16 := fun k o => (hrk _ _ hruns).2 r k o hr
        have hall : allMaps c w1 = true → w1.cd j ≠ .absent := fun h => (allMaps_iff.1 h j hj).2
        have hdid := step_did hstep
        refine ⟨?_, ?_, ?_⟩
        · cases hdid <;> by_cases e : 16 = r <;> simp only [goto, upd, e, if_true, if_false] <;>
            grind [stage, afterMaps, afterFeat, afterCls]
        · intro i x o hp hi
          have h2' := fun x o h => h2 i x o h
          clear h2 h3
          revert hp
          cases hdid <;> by_cases e : 16 = r <;> simp only [goto, upd, e, if_true, if_false] <;>
            grind [stage, afterMaps, afterFeat, afterCls]
        · intro hst i hi
          have h2' := fun x o h => h2 i x o h
          have h3' := fun h => h3 h i hi
          clear h2 h3
          revert hst
          cases hdid <;> by_cases e : 16 = r <;> simp only [goto, upd, e, if_true, if_false] <;>
            grind [stage, afterMaps, afterFeat, afterCls]
    exact (h k w' hr).2.2 (by rw [hd 16 r16]; simp [stage])

set_option maxHeartbeats 4000000 in
/-- If all map files exist at the start, none of them is ever written again: one torn by a kill stays torn,
and it is used. -/
theorem C51_torn_map_is_never_repaired (c : Config) (w : World) (hs : Starts c w)
    (hall : ∀ k, k < c.nMaps → w.cm k ≠ .absent ∧ w.cd k ≠ .absent) (k : Nat) (w' : World) (hr : Runs c w k w') :
    w'.cm = w.cm ∧ w'.cd = w.cd := by
  have h : w'.cm = w.cm ∧ w'.cd = w.cd ∧ ∀ r, IsRank c r → stage (w'.pc r) ≠ 3 := by
    induction hr with
    | refl => exact ⟨rfl, rfl, fun r hr => by rw [(hs r).1 hr]; simp [stage]⟩
    | step k w1 w2 r _ hr hstep ih =>
      obtain ⟨h1, h2, h3⟩ := ih
      have hm : allMaps c w1 = true := by rw [allMaps_iff, h1, h2]; exact hall
      have h3r := h3 r hr
      cases hp : w1.pc r with
      | checkMaps =>
        simp only [step, hp, hm, if_true, Option.some.injEq] at hstep
        subst hstep
        refine ⟨h1, h2, fun r' hr' => ?_⟩
        by_cases e : r' = r
        · simp only [goto, upd, e, if_true]; grind [stage, afterMaps]
        · simp only [goto, upd, e, if_false]; exact h3 r' hr'
      | _ =>
        have hdid := step_did hstep
        refine ⟨?_, ?_, fun r' hr' => ?_⟩
        · cases hdid <;> simp only [goto] <;> grind [stage]
        · cases hdid <;> simp only [goto] <;> grind [stage]
        · have := h3 r' hr'
          clear h3
          cases hdid <;> by_cases e : r' = r <;> simp only [goto, upd, e, if_true, if_false] <;>
            grind [stage, afterMaps, afterFeat, afterCls]
  exact ⟨h.1, h.2.1⟩

/-- A schedule: the ranks step in this order; a waiting rank is passed over. -/
def play (c : Config) : World → List Nat → World
  | w, [] => w
  | w, r :: l => match step c w r with
    | none => play c w l
    | some w' => play c w' l

theorem play_runs {c : Config} {w0 : World} : ∀ {l : List Nat} {w : World} {k : Nat}, Runs c w0 k w →
    (∀ r ∈ l, IsRank c r) → ∃ k, Runs c w0 k (play c w l) := by
  intro l
  induction l with
  | nil => intro w k h _; exact ⟨_, h⟩
  | cons r l ih =>
    intro w k h hl
    simp only [play]
    cases hs : step c w r with
    | none => exact ih h (fun x hx => hl x (List.mem_cons_of_mem _ hx))
    | some w1 =>
      exact ih (.step k _ _ r h (hl r (List.mem_cons_self ..)) hs) (fun x hx => hl x (List.mem_cons_of_mem _ hx))

theorem fresh_starts (c : Config) : Starts c (fresh c) := by
  intro r
  exact ⟨fun h => if_pos h, fun h => if_neg h⟩

theorem restart_starts (c : Config) (w : World) : Starts c (restart c w) := by
  intro r
  exact ⟨fun h => if_pos h, fun h => if_neg h⟩

/-- Two steps of each of 16 ranks. -/
def twice16 : List Nat := (List.range 16).flatMap (fun i => [i + 1, i + 1])

def cfg51 : Config := ⟨16, 16, 2, 0, false, 100, 60⟩
def sched51 : List Nat := twice16 ++ [1, 1, 1, 1, 1] ++ [16, 16, 16, 16, 16] ++ [2, 2, 2]

/-- A run of 16 ranks in a fresh directory: rank 2 is about to analyse the second date, for which it reads
both maps, while both are still being written. -/
theorem C51_map_read_while_written :
    ∃ (c : Config) (k : Nat) (w : World), 16 ≤ c.cores ∧ 1 ≤ c.interval ∧ Runs c (fresh c) k w ∧
      w.cm 1 = .torn ∧ w.cd 1 = .torn ∧ w.pc 2 = .obia [c.start + c.interval] := by
  obtain ⟨k, hk⟩ := play_runs (c := cfg51) (w0 := fresh cfg51) (l := sched51) .refl
    (by unfold IsRank; decide +kernel)
  exact ⟨cfg51, k, _, by decide, by decide, hk, by decide +kernel, by decide +kernel, by decide +kernel⟩

/-! ## C52: a killed run can be started again -/

/-- After a kill of a run at a moment when no classification flags exist (or all covers do), starting again
finishes: bounded, no rank dies, no deadlock. -/
theorem C52_restart_partial (c : Config) (hc : 16 ≤ c.cores) (hi : 1 ≤ c.interval) (w : World)
    (hcls : (∀ b, w.cls b = false) ∨ c.seed = false ∨ ∀ y, y < c.ny → w.cover y ≠ .absent) :
    ∃ bound, ∀ k w', Runs c (restart c w) k w' →
      k ≤ bound ∧ (∀ r, IsRank c r → w'.pc r ≠ .dead) ∧
      ((∃ r, IsRank c r ∧ w'.pc r ≠ .done) → ∃ r, IsRank c r ∧ ∃ w'', step c w' r = some w'') :=
  C38_no_deadlock c hc hi (restart c w) (restart_starts c w) hcls

def cfg52 : Config := ⟨16, 16, 1, 1, true, 100, 60⟩
/-- Everybody steps in turn until all blocks are classified and rank 1 is about to assemble the covers. -/
def sched52 : List Nat := (List.range 15).flatMap (fun _ => (List.range 16).map (fun i => i + 1))
/-- After the restart rank 2 is about to classify its block; then rank 1 assembles the covers and removes the
temporary files. -/
def sched52' : List Nat := List.replicate 6 2 ++ List.replicate 14 1 ++ [2]

set_option maxRecDepth 100000 in
/-- A run with 16 ranks that is killed just before the covers are assembled: after the restart, rank 2 can
die because rank 1 has removed the feature file it wants to read. -/
theorem C52_restart_can_kill_a_rank :
    ∃ (c : Config) (k : Nat) (w : World) (k' : Nat) (w' : World), 16 ≤ c.cores ∧ 1 ≤ c.interval ∧
      Runs c (fresh c) k w ∧ Runs c (restart c w) k' w' ∧ IsRank c 2 ∧ w'.pc 2 = .dead := by
  obtain ⟨k, hk⟩ := play_runs (c := cfg52) (w0 := fresh cfg52) (l := sched52) .refl
    (by unfold IsRank; decide +kernel)
  obtain ⟨k', hk'⟩ := play_runs (c := cfg52) (w0 := restart cfg52 (play cfg52 (fresh cfg52) sched52))
    (l := sched52') .refl (by unfold IsRank; decide +kernel)
  exact ⟨cfg52, k, _, k', _, by decide, by decide, hk, hk', by unfold IsRank; decide, by decide +kernel⟩

/-! ## Cases -/

/-- The hypotheses of `C38_no_deadlock` are met by a fresh directory with 16 ranks, and such a run does get
to the end: 40 rounds finish every rank. -/
example : 16 ≤ cfg52.cores ∧ 1 ≤ cfg52.interval ∧ Starts cfg52 (fresh cfg52) ∧ (∀ b, (fresh cfg52).cls b = false) :=
  ⟨by decide, by decide, fresh_starts _, fun _ => rfl⟩

example : (List.range 16).all (fun i => (play cfg52 (fresh cfg52)
    ((List.range 40).flatMap (fun _ => (List.range 16).map (fun i => i + 1)))).pc (i + 1) = .done) = true := by
  decide +kernel

/-- With 15 ranks the same directory hangs: every rank waits for the maps. -/
example : (List.range 15).all (fun i => (play { cfg52 with cores := 15 } (fresh { cfg52 with cores := 15 })
    ((List.range 40).flatMap (fun _ => (List.range 15).map (fun i => i + 1)))).pc (i + 1) = .waitMaps) = true := by
  decide +kernel

/-- `C51_torn_map_is_never_repaired`: maps that exist, one of them torn. -/
example : Starts cfg51 (restart cfg51 { fresh cfg51 with cm := fun k => if k = 1 then .torn else .full, cd := fun _ => .full }) ∧
    ∀ k, k < cfg51.nMaps →
      (restart cfg51 { fresh cfg51 with cm := fun k => if k = 1 then .torn else .full, cd := fun _ => .full }).cm k ≠ .absent ∧
      (restart cfg51 { fresh cfg51 with cm := fun k => if k = 1 then .torn else .full, cd := fun _ => .full }).cd k ≠ .absent :=
  ⟨restart_starts _ _, by decide⟩

end Pycold
