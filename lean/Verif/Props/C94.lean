import Verif.Proof.Ranks
/-!
# Property C94: the ranks that prepare a tile side by side

* No rank raises, whatever the schedule, if the tile has not been prepared yet (or was, for the same blocks).
* Every schedule comes to an end, with all ranks finished: nobody waits for ever.
* The stacks are then those of a single process, whatever the schedule; so what C64 says of them holds.
* The flag of a rank means that all its files are there.

Refuted if the file of dates was left by a run with other blocks: then a rank may raise.
-/
namespace Pycold.Ranks
open Pycold.Stack Pycold.Stack.Spec Spec

/-- Whatever the schedule and whenever it is stopped: no exception has ended a rank. -/
theorem C94_no_exception_partial (J : Job) (date : Stack.Scene → Int) (hs : Scenes J date) (w0 : World) (hu : Usable J w0)
    (n : Nat) (s : State) (h : Run J (start J w0) n s) : s.dead = [] :=
  (inv_run hs hu h).dead

theorem usable_fresh (J : Job) (w0 : World) (h : Fresh w0) : Usable J w0 := by
  intro hd; rw [h.2.1] at hd; simp at hd

/-- The number of steps is bounded, and as long as a rank has something left to do, some rank can make a step. -/
theorem C94_ends (J : Job) (date : Stack.Scene → Int) (hs : Scenes J date) (hc : 1 ≤ J.cores) (w0 : World) (hu : Usable J w0) :
    ∃ bound, ∀ n s, Run J (start J w0) n s → n ≤ bound ∧ ((¬ ∃ t, Step J s t) → Done J s) := by
  refine ⟨remaining J (start J w0), fun n s h => ⟨?_, fun hno => ?_⟩⟩
  · have : n + remaining J s ≤ remaining J (start J w0) := by
      induction h with
      | zero => simp
      | more _ h2 ih => have := step_less h2; omega
    omega
  · by_contra hd
    exact hno (can_step hs (inv_run hs hu h) hc hd)

/-- Whatever the schedule: at every moment there are no files but those of a single process that stacks all scenes one after
the other; when the ranks are done, the files are exactly those, the dates are written, and every rank has left its flag. -/
theorem C94_result (J : Job) (date : Stack.Scene → Int) (hs : Scenes J date) (hc : 1 ≤ J.cores) (w0 : World) (hf : Fresh w0) :
    ∃ fs, runScenes J.c J.scenes [] = .ok fs ∧ ∀ n s, Run J (start J w0) n s →
      (∀ f ∈ s.w.files, f ∈ fs) ∧
      (Done J s → s.w.files.Perm fs ∧ (∀ i j, (folder s.w.files i j).Perm (folder fs i j)) ∧
        (∃ ab, startLast J.c (J.scenes.map (·.folder)) = some ab ∧ s.w.dates = some (some ab)) ∧
        ∀ r, 1 ≤ r → r ≤ J.cores → r ∈ s.w.flags) := by
  have hrun : runScenes J.c J.scenes [] = .ok (total J date).reverse := by
    rw [runScenes_eq hs.1 J.scenes [] (fun s h => ⟨(hs.2.2.1 s h).1, names hs s h⟩)]
    have := foldl_write (total J date) [] (total_pairwise hs) (by simp)
    rw [List.append_nil] at this
    rw [← this]; rfl
  refine ⟨_, hrun, fun n s h => ?_⟩
  have hi := inv_run hs (usable_fresh J w0 hf) h
  have hsub : ∀ f ∈ s.w.files, f ∈ total J date := by
    intro f hm
    rcases hi.files f hm with e | e
    · rw [hf.2.2.1] at e; simp at e
    · exact e
  refine ⟨fun f hm => List.mem_reverse.2 (hsub f hm), fun hd => ?_⟩
  have hprog : ∀ r, 1 ≤ r → r ≤ J.cores → (∀ a ∈ program J r, Effect s.w a) ∧
      (.writeDates ∈ program J r → s.w.dates = some (startLast J.c (J.scenes.map (·.folder)))) := by
    intro r h1 h2
    obtain ⟨done, e1, e2, e3⟩ := hi.prog r h1 h2
    rw [hd r h1 h2, List.append_nil] at e1
    rw [e1]
    exact ⟨e2, e3⟩
  have hperm : s.w.files.Perm (total J date).reverse := by
    refine List.Perm.trans ?_ (List.reverse_perm _).symm
    rw [List.perm_ext_iff_of_nodup (nodup_of_pairwise (keys_run (by rw [hf.2.2.1]; simp) h)) (nodup_of_pairwise (total_pairwise hs))]
    intro f
    refine ⟨hsub f, fun hm => ?_⟩
    obtain ⟨r, h1, h2, h3⟩ := mem_save hs hc hm
    exact (hprog r h1 h2).1 _ h3
  refine ⟨hperm, fun i j => (hperm.filter _).map _, ?_, ?_⟩
  · obtain ⟨ab, e⟩ := Option.isSome_iff_exists.1 (dates_some hs).2
    refine ⟨ab, e, ?_⟩
    rw [(hprog 1 (Nat.le_refl 1) hc).2 (by rw [program_one]; simp), e]
  · intro r h1 h2
    exact (hprog r h1 h2).1 (.finished r) (by simp [program, work])

/-- The flag of a rank is there only if all files of all its scenes are. -/
theorem C94_flag (J : Job) (date : Stack.Scene → Int) (hs : Scenes J date) (w0 : World) (hf : Fresh w0) (n : Nat) (s : State)
    (h : Run J (start J w0) n s) (r : Nat) (hr : r ∈ s.w.flags) (k : Nat) (hk : k ∈ scenesOf J.scenes.length J.cores r)
    (scene : Stack.Scene) (he : J.scenes[k]? = some scene) (fs : List File) (ho : stackScene J.c scene = .ok fs) :
    ∀ f ∈ fs, f ∈ s.w.files := by
  intro f hm
  have hi := inv_run hs (usable_fresh J w0 hf) h
  rcases hi.flags r hr with e | ⟨h1, h2, h3⟩
  · rw [hf.2.2.2] at e; simp at e
  · obtain ⟨done, e1, e2, -⟩ := hi.prog r h1 h2
    rw [h3, List.append_nil] at e1
    refine e2 (.save f) ?_
    rw [← e1]
    simp only [program, List.mem_append, List.mem_cons]
    right; right
    simp only [work, List.mem_append, List.mem_flatMap]
    left; right
    refine ⟨k, hk, ?_⟩
    rw [he]
    simp only [Option.map_some, Option.getD_some, sceneActs, ho, List.mem_map]
    exact ⟨f, hm, rfl⟩

/-- As long as the file of dates is missing, no rank but rank 1 has done anything (so without rank 1 the others wait for ever). -/
theorem C94_waits (J : Job) (w0 : World) (n : Nat) (s : State) (h : Run J (start J w0) n s) (hd : s.w.dates = none) :
    ∀ r, r ≠ 1 → s.left r = program J r := by
  induction h with
  | zero => intro r _; rfl
  | @more n t u _ h2 ih =>
    have key : ∀ (q : Nat) (a : Act) (rest : List Act), t.w.dates = none → t.left q = a :: rest → exec J t.w a ≠ .wait → q = 1 := by
      intro q a rest hn hl hw
      by_contra hne
      rw [ih hn q hne, program, if_neg hne, List.nil_append, List.cons.injEq] at hl
      rw [← hl.1] at hw
      simp [exec, hn] at hw
    intro r hr
    cases h2 with
    | @run q a rest w h1 h2 hl he =>
      have hn : t.w.dates = none := by
        cases hc : t.w.dates with
        | none => rfl
        | some d =>
          have := exec_mono (b := .openDates) he (by simp) (show t.w.dates.isSome by rw [hc]; rfl)
          exact absurd this (by show ¬ w.dates.isSome; rw [show w.dates = none from hd]; simp)
      obtain rfl := key q a rest hn hl (by rw [he]; simp)
      simp only [Function.update_of_ne hr]
      exact ih hn r hr
    | @raise q a rest h1 h2 hl he =>
      have hn : t.w.dates = none := hd
      obtain rfl := key q a rest hn hl (by rw [he]; simp)
      simp only [Function.update_of_ne hr]
      exact ih hn r hr

/-! ## A concrete case, and the case that is refuted -/

/-- Two ranks, two scenes, two blocks. -/
def exJob : Job := ⟨exConfig, false, 2, [exA, exB]⟩
/-- The dates in the names. -/
def exDate (s : Stack.Scene) : Int := (folderDate .ard s.folder).getD 0

theorem exScenes : Scenes exJob exDate := by
  refine ⟨by refine ⟨?_, ?_, ?_, ?_⟩ <;> decide, by simp [exJob], ?_, ?_⟩
  · intro s hs
    simp only [exJob, List.mem_cons, List.not_mem_nil, or_false] at hs
    rcases hs with rfl | rfl
    · refine ⟨⟨?_, ?_, ?_⟩, ?_⟩
      · intro p h; cases h; rfl
      · intro b h; cases h; intros; rfl
      · intro m h; cases h
      · rw [show exDate exA = 729799 by decide +kernel]
        exact ⟨⟨'5', by decide, rfl⟩, "LT05_CU_027009_".toList, "_20190101_C01_V01_SR".toList, 1999, 2, 14, rfl, rfl, by
          refine ⟨?_, ?_, ?_, ?_, ?_, ?_, ?_⟩ <;> decide +kernel⟩
    · refine ⟨⟨?_, ?_, ?_⟩, ?_⟩
      · intro p h; cases h; rfl
      · intro b h; cases h; intros; rfl
      · intro m h; cases h
      · rw [show exDate exB = 729390 by decide +kernel]
        exact ⟨⟨'7', by decide, rfl⟩, "LE07_CU_027009_".toList, "_20190101_C01_V01_SR".toList, 1998, 1, 1, rfl, rfl, by
          refine ⟨?_, ?_, ?_, ?_, ?_, ?_, ?_⟩ <;> decide +kernel⟩
  · have h : (Stack.parse .ard exA.folder).map (·.name) ≠ (Stack.parse .ard exB.folder).map (·.name) := by decide +kernel
    exact List.pairwise_cons.2 ⟨fun t ht => by rw [List.mem_singleton.1 ht]; exact h, List.pairwise_singleton _ _⟩

/-- Nothing prepared yet. -/
def exWorld : World := ⟨false, [], false, none, [], []⟩
example : Fresh exWorld := ⟨rfl, rfl, rfl, rfl⟩
example : Usable exJob exWorld := by intro h; simp [exWorld] at h

/-- What the two ranks do: rank 1 stacks the first scene, of which one block shows the ground, rank 2 the other. -/
example : ∃ f1 f2 f3, program exJob 1 = [.mkOut, .mkBlock 1 1, .mkBlock 2 1, .parse, .openDates, .writeDates, .await, .save f1, .finished 1] ∧
    program exJob 2 = [.await, .save f2, .save f3, .finished 2] := ⟨_, _, _, rfl, rfl⟩

/-- The folder of a run with one block: the second block has no folder. -/
def exOld : World := ⟨true, [(1, 1)], false, some (some (729390, 729799)), [], []⟩

/-- Without the condition on a file of dates that is left: rank 2 does not wait, does not find the folder of the second block and
ends with an exception. -/
theorem C94_leftover : ∃ (J : Job) (date : Stack.Scene → Int) (w0 : World), Scenes J date ∧ 1 ≤ J.cores ∧ w0.out = true ∧
    ∃ n s, Run J (start J w0) n s ∧ 2 ∈ s.dead := by
  refine ⟨exJob, exDate, exOld, exScenes, by decide, rfl, ?_⟩
  obtain ⟨f, g, hp, hf, hg⟩ : ∃ f g, program exJob 2 = [.await, .save f, .save g, .finished 2] ∧ (f.bx, f.by_) = (1, 1) ∧
      (g.bx, g.by_) = (2, 1) := ⟨_, _, rfl, rfl, rfl⟩
  have r0 : Run exJob (start exJob exOld) 0 (start exJob exOld) := .zero
  have r1 := r0.more (.run (r := 2) (a := .await) (rest := [.save f, .save g, .finished 2]) (w := exOld) (by decide) (by decide) hp rfl)
  have r2 := r1.more (.run (r := 2) (a := .save f) (rest := [.save g, .finished 2]) (w := { exOld with files := [f] })
    (by decide) (by decide) (by simp) (by simp [exec, hf, exOld, write]))
  have r3 := r2.more (.raise (r := 2) (a := .save g) (rest := [.finished 2]) (by decide) (by decide) (by simp)
    (by simp [exec, hg, exOld]))
  exact ⟨_, _, r3, by simp⟩

end Pycold.Ranks
