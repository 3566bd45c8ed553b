import Mathlib.Algebra.Order.BigOperators.Group.Finset
import Mathlib.Data.Finset.Interval
import Mathlib.Order.Interval.Finset.Nat
import Verif.Props.C63_C68
import Verif.Spec.Ranks
/-!
# Proofs about the ranks that prepare a tile
-/
namespace Pycold.Ranks
open Pycold.Stack Pycold.Stack.Spec Spec

/-- The lasting effect of a step. -/
def Effect (w : World) : Act → Prop
  | .mkOut => w.out = true
  | .mkBlock bx b => (bx, b) ∈ w.folders
  | .warp => w.paths = true
  | .openDates => w.dates.isSome
  | .writeDates => w.dates.isSome
  | .await => w.dates.isSome
  | .save f => f ∈ w.files
  | .finished r => r ∈ w.flags
  | _ => True

/-- All that the ranks wait for is there. -/
def Ready (J : Job) (w : World) : Prop :=
  w.out = true ∧ (∀ x ∈ blockIds J.c, (x.2 + 1, x.1 + 1) ∈ w.folders) ∧ (J.hpc = true → J.c.kind.usesPath = true → w.paths = true)

theorem mem_write_self (fs : List File) (f : File) : f ∈ write fs f := by simp [write]

theorem mem_write {fs : List File} {f g : File} : g ∈ write fs f ↔ g = f ∨ (g ∈ fs ∧ ¬ SameFile g f) := by
  simp only [write, List.mem_cons, List.mem_filter, decide_eq_true_eq, SameFile]

theorem exec_effect {J : Job} {w w' : World} {a : Act} (h : exec J w a = .ok w') : Effect w' a := by
  cases a <;> simp only [exec] at h <;> (try split at h) <;> cases h <;> simp_all [Effect, mem_write_self]
  split <;> simp_all

theorem exec_mono {J : Job} {w w' : World} {a b : Act} (h : exec J w a = .ok w')
    (hk : ∀ f g, a = .save f → b = .save g → SameFile g f → g = f) (he : Effect w b) : Effect w' b := by
  cases a with
  | save f =>
    simp only [exec] at h
    split at h
    · simp only [Out.ok.injEq] at h
      subst h
      cases b <;> simp only [Effect] at he ⊢ <;> try exact he
      rename_i g
      rw [mem_write]
      by_cases hs : SameFile g f
      · exact Or.inl (hk f g rfl rfl hs)
      · exact Or.inr ⟨he, hs⟩
    · exact absurd h (by simp)
  | _ =>
    simp only [exec] at h <;> (try split at h) <;> cases h <;> cases b <;> simp_all [Effect] <;> split <;> simp_all

theorem exec_ready {J : Job} {w w' : World} {a : Act} (h : exec J w a = .ok w') (hr : Ready J w) : Ready J w' := by
  obtain ⟨h1, h2, h3⟩ := hr
  have k := fun b => exec_mono (b := b) h
  exact ⟨k .mkOut (by simp) h1, fun x hx => k (.mkBlock _ _) (by simp) (h2 x hx), fun a b => k .warp (by simp) (h3 a b)⟩

/-- A step that is not in the first part comes after it. -/
theorem after {α : Type} {done rest pre mid : List α} {a : α} (h : done ++ a :: rest = pre ++ mid) (ha : a ∉ pre) :
    ∃ c, done = pre ++ c ∧ mid = c ++ a :: rest := by
  rcases List.append_eq_append_iff.1 h with ⟨c, h1, h2⟩ | ⟨c, h1, h2⟩
  · cases c with
    | nil => exact ⟨[], by simpa using h1.symm, by simpa using h2.symm⟩
    | cons x c =>
      simp only [List.cons_append, List.cons.injEq] at h2
      exact absurd (by rw [h1, h2.1]; simp) ha
  · exact ⟨c, h1, h2⟩

/-- The first part of the preparation by rank 1. -/
def makes (J : Job) : List Act :=
  .mkOut :: (blockIds J.c).map (fun x => .mkBlock (x.2 + 1) (x.1 + 1)) ++
    (if J.hpc ∧ J.c.kind.usesPath then [.warp] else []) ++ [.parse]

theorem program_one (J : Job) : program J 1 = makes J ++ (.openDates :: .writeDates :: .await :: work J 1) := by
  simp [program, setup, makes]

theorem makes_cases {J : Job} {a : Act} (h : a ∈ makes J) :
    a = .mkOut ∨ (∃ x y, a = .mkBlock x y) ∨ a = .warp ∨ a = .parse := by
  simp only [makes, List.cons_append, List.mem_cons, List.mem_append, List.mem_map] at h
  rcases h with h | (⟨x, -, h⟩ | h) | h
  · simp [h]
  · simp [← h]
  · split at h <;> simp_all
  · simp_all

/-- The single-file names of the scenes. -/
noncomputable def total (J : Job) (date : Stack.Scene → Int) : List File :=
  J.scenes.flatMap (filesOf J.c date (fun s => (nameOf J.c s).getD []))

section
variable {J : Job} {date : Stack.Scene → Int}

theorem names (hs : Scenes J date) : ∀ s ∈ J.scenes, ∃ p, Known J.c.kind s.folder (date s) p ∧ (nameOf J.c s).getD [] = p.name := by
  intro s h
  obtain ⟨p, hp⟩ := known (hs.2.2.1 s h).2
  exact ⟨p, hp, by simp [nameOf, hp.parsed]⟩

theorem scene_eq (hs : Scenes J date) {s : Stack.Scene} (h : s ∈ J.scenes) :
    stackScene J.c s = .ok (filesOf J.c date (fun s => (nameOf J.c s).getD []) s) := by
  obtain ⟨p, hp, e⟩ := names hs s h
  exact stackScene_eq hs.1 (hs.2.2.1 s h).1 hp e

theorem total_pairwise (hs : Scenes J date) : (total J date).Pairwise fun f g => ¬ SameFile f g := by
  refine files_pairwise _ _ _ _ (List.Pairwise.imp_of_mem ?_ hs.2.2.2)
  intro s t h1 h2 hst e
  obtain ⟨p, hp, e1⟩ := names hs s h1
  obtain ⟨q, hq, e2⟩ := names hs t h2
  apply hst
  rw [hp.parsed, hq.parsed]
  simp only [Option.map_some]
  rw [← e1, ← e2, e]

theorem sameFile_symm {f g : File} (h : SameFile f g) : SameFile g f := ⟨h.1.symm, h.2.1.symm, h.2.2.symm⟩

theorem inj_of_pairwise : ∀ {l : List File}, (l.Pairwise fun f g => ¬ SameFile f g) → ∀ f ∈ l, ∀ g ∈ l, SameFile f g → f = g
  | [], _, f, hf, _, _, _ => absurd hf (by simp)
  | x :: l, h, f, hf, g, hg, e => by
    rw [List.pairwise_cons] at h
    rcases List.mem_cons.1 hf with h1 | h1 <;> rcases List.mem_cons.1 hg with h2 | h2
    · rw [h1, h2]
    · subst h1; exact absurd e (h.1 g h2)
    · subst h2; exact absurd (sameFile_symm e) (h.1 f h1)
    · exact inj_of_pairwise h.2 f h1 g h2 e

theorem nodup_of_pairwise {l : List File} (h : l.Pairwise fun f g => ¬ SameFile f g) : l.Nodup :=
  h.imp fun hn e => hn (by rw [e]; exact ⟨rfl, rfl, rfl⟩)

theorem work_cases (hs : Scenes J date) {r : Nat} {a : Act} (h : a ∈ work J r) :
    (a = .loadPaths ∧ J.hpc = true ∧ J.c.kind.usesPath = true) ∨ (∃ f ∈ total J date, a = .save f) ∨ a = .finished r := by
  simp only [work, List.mem_append, List.mem_flatMap, List.mem_singleton] at h
  rcases h with (h | ⟨k, -, h⟩) | h
  · split at h
    · rename_i hc
      exact Or.inl ⟨by simpa using h, hc.1, hc.2.1⟩
    · simp at h
  · right; left
    cases hk : J.scenes[k]? with
    | none => rw [hk] at h; simp at h
    | some s =>
      have hm : s ∈ J.scenes := List.mem_of_getElem? hk
      rw [hk] at h
      simp only [Option.map_some, Option.getD_some, sceneActs, scene_eq hs hm, List.mem_map] at h
      obtain ⟨f, hf, e⟩ := h
      exact ⟨f, List.mem_flatMap.2 ⟨s, hm, hf⟩, e.symm⟩
  · exact Or.inr (Or.inr h)

theorem save_mem (hs : Scenes J date) {r : Nat} {f : File} (h : .save f ∈ program J r) : f ∈ total J date := by
  simp only [program, List.mem_append, List.mem_cons] at h
  rcases h with h | h | h
  · split at h
    · simp [setup] at h
    · simp at h
  · simp at h
  · rcases work_cases hs h with h | ⟨g, hg, e⟩ | h
    · simp at h
    · simp only [Act.save.injEq] at e; rw [e]; exact hg
    · simp at h

theorem mem_save (hs : Scenes J date) (hc : 1 ≤ J.cores) {f : File} (h : f ∈ total J date) :
    ∃ r, 1 ≤ r ∧ r ≤ J.cores ∧ .save f ∈ program J r := by
  obtain ⟨s, hm, hf⟩ := List.mem_flatMap.1 h
  obtain ⟨k, hk, e⟩ := List.getElem_of_mem hm
  obtain ⟨r, hr, hkr, -⟩ := (C68_scenes J.scenes.length J.cores hc).2 k hk
  refine ⟨r, hr.1, hr.2, ?_⟩
  simp only [program, List.mem_append, List.mem_cons]
  right; right
  simp only [work, List.mem_append, List.mem_flatMap]
  left; right
  refine ⟨k, hkr, ?_⟩
  rw [List.getElem?_eq_getElem hk, e]
  simp only [Option.map_some, Option.getD_some, sceneActs, scene_eq hs hm, List.mem_map]
  exact ⟨f, hf, rfl⟩

theorem total_block {f : File} (h : f ∈ total J date) : ∃ x ∈ blockIds J.c, (f.bx, f.by_) = (x.2 + 1, x.1 + 1) := by
  obtain ⟨s, -, hf⟩ := List.mem_flatMap.1 h
  simp only [filesOf, List.mem_map, List.mem_filter] at hf
  obtain ⟨x, ⟨hx, -⟩, e⟩ := hf
  exact ⟨x, hx, by rw [← e]⟩

theorem dates_some (hs : Scenes J date) : ((J.scenes.map (·.folder)).mapM (folderDate J.c.kind)).isSome ∧
    (startLast J.c (J.scenes.map (·.folder))).isSome := by
  have hmap := ChangeMap.mapM_some (folderDate J.c.kind) (fun f => (folderDate J.c.kind f).getD 0) (J.scenes.map (·.folder)) (by
    intro f hf
    obtain ⟨s, h, e⟩ := List.mem_map.1 hf
    obtain ⟨p, hp, -⟩ := names hs s h
    rw [← e, hp.folder]; rfl)
  refine ⟨by rw [hmap]; rfl, ?_⟩
  rw [startLast, hmap]
  simp only [Option.bind_eq_bind, Option.bind_some]
  split
  · rename_i h
    have hl := congrArg List.length h
    rw [List.length_insertionSort] at hl
    simp at hl
    exact absurd hl hs.2.1
  · rfl

/-- What holds in every state that can be reached. -/
structure Inv (J : Job) (date : Stack.Scene → Int) (w0 : World) (s : State) : Prop where
  dead : s.dead = []
  prog : ∀ r, 1 ≤ r → r ≤ J.cores → ∃ done, program J r = done ++ s.left r ∧ (∀ a ∈ done, Effect s.w a) ∧
    (.writeDates ∈ done → s.w.dates = some (startLast J.c (J.scenes.map (·.folder))))
  ready : s.w.dates.isSome → Ready J s.w
  files : ∀ f ∈ s.w.files, f ∈ w0.files ∨ f ∈ total J date
  flags : ∀ r ∈ s.w.flags, r ∈ w0.flags ∨ (1 ≤ r ∧ r ≤ J.cores ∧ s.left r = [])

theorem usesPath_cases {k : Kind} (h : k.usesPath = true) : k = .ard ∨ k = .ardC2 := by
  cases k <;> simp_all [Kind.usesPath]

theorem inv_start (w0 : World) (hu : Usable J w0) : Inv J date w0 (start J w0) where
  dead := rfl
  prog := fun r _ _ => ⟨[], rfl, by simp, by simp⟩
  ready := by
    intro h
    obtain ⟨h1, h2, h3⟩ := hu h
    refine ⟨h1, ?_, fun a b => h3 a (usesPath_cases b)⟩
    intro x hx
    rw [blockIds, List.pair_mem_product] at hx
    exact h2 x.1 x.2 (by simpa using hx.1) (by simpa using hx.2)
  files := fun f h => Or.inl h
  flags := fun r h => Or.inl h

/-- What has been done before the next step of a rank. -/
theorem before (hs : Scenes J date) {r : Nat} {a : Act} {rest done : List Act}
    (h : program J r = done ++ a :: rest) :
    (a ∈ makes J ∧ r = 1 ∧ (a ≠ .mkOut → .mkOut ∈ done)) ∨ (a = .openDates ∧ r = 1 ∧ done = makes J) ∨
    (a = .writeDates ∧ r = 1 ∧ .openDates ∈ done) ∨ (a = .await ∧ (r = 1 → .writeDates ∈ done)) ∨
    (a ∈ work J r ∧ .await ∈ done) := by
  have hw : ∀ {r' : Nat}, (a = .openDates ∨ a = .writeDates ∨ a = .await) → a ∉ work J r' := by
    intro r' hc hm
    rcases work_cases hs hm with e | ⟨f, -, e⟩ | e <;> rcases hc with c | c | c <;> simp [c] at e
  by_cases hr : r = 1
  · subst hr
    rw [program_one] at h
    by_cases hm : a ∈ makes J
    · left
      refine ⟨hm, rfl, fun hne => ?_⟩
      cases done with
      | nil => simp only [makes, List.cons_append, List.nil_append, List.cons.injEq] at h; exact absurd h.1.symm hne
      | cons x d => simp only [makes, List.cons_append, List.cons.injEq] at h; rw [← h.1]; simp
    · right
      obtain ⟨c, h1, h2⟩ := after h.symm hm
      rcases c with _ | ⟨c1, c⟩
      · simp only [List.nil_append, List.cons.injEq] at h2
        exact Or.inl ⟨h2.1.symm, rfl, by simpa using h1⟩
      · simp only [List.cons_append, List.cons.injEq] at h2
        rcases c with _ | ⟨c2, c⟩
        · simp only [List.nil_append, List.cons.injEq] at h2
          exact Or.inr (Or.inl ⟨h2.2.1.symm, rfl, by rw [h1, ← h2.1]; simp⟩)
        · simp only [List.cons_append, List.cons.injEq] at h2
          rcases c with _ | ⟨c3, c⟩
          · simp only [List.nil_append, List.cons.injEq] at h2
            exact Or.inr (Or.inr (Or.inl ⟨h2.2.2.1.symm, fun _ => by rw [h1, ← h2.2.1]; simp⟩))
          · simp only [List.cons_append, List.cons.injEq] at h2
            exact Or.inr (Or.inr (Or.inr ⟨by rw [h2.2.2.2]; simp, by rw [h1, ← h2.2.2.1]; simp⟩))
  · rw [program, if_neg hr, List.nil_append] at h
    right; right; right
    rcases done with _ | ⟨x, d⟩
    · simp only [List.nil_append, List.cons.injEq] at h
      exact Or.inl ⟨h.1.symm, fun e => absurd e hr⟩
    · simp only [List.cons_append, List.cons.injEq] at h
      exact Or.inr ⟨by rw [h.2]; simp, by rw [← h.1]; simp⟩

theorem no_raise (hs : Scenes J date) {s : State} {w0 : World} (hi : Inv J date w0 s) {r : Nat} (h1 : 1 ≤ r) (h2 : r ≤ J.cores)
    {a : Act} {rest : List Act} (hl : s.left r = a :: rest) : exec J s.w a ≠ .raised := by
  obtain ⟨done, hp, he, -⟩ := hi.prog r h1 h2
  rw [hl] at hp
  rcases before hs hp with ⟨hm, -, ho⟩ | ⟨rfl, -, hd⟩ | ⟨rfl, -, hd⟩ | ⟨rfl, -⟩ | ⟨hw, hd⟩
  · have hout : a ≠ .mkOut → s.w.out = true := fun h => he _ (ho h)
    rcases makes_cases hm with rfl | ⟨x, y, rfl⟩ | rfl | rfl
    · simp [exec]
    · simp [exec, hout (by simp)]
    · simp [exec, hout (by simp), hs.2.1]
    · simp only [exec]; rw [if_pos (dates_some hs).1]; simp
  · have hout : s.w.out = true := he .mkOut (by rw [hd]; simp [makes])
    simp [exec, hout]
  · simp only [exec]
    obtain ⟨ab, e⟩ := Option.isSome_iff_exists.1 (dates_some hs).2
    rw [e]; simp
  · simp only [exec]; split <;> simp
  · have hr := hi.ready (he _ hd)
    rcases work_cases hs hw with ⟨rfl, c1, c2⟩ | ⟨f, hf, rfl⟩ | rfl
    · simp [exec, hr.2.2 c1 c2]
    · obtain ⟨x, hx, e⟩ := total_block hf
      have := hr.2.1 x hx
      rw [← e] at this
      simp [exec, this]
    · simp [exec, hr.1]

/-- The file of dates changes only with these steps. -/
theorem exec_dates {J : Job} {w w' : World} {a : Act} (h : exec J w a = .ok w') (h1 : a ≠ .openDates) (h2 : a ≠ .writeDates) :
    w'.dates = w.dates := by
  cases a <;> simp only [exec] at h <;> (try split at h) <;> cases h <;> simp_all

theorem exec_files {J : Job} {w w' : World} {a : Act} (h : exec J w a = .ok w') {g : File} (hg : g ∈ w'.files) :
    g ∈ w.files ∨ a = .save g := by
  cases a <;> simp only [exec] at h <;> (try split at h) <;> cases h <;> (try exact Or.inl hg)
  rcases mem_write.1 hg with e | e
  · rw [e]; simp
  · exact Or.inl e.1

theorem exec_flags {J : Job} {w w' : World} {a : Act} (h : exec J w a = .ok w') {r : Nat} (hg : r ∈ w'.flags) :
    r ∈ w.flags ∨ a = .finished r := by
  cases a <;> simp only [exec] at h <;> (try split at h) <;> cases h <;> (try exact Or.inl hg)
  rcases List.mem_cons.1 hg with e | e
  · rw [e]; simp
  · exact Or.inl e

theorem finished_last (hs : Scenes J date) {r r' : Nat} {done rest : List Act} (h : program J r = done ++ .finished r' :: rest) :
    r' = r ∧ rest = [] := by
  have hno : ∀ (l : List Act), (∀ b ∈ l, ∀ q, b ≠ .finished q) → ∀ (d t : List Act) (x : Nat), l ++ [.finished x] = d ++ .finished r' :: t →
      r' = x ∧ t = [] := by
    intro l hl d t x e
    obtain ⟨c, c1, c2⟩ := after e.symm (fun hm => hl _ hm r' rfl)
    rcases c with _ | ⟨c0, c⟩
    · simp only [List.nil_append, List.cons.injEq, Act.finished.injEq] at c2
      exact ⟨c2.1.symm, c2.2.symm⟩
    · simp only [List.cons_append, List.cons.injEq] at c2
      exact absurd c2.2 (by simp)
  have key : ∃ l, program J r = l ++ [.finished r] ∧ ∀ b ∈ l, ∀ q, b ≠ .finished q := by
    refine ⟨(if r = 1 then setup J else []) ++ .await :: ((if J.hpc ∧ J.c.kind.usesPath ∧ J.c.pathMap.isSome then [.loadPaths] else []) ++
      (scenesOf J.scenes.length J.cores r).flatMap (fun k => (J.scenes[k]?.map (sceneActs J.c)).getD [])), by simp [program, work], ?_⟩
    intro b hb q hq
    subst hq
    simp only [List.mem_append, List.mem_cons, List.mem_flatMap] at hb
    rcases hb with hb | hb | hb | ⟨k, -, hb⟩
    · split at hb
      · simp [setup] at hb
      · simp at hb
    · simp at hb
    · split at hb <;> simp at hb
    · cases hk : J.scenes[k]? with
      | none => rw [hk] at hb; simp at hb
      | some s =>
        rw [hk] at hb
        simp [sceneActs, scene_eq hs (List.mem_of_getElem? hk)] at hb
  obtain ⟨l, e, hl⟩ := key
  rw [e] at h
  exact hno l hl done rest r h

theorem inv_step (hs : Scenes J date) {s t : State} {w0 : World} (hi : Inv J date w0 s) (h : Step J s t) : Inv J date w0 t := by
  cases h with
  | raise h1 h2 hl he => exact absurd he (no_raise hs hi h1 h2 hl)
  | @run r a rest w h1 h2 hl he =>
    obtain ⟨done, hp, hf, hd⟩ := hi.prog r h1 h2
    rw [hl] at hp
    have hb := before hs hp
    have hmono : ∀ r' b, b ∈ program J r' → Effect s.w b → Effect w b := by
      intro r' b hb he'
      refine exec_mono he ?_ he'
      rintro f g rfl rfl hsame
      exact inj_of_pairwise (total_pairwise hs) g (save_mem hs hb) f (save_mem (r := r) hs (by rw [hp]; simp)) hsame
    refine ⟨hi.dead, ?_, ?_, ?_, ?_⟩
    · intro r' g1 g2
      by_cases hr : r' = r
      · subst hr
        refine ⟨done ++ [a], by simp [hp], ?_, ?_⟩
        · intro b hb'
          rcases List.mem_append.1 hb' with hm | hm
          · exact hmono r' b (by rw [hp]; simp [hm]) (hf b hm)
          · rw [List.mem_singleton.1 hm]; exact exec_effect he
        · intro hm
          by_cases ha : a = .writeDates
          · subst ha
            simp only [exec] at he
            split at he
            · exact absurd he (by simp)
            · rename_i ab e
              simp only [Out.ok.injEq] at he
              rw [← he, e]
          · have hm' : .writeDates ∈ done := by
              rcases List.mem_append.1 hm with e | e
              · exact e
              · exact absurd (List.mem_singleton.1 e).symm ha
            by_cases ho : a = .openDates
            · subst ho
              rcases hb with ⟨e, -⟩ | ⟨-, -, e⟩ | ⟨e, -⟩ | ⟨e, -⟩ | ⟨e, -⟩
              · rcases makes_cases e with e | ⟨_, _, e⟩ | e | e <;> simp at e
              · rw [e] at hm'
                rcases makes_cases hm' with e | ⟨_, _, e⟩ | e | e <;> simp at e
              · simp at e
              · simp at e
              · rcases work_cases hs e with e | ⟨_, _, e⟩ | e <;> simp at e
            · rw [exec_dates he ho ha]; exact hd hm'
      · obtain ⟨done', e1, e2, e3⟩ := hi.prog r' g1 g2
        refine ⟨done', by simp [Function.update_of_ne hr, e1], fun b hb' => hmono r' b (by rw [e1]; simp [hb']) (e2 b hb'), ?_⟩
        intro hm
        have hr' : r' = 1 := by
          by_contra hne
          have : Act.writeDates ∈ program J r' := by rw [e1]; simp [hm]
          rw [program, if_neg hne] at this
          simp only [List.nil_append, List.mem_cons] at this
          rcases this with e | e
          · simp at e
          · rcases work_cases hs e with e | ⟨_, _, e⟩ | e <;> simp at e
        have hne : ¬ r = 1 := fun e => hr (hr'.trans e.symm)
        rw [exec_dates he, e3 hm]
        · rintro rfl
          rcases hb with ⟨-, e, -⟩ | ⟨-, e, -⟩ | ⟨-, e, -⟩ | ⟨e, -⟩ | ⟨e, -⟩
          · exact hne e
          · exact hne e
          · exact hne e
          · simp at e
          · rcases work_cases hs e with e | ⟨_, _, e⟩ | e <;> simp at e
        · rintro rfl
          rcases hb with ⟨-, e, -⟩ | ⟨-, e, -⟩ | ⟨-, e, -⟩ | ⟨e, -⟩ | ⟨e, -⟩
          · exact hne e
          · exact hne e
          · exact hne e
          · simp at e
          · rcases work_cases hs e with e | ⟨_, _, e⟩ | e <;> simp at e
    · intro hsome
      by_cases ho : a = .openDates
      · subst ho
        have hdone : done = makes J := by
          rcases hb with ⟨e, -⟩ | ⟨-, -, e⟩ | ⟨e, -⟩ | ⟨e, -⟩ | ⟨e, -⟩
          · rcases makes_cases e with e | ⟨_, _, e⟩ | e | e <;> simp at e
          · exact e
          · simp at e
          · simp at e
          · rcases work_cases hs e with e | ⟨_, _, e⟩ | e <;> simp at e
        refine exec_ready he ⟨?_, ?_, ?_⟩
        · exact hf .mkOut (by rw [hdone]; simp [makes])
        · intro x hx
          refine hf (.mkBlock (x.2 + 1) (x.1 + 1)) ?_
          rw [hdone]
          simp only [makes, List.cons_append, List.mem_cons, List.mem_append, List.mem_map]
          exact Or.inr (Or.inl (Or.inl ⟨x, hx, rfl⟩))
        · intro c1 c2
          refine hf .warp ?_
          rw [hdone]
          simp [makes, c1, c2]
      · by_cases ha : a = .writeDates
        · subst ha
          have : Act.openDates ∈ done := by
            rcases hb with ⟨e, -⟩ | ⟨e, -⟩ | ⟨-, -, e⟩ | ⟨e, -⟩ | ⟨e, -⟩
            · rcases makes_cases e with e | ⟨_, _, e⟩ | e | e <;> simp at e
            · simp at e
            · exact e
            · simp at e
            · rcases work_cases hs e with e | ⟨_, _, e⟩ | e <;> simp at e
          exact exec_ready he (hi.ready (hf _ this))
        · have hsome' : w.dates.isSome := hsome
          rw [exec_dates he ho ha] at hsome'
          exact exec_ready he (hi.ready hsome')
    · intro f hm
      rcases exec_files he hm with e | e
      · exact hi.files f e
      · exact Or.inr (save_mem (r := r) hs (by rw [hp, e]; simp))
    · intro q hm
      rcases exec_flags he hm with e | e
      · rcases hi.flags q e with e | ⟨c1, c2, c3⟩
        · exact Or.inl e
        · refine Or.inr ⟨c1, c2, ?_⟩
          have hqr : q ≠ r := by
            rintro rfl; rw [hl] at c3; simp at c3
          simp [Function.update_of_ne hqr, c3]
      · rw [e] at hp
        obtain ⟨rfl, hr⟩ := finished_last hs hp
        exact Or.inr ⟨h1, h2, by simp [hr]⟩

theorem inv_run (hs : Scenes J date) {w0 : World} (hu : Usable J w0) {n : Nat} {s : State} (h : Run J (start J w0) n s) :
    Inv J date w0 s := by
  induction h with
  | zero => exact inv_start w0 hu
  | more _ h2 ih => exact inv_step hs ih h2

theorem keys_run {w0 : World} (h0 : w0.files.Pairwise fun f g => ¬ SameFile f g) {n : Nat} {s : State} (h : Run J (start J w0) n s) :
    s.w.files.Pairwise fun f g => ¬ SameFile f g := by
  induction h with
  | zero => exact h0
  | more _ h2 ih =>
    cases h2 with
    | raise => exact ih
    | @run r a rest w h1 h2 hl he =>
      cases a <;> simp only [exec] at he <;> (try split at he) <;> cases he <;> (try exact ih)
      rename_i f hf
      show (write _ f).Pairwise _
      rw [write, List.pairwise_cons]
      refine ⟨?_, ih.filter _⟩
      intro g hg e
      have := (List.mem_filter.1 hg).2
      simp only [decide_eq_true_eq] at this
      exact this ⟨e.1.symm, e.2.1.symm, e.2.2.symm⟩

/-- A rank that is not done can go on, or rank 1 can. -/
theorem can_step (hs : Scenes J date) {s : State} {w0 : World} (hi : Inv J date w0 s) (hc : 1 ≤ J.cores) (hnd : ¬ Done J s) :
    ∃ t, Step J s t := by
  have go : ∀ r, 1 ≤ r → r ≤ J.cores → (∃ a rest, s.left r = a :: rest ∧ (a = .await → s.w.dates.isSome)) → ∃ t, Step J s t := by
    rintro r h1 h2 ⟨a, rest, hl, ha⟩
    cases he : exec J s.w a with
    | ok w => exact ⟨_, .run h1 h2 hl he⟩
    | raised => exact absurd he (no_raise hs hi h1 h2 hl)
    | wait =>
      exfalso
      cases a <;> simp only [exec] at he <;> (try split at he) <;> simp_all
  obtain ⟨done, hp, hf, -⟩ := hi.prog 1 (Nat.le_refl 1) hc
  cases h : s.left 1 with
  | cons a rest =>
    refine go 1 (Nat.le_refl 1) hc ⟨a, rest, h, fun e => ?_⟩
    rw [h] at hp
    rcases before hs hp with ⟨c, -⟩ | ⟨c, -⟩ | ⟨c, -⟩ | ⟨-, c⟩ | ⟨c, -⟩
    · rw [e] at c; rcases makes_cases c with c | ⟨_, _, c⟩ | c | c <;> simp at c
    · rw [e] at c; simp at c
    · rw [e] at c; simp at c
    · exact hf _ (c rfl)
    · rw [e] at c; rcases work_cases hs c with c | ⟨_, _, c⟩ | c <;> simp at c
  | nil =>
    have hd : s.w.dates.isSome := by
      refine hf .await ?_
      rw [h, List.append_nil] at hp
      rw [← hp]; simp [program]
    by_contra hno
    apply hnd
    intro r h1 h2
    cases hl : s.left r with
    | nil => rfl
    | cons a rest => exact absurd (go r h1 h2 ⟨a, rest, hl, fun _ => hd⟩) hno

/-- All that the ranks have left to do. -/
def remaining (J : Job) (s : State) : Nat := ∑ r ∈ Finset.Icc 1 J.cores, (s.left r).length

theorem step_less {s t : State} (h : Step J s t) : remaining J t + 1 ≤ remaining J s := by
  have key : ∀ (r : Nat) (l : List Act), 1 ≤ r → r ≤ J.cores → l.length < (s.left r).length →
      (∑ q ∈ Finset.Icc 1 J.cores, (Function.update s.left r l q).length) < remaining J s := by
    intro r l h1 h2 hlt
    refine Finset.sum_lt_sum ?_ ⟨r, Finset.mem_Icc.2 ⟨h1, h2⟩, by simpa using hlt⟩
    intro q _
    by_cases hq : q = r
    · subst hq; simpa using hlt.le
    · simp [Function.update_of_ne hq]
  cases h with
  | run h1 h2 hl he => exact key _ _ h1 h2 (by rw [hl]; simp)
  | raise h1 h2 hl he => exact key _ _ h1 h2 (by rw [hl]; simp)

end

end Pycold.Ranks
