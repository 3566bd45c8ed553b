import Verif.Proof.Hpc
/-! Progress and termination of the phases of OBCOLD tile processing. -/
namespace Pycold.Hpc

open Pycold.Tile

/-! ### Every step makes the remaining work smaller -/

/-- Steps a rank has still to do at most. -/
def weight (L D nm ny : Nat) : Pc → Nat
  | .done => 0
  | .dead => 0
  | .rebuild t => 1 + t.length
  | .waitObia => 2 + L
  | .obia t => 3 + L + t.length
  | .checkObia => 4 + L + D
  | .waitCover => 5 + L + D
  | .clean => 6 + L + D
  | .covers y o => 7 + L + D + 2 * (ny - y) + (if o then 0 else 1)
  | .waitCls => 9 + L + D + 2 * ny
  | .classify t => 10 + L + D + 2 * ny + t.length
  | .waitFeats => 11 + 2 * L + D + 2 * ny
  | .feats t => 12 + 2 * L + D + 2 * ny + t.length
  | .checkFeat => 13 + 3 * L + D + 2 * ny
  | .checkCover => 14 + 3 * L + D + 2 * ny
  | .waitMaps => 15 + 3 * L + D + 2 * ny
  | .cmMaps k o => 16 + 3 * L + D + 2 * ny + 2 * (nm - k) + (if o then 0 else 1)
  | .dateMaps k o => 16 + 3 * L + D + 2 * ny + 2 * (nm - k) + (if o then 0 else 1)
  | .checkMaps => 18 + 3 * L + D + 2 * ny + 2 * nm
  | .waitBlocks => 19 + 3 * L + D + 2 * ny + 2 * nm
  | .blocks t => 20 + 3 * L + D + 2 * ny + 2 * nm + t.length

def wt (c : Config) (w : World) (r : Nat) : Nat :=
  weight (mine c r).length (myDates c r).length c.nMaps c.ny (w.pc r)

theorem did_other {c : Config} {w w' : World} {r r' : Nat} (hs : Did c w r w') (h : r' ≠ r) :
    w'.pc r' = w.pc r' := by
  cases hs <;> simp only [goto, upd, h, if_false]

theorem did_less {c : Config} {w w' : World} {r : Nat} (hs : Did c w r w') : wt c w' r < wt c w r := by
  unfold wt
  cases hs <;> simp only [goto, upd, if_true] <;> grind [weight, afterMaps, afterFeat, afterCls]

/-- The work left of ranks 1..n. -/
def total (c : Config) (w : World) : Nat → Nat
  | 0 => 0
  | n + 1 => total c w n + wt c w (n + 1)

theorem total_le {c : Config} {w w' : World} {r : Nat} (hs : Did c w r w') :
    ∀ n, total c w' n ≤ total c w n ∧ (1 ≤ r ∧ r ≤ n → total c w' n < total c w n) := by
  intro n
  induction n with
  | zero => exact ⟨Nat.le_refl _, by omega⟩
  | succ n ih =>
    obtain ⟨h1, h2⟩ := ih
    simp only [total]
    by_cases e : n + 1 = r
    · subst e
      have := did_less hs
      exact ⟨by omega, by omega⟩
    · have : wt c w' (n + 1) = wt c w (n + 1) := by simp only [wt, did_other hs e]
      rw [this]
      exact ⟨by omega, fun h => by have := h2 (by omega); omega⟩

theorem runs_bounded {c : Config} {w w' : World} {k : Nat} (h : Runs c w k w') :
    k + total c w' c.cores ≤ total c w c.cores := by
  induction h with
  | refl => omega
  | step k w' w'' r _ hr hs ih =>
    have := (total_le (step_did hs) c.cores).2 hr
    omega

/-! ### The invariants hold throughout -/

theorem mine_nodup {c : Config} (hc : 1 ≤ c.cores) : ∀ r, IsRank c r → (mine c r).Nodup :=
  fun r hr => ((C36_blocks c.nb c.cores hc).1 r hr).1

theorem mine_range {c : Config} (hc : 1 ≤ c.cores) : ∀ r, IsRank c r → ∀ b ∈ mine c r, 1 ≤ b ∧ b ≤ c.nb :=
  fun r hr => ((C36_blocks c.nb c.cores hc).1 r hr).2

theorem mine_disjoint {c : Config} (hc : 1 ≤ c.cores) :
    ∀ r r' b, IsRank c r → IsRank c r' → b ∈ mine c r → b ∈ mine c r' → r = r' := by
  intro r r' b hr hr' h h'
  obtain ⟨_, _, _, hu⟩ := (C36_blocks c.nb c.cores hc).2 b (mine_range hc r hr b h)
  rw [hu r hr h, hu r' hr' h']

theorem obia_all {c : Config} (hc : 1 ≤ c.cores) (hi : 1 ≤ c.interval) {w : World} (h : allObia c w = true) :
    ∀ r, IsRank c r → ∀ d ∈ myDates c r, w.obia d = true := by
  intro r hr d hd
  obtain ⟨k, hk, rfl⟩ := ((C36_dates c.start c.interval c.nMaps c.cores hc hi).1 r hr).2 d hd
  exact allObia_iff.1 h k hk

/-- What holds throughout. -/
structure Good (c : Config) (w : World) : Prop where
  b : InvB c w
  m : InvM c w
  o : InvO c w
  c : InvE c w ∨ (c.seed = true ∧ InvC c w)

theorem Good.init {c : Config} {w : World} (hc : 16 ≤ c.cores) (hst : Starts c w)
    (hcls : (∀ b, w.cls b = false) ∨ c.seed = false ∨ allCover c w = true) :
    Good c w := by
  have hs : ∀ r, IsRank c r → w.pc r = .blocks (mine c r) := fun r hr => (hst r).1 hr
  have hid : ∀ r, ¬ IsRank c r → w.pc r = .done := fun r hr => (hst r).2 hr
  have h1 := hs 1 ⟨by omega, by omega⟩
  have h16 := hs 16 ⟨by omega, by omega⟩
  have hno : ∀ r p, w.pc r = p → p = .done ∨ ∃ t, p = .blocks t := by
    intro r p hp
    by_cases hr : IsRank c r
    · exact Or.inr ⟨_, by rw [← hp, hs r hr]⟩
    · exact Or.inl (by rw [← hp, hid r hr])
  refine ⟨?_, ?_, ?_, ?_⟩
  · intro r hr b hb; exact Or.inr ⟨_, hs r hr, hb⟩
  · refine ⟨?_, ?_, ?_, ?_, ?_, ?_, ?_, ?_⟩
    · intro r k o hp; rcases hno r _ hp with h | ⟨_, h⟩ <;> cases h
    · intro r k o hp; rcases hno r _ hp with h | ⟨_, h⟩ <;> cases h
    · intro r k hp; rcases hno r _ hp with h | ⟨_, h⟩ <;> cases h
    · intro h; rw [h1] at h; simp [stage] at h
    · intro r k o hp; rcases hno r _ hp with h | ⟨_, h⟩ <;> cases h
    · intro r k o hp; rcases hno r _ hp with h | ⟨_, h⟩ <;> cases h
    · intro r k hp; rcases hno r _ hp with h | ⟨_, h⟩ <;> cases h
    · intro h; rw [h16] at h; simp [stage] at h
  · intro r hr d hd; refine Or.inr (Or.inl ?_); rw [hs r hr]; simp [stage]
  · by_cases hE : c.seed = true → allCover c w = true
    · refine Or.inl ⟨hE, ?_, ?_, ?_⟩
      · intro _ r hr; rw [hs r hr]; simp [stage]
      · intro r hr; rw [hs r hr]; simp [stage]
      · intro r hr; rw [hs r hr]; simp
    · have hseed : c.seed = true := by
        cases h : c.seed
        · exact absurd (fun h' => by simp [h] at h') hE
        · rfl
      have hcov : allCover c w = false := by
        cases h : allCover c w
        · rfl
        · exact absurd (fun _ => h) hE
      have hcl : ∀ b, w.cls b = false := by
        rcases hcls with h | h | h
        · exact h
        · rw [h] at hseed; cases hseed
        · rw [h] at hcov; cases hcov
      refine Or.inr ⟨hseed, ?_⟩
      refine ⟨?_, ?_, ?_, ?_, fun _ => hcov, ?_, ?_, ?_, ?_, ?_, ?_, ?_, ?_, ?_, ?_⟩
      · intro r hp; rcases hno r _ hp with h | ⟨_, h⟩ <;> cases h
      · intro r hp; rcases hno r _ hp with h | ⟨_, h⟩ <;> cases h
      · intro r y o hp; rcases hno r _ hp with h | ⟨_, h⟩ <;> cases h
      · intro r hp; rcases hno r _ hp with h | ⟨_, h⟩ <;> cases h
      · intro r hr b _ _; refine Or.inr (Or.inl ?_); rw [hs r hr]; simp [stage]
      · intro r hr b _ _; refine Or.inr (Or.inl ?_); rw [hs r hr]; simp [stage]
      · intro r hr b _ h; rw [hcl b] at h; cases h
      · intro r hr t hp; rw [hs r hr] at hp; cases hp
      · refine Or.inr ?_; rw [h1]; simp [stage]
      · intro h; rw [h1] at h; simp [stage] at h
      · intro y o hp; rw [h1] at hp; cases hp
      · intro y hp; rw [h1] at hp; cases hp
      · intro h; rw [h1] at h; simp [stage] at h
      · intro r hr; rw [hs r hr]; simp

theorem Good.step {c : Config} {w w' : World} {r : Nat} (hc : 16 ≤ c.cores) (hi : 1 ≤ c.interval) (h : Good c w)
    (hr : IsRank c r) (hs : Did c w r w') : Good c w' := by
  refine ⟨h.b.step hs, h.m.step hs, h.o.step (obia_all (by omega) hi) hs, ?_⟩
  rcases h.c with h | ⟨hseed, h⟩
  · exact Or.inl (h.step hr hs)
  · exact Or.inr ⟨hseed, h.step ⟨by omega, by omega⟩ hr hseed (mine_nodup (by omega)) (mine_disjoint (by omega))
      (mine_range (by omega)) hs⟩

theorem Good.runs {c : Config} {w w' : World} {k : Nat} (hc : 16 ≤ c.cores) (hi : 1 ≤ c.interval) (h : Good c w)
    (hr : Runs c w k w') : Good c w' := by
  induction hr with
  | refl => exact h
  | step k w' w'' r _ hr hs ih => exact ih.step hc hi hr (step_did hs)

/-! ### No deadlock -/

theorem stuck_cases {c : Config} {w : World} {r : Nat} (h : step c w r = none) :
    (w.pc r = .waitBlocks ∧ allBlk c w = false) ∨ (w.pc r = .waitMaps ∧ allMaps c w = false) ∨
    (w.pc r = .waitFeats ∧ allFeat c w = false) ∨ (∃ b t, w.pc r = .classify (b :: t) ∧ w.rf = false) ∨
    (w.pc r = .waitCls ∧ allCls c w = false) ∨ (w.pc r = .waitCover ∧ allCover c w = false) ∨
    (w.pc r = .waitObia ∧ allObia c w = false) ∨ w.pc r = .done ∨ w.pc r = .dead := by
  unfold step at h
  split at h <;> (try split at h) <;> (try split at h) <;> (try split at h) <;> first | (cases h; done) | simp_all

theorem Good.live {c : Config} {w : World} (h : Good c w) : ∀ r, IsRank c r → w.pc r ≠ .dead := by
  rcases h.c with h | ⟨_, h⟩
  · exact h.live
  · exact h.live

theorem Good.stuck {c : Config} {w : World} (hc : 16 ≤ c.cores) (hi : 1 ≤ c.interval) (h : Good c w)
    (hs : ∀ r, IsRank c r → Hpc.step c w r = none) : ∀ r, IsRank c r → w.pc r = .done := by
  have r1 : IsRank c 1 := ⟨by omega, by omega⟩
  have r16 : IsRank c 16 := ⟨by omega, by omega⟩
  have hcov := fun b (hb : 1 ≤ b ∧ b ≤ c.nb) => (C36_blocks c.nb c.cores (by omega)).2 b hb
  have S0 := fun r hr => stuck_cases (hs r hr)
  -- all blocks are finished
  have hblk : allBlk c w = true := by
    rw [allBlk_iff]
    intro b h1 h2
    obtain ⟨r, hr, hb, _⟩ := hcov b ⟨h1, h2⟩
    rcases h.b r hr b hb with h' | ⟨t, h', _⟩
    · exact h'
    · have := S0 r hr; simp [h'] at this
  -- all maps are there
  have hst4 : ∀ r, IsRank c r → 4 ≤ stage (w.pc r) := by
    intro r hr
    have := S0 r hr
    simp only [hblk] at this
    rcases this with ⟨_, h'⟩ | ⟨h', _⟩ | ⟨h', _⟩ | ⟨_, _, h', _⟩ | ⟨h', _⟩ | ⟨h', _⟩ | ⟨h', _⟩ | h' | h'
    · cases h'
    all_goals rw [h']; simp [stage]
  have hmap : allMaps c w = true := by
    rw [allMaps_iff]
    exact fun k hk => ⟨h.m.cm4 (hst4 1 r1) k hk, h.m.cd4 (hst4 16 r16) k hk⟩
  have hst8 : ∀ r, IsRank c r → 8 ≤ stage (w.pc r) := by
    intro r hr
    have := S0 r hr
    simp only [hblk, hmap] at this
    rcases this with ⟨_, h'⟩ | ⟨_, h'⟩ | ⟨h', _⟩ | ⟨_, _, h', _⟩ | ⟨h', _⟩ | ⟨h', _⟩ | ⟨h', _⟩ | h' | h'
    · cases h'
    · cases h'
    all_goals rw [h']; simp [stage]
  -- nobody is in the classification phase
  have hst16 : ∀ r, IsRank c r → 16 ≤ stage (w.pc r) := by
    rcases h.c with hE | ⟨_, hC⟩
    · intro r hr
      have := S0 r hr
      have hb := hE.body r hr
      simp only [hblk, hmap] at this
      rcases this with ⟨_, h'⟩ | ⟨_, h'⟩ | ⟨h', _⟩ | ⟨_, _, h', _⟩ | ⟨h', _⟩ | ⟨h', h''⟩ | ⟨h', _⟩ | h' | h'
      · cases h'
      · cases h'
      · rw [h'] at hb; simp [stage] at hb
      · rw [h'] at hb; simp [stage] at hb
      · rw [h'] at hb; simp [stage] at hb
      · cases hsd : c.seed
        · have := (hE.noSeed hsd r hr).2; rw [h'] at this; simp [stage] at this
        · rw [hE.cover hsd] at h''; cases h''
      all_goals rw [h']; simp [stage]
    · -- rank 1 is past training
      have h9 : 9 ≤ stage (w.pc 1) := by
        refine Classical.byContradiction fun hn => ?_
        have he : w.pc 1 = .waitFeats ∧ allFeat c w = false := by
          have := S0 1 r1
          have h8 := hst8 1 r1
          rcases this with ⟨h', _⟩ | ⟨h', _⟩ | h' | ⟨_, _, h', _⟩ | ⟨h', _⟩ | ⟨h', _⟩ | ⟨h', _⟩ | h' | h'
          · rw [h'] at h8; simp [stage] at h8
          · rw [h'] at h8; simp [stage] at h8
          · exact h'
          all_goals (rw [h'] at hn; simp [stage] at hn)
        have : allFeat c w = true := by
          rw [allFeat_iff]
          intro b h1 h2
          obtain ⟨r, hr, hb, _⟩ := hcov b ⟨h1, h2⟩
          rcases hC.feat r hr b hb (by omega) with h' | h' | ⟨t, h', _⟩
          · exact h'
          · have := hst8 r hr; omega
          · have := hst8 r hr; rw [h'] at this; simp [stage] at this
        rw [he.2] at this; cases this
      have hrf : w.rf = true := by
        rcases hC.rf with h' | h'
        · exact h'
        · omega
      have h9' : ∀ r, IsRank c r → 9 ≤ stage (w.pc r) ∧ ∀ t, w.pc r ≠ .classify t := by
        intro r hr
        have h8 := hst8 r hr
        rcases S0 r hr with ⟨h', _⟩ | ⟨h', _⟩ | ⟨h', _⟩ | ⟨_, _, _, h'⟩ | ⟨h', _⟩ | ⟨h', _⟩ | ⟨h', _⟩ | h' | h'
        · rw [h'] at h8; simp [stage] at h8
        · rw [h'] at h8; simp [stage] at h8
        · have := hC.rk8 r h'; subst this; rw [h'] at h9; simp [stage] at h9
        · rw [hrf] at h'; cases h'
        all_goals rw [h']; simp [stage]
      have h11 : 11 ≤ stage (w.pc 1) := by
        refine Classical.byContradiction fun hn => ?_
        have : allCls c w = true := by
          rw [allCls_iff]
          intro b h1 h2
          obtain ⟨r, hr, hb, _⟩ := hcov b ⟨h1, h2⟩
          rcases hC.cls r hr b hb (by omega) with h' | h' | ⟨t, h', _⟩
          · exact h'
          · have := (h9' r hr).1; omega
          · exact absurd h' ((h9' r hr).2 t)
        rcases S0 1 r1 with ⟨h', _⟩ | ⟨h', _⟩ | ⟨h', _⟩ | ⟨_, _, _, h'⟩ | ⟨_, h'⟩ | ⟨h', _⟩ | ⟨h', _⟩ | h' | h'
        · rw [h'] at h9; simp [stage] at h9
        · rw [h'] at h9; simp [stage] at h9
        · rw [h'] at h9; simp [stage] at h9
        · rw [hrf] at h'; cases h'
        · rw [this] at h'; cases h'
        all_goals (rw [h'] at hn; simp [stage] at hn)
      have hcover : allCover c w = true := by
        apply hC.cov3
        rcases S0 1 r1 with ⟨h', _⟩ | ⟨h', _⟩ | ⟨h', _⟩ | ⟨_, _, _, h'⟩ | ⟨h', _⟩ | ⟨h', _⟩ | ⟨h', _⟩ | h' | h'
        · rw [h'] at h9; simp [stage] at h9
        · rw [h'] at h9; simp [stage] at h9
        · rw [h'] at h9; simp [stage] at h9
        · rw [hrf] at h'; cases h'
        · rw [h'] at h11; simp [stage] at h11
        all_goals rw [h']; simp [stage]
      intro r hr
      have h8 := (h9' r hr).1
      rcases S0 r hr with ⟨h', _⟩ | ⟨h', _⟩ | ⟨h', _⟩ | ⟨_, _, _, h'⟩ | ⟨h', _⟩ | ⟨_, h'⟩ | ⟨h', _⟩ | h' | h'
      · rw [h'] at h8; simp [stage] at h8
      · rw [h'] at h8; simp [stage] at h8
      · rw [h'] at h8; simp [stage] at h8
      · rw [hrf] at h'; cases h'
      · have := hC.rk10 r h'; subst this; rw [h'] at h11; simp [stage] at h11
      · rw [hcover] at h'; cases h'
      all_goals rw [h']; simp [stage]
  have hob : allObia c w = true := by
    rw [allObia_iff]
    intro k hk
    obtain ⟨r, hr, hd, _⟩ := (C36_dates c.start c.interval c.nMaps c.cores (by omega) hi).2 _ ⟨k, hk, rfl⟩
    have h16 := hst16 r hr
    rcases h.o r hr _ hd with h' | h' | h' | ⟨t, h', _⟩
    · exact h'
    · omega
    · exact absurd h' (h.live r hr)
    · rw [h'] at h16; simp [stage] at h16
  intro r hr
  have h16 := hst16 r hr
  rcases S0 r hr with ⟨h', _⟩ | ⟨h', _⟩ | ⟨h', _⟩ | ⟨_, _, h', _⟩ | ⟨h', _⟩ | ⟨h', _⟩ | ⟨_, h'⟩ | h' | h'
  · rw [h'] at h16; simp [stage] at h16
  · rw [h'] at h16; simp [stage] at h16
  · rw [h'] at h16; simp [stage] at h16
  · rw [h'] at h16; simp [stage] at h16
  · rw [h'] at h16; simp [stage] at h16
  · rw [h'] at h16; simp [stage] at h16
  · rw [hob] at h'; cases h'
  · exact h'
  · exact absurd h' (h.live r hr)

end Pycold.Hpc
