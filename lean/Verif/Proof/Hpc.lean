import Verif.Model.Hpc
import Verif.Spec.Tile
import Verif.Props.C34_C36
/-! Proofs about the phases of OBCOLD tile processing. -/
namespace Pycold.Hpc

open Pycold.Tile

theorem upd_same {A B : Type} [DecidableEq A] (f : A → B) (a : A) (b : B) : upd f a b a = b := by simp [upd]
theorem upd_ne {A B : Type} [DecidableEq A] {f : A → B} {a x : A} {b : B} (h : x ≠ a) : upd f a b x = f x := by
  simp [upd, h]

theorem allBlk_iff {c : Config} {w : World} : allBlk c w = true ↔ ∀ b, 1 ≤ b → b ≤ c.nb → w.blk b = true := by
  simp only [allBlk, List.all_eq_true, List.mem_range]
  constructor
  · intro h b h1 h2
    have := h (b - 1) (by omega)
    rwa [Nat.sub_add_cancel h1] at this
  · intro h b hb; exact h (b + 1) (by omega) (by omega)

theorem allFeat_iff {c : Config} {w : World} : allFeat c w = true ↔ ∀ b, 1 ≤ b → b ≤ c.nb → w.feat b = true := by
  simp only [allFeat, List.all_eq_true, List.mem_range]
  constructor
  · intro h b h1 h2
    have := h (b - 1) (by omega)
    rwa [Nat.sub_add_cancel h1] at this
  · intro h b hb; exact h (b + 1) (by omega) (by omega)

theorem allCls_iff {c : Config} {w : World} : allCls c w = true ↔ ∀ b, 1 ≤ b → b ≤ c.nb → w.cls b = true := by
  simp only [allCls, List.all_eq_true, List.mem_range]
  constructor
  · intro h b h1 h2
    have := h (b - 1) (by omega)
    rwa [Nat.sub_add_cancel h1] at this
  · intro h b hb; exact h (b + 1) (by omega) (by omega)

theorem allMaps_iff {c : Config} {w : World} :
    allMaps c w = true ↔ ∀ k, k < c.nMaps → w.cm k ≠ .absent ∧ w.cd k ≠ .absent := by
  simp [allMaps]

theorem allCover_iff {c : Config} {w : World} : allCover c w = true ↔ ∀ y, y < c.ny → w.cover y ≠ .absent := by
  simp [allCover]

theorem allObia_iff {c : Config} {w : World} :
    allObia c w = true ↔ ∀ k : Nat, k < c.nMaps → w.obia (c.start + k * c.interval) = true := by
  simp [allObia]

def stage : Pc → Nat
  | .blocks _ => 0
  | .waitBlocks => 1
  | .checkMaps => 2
  | .cmMaps _ _ => 3
  | .dateMaps _ _ => 3
  | .waitMaps => 4
  | .checkCover => 5
  | .checkFeat => 6
  | .feats _ => 7
  | .waitFeats => 8
  | .classify _ => 9
  | .waitCls => 10
  | .covers _ _ => 11
  | .clean => 12
  | .waitCover => 13
  | .checkObia => 14
  | .obia _ => 15
  | .waitObia => 16
  | .rebuild _ => 17
  | .done => 18
  | .dead => 19

/-! ### What a step does to one rank and to the files -/

/-- A list of the possible steps of one rank. -/
inductive Did (c : Config) (w : World) (r : Nat) : World → Prop
  | blocksEnd (h : w.pc r = .blocks []) : Did c w r (goto w r .waitBlocks)
  | block (b t) (h : w.pc r = .blocks (b :: t)) : Did c w r { goto w r (.blocks t) with blk := upd w.blk b true }
  | blocksAll (h : w.pc r = .waitBlocks) (ha : allBlk c w = true) : Did c w r (goto w r .checkMaps)
  | mapsAll (h : w.pc r = .checkMaps ∨ w.pc r = .waitMaps) (ha : allMaps c w = true) :
      Did c w r (goto w r (afterMaps c))
  | cmStart (h : w.pc r = .checkMaps) (hr : r = 1) : Did c w r (goto w r (.cmMaps 0 false))
  | cdStart (h : w.pc r = .checkMaps) (hr : r = 16) : Did c w r (goto w r (.dateMaps 0 false))
  | mapsWait (h : w.pc r = .checkMaps) (hr : r ≠ 1 ∧ r ≠ 16) : Did c w r (goto w r .waitMaps)
  | cmOpen (k) (h : w.pc r = .cmMaps k false) (hk : k < c.nMaps) :
      Did c w r { goto w r (.cmMaps k true) with cm := upd w.cm k .torn }
  | cmClose (k) (h : w.pc r = .cmMaps k true) (hk : k < c.nMaps) :
      Did c w r { goto w r (.cmMaps (k + 1) false) with cm := upd w.cm k .full }
  | cmEnd (k o) (h : w.pc r = .cmMaps k o) (hk : ¬ k < c.nMaps) : Did c w r (goto w r .waitMaps)
  | cdOpen (k) (h : w.pc r = .dateMaps k false) (hk : k < c.nMaps) :
      Did c w r { goto w r (.dateMaps k true) with cd := upd w.cd k .torn }
  | cdClose (k) (h : w.pc r = .dateMaps k true) (hk : k < c.nMaps) :
      Did c w r { goto w r (.dateMaps (k + 1) false) with cd := upd w.cd k .full }
  | cdEnd (k o) (h : w.pc r = .dateMaps k o) (hk : ¬ k < c.nMaps) : Did c w r (goto w r .waitMaps)
  | coverAll (h : w.pc r = .checkCover) (ha : allCover c w = true) : Did c w r (goto w r .waitCover)
  | coverNot (h : w.pc r = .checkCover) (ha : allCover c w = false) : Did c w r (goto w r .checkFeat)
  | featAll (h : w.pc r = .checkFeat) (ha : allFeat c w = true) : Did c w r (goto w r (afterFeat c r))
  | featNot (h : w.pc r = .checkFeat) (ha : allFeat c w = false) : Did c w r (goto w r (.feats (mine c r)))
  | featsEnd (h : w.pc r = .feats []) : Did c w r (goto w r (afterFeat c r))
  | featMake (b t) (h : w.pc r = .feats (b :: t)) : Did c w r { goto w r (.feats t) with feat := upd w.feat b true }
  | train (h : w.pc r = .waitFeats) (ha : allFeat c w = true) :
      Did c w r { goto w r (.classify (mine c r)) with rf := true }
  | clsEnd (h : w.pc r = .classify []) : Did c w r (goto w r (afterCls r))
  | clsMake (b t) (h : w.pc r = .classify (b :: t)) (hrf : w.rf = true) (hf : w.feat b = true) :
      Did c w r { goto w r (.classify t) with cls := upd w.cls b true }
  | clsDead (b t) (h : w.pc r = .classify (b :: t)) (hrf : w.rf = true) (hf : w.feat b = false) :
      Did c w r (goto w r .dead)
  | clsAll (h : w.pc r = .waitCls) (ha : allCls c w = true) : Did c w r (goto w r (.covers 0 false))
  | coverOpen (y) (h : w.pc r = .covers y false) (hy : y < c.ny) :
      Did c w r { goto w r (.covers y true) with cover := upd w.cover y .torn }
  | coverClose (y) (h : w.pc r = .covers y true) (hy : y < c.ny) :
      Did c w r { goto w r (.covers (y + 1) false) with cover := upd w.cover y .full }
  | coverEnd (y o) (h : w.pc r = .covers y o) (hy : ¬ y < c.ny) : Did c w r (goto w r .clean)
  | cleaned (h : w.pc r = .clean) :
      Did c w r { goto w r .waitCover with feat := fun _ => false, cls := fun _ => false }
  | coverDone (h : w.pc r = .waitCover) (ha : allCover c w = true) : Did c w r (goto w r .checkObia)
  | obiaAll (h : w.pc r = .checkObia ∨ w.pc r = .waitObia) (ha : allObia c w = true) :
      Did c w r (goto w r (.rebuild (mine c r)))
  | obiaStart (h : w.pc r = .checkObia) : Did c w r (goto w r (.obia (myDates c r)))
  | obiaMake (d t) (h : w.pc r = .obia (d :: t)) : Did c w r { goto w r (.obia t) with obia := upd w.obia d true }
  | obiaEnd (h : w.pc r = .obia []) : Did c w r (goto w r .waitObia)
  | rebuilt (b t) (h : w.pc r = .rebuild (b :: t)) : Did c w r (goto w r (.rebuild t))
  | finished (h : w.pc r = .rebuild []) : Did c w r (goto w r .done)

theorem step_did {c : Config} {w w' : World} {r : Nat} (h : step c w r = some w') : Did c w r w' := by
  unfold step at h
  cases hp : w.pc r with
  | blocks t => cases t with
    | nil => simp only [hp, Option.some.injEq] at h; subst h; exact .blocksEnd hp
    | cons b t => simp only [hp, Option.some.injEq] at h; subst h; exact .block b t hp
  | waitBlocks =>
    simp only [hp] at h; split at h
    · simp only [Option.some.injEq] at h; subst h; exact .blocksAll hp (by assumption)
    · cases h
  | checkMaps =>
    simp only [hp] at h; split at h
    · simp only [Option.some.injEq] at h; subst h; exact .mapsAll (Or.inl hp) (by assumption)
    · split at h
      · simp only [Option.some.injEq] at h; subst h; exact .cmStart hp (by assumption)
      · split at h
        · simp only [Option.some.injEq] at h; subst h; exact .cdStart hp (by assumption)
        · simp only [Option.some.injEq] at h; subst h; exact .mapsWait hp ⟨by assumption, by assumption⟩
  | cmMaps k o =>
    simp only [hp] at h; split at h
    · cases o with
      | true => simp only [if_true, Option.some.injEq] at h; subst h; exact .cmClose k hp (by assumption)
      | false =>
        simp only [Bool.false_eq_true, if_false, Option.some.injEq] at h; subst h; exact .cmOpen k hp (by assumption)
    · simp only [Option.some.injEq] at h; subst h; exact .cmEnd k o hp (by assumption)
  | dateMaps k o =>
    simp only [hp] at h; split at h
    · cases o with
      | true => simp only [if_true, Option.some.injEq] at h; subst h; exact .cdClose k hp (by assumption)
      | false =>
        simp only [Bool.false_eq_true, if_false, Option.some.injEq] at h; subst h; exact .cdOpen k hp (by assumption)
    · simp only [Option.some.injEq] at h; subst h; exact .cdEnd k o hp (by assumption)
  | waitMaps =>
    simp only [hp] at h; split at h
    · simp only [Option.some.injEq] at h; subst h; exact .mapsAll (Or.inr hp) (by assumption)
    · cases h
  | checkCover =>
    simp only [hp] at h; split at h
    · simp only [Option.some.injEq] at h; subst h; exact .coverAll hp (by assumption)
    · simp only [Option.some.injEq] at h; subst h; exact .coverNot hp (by simp_all)
  | checkFeat =>
    simp only [hp] at h; split at h
    · simp only [Option.some.injEq] at h; subst h; exact .featAll hp (by assumption)
    · simp only [Option.some.injEq] at h; subst h; exact .featNot hp (by simp_all)
  | feats t => cases t with
    | nil => simp only [hp, Option.some.injEq] at h; subst h; exact .featsEnd hp
    | cons b t => simp only [hp, Option.some.injEq] at h; subst h; exact .featMake b t hp
  | waitFeats =>
    simp only [hp] at h; split at h
    · simp only [Option.some.injEq] at h; subst h; exact .train hp (by assumption)
    · cases h
  | classify t => cases t with
    | nil => simp only [hp, Option.some.injEq] at h; subst h; exact .clsEnd hp
    | cons b t =>
      simp only [hp] at h; split at h
      · split at h
        · simp only [Option.some.injEq] at h; subst h; exact .clsMake b t hp (by assumption) (by assumption)
        · simp only [Option.some.injEq] at h; subst h; exact .clsDead b t hp (by assumption) (by simp_all)
      · cases h
  | waitCls =>
    simp only [hp] at h; split at h
    · simp only [Option.some.injEq] at h; subst h; exact .clsAll hp (by assumption)
    · cases h
  | covers y o =>
    simp only [hp] at h; split at h
    · cases o with
      | true => simp only [if_true, Option.some.injEq] at h; subst h; exact .coverClose y hp (by assumption)
      | false =>
        simp only [Bool.false_eq_true, if_false, Option.some.injEq] at h; subst h; exact .coverOpen y hp (by assumption)
    · simp only [Option.some.injEq] at h; subst h; exact .coverEnd y o hp (by assumption)
  | clean => simp only [hp, Option.some.injEq] at h; subst h; exact .cleaned hp
  | waitCover =>
    simp only [hp] at h; split at h
    · simp only [Option.some.injEq] at h; subst h; exact .coverDone hp (by assumption)
    · cases h
  | checkObia =>
    simp only [hp] at h; split at h
    · simp only [Option.some.injEq] at h; subst h; exact .obiaAll (Or.inl hp) (by assumption)
    · simp only [Option.some.injEq] at h; subst h; exact .obiaStart hp
  | obia t => cases t with
    | nil => simp only [hp, Option.some.injEq] at h; subst h; exact .obiaEnd hp
    | cons d t => simp only [hp, Option.some.injEq] at h; subst h; exact .obiaMake d t hp
  | waitObia =>
    simp only [hp] at h; split at h
    · simp only [Option.some.injEq] at h; subst h; exact .obiaAll (Or.inr hp) (by assumption)
    · cases h
  | rebuild t => cases t with
    | nil => simp only [hp, Option.some.injEq] at h; subst h; exact .finished hp
    | cons b t => simp only [hp, Option.some.injEq] at h; subst h; exact .rebuilt b t hp
  | done => simp only [hp] at h; cases h
  | dead => simp only [hp] at h; cases h

/-! ### Invariants -/

/-- Blocks. -/
def InvB (c : Config) (w : World) : Prop :=
  ∀ r, IsRank c r → ∀ b ∈ mine c r, w.blk b = true ∨ ∃ t, w.pc r = .blocks t ∧ b ∈ t

/-- Maps. -/
structure InvM (c : Config) (w : World) : Prop where
  cm1 : ∀ r k o, w.pc r = .cmMaps k o → r = 1
  cm2 : ∀ r k o, w.pc r = .cmMaps k o → ∀ j, j < k → w.cm j ≠ .absent
  cm3 : ∀ r k, w.pc r = .cmMaps k true → w.cm k ≠ .absent
  cm4 : 4 ≤ stage (w.pc 1) → ∀ k, k < c.nMaps → w.cm k ≠ .absent
  cd1 : ∀ r k o, w.pc r = .dateMaps k o → r = 16
  cd2 : ∀ r k o, w.pc r = .dateMaps k o → ∀ j, j < k → w.cd j ≠ .absent
  cd3 : ∀ r k, w.pc r = .dateMaps k true → w.cd k ≠ .absent
  cd4 : 4 ≤ stage (w.pc 16) → ∀ k, k < c.nMaps → w.cd k ≠ .absent

/-- Object analysis. -/
def InvO (c : Config) (w : World) : Prop :=
  ∀ r, IsRank c r → ∀ d ∈ myDates c r, w.obia d = true ∨ stage (w.pc r) ≤ 14 ∨ w.pc r = .dead ∨
    ∃ t, w.pc r = .obia t ∧ d ∈ t

theorem InvB.step {c : Config} {w w' : World} {r : Nat} (h : InvB c w) (hs : Did c w r w') : InvB c w' := by
  intro r' hr' b hb
  have h0 := h r' hr' b hb
  clear h
  cases hs <;> by_cases e : r' = r <;> simp only [goto, upd, e, if_true, if_false] <;> grind

theorem InvM.step {c : Config} {w w' : World} {r : Nat} (h : InvM c w) (hs : Did c w r w') :
    InvM c w' := by
  obtain ⟨h1, h2, h3, h4, g1, g2, g3, g4⟩ := h
  refine ⟨?_, ?_, ?_, ?_, ?_, ?_, ?_, ?_⟩
  · intro r' k o
    have := h1 r' k o
    have a1 := h1 r
    clear h1 h2 h3 h4 g1 g2 g3 g4
    cases hs <;> by_cases e : r' = r <;> simp only [goto, upd, e, if_true, if_false] <;>
      grind [afterMaps, afterFeat, afterCls]
  · intro r' k o hp j hj
    have a1 := h2 r' k o
    have a2 := fun k o h => h2 r k o h j
    have a3 := h3 r
    revert hp
    clear h1 h2 h3 h4 g1 g2 g3 g4
    cases hs <;> by_cases e : r' = r <;> simp only [goto, upd, e, if_true, if_false] <;>
      grind [afterMaps, afterFeat, afterCls]
  · intro r' k hp
    have a1 := h3 r' k
    revert hp
    clear h1 h2 h3 h4 g1 g2 g3 g4
    cases hs <;> by_cases e : r' = r <;> simp only [goto, upd, e, if_true, if_false] <;>
      grind [afterMaps, afterFeat, afterCls]
  · intro hp k hk
    have a0 := fun h => h4 h k hk
    have a1 := fun o => h1 1 k o
    have a2 := fun k' o h => h2 1 k' o h k
    have a3 := g1 1
    have m0 := fun h => (@allMaps_iff c w).1 h k hk
    revert hp
    clear h1 h2 h3 h4 g1 g2 g3 g4
    cases hs <;> by_cases e : 1 = r <;> simp only [goto, upd, e, if_true, if_false] <;>
      grind [stage, afterMaps, afterFeat, afterCls]
  · intro r' k o
    have := g1 r' k o
    have a1 := g1 r
    clear h1 h2 h3 h4 g1 g2 g3 g4
    cases hs <;> by_cases e : r' = r <;> simp only [goto, upd, e, if_true, if_false] <;>
      grind [afterMaps, afterFeat, afterCls]
  · intro r' k o hp j hj
    have a1 := g2 r' k o
    have a2 := fun k o h => g2 r k o h j
    have a3 := g3 r
    revert hp
    clear h1 h2 h3 h4 g1 g2 g3 g4
    cases hs <;> by_cases e : r' = r <;> simp only [goto, upd, e, if_true, if_false] <;>
      grind [afterMaps, afterFeat, afterCls]
  · intro r' k hp
    have a1 := g3 r' k
    revert hp
    clear h1 h2 h3 h4 g1 g2 g3 g4
    cases hs <;> by_cases e : r' = r <;> simp only [goto, upd, e, if_true, if_false] <;>
      grind [afterMaps, afterFeat, afterCls]
  · intro hp k hk
    have a0 := fun h => g4 h k hk
    have a1 := fun o => g1 16 k o
    have a2 := fun k' o h => g2 16 k' o h k
    have a3 := h1 16
    have m0 := fun h => (@allMaps_iff c w).1 h k hk
    revert hp
    clear h1 h2 h3 h4 g1 g2 g3 g4
    cases hs <;> by_cases e : 16 = r <;> simp only [goto, upd, e, if_true, if_false] <;>
      grind [stage, afterMaps, afterFeat, afterCls]

theorem InvO.step {c : Config} {w w' : World} {r : Nat} (h : InvO c w)
    (hall : allObia c w = true → ∀ r, IsRank c r → ∀ d ∈ myDates c r, w.obia d = true)
    (hs : Did c w r w') : InvO c w' := by
  intro r' hr' d hd
  have h0 := h r' hr' d hd
  have h1 := fun h => hall h r' hr' d hd
  clear h hall
  cases hs <;> by_cases e : r' = r <;> simp only [goto, upd, e, if_true, if_false] <;>
    grind [stage, afterMaps, afterFeat, afterCls]

/-- Nobody classifies: no seed map, or the covers are all there from the start. -/
structure InvE (c : Config) (w : World) : Prop where
  cover : c.seed = true → allCover c w = true
  noSeed : c.seed = false → ∀ r, IsRank c r → stage (w.pc r) ≠ 5 ∧ stage (w.pc r) ≠ 13
  body : ∀ r, IsRank c r → stage (w.pc r) ≤ 5 ∨ 13 ≤ stage (w.pc r)
  live : ∀ r, IsRank c r → w.pc r ≠ .dead

theorem allCover_mono {c : Config} {w w' : World} {r : Nat} (hs : Did c w r w') (h : allCover c w = true) :
    allCover c w' = true := by
  rw [allCover_iff] at *
  intro y hy
  have := h y hy
  cases hs <;> simp only [goto, upd] <;> grind

theorem InvE.step {c : Config} {w w' : World} {r : Nat} (h : InvE c w) (hr : IsRank c r) (hs : Did c w r w') :
    InvE c w' := by
  refine ⟨fun hc => allCover_mono hs (h.cover hc), ?_, ?_, ?_⟩
  · intro hc r' hr'
    have h0 := h.noSeed hc r' hr'
    have h1 := h.body r' hr'
    clear h
    cases hs <;> by_cases e : r' = r <;> simp only [goto, upd, e, if_true, if_false] <;>
      grind [stage, afterMaps, afterFeat, afterCls]
  · intro r' hr'
    have h0 := h.cover
    have h2 := fun hc => h.noSeed hc r' hr'
    have h1 := h.body r' hr'
    clear h
    cases hs <;> by_cases e : r' = r <;> simp only [goto, upd, e, if_true, if_false] <;>
      grind [stage, afterMaps, afterFeat, afterCls]
  · intro r' hr'
    have h1 := h.body r' hr'
    have h2 := h.live r' hr'
    clear h
    cases hs <;> by_cases e : r' = r <;> simp only [goto, upd, e, if_true, if_false] <;>
      grind [stage, afterMaps, afterFeat, afterCls]

/-- Classification in progress. -/
structure InvC (c : Config) (w : World) : Prop where
  rk8 : ∀ r, w.pc r = .waitFeats → r = 1
  rk10 : ∀ r, w.pc r = .waitCls → r = 1
  rk11 : ∀ r y o, w.pc r = .covers y o → r = 1
  rk12 : ∀ r, w.pc r = .clean → r = 1
  none : stage (w.pc 1) ≤ 10 → allCover c w = false
  feat : ∀ r, IsRank c r → ∀ b ∈ mine c r, stage (w.pc 1) ≤ 10 →
    w.feat b = true ∨ stage (w.pc r) ≤ 6 ∨ ∃ t, w.pc r = .feats t ∧ b ∈ t
  cls : ∀ r, IsRank c r → ∀ b ∈ mine c r, stage (w.pc 1) ≤ 10 →
    w.cls b = true ∨ stage (w.pc r) ≤ 8 ∨ ∃ t, w.pc r = .classify t ∧ b ∈ t
  own : ∀ r, IsRank c r → ∀ b ∈ mine c r, w.cls b = true →
    9 ≤ stage (w.pc r) ∧ ∀ t, w.pc r = .classify t → b ∉ t
  todo : ∀ r, IsRank c r → ∀ t, w.pc r = .classify t → t.Nodup ∧ ∀ b ∈ t, b ∈ mine c r
  rf : w.rf = true ∨ stage (w.pc 1) ≤ 8
  late : 11 ≤ stage (w.pc 1) → ∀ r, IsRank c r → ∀ b ∈ mine c r,
    9 ≤ stage (w.pc r) ∧ ∀ t, w.pc r = .classify t → b ∉ t
  cov1 : ∀ y o, w.pc 1 = .covers y o → ∀ x, x < y → w.cover x ≠ .absent
  cov2 : ∀ y, w.pc 1 = .covers y true → w.cover y ≠ .absent
  cov3 : 12 ≤ stage (w.pc 1) → allCover c w = true
  live : ∀ r, IsRank c r → w.pc r ≠ .dead

set_option maxHeartbeats 4000000 in
theorem InvC.step {c : Config} {w w' : World} {r : Nat} (h : InvC c w) (h1 : IsRank c 1) (hr : IsRank c r)
    (hseed : c.seed = true)
    (hnd : ∀ r, IsRank c r → (mine c r).Nodup)
    (hdis : ∀ r r' b, IsRank c r → IsRank c r' → b ∈ mine c r → b ∈ mine c r' → r = r')
    (hrange : ∀ r, IsRank c r → ∀ b ∈ mine c r, 1 ≤ b ∧ b ≤ c.nb)
    (hs : Did c w r w') : InvC c w' := by
  have hp5 : stage (w.pc 1) ≠ 19 := by
    have := h.live 1 h1
    cases hp : w.pc 1 <;> simp_all [stage]
  have hown : ∀ b t, w.pc r = .classify (b :: t) → b ∈ mine c r := fun b t hp =>
    (h.todo r hr _ hp).2 b (List.mem_cons_self ..)
  have hfeat : ∀ b t, w.pc r = .classify (b :: t) → w.feat b = true := by
    intro b t hp
    by_cases h11 : 11 ≤ stage (w.pc 1)
    · exact absurd (List.mem_cons_self ..) ((h.late h11 r hr b (hown b t hp)).2 _ hp)
    · rcases h.feat r hr b (hown b t hp) (by omega) with h' | h' | ⟨t', h', _⟩
      · exact h'
      · rw [hp] at h'; simp [stage] at h'
      · rw [hp] at h'; cases h'
  refine ⟨?_, ?_, ?_, ?_, ?_, ?_, ?_, ?_, ?_, ?_, ?_, ?_, ?_, ?_, ?_⟩
  · intro r'
    have h0 := h.rk8 r'
    clear h
    cases hs <;> by_cases e : r' = r <;> simp only [goto, upd, e, if_true, if_false] <;>
      grind [afterMaps, afterFeat, afterCls]
  · intro r'
    have h0 := h.rk10 r'
    clear h
    cases hs <;> by_cases e : r' = r <;> simp only [goto, upd, e, if_true, if_false] <;>
      grind [afterMaps, afterFeat, afterCls]
  · intro r' y o
    have h0 := h.rk11 r'
    have h2 := h.rk10 r'
    clear h
    cases hs <;> by_cases e : r' = r <;> simp only [goto, upd, e, if_true, if_false] <;>
      grind [afterMaps, afterFeat, afterCls]
  · intro r'
    have h0 := h.rk12 r'
    have h2 := h.rk11 r'
    clear h
    cases hs <;> by_cases e : r' = r <;> simp only [goto, upd, e, if_true, if_false] <;>
      grind [afterMaps, afterFeat, afterCls]
  · have h0 := h.none
    have h2 := h.rk11
    clear h
    cases hs <;> by_cases e : 1 = r <;> simp only [goto, upd, e, if_true, if_false, allCover] at * <;>
      grind [stage, afterMaps, afterFeat, afterCls]
  · intro r' hr' b hb
    have h0 := h.feat r' hr' b hb
    have h2 := h.none
    have h3 := h.rk12
    have h4 := fun h => (@allFeat_iff c w).1 h b (hrange r' hr' b hb).1 (hrange r' hr' b hb).2
    clear h hnd hdis hrange
    cases hs <;> by_cases e : r' = r <;> by_cases e1 : 1 = r <;> simp only [goto, upd, e, e1, if_true, if_false] <;>
      grind [stage, afterMaps, afterFeat, afterCls]
  · intro r' hr' b hb
    have h0 := h.cls r' hr' b hb
    have h2 := h.none
    have h3 := h.rk12
    clear h hnd hdis hrange
    cases hs <;> by_cases e : r' = r <;> by_cases e1 : 1 = r <;> simp only [goto, upd, e, e1, if_true, if_false] <;>
      grind [stage, afterMaps, afterFeat, afterCls]
  · intro r' hr' b hb
    have h0 := h.own r' hr' b hb
    have h2 := h.todo r' hr'
    have h3 := h.todo r hr
    have h4 := fun h => hdis r r' b hr hr' h hb
    clear h hnd hdis hrange
    cases hs <;> by_cases e : r' = r <;> simp only [goto, upd, e, if_true, if_false] <;>
      grind [stage, afterMaps, afterFeat, afterCls]
  · intro r' hr' t
    have h0 := h.todo r' hr'
    have h2 := hnd r' hr'
    clear h hnd hdis hrange
    cases hs <;> by_cases e : r' = r <;> simp only [goto, upd, e, if_true, if_false] <;>
      grind [stage, afterMaps, afterFeat, afterCls]
  · have h0 := h.rf
    have h2 := h.none
    clear h hnd hdis hrange
    cases hs <;> by_cases e : 1 = r <;> simp only [goto, upd, e, if_true, if_false] <;>
      grind [stage, afterMaps, afterFeat, afterCls]
  · intro h11 r' hr' b hb
    have h0 := fun h' => h.late h' r' hr' b hb
    have h2 := h.own r' hr' b hb
    have h3 := h.none
    have h4 := fun h => (@allCls_iff c w).1 h b (hrange r' hr' b hb).1 (hrange r' hr' b hb).2
    have h5 := h.rf
    revert h11
    clear h hnd hdis hrange
    cases hs <;> by_cases e : r' = r <;> by_cases e1 : 1 = r <;> simp only [goto, upd, e, e1, if_true, if_false] <;>
      grind [stage, afterMaps, afterFeat, afterCls]
  · intro y o hp x hx
    have h0 := fun y o hp => h.cov1 y o hp x
    have h2 := h.cov2
    have h3 := h.rk11 r
    revert hp
    clear h hnd hdis hrange
    cases hs <;> by_cases e : 1 = r <;> simp only [goto, upd, e, if_true, if_false] <;>
      grind [stage, afterMaps, afterFeat, afterCls]
  · intro y hp
    have h2 := h.cov2 y
    have h3 := h.rk11 r
    revert hp
    clear h hnd hdis hrange
    cases hs <;> by_cases e : 1 = r <;> simp only [goto, upd, e, if_true, if_false] <;>
      grind [stage, afterMaps, afterFeat, afterCls]
  · intro hp
    have hm := allCover_mono hs
    by_cases h12 : 12 ≤ stage (w.pc 1)
    · exact hm (h.cov3 h12)
    · have h2 := h.none
      have h3 : ∀ y o, w.pc 1 = .covers y o → c.ny ≤ y → allCover c w = true := fun y o hp hy =>
        allCover_iff.2 fun x hx => h.cov1 y o hp x (by omega)
      apply hm
      revert hp
      clear h hnd hdis hrange hm
      cases hs <;> by_cases e : 1 = r <;> simp only [goto, upd, e, if_true, if_false] <;>
        grind [stage, afterMaps, afterFeat, afterCls]
  · intro r' hr'
    have h0 := h.live r' hr'
    clear h hnd hdis hrange
    cases hs <;> by_cases e : r' = r <;> simp only [goto, upd, e, if_true, if_false] <;>
      grind [stage, afterMaps, afterFeat, afterCls]

end Pycold.Hpc
