import Verif.Proof.Blocks
import Verif.Props.C34_C36
/-!
# Properties C37 and C50: crash and restart of the per-pixel phase; failing pixels

`n` blocks, ranks 1..cores; `pixels b` is what detection yields on block `b` (`none`: no images).  Worlds
reachable by `Reach` are those after any interleaving of steps of the processes, kills at any point and
restarts.
-/
namespace Pycold

open Pycold.Tile Pycold.Blocks Pycold.Blocks.Spec

/-- The ranks of a run with `cores` processes. -/
def IsRank (cores r : Nat) : Prop := 1 ≤ r ∧ r ≤ cores

variable {V : Type}

/-- The plans of all blocks. -/
def plans (method : Method) (fill : List V) (nPix : Nat) (pixels : Nat → Option (List (Pixel V))) :
    Nat → List (Act V) := fun b => planOf method fill nPix (pixels b)

theorem plans_ok (method : Method) (fill : List V) (nPix : Nat) (pixels : Nat → Option (List (Pixel V))) :
    PlanOk (plans method fill nPix pixels) (fun b => expected method fill nPix (pixels b)) := by
  classical
  exact ⟨fun b a ha k hk => plan_kinds method fill nPix (pixels b) a ha k hk,
    fun b hd f h0 => plan_exec method fill nPix (pixels b)
      (fun hf => hd ((plan_die method fill nPix (pixels b)).2 hf)) f h0⟩

theorem share_disjoint (n cores : Nat) (hc : 1 ≤ cores) :
    ∀ r r' b, IsRank cores r → IsRank cores r' → b ∈ share n cores r → b ∈ share n cores r' → r = r' := by
  intro r r' b hr hr' h h'
  obtain ⟨hw, hx⟩ := C36_blocks n cores hc
  obtain ⟨_, _, _, hu⟩ := hx b ((hw r hr).2 b h)
  rw [hu r hr h, hu r' hr' h']

theorem share_nodup (n cores : Nat) (hc : 1 ≤ cores) : ∀ r, IsRank cores r → (share n cores r).Nodup :=
  fun r hr => ((C36_blocks n cores hc).1 r hr).1

/-! ## C37 -/

/-- Whenever a block has its flag, all its result files are complete and hold exactly what they should,
whatever was killed and restarted when. -/
theorem C37_finished_is_complete (method : Method) (fill : List V) (nPix n cores : Nat) (hc : 1 ≤ cores)
    (pixels : Nat → Option (List (Pixel V))) (w : World V)
    (hw : Reach (plans method fill nPix pixels) (IsRank cores) (share n cores) w) (b : Nat)
    (hb : w.flag b = true) :
    (1 ≤ b ∧ b ≤ n) ∧ ∀ k, w.file b k = expected method fill nPix (pixels b) k := by
  have hi := Inv.reach (plans_ok method fill nPix pixels) (share_disjoint n cores hc) (share_nodup n cores hc) hw
  obtain ⟨h1, _, r, hr, h3⟩ := hi.flag b hb
  exact ⟨((C36_blocks n cores hc).1 r hr).2 b h3, h1⟩

/-- After any history, running all ranks without a kill ends after a bounded number of steps, and then
every block is finished and complete (if detection raises no exception that stops the program). -/
theorem C37_rerun_completes (method : Method) (fill : List V) (nPix n cores : Nat) (hc : 1 ≤ cores)
    (pixels : Nat → Option (List (Pixel V))) (hok : ∀ b, 1 ≤ b ∧ b ≤ n → ¬ fatal method (pixels b)) (w : World V)
    (hw : Reach (plans method fill nPix pixels) (IsRank cores) (share n cores) w)
    (hrun : ∀ r, IsRank cores r → ∃ todo acts, w.proc r = .running todo acts) :
    ∃ bound, ∀ k w', Runs (plans method fill nPix pixels) (IsRank cores) w k w' →
      k ≤ bound ∧
      ((∀ r, IsRank cores r → procStep (plans method fill nPix pixels) w' r = none) →
        ∀ b, 1 ≤ b ∧ b ≤ n → w'.flag b = true ∧ ∀ kd, w'.file b kd = expected method fill nPix (pixels b) kd) := by
  classical
  let plan := plans method fill nPix pixels
  have hdis := share_disjoint n cores hc
  have hnd := share_nodup n cores hc
  have hp := plans_ok method fill nPix pixels
  let total : World V → Nat := fun w => ((List.range (cores + 1)).map (fun r => weight plan (w.proc r))).sum
  -- a step of a rank lowers the total
  have hsum : ∀ (l : List Nat) (f g : Nat → Nat) (r : Nat), l.Nodup → r ∈ l → g r + 1 ≤ f r →
      (∀ r', r' ≠ r → g r' = f r') → (l.map g).sum + 1 ≤ (l.map f).sum := by
    intro l f g r
    induction l with
    | nil => intro _ h; cases h
    | cons x l ih =>
      intro hn hm h1 h2
      simp only [List.map_cons, List.sum_cons]
      obtain ⟨hx, hn⟩ := List.nodup_cons.1 hn
      rcases List.mem_cons.1 hm with rfl | hm
      · have : l.map g = l.map f := by
          apply List.map_congr_left
          intro y hy
          exact h2 y (by rintro rfl; exact hx hy)
        rw [this]; omega
      · have := ih hn hm h1 h2
        rw [h2 x (by rintro rfl; exact hx hm)]; omega
  have key : ∀ k w', Runs plan (IsRank cores) w k w' →
      Reach plan (IsRank cores) (share n cores) w' ∧ k + total w' ≤ total w ∧
      ∀ r, IsRank cores r → w'.proc r ≠ .idle := by
    intro k w' h
    induction h with
    | refl =>
      refine ⟨hw, by omega, ?_⟩
      intro r hr
      obtain ⟨t, a, e⟩ := hrun r hr
      rw [e]; simp
    | step k w1 w2 r h1 hr hs ih =>
      obtain ⟨i1, i2, i3⟩ := ih
      have hi := Inv.reach hp hdis hnd i1
      obtain ⟨s1, s2⟩ := weight_step hs
      refine ⟨Reach.step _ _ i1 (Step.run _ _ r hr hs), ?_, ?_⟩
      · have := hsum (List.range (cores + 1)) (fun r => weight plan (w1.proc r))
          (fun r => weight plan (w2.proc r)) r List.nodup_range (by simp [IsRank] at hr ⊢; omega) s1
          (fun r' e => by simp only [s2 r' e])
        show k + 1 + total w2 ≤ total w
        show k + 1 + ((List.range (cores + 1)).map (fun r => weight plan (w2.proc r))).sum ≤ total w
        have : total w1 = ((List.range (cores + 1)).map (fun r => weight plan (w1.proc r))).sum := rfl
        omega
      · intro r' hr'
        by_cases e : r' = r
        · subst e
          unfold procStep at hs
          cases hpr : w1.proc r' with
          | idle => exact absurd hpr (i3 r' hr')
          | done => rw [hpr] at hs; cases hs
          | running todo acts =>
            rw [hpr] at hs
            cases todo with
            | nil => simp only [Option.some.injEq] at hs; subst hs; simp [setProc]
            | cons c t =>
              cases acts with
              | none =>
                simp only at hs
                by_cases hf : w1.flag c = true
                · rw [if_pos hf] at hs; cases hs; simp [setProc]
                · rw [if_neg hf] at hs; cases hs; simp [setProc]
              | some acts =>
                cases acts with
                | nil => simp only [Option.some.injEq] at hs; subst hs; simp [setProc]
                | cons a as =>
                  cases a with
                  | open_ => simp only [Option.some.injEq] at hs; subst hs; simp [setProc]
                  | close => simp only [Option.some.injEq] at hs; subst hs; simp [setProc]
                  | die =>
                    exfalso
                    obtain ⟨_, pre, _, e1, _⟩ := hi.acting r' c t _ hpr
                    have hc' : c ∈ share n cores r' := (hi.suffix r' _ _ hpr).1.subset (by simp)
                    refine hok c (((C36_blocks n cores hc).1 r' hr').2 c hc') ?_
                    exact (plan_die method fill nPix (pixels c)).1 (show Act.die ∈ plans method fill nPix pixels c by rw [e1]; simp)
        · rw [s2 r' e]; exact i3 r' hr'
  refine ⟨total w, ?_⟩
  intro k w' h
  obtain ⟨k1, k2, k3⟩ := key k w' h
  refine ⟨by omega, ?_⟩
  intro hend b hb
  have hi := Inv.reach hp hdis hnd k1
  obtain ⟨r, hr, hmem, _⟩ := (C36_blocks n cores hc).2 b hb
  have hdone : w'.proc r = .done := by
    rcases procStep_none (hend r hr) with h | h
    · exact absurd h (k3 r hr)
    · exact h
  have hf := hi.done r hdone b hmem
  exact ⟨hf, (hi.flag b hf).1⟩

/-! ## C50 -/

theorem share_increasing (n cores rank : Nat) (hc : 1 ≤ cores) : (share n cores rank).Pairwise (· < ·) := by
  have : ∀ k i, (shareFrom n cores rank k i).Pairwise (· < ·) := by
    intro k
    induction k with
    | zero => intro i; simp [shareFrom]
    | succ k ih =>
      intro i
      simp only [shareFrom]
      by_cases h : cores * i + rank > n
      · simp [h]
      · simp only [h, if_false, List.pairwise_cons]
        refine ⟨?_, ih (i + 1)⟩
        intro b hb
        obtain ⟨_, j, h1, _, h3⟩ := mem_shareFrom.1 hb
        have : cores * (i + 1) ≤ cores * j := Nat.mul_le_mul_left _ h1
        have : cores * (i + 1) = cores * i + cores := by ring
        omega
  exact this _ _

/-- If detection raises, on some pixel of block `b`, an exception that stops the program (COLD, OBCOLD: a
`RuntimeError`, since its handler is itself broken; S-CCD: any other exception), then neither that block
nor any later block of the same rank is ever finished, however often the program is started. -/
theorem C50_failing_pixel_stops_rank (method : Method) (fill : List V) (nPix n cores : Nat) (hc : 1 ≤ cores)
    (pixels : Nat → Option (List (Pixel V))) (w : World V)
    (hw : Reach (plans method fill nPix pixels) (IsRank cores) (share n cores) w) (b : Nat) (hb : 1 ≤ b ∧ b ≤ n)
    (hfatal : fatal method (pixels b)) (j : Nat) (hj : b + j * cores ≤ n) : w.flag (b + j * cores) = false := by
  classical
  obtain ⟨r, hr, hmem, _⟩ := (C36_blocks n cores hc).2 b hb
  obtain ⟨pre, post, hsplit⟩ := List.append_of_mem hmem
  have hst := Stuck.reach (plans_ok method fill nPix pixels) (share_disjoint n cores hc) (share_nodup n cores hc)
    hr hsplit ((plan_die method fill nPix (pixels b)).2 hfatal) hw
  obtain ⟨_, i, hi⟩ := (mem_share hc hr.1).1 hmem
  have hcm : b + j * cores ∈ share n cores r :=
    (mem_share hc hr.1).2 ⟨hj, i + j, by rw [hi]; ring⟩
  apply hst.flags
  rw [hsplit, List.mem_append] at hcm
  rcases hcm with h | h
  · exfalso
    have hp := share_increasing n cores r hc
    rw [hsplit, List.pairwise_append] at hp
    have := hp.2.2 _ h b (by simp)
    have : 0 ≤ j * cores := Nat.zero_le _
    omega
  · exact h

theorem flatMap_index {A B : Type} (f : A → List B) (m : Nat) (l : List A) (hm : ∀ x ∈ l, (f x).length = m)
    (p j : Nat) (hj : j < m) (x : A) (hx : l[p]? = some x) : (l.flatMap f)[p * m + j]? = (f x)[j]? := by
  induction l generalizing p with
  | nil => simp at hx
  | cons y l ih =>
    have hy := hm y (by simp)
    simp only [List.flatMap_cons]
    cases p with
    | zero =>
      simp only [List.getElem?_cons_zero, Option.some.injEq] at hx; subst hx
      rw [Nat.zero_mul, Nat.zero_add, List.getElem?_append_left (by omega)]
    | succ p =>
      rw [List.getElem?_append_right (by rw [hy]; have : (p + 1) * m = p * m + m := by ring
                                         omega)]
      rw [hy, show (p + 1) * m + j - m = p * m + j by
        have : (p + 1) * m = p * m + m := by ring
        omega]
      exact ih (fun x hx => hm x (by simp [hx])) p (by simpa using hx)

/-- Exceptions that do not stop the program (OBCOLD: any other than `RuntimeError`) cost only the pixel
itself: in a finished block, the change magnitudes and dates of pixel `p` are at positions
`p * m, …, p * m + m - 1` of the block's files, the fill value for the failing ones, and the record file holds
the records of the other pixels in order. -/
theorem C50_magnitudes_stay_aligned (fill : List V) (nPix n cores m : Nat) (hc : 1 ≤ cores)
    (pixels : Nat → Option (List (Pixel V))) (w : World V)
    (hw : Reach (plans .obcold fill nPix pixels) (IsRank cores) (share n cores) w) (b : Nat)
    (hb : w.flag b = true) (ps : List (Pixel V)) (hps : pixels b = some ps) (hfill : fill.length = m)
    (hm : ∀ r c d, Pixel.ok r c d ∈ ps → c.length = m ∧ d.length = m) :
    ∃ cms dates, w.file b .cm = .full cms ∧ w.file b .cmDate = .full dates ∧
      ∀ (p j : Nat) (px : Pixel V), ps[p]? = some px → j < m →
        match px with
        | .ok _ c d => cms[p * m + j]? = c[j]? ∧ dates[p * m + j]? = d[j]?
        | _ => cms[p * m + j]? = fill[j]? ∧ dates[p * m + j]? = fill[j]? := by
  have h := (C37_finished_is_complete .obcold fill nPix n cores hc pixels w hw b hb).2
  refine ⟨ps.flatMap (cmOf fill), ps.flatMap (dateOf fill), ?_, ?_, ?_⟩
  · rw [h]; simp [expected, hps]
  · rw [h]; simp [expected, hps]
  · intro p j px hp hj
    have h1 := flatMap_index (cmOf fill) m ps (by
      intro x hx; cases x with
      | ok r c d => exact (hm r c d hx).1
      | _ => exact hfill) p j hj px hp
    have h2 := flatMap_index (dateOf fill) m ps (by
      intro x hx; cases x with
      | ok r c d => exact (hm r c d hx).2
      | _ => exact hfill) p j hj px hp
    rw [h1, h2]
    cases px <;> exact ⟨rfl, rfl⟩

/-! ### Concrete runs -/

/-- Two blocks, one rank; OBCOLD; the second pixel of block 1 fails. -/
def demoPixels : Nat → Option (List (Pixel Nat))
  | 1 => some [.ok [10] [1, 2] [3, 4], .otherError]
  | 2 => some [.ok [20, 21] [5, 6] [7, 8], .ok [] [9, 9] [9, 9]]
  | _ => none

def stepN (plan : Nat → List (Act Nat)) : Nat → World Nat → World Nat
  | 0, w => w
  | k + 1, w => match procStep plan w 1 with
    | none => w
    | some w' => stepN plan k w'

theorem stepN_reach (plan : Nat → List (Act Nat)) (ids : Nat → List Nat) (k : Nat) (w : World Nat)
    (h : Reach plan (IsRank 1) ids w) : Reach plan (IsRank 1) ids (stepN plan k w) := by
  induction k generalizing w with
  | zero => exact h
  | succ k ih =>
    simp only [stepN]
    cases hs : procStep plan w 1 with
    | none => exact h
    | some w' => exact ih w' (.step _ _ h (.run _ _ 1 ⟨by decide, by decide⟩ hs))

/-- Killed while the magnitude file of block 1 is being written, then started again: everything is
complete at the end, with the fill value for the failed pixel. -/
example : let plan := plans .obcold [0, 0] 2 demoPixels
    let w1 : World Nat := stepN plan 6 { init with proc := setProc init.proc 1 (.running (share 2 1 1) none) }
    let w2 : World Nat := stepN plan 100 { w1 with proc := setProc (setProc w1.proc 1 .idle) 1 (.running (share 2 1 1) none) }
    w1.file 1 .cm = .torn ∧ w1.flag 1 = false ∧
    w2.flag 1 = true ∧ w2.flag 2 = true ∧ w2.file 1 .cm = .full [1, 2, 0, 0] ∧ w2.file 1 .record = .full [10] ∧
    w2.file 2 .record = .full [20, 21] := by
  decide +kernel

/-- The worlds of the example are reachable. -/
example : let plan := plans .obcold [0, 0] 2 demoPixels
    let w1 : World Nat := stepN plan 6 { init with proc := setProc init.proc 1 (.running (share 2 1 1) none) }
    Reach plan (IsRank 1) (share 2 1)
      (stepN plan 100 { w1 with proc := setProc (setProc w1.proc 1 .idle) 1 (.running (share 2 1 1) none) }) := by
  intro plan w1
  have hr : IsRank 1 1 := ⟨by decide, by decide⟩
  have h1 : Reach plan (IsRank 1) (share 2 1) w1 :=
    stepN_reach _ _ _ _ (.step _ _ .init (.start _ 1 hr (Or.inl rfl)))
  exact stepN_reach _ _ _ _ (.step _ _ (.step _ _ h1 (.kill _ 1 hr)) (.start _ 1 hr (Or.inl rfl)))

/-- COLD with a `RuntimeError` in block 1: block 2 is never reached. -/
example : fatal .cold (some [Pixel.ok [1] [] ([] : List Nat), .runtimeError]) ∧
    (let plan := plans .cold [] 2 (fun b => if b = 1 then some [Pixel.ok [1] [] ([] : List Nat), .runtimeError] else demoPixels b)
     let w : World Nat := stepN plan 100 { init with proc := setProc init.proc 1 (.running (share 2 1 1) none) }
     w.flag 1 = false ∧ w.flag 2 = false ∧ w.file 1 .record = .absent) := by
  refine ⟨by simp [fatal], ?_⟩
  decide +kernel

end Pycold
