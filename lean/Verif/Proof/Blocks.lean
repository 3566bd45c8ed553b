import Verif.Spec.Blocks
/-! Proofs about the per-pixel phase with crashes. -/
namespace Pycold.Blocks

variable {V : Type}
open Spec

/-! ### What a plan does -/

theorem pixelLoop_eq [DecidableEq V] (fill : List V) (ps : List (Pixel V)) (c : Collected V) :
    pixelLoop fill ps c =
      if Pixel.runtimeError ∈ ps then none
      else some { any := c.any || ps.any isOk, recs := c.recs ++ ps.flatMap recOf,
                  cms := c.cms ++ ps.flatMap (cmOf fill), dates := c.dates ++ ps.flatMap (dateOf fill) } := by
  induction ps generalizing c with
  | nil => simp [pixelLoop]
  | cons p ps ih =>
    cases p <;> simp [pixelLoop, ih, isOk, recOf, cmOf, dateOf]

theorem sccdLoop_eq [DecidableEq V] (ps : List (Pixel V)) (acc : List V) :
    sccdLoop ps acc = if Pixel.otherError ∈ ps then none else some (acc ++ ps.flatMap recOf) := by
  induction ps generalizing acc with
  | nil => simp [sccdLoop]
  | cons p ps ih => cases p <;> simp [sccdLoop, ih, recOf]

/-- The files of a block after some actions. -/
def exec : List (Act V) → (Kind → File V) → Kind → File V
  | [], f => f
  | .open_ k :: as, f => exec as (fun k' => if k' = k then .torn else f k')
  | .close k v :: as, f => exec as (fun k' => if k' = k then .full v else f k')
  | .die :: as, f => exec as f

theorem exec_append (as bs : List (Act V)) (f : Kind → File V) : exec (as ++ bs) f = exec bs (exec as f) := by
  induction as generalizing f with
  | nil => rfl
  | cons a as ih => cases a <;> simp [exec, ih]

theorem exec_save (k : Kind) (v : List V) (f : Kind → File V) :
    exec (save k v) f = fun k' => if k' = k then .full v else f k' := by
  funext k'
  simp only [save, exec]
  by_cases h : k' = k <;> simp [h]

def Act.kind : Act V → Option Kind
  | .open_ k => some k
  | .close k _ => some k
  | .die => none

variable [DecidableEq V]

theorem plan_die (method : Method) (fill : List V) (nPix : Nat) (pixels : Option (List (Pixel V))) :
    Act.die ∈ planOf method fill nPix pixels ↔ fatal method pixels := by
  cases pixels with
  | none => cases method <;> simp [planOf, save, fatal]
  | some ps =>
    cases method with
    | sccd =>
      simp only [planOf, sccdLoop_eq, fatal]
      by_cases h : Pixel.otherError ∈ ps <;> simp [h, save]
    | cold =>
      simp only [planOf, pixelLoop_eq, fatal]
      by_cases h : Pixel.runtimeError ∈ ps
      · simp [h]
      · simp only [h, if_false]
        by_cases h2 : ps.any isOk <;> simp [h2, save]
    | obcold =>
      simp only [planOf, pixelLoop_eq, fatal]
      by_cases h : Pixel.runtimeError ∈ ps
      · simp [h]
      · simp only [h, if_false]
        by_cases h2 : ps.any isOk <;> simp [h2, save]

theorem plan_kinds (method : Method) (fill : List V) (nPix : Nat) (pixels : Option (List (Pixel V)))
    (a : Act V) (ha : a ∈ planOf method fill nPix pixels) (k : Kind) (hk : a.kind = some k) :
    expected method fill nPix pixels k ≠ .absent := by
  cases pixels with
  | none =>
    cases method <;> simp [planOf, save] at ha
    rcases ha with rfl | rfl | rfl | rfl <;> cases hk <;> simp [expected]
  | some ps =>
    cases method with
    | sccd =>
      simp only [planOf, sccdLoop_eq] at ha
      by_cases h : Pixel.otherError ∈ ps
      · simp only [h, if_true, List.mem_cons, List.not_mem_nil, or_false] at ha
        rcases ha with rfl | rfl <;> cases hk; simp [expected]
      · simp [h, save] at ha
        rcases ha with rfl | rfl <;> cases hk <;> simp [expected]
    | cold =>
      simp only [planOf, pixelLoop_eq] at ha
      by_cases h : Pixel.runtimeError ∈ ps
      · simp [h] at ha; subst ha; cases hk
      · simp only [h, if_false, Bool.false_or] at ha
        by_cases h2 : ps.any isOk = true
        · simp only [h2, if_true, save] at ha
          simp at ha
          rcases ha with rfl | rfl <;> cases hk <;> simp [expected, h2]
        · simp [h2] at ha
    | obcold =>
      simp only [planOf, pixelLoop_eq] at ha
      by_cases h : Pixel.runtimeError ∈ ps
      · simp [h] at ha; subst ha; cases hk
      · simp only [h, if_false, Bool.false_or] at ha
        by_cases h2 : ps.any isOk = true
        · simp only [h2, if_true, save] at ha
          simp at ha
          rcases ha with rfl | rfl | rfl | rfl | rfl | rfl <;> cases hk <;> simp [expected, h2]
        · simp only [h2, if_true, save] at ha
          simp at ha
          rcases ha with rfl | rfl | rfl | rfl <;> cases hk <;> simp [expected]

theorem plan_exec (method : Method) (fill : List V) (nPix : Nat) (pixels : Option (List (Pixel V)))
    (hf : ¬ fatal method pixels) (f : Kind → File V)
    (h0 : ∀ k, expected method fill nPix pixels k = .absent → f k = .absent) :
    exec (planOf method fill nPix pixels) f = expected method fill nPix pixels := by
  have hr := h0 .record
  have hm := h0 .cm
  have hd := h0 .cmDate
  funext k
  cases pixels with
  | none =>
    cases method with
    | obcold =>
      simp only [planOf, exec_append, exec_save]
      cases k <;> simp [expected] at *; exact hr
    | cold => cases k <;> simp [planOf, exec, expected] at * <;> assumption
    | sccd => cases k <;> simp [planOf, exec, expected] at * <;> assumption
  | some ps =>
    cases method with
    | sccd =>
      simp only [fatal] at hf
      simp only [planOf, sccdLoop_eq, hf, if_false, exec_save]
      cases k <;> simp [expected] at * <;> assumption
    | cold =>
      simp only [fatal] at hf
      simp only [planOf, pixelLoop_eq, hf, if_false, Bool.false_or]
      by_cases h2 : ps.any isOk = true
      · simp only [h2, if_true, reduceCtorEq, if_false, List.append_nil, exec_save]
        cases k <;> simp [expected, h2] at * <;> assumption
      · simp only [h2, if_false, reduceCtorEq, List.append_nil, exec]
        cases k <;> simp [expected, h2] at * <;> simp_all
    | obcold =>
      simp only [fatal] at hf
      simp only [planOf, pixelLoop_eq, hf, if_false, Bool.false_or, if_true]
      by_cases h2 : ps.any isOk = true
      · simp only [h2, if_true, exec_append, exec_save]
        cases k <;> simp [expected, h2] at *
      · simp only [h2, List.nil_append, exec_append, exec_save]
        cases k <;> simp [expected, h2, exec] at * <;> simp_all

omit [DecidableEq V]

/-! ### The invariant -/

/-- What the proofs need of plans and expectations. -/
structure PlanOk (plan : Nat → List (Act V)) (exp : Nat → Kind → File V) : Prop where
  kinds : ∀ b a, a ∈ plan b → ∀ k, a.kind = some k → exp b k ≠ .absent
  exec : ∀ b, Act.die ∉ plan b → ∀ f : Kind → File V, (∀ k, exp b k = .absent → f k = .absent) →
    exec (plan b) f = exp b

structure Inv (plan : Nat → List (Act V)) (exp : Nat → Kind → File V) (rank : Nat → Prop)
    (ids : Nat → List Nat) (w : World V) : Prop where
  absent : ∀ b k, exp b k = .absent → w.file b k = .absent
  flag : ∀ b, w.flag b = true → (∀ k, w.file b k = exp b k) ∧ Act.die ∉ plan b ∧ ∃ r, rank r ∧ b ∈ ids r
  acting : ∀ r b t acts, w.proc r = .running (b :: t) (some acts) →
    w.flag b = false ∧ ∃ pre f0, plan b = pre ++ acts ∧ Act.die ∉ pre ∧ w.file b = exec pre f0 ∧
      ∀ k, exp b k = .absent → f0 k = .absent
  suffix : ∀ r todo acts, w.proc r = .running todo acts → todo <:+ ids r ∧
    ∀ b ∈ ids r, b ∈ todo ∨ w.flag b = true
  done : ∀ r, w.proc r = .done → ∀ b ∈ ids r, w.flag b = true
  ranks : ∀ r, ¬ rank r → w.proc r = .idle

variable {plan : Nat → List (Act V)} {exp : Nat → Kind → File V} {rank : Nat → Prop} {ids : Nat → List Nat}

theorem setProc_same (p : Nat → Proc V) (r : Nat) (x : Proc V) : setProc p r x r = x := by simp [setProc]
theorem setProc_other {p : Nat → Proc V} {r r' : Nat} {x : Proc V} (h : r' ≠ r) : setProc p r x r' = p r' := by
  simp [setProc, h]

theorem Inv.init : Inv plan exp rank ids (init : World V) := by
  refine ⟨?_, ?_, ?_, ?_, ?_, ?_⟩ <;> simp [Blocks.init]

/-- Changing only the state of one process. -/
theorem Inv.setProc {w : World V} (hi : Inv plan exp rank ids w) {r : Nat} (hr : rank r) {x : Proc V}
    (hact : ∀ b t acts, x = .running (b :: t) (some acts) → w.flag b = false ∧ ∃ pre f0, plan b = pre ++ acts ∧
      Act.die ∉ pre ∧ w.file b = Blocks.exec pre f0 ∧ ∀ k, exp b k = .absent → f0 k = .absent)
    (hsuf : ∀ todo acts, x = .running todo acts → todo <:+ ids r ∧ ∀ b ∈ ids r, b ∈ todo ∨ w.flag b = true)
    (hdone : x = .done → ∀ b ∈ ids r, w.flag b = true) :
    Inv plan exp rank ids { w with proc := Blocks.setProc w.proc r x } := by
  refine ⟨hi.absent, hi.flag, ?_, ?_, ?_, ?_⟩
  · intro r' b t acts h
    by_cases e : r' = r
    · subst e; dsimp only at h; rw [show (Blocks.setProc w.proc r' x) r' = _ from setProc_same _ _ _] at h; exact hact b t acts h
    · dsimp only at h; rw [show (Blocks.setProc w.proc r x) r' = _ from setProc_other e] at h; exact hi.acting r' b t acts h
  · intro r' todo acts h
    by_cases e : r' = r
    · subst e; dsimp only at h; rw [show (Blocks.setProc w.proc r' x) r' = _ from setProc_same _ _ _] at h; exact hsuf todo acts h
    · dsimp only at h; rw [show (Blocks.setProc w.proc r x) r' = _ from setProc_other e] at h; exact hi.suffix r' todo acts h
  · intro r' h
    by_cases e : r' = r
    · subst e; dsimp only at h; rw [show (Blocks.setProc w.proc r' x) r' = _ from setProc_same _ _ _] at h; exact hdone h
    · dsimp only at h; rw [show (Blocks.setProc w.proc r x) r' = _ from setProc_other e] at h; exact hi.done r' h
  · intro r' h
    have e : r' ≠ r := by rintro rfl; exact h hr
    show Blocks.setProc w.proc r x r' = .idle
    rw [setProc_other e]; exact hi.ranks r' h

theorem setFile_block (f : Nat → Kind → File V) (b : Nat) (k : Kind) (x : File V) :
    setFile f b k x b = fun k' => if k' = k then x else f b k' := by
  funext k'; simp [setFile]

theorem setFile_other {f : Nat → Kind → File V} {b b' : Nat} {k : Kind} {x : File V} (h : b' ≠ b) :
    setFile f b k x b' = f b' := by
  funext k'; simp [setFile, h]

/-- Writing a file of the block at the head. -/
theorem Inv.write {w : World V} (hp : PlanOk plan exp) (hi : Inv plan exp rank ids w)
    (hdis : ∀ r r' b, rank r → rank r' → b ∈ ids r → b ∈ ids r' → r = r') {r : Nat} (hr : rank r) {b : Nat}
    {t : List Nat} {a : Act V} {as : List (Act V)} {k : Kind} {x : File V}
    (hw : w.proc r = .running (b :: t) (some (a :: as))) (hk : a.kind = some k)
    (hx : ∀ f : Kind → File V, Blocks.exec [a] f = fun k' => if k' = k then x else f k') :
    Inv plan exp rank ids
      { w with file := setFile w.file b k x, proc := Blocks.setProc w.proc r (.running (b :: t) (some as)) } := by
  obtain ⟨hfl, pre, f0, e1, e2, e3, e4⟩ := hi.acting r b t _ hw
  have hb : b ∈ ids r := (hi.suffix r _ _ hw).1.subset (by simp)
  have hain : a ∈ plan b := by rw [e1]; simp
  have hadie : a ≠ .die := by rintro rfl; cases hk
  refine ⟨?_, ?_, ?_, ?_, ?_, ?_⟩
  · intro b' k' h
    show setFile w.file b k x b' k' = .absent
    by_cases e : b' = b
    · subst e
      rw [setFile_block]
      have : k' ≠ k := by rintro rfl; exact hp.kinds b' a hain _ hk h
      simp only [this, if_false]; exact hi.absent b' k' h
    · rw [setFile_other e]; exact hi.absent b' k' h
  · intro b' h
    have e : b' ≠ b := by rintro rfl; rw [show w.flag b' = true from h] at hfl; cases hfl
    show (∀ k', setFile w.file b k x b' k' = exp b' k') ∧ _
    rw [setFile_other e]; exact hi.flag b' h
  · intro r' b' t' acts' h
    by_cases e : r' = r
    · subst e
      dsimp only at h; rw [show (Blocks.setProc w.proc r' (.running (b :: t) (some as))) r' = _ from setProc_same _ _ _] at h
      cases h
      refine ⟨hfl, pre ++ [a], f0, by rw [e1]; simp, ?_, ?_, e4⟩
      · simp only [List.mem_append, List.mem_singleton, not_or]; exact ⟨e2, fun h => hadie h.symm⟩
      · show setFile w.file b k x b = _
        rw [setFile_block, exec_append, hx, e3]
    · dsimp only at h; rw [show (Blocks.setProc w.proc r (.running (b :: t) (some as))) r' = _ from setProc_other e] at h
      have hr' : rank r' := by
        refine Classical.byContradiction (fun hcon => ?_)
        rw [hi.ranks r' hcon] at h; cases h
      have e' : b' ≠ b := by
        rintro rfl
        exact e (hdis r' r b' hr' hr ((hi.suffix r' _ _ h).1.subset (by simp)) hb)
      obtain ⟨g1, pre', f', g2, g3, g4, g5⟩ := hi.acting r' b' t' acts' h
      refine ⟨g1, pre', f', g2, g3, ?_, g5⟩
      show setFile w.file b k x b' = _
      rw [setFile_other e', g4]
  · intro r' todo acts h
    by_cases e : r' = r
    · subst e
      dsimp only at h; rw [show (Blocks.setProc w.proc r' (.running (b :: t) (some as))) r' = _ from setProc_same _ _ _] at h
      cases h
      exact hi.suffix r' _ _ hw
    · dsimp only at h; rw [show (Blocks.setProc w.proc r (.running (b :: t) (some as))) r' = _ from setProc_other e] at h
      exact hi.suffix r' _ _ h
  · intro r' h
    by_cases e : r' = r
    · subst e
      dsimp only at h; rw [show (Blocks.setProc w.proc r' (.running (b :: t) (some as))) r' = _ from setProc_same _ _ _] at h
      cases h
    · dsimp only at h; rw [show (Blocks.setProc w.proc r (.running (b :: t) (some as))) r' = _ from setProc_other e] at h
      exact hi.done r' h
  · intro r' h
    have e : r' ≠ r := by rintro rfl; exact h hr
    show Blocks.setProc w.proc r _ r' = .idle
    rw [setProc_other e]; exact hi.ranks r' h

/-- Creating the flag of the block at the head. -/
theorem Inv.finish {w : World V} (hp : PlanOk plan exp) (hi : Inv plan exp rank ids w)
    (hdis : ∀ r r' b, rank r → rank r' → b ∈ ids r → b ∈ ids r' → r = r')
    (hnd : ∀ r, rank r → (ids r).Nodup) {r : Nat} (hr : rank r) {b : Nat} {t : List Nat}
    (hw : w.proc r = .running (b :: t) (some [])) :
    Inv plan exp rank ids
      { w with flag := fun b' => if b' = b then true else w.flag b',
               proc := Blocks.setProc w.proc r (.running t none) } := by
  obtain ⟨hfl, pre, f0, e1, e2, e3, e4⟩ := hi.acting r b t _ hw
  obtain ⟨s1, s2⟩ := hi.suffix r _ _ hw
  have hb : b ∈ ids r := s1.subset (by simp)
  simp only [List.append_nil] at e1
  have hmono : ∀ b', w.flag b' = true → (if b' = b then true else w.flag b') = true := by
    intro b' h; by_cases e : b' = b <;> simp [e, h]
  refine ⟨hi.absent, ?_, ?_, ?_, ?_, ?_⟩
  · intro b' h
    by_cases e : b' = b
    · subst e
      refine ⟨?_, by rw [e1]; exact e2, r, hr, hb⟩
      intro k
      show w.file b' k = exp b' k
      rw [e3, ← e1, hp.exec b' (by rw [e1]; exact e2) f0 e4]
    · simp only [e, if_false] at h; exact hi.flag b' h
  · intro r' b' t' acts' h
    by_cases e : r' = r
    · subst e
      dsimp only at h; rw [show (Blocks.setProc w.proc r' (.running t none)) r' = _ from setProc_same _ _ _] at h
      cases h
    · dsimp only at h; rw [show (Blocks.setProc w.proc r (.running t none)) r' = _ from setProc_other e] at h
      have hr' : rank r' := by
        refine Classical.byContradiction (fun hcon => ?_)
        rw [hi.ranks r' hcon] at h; cases h
      have e' : b' ≠ b := by
        rintro rfl
        exact e (hdis r' r b' hr' hr ((hi.suffix r' _ _ h).1.subset (by simp)) hb)
      obtain ⟨g1, g2⟩ := hi.acting r' b' t' acts' h
      exact ⟨by simp [e', g1], g2⟩
  · intro r' todo acts h
    by_cases e : r' = r
    · subst e
      dsimp only at h; rw [show (Blocks.setProc w.proc r' (.running t none)) r' = _ from setProc_same _ _ _] at h
      cases h
      refine ⟨(List.suffix_cons b t).trans s1, ?_⟩
      intro b' hb'
      rcases s2 b' hb' with h | h
      · rcases List.mem_cons.1 h with rfl | h
        · exact Or.inr (by simp)
        · exact Or.inl h
      · exact Or.inr (hmono b' h)
    · dsimp only at h; rw [show (Blocks.setProc w.proc r (.running t none)) r' = _ from setProc_other e] at h
      obtain ⟨g1, g2⟩ := hi.suffix r' _ _ h
      exact ⟨g1, fun b' hb' => (g2 b' hb').imp_right (hmono b')⟩
  · intro r' h
    by_cases e : r' = r
    · subst e
      dsimp only at h; rw [show (Blocks.setProc w.proc r' (.running t none)) r' = _ from setProc_same _ _ _] at h
      cases h
    · dsimp only at h; rw [show (Blocks.setProc w.proc r (.running t none)) r' = _ from setProc_other e] at h
      exact fun b' hb' => hmono b' (hi.done r' h b' hb')
  · intro r' h
    have e : r' ≠ r := by rintro rfl; exact h hr
    show Blocks.setProc w.proc r _ r' = .idle
    rw [setProc_other e]; exact hi.ranks r' h

theorem Inv.run {w w' : World V} (hp : PlanOk plan exp) (hi : Inv plan exp rank ids w)
    (hdis : ∀ r r' b, rank r → rank r' → b ∈ ids r → b ∈ ids r' → r = r')
    (hnd : ∀ r, rank r → (ids r).Nodup) {r : Nat} (hr : rank r) (h : procStep plan w r = some w') :
    Inv plan exp rank ids w' := by
  unfold procStep at h
  cases hw : w.proc r with
  | idle => rw [hw] at h; cases h
  | done => rw [hw] at h; cases h
  | running todo acts =>
    rw [hw] at h
    cases todo with
    | nil =>
      simp only [Option.some.injEq] at h; subst h
      refine hi.setProc hr (by simp) (by simp) ?_
      intro _ b hb
      rcases (hi.suffix r _ _ hw).2 b hb with h | h
      · cases h
      · exact h
    | cons b t =>
      cases acts with
      | none =>
        simp only at h
        obtain ⟨s1, s2⟩ := hi.suffix r _ _ hw
        by_cases hf : w.flag b = true
        · rw [if_pos hf] at h; cases h
          refine hi.setProc hr (by simp) ?_ (by simp)
          intro todo acts he
          cases he
          refine ⟨(List.suffix_cons b t).trans s1, ?_⟩
          intro b' hb'
          rcases s2 b' hb' with h | h
          · rcases List.mem_cons.1 h with rfl | h
            · exact Or.inr hf
            · exact Or.inl h
          · exact Or.inr h
        · rw [if_neg hf] at h; cases h
          refine hi.setProc hr ?_ ?_ (by simp)
          · intro b' t' acts he
            cases he
            exact ⟨by simpa using hf, [], w.file b, rfl, by simp, rfl, hi.absent b⟩
          · intro todo acts he
            cases he
            exact ⟨s1, s2⟩
      | some acts =>
        cases acts with
        | nil =>
          simp only [Option.some.injEq] at h; subst h
          exact hi.finish hp hdis hnd hr hw
        | cons a as =>
          cases a with
          | open_ k =>
            simp only [Option.some.injEq] at h; subst h
            exact hi.write hp hdis hr hw rfl (fun f => rfl)
          | close k v =>
            simp only [Option.some.injEq] at h; subst h
            exact hi.write hp hdis hr hw rfl (fun f => rfl)
          | die =>
            simp only [Option.some.injEq] at h; subst h
            exact hi.setProc hr (by simp) (by simp) (by simp)

theorem Inv.reach {w : World V} (hp : PlanOk plan exp)
    (hdis : ∀ r r' b, rank r → rank r' → b ∈ ids r → b ∈ ids r' → r = r')
    (hnd : ∀ r, rank r → (ids r).Nodup) (h : Reach plan rank ids w) : Inv plan exp rank ids w := by
  induction h with
  | init => exact Inv.init
  | step w w' _ hs ih =>
    cases hs with
    | run _ r hr h => exact ih.run hp hdis hnd hr h
    | kill r hr => exact ih.setProc hr (by simp) (by simp) (by simp)
    | start r hr h =>
      refine ih.setProc hr (by simp) ?_ (by simp)
      intro todo acts he
      cases he
      exact ⟨List.suffix_rfl, fun b hb => Or.inl hb⟩

/-! ### Completion -/

/-- How many steps a process can still make. -/
def weight (plan : Nat → List (Act V)) : Proc V → Nat
  | .idle => 0
  | .done => 0
  | .running todo none => 1 + (todo.map (fun b => (plan b).length + 2)).sum
  | .running [] (some _) => 1
  | .running (_ :: t) (some as) => 2 + as.length + (t.map (fun b => (plan b).length + 2)).sum

theorem weight_step {w w' : World V} {r : Nat} (h : procStep plan w r = some w') :
    weight plan (w'.proc r) + 1 ≤ weight plan (w.proc r) ∧ ∀ r', r' ≠ r → w'.proc r' = w.proc r' := by
  unfold procStep at h
  cases hw : w.proc r with
  | idle => rw [hw] at h; cases h
  | done => rw [hw] at h; cases h
  | running todo acts =>
    rw [hw] at h
    cases todo with
    | nil =>
      simp only [Option.some.injEq] at h; subst h
      refine ⟨?_, fun r' e => setProc_other e⟩
      simp only [setProc_same]
      cases acts <;> simp [weight]
    | cons b t =>
      cases acts with
      | none =>
        simp only at h
        by_cases hf : w.flag b = true
        · rw [if_pos hf] at h; cases h
          refine ⟨?_, fun r' e => setProc_other e⟩
          simp only [setProc_same, weight, List.map_cons, List.sum_cons]; omega
        · rw [if_neg hf] at h; cases h
          refine ⟨?_, fun r' e => setProc_other e⟩
          simp only [setProc_same, weight, List.map_cons, List.sum_cons]; omega
      | some acts =>
        cases acts with
        | nil =>
          simp only [Option.some.injEq] at h; subst h
          refine ⟨?_, fun r' e => setProc_other e⟩
          simp only [setProc_same, weight, List.length_nil]; omega
        | cons a as =>
          cases a <;>
          · simp only [Option.some.injEq] at h; subst h
            refine ⟨?_, fun r' e => setProc_other e⟩
            simp only [setProc_same, weight, List.length_cons]; omega

theorem procStep_none {w : World V} {r : Nat} (h : procStep plan w r = none) :
    w.proc r = .idle ∨ w.proc r = .done := by
  unfold procStep at h
  cases hw : w.proc r with
  | idle => exact Or.inl rfl
  | done => exact Or.inr rfl
  | running todo acts =>
    rw [hw] at h
    exfalso
    cases todo with
    | nil => cases h
    | cons b t =>
      cases acts with
      | none =>
        simp only at h
        by_cases hf : w.flag b = true <;> simp [hf] at h
      | some acts =>
        cases acts with
        | nil => cases h
        | cons a as => cases a <;> cases h

end Pycold.Blocks

namespace Pycold.Blocks

variable {V : Type}
open Spec

/-! ### A fatal block -/

/-- A block whose plan dies, and the blocks after it in the list of its rank, are never finished. -/
structure Stuck (ids : Nat → List Nat) (r : Nat) (b : Nat) (post : List Nat) (w : World V) : Prop where
  flags : ∀ c ∈ b :: post, w.flag c = false
  todo : ∀ todo acts, w.proc r = .running todo acts → ∃ pre, todo = pre ++ b :: post
  notDone : w.proc r ≠ .done

theorem Stuck.reach {plan : Nat → List (Act V)} {exp : Nat → Kind → File V} {rank : Nat → Prop}
    {ids : Nat → List Nat} {w : World V} (hp : PlanOk plan exp)
    (hdis : ∀ r r' b, rank r → rank r' → b ∈ ids r → b ∈ ids r' → r = r')
    (hnd : ∀ r, rank r → (ids r).Nodup) {r b : Nat} (hr : rank r) {pre post : List Nat}
    (hids : ids r = pre ++ b :: post) (hdie : Act.die ∈ plan b) (h : Reach plan rank ids w) :
    Stuck ids r b post w := by
  induction h with
  | init => exact ⟨by simp [init], by simp [init], by simp [init]⟩
  | step w w' hw hs ih =>
    have hi := Inv.reach hp hdis hnd hw
    cases hs with
    | kill r' hr' =>
      refine ⟨ih.flags, ?_, ?_⟩
      · intro todo acts h
        dsimp only at h
        by_cases e : r = r'
        · subst e; rw [setProc_same] at h; cases h
        · rw [setProc_other e] at h; exact ih.todo _ _ h
      · dsimp only
        by_cases e : r = r'
        · subst e; rw [setProc_same]; simp
        · rw [setProc_other e]; exact ih.notDone
    | start r' hr' h' =>
      refine ⟨ih.flags, ?_, ?_⟩
      · intro todo acts h
        dsimp only at h
        by_cases e : r = r'
        · subst e; rw [setProc_same] at h; cases h; exact ⟨pre, hids⟩
        · rw [setProc_other e] at h; exact ih.todo _ _ h
      · dsimp only
        by_cases e : r = r'
        · subst e; rw [setProc_same]; simp
        · rw [setProc_other e]; exact ih.notDone
    | run _ r' hr' h =>
      by_cases e : r' = r
      · subst e
        unfold procStep at h
        cases hpr : w.proc r' with
        | idle => rw [hpr] at h; cases h
        | done => rw [hpr] at h; cases h
        | running todo acts =>
          rw [hpr] at h
          obtain ⟨pre', hpre⟩ := ih.todo _ _ hpr
          cases todo with
          | nil => simp at hpre
          | cons c t =>
            -- the head is the fatal block, or lies before it
            have hhead : (pre' = [] ∧ c = b ∧ t = post) ∨ ∃ p, pre' = c :: p ∧ t = p ++ b :: post := by
              cases pre' with
              | nil => simp at hpre; exact Or.inl ⟨rfl, hpre.1, hpre.2⟩
              | cons x p => simp at hpre; exact Or.inr ⟨p, by rw [hpre.1], hpre.2⟩
            have keep : ∀ acts', Stuck ids r' b post
                { w with proc := setProc w.proc r' (.running (c :: t) acts') } := by
              intro acts'
              refine ⟨ih.flags, ?_, by dsimp only; rw [setProc_same]; simp⟩
              intro todo acts h
              dsimp only at h; rw [setProc_same] at h; cases h
              exact ⟨pre', hpre⟩
            cases acts with
            | none =>
              simp only at h
              by_cases hf : w.flag c = true
              · rw [if_pos hf] at h; cases h
                rcases hhead with ⟨_, rfl, _⟩ | ⟨p, _, ht⟩
                · rw [ih.flags c (by simp)] at hf; cases hf
                · refine ⟨ih.flags, ?_, by dsimp only; rw [setProc_same]; simp⟩
                  intro todo acts h
                  dsimp only at h; rw [setProc_same] at h; cases h
                  exact ⟨p, ht⟩
              · rw [if_neg hf] at h; cases h
                exact keep _
            | some acts =>
              cases acts with
              | nil =>
                simp only [Option.some.injEq] at h; subst h
                obtain ⟨_, pre2, _, e1, e2, _⟩ := hi.acting r' c t _ hpr
                rcases hhead with ⟨_, rfl, _⟩ | ⟨p, _, ht⟩
                · rw [List.append_nil] at e1; rw [e1] at hdie; exact absurd hdie e2
                · have hnd' : (c :: t).Nodup := (hi.suffix r' _ _ hpr).1.sublist.nodup (hnd r' hr)
                  refine ⟨?_, ?_, by dsimp only; rw [setProc_same]; simp⟩
                  · intro x hx
                    have : x ≠ c := by
                      rintro rfl
                      rw [ht] at hnd'
                      exact (List.nodup_cons.1 hnd').1 (by simp at hx ⊢; exact Or.inr hx)
                    simp only [this, if_false]
                    exact ih.flags x hx
                  · intro todo acts h
                    dsimp only at h; rw [setProc_same] at h; cases h
                    exact ⟨p, ht⟩
              | cons a as =>
                cases a with
                | open_ k =>
                  simp only [Option.some.injEq] at h; subst h
                  have := keep (some as)
                  exact ⟨this.flags, this.todo, this.notDone⟩
                | close k v =>
                  simp only [Option.some.injEq] at h; subst h
                  have := keep (some as)
                  exact ⟨this.flags, this.todo, this.notDone⟩
                | die =>
                  simp only [Option.some.injEq] at h; subst h
                  refine ⟨ih.flags, ?_, by dsimp only; rw [setProc_same]; simp⟩
                  intro todo acts h
                  dsimp only at h; rw [setProc_same] at h; cases h
      · obtain ⟨_, hother⟩ := weight_step h
        have hre : w'.proc r = w.proc r := hother r (Ne.symm e)
        refine ⟨?_, ?_, by rw [hre]; exact ih.notDone⟩
        · intro c hc
          cases hfc : w'.flag c with
          | false => rfl
          | true =>
            exfalso
            have hold := ih.flags c hc
            -- only the process of rank r' made a step; the flag it created is of one of its own blocks
            have hmem : c ∈ ids r' := by
              unfold procStep at h
              cases hpr : w.proc r' with
              | idle => rw [hpr] at h; cases h
              | done => rw [hpr] at h; cases h
              | running todo acts =>
                rw [hpr] at h
                have hs := (hi.suffix r' _ _ hpr).1
                cases todo with
                | nil => simp only [Option.some.injEq] at h; subst h; rw [hold] at hfc; cases hfc
                | cons x t =>
                  cases acts with
                  | none =>
                    simp only at h
                    by_cases hf : w.flag x = true
                    · rw [if_pos hf] at h; cases h; rw [hold] at hfc; cases hfc
                    · rw [if_neg hf] at h; cases h; rw [hold] at hfc; cases hfc
                  | some acts =>
                    cases acts with
                    | nil =>
                      simp only [Option.some.injEq] at h; subst h
                      by_cases hcx : c = x
                      · subst hcx; exact hs.subset (by simp)
                      · simp only [hcx, if_false] at hfc; rw [hold] at hfc; cases hfc
                    | cons a as =>
                      cases a <;>
                      · simp only [Option.some.injEq] at h; subst h
                        rw [hold] at hfc; cases hfc
            exact e (hdis r' r c hr' hr hmem (by rw [hids]; exact List.mem_append_right _ hc))
        · intro todo acts h'
          rw [hre] at h'; exact ih.todo _ _ h'

end Pycold.Blocks
