import Verif.Proof.ColdVPrefix
/-! Where the change magnitudes come from. -/
namespace Pycold.ColdV

open Pycold.Cold (Err Params Num Cm)
open Pycold.ColdV.Spec

variable {Y M V W D G : Type}

/-- All logged values were computed from windows. -/
def LogFrom (K : Kit Y M V W D G) (cm : Cm) : Prop := ∀ p ∈ cm.log, Offered K p.2

/-- The window consists of scored observations, and so did all windows before. -/
structure From (K : Kit Y M V W D G) (s : St Y M V W D G) : Prop where
  win : ∀ x ∈ s.win, Scored K x
  cm : LogFrom K s.cm

theorem From.of_eq {K : Kit Y M V W D G} {s r : St Y M V W D G} (h : From K s) (h1 : r.win = s.win)
    (h2 : r.cm = s.cm) : From K r := ⟨by rw [h1]; exact h.win, by rw [h2]; exact h.cm⟩

theorem cmPut_from {K : Kit Y M V W D G} {P : Params} {a b : Cm} {date : Int} {w : List (Sc Y V W D)}
    (hw : ∀ x ∈ w, Scored K x) (ha : LogFrom K a)
    (h : Cold.cmPut P a date (cmRaw K w) = .ok b) : LogFrom K b := by
  unfold Cold.cmPut at h
  dsimp only at h
  have hv : Offered K (Cold.toShort (if cmRaw K w > Cold.MAX_SHORT then Cold.MAX_SHORT else cmRaw K w)) :=
    ⟨w, hw, rfl⟩
  generalize Cold.toShort (if cmRaw K w > Cold.MAX_SHORT then Cold.MAX_SHORT else cmRaw K w) = val at h hv
  have hlog : ∀ p ∈ a.log ++ [(date, val)], Offered K p.2 := by
    intro p hp
    rcases List.mem_append.1 hp with hp | hp
    · exact ha p hp
    · rw [List.mem_singleton] at hp; subst hp; exact hv
  split at h
  · split at h
    · split at h
      · cases h
      · split at h
        · cases h; exact hlog
        · cases h; exact hlog
    · cases h
  · cases h; exact ha

theorem lookBack_from (P : Params) (K : Kit Y M V W D G) (m : M) (iBreak : Int) :
    ∀ (n : Nat) (iIni : Int) (b b' : LB Y V W D), (iIni - (iBreak - 1) + 1).toNat = n → LogFrom K b.cm →
      lookBack P K m iBreak iIni b = .ok b' → LogFrom K b'.cm := by
  intro n
  induction n using Nat.strongRecOn with
  | _ n ih =>
    intro iIni b b' hn hb hr
    rw [lookBack] at hr
    by_cases h : iIni ≥ iBreak - 1
    · rw [if_pos h] at hr
      dsimp only at hr
      generalize hc : (if iIni - (iBreak - 1) + 1 < P.conse then iIni - (iBreak - 1) + 1 else P.conse) = ic at hr
      split at hr
      · cases hr
      · obtain ⟨_, hk, hr⟩ := bind_ok hr
        obtain ⟨cm, hp, hr⟩ := bind_ok hr
        have hw : ∀ x ∈ lbWindow K m b.rows iIni ic, Scored K x := by
          intro x hx
          unfold lbWindow at hx
          obtain ⟨k, _, rfl⟩ := List.mem_map.1 hx
          exact .inl ⟨4, m, rfl⟩
        have hle : LogFrom K cm := by
          unfold lbCm at hp
          split at hp
          · obtain ⟨d, _, hp⟩ := bind_ok hp
            exact cmPut_from hw hb hp
          · cases hp; exact hb
        split at hr
        · cases hr; exact hle
        · split at hr
          · refine ih (iIni - 1 - (iBreak - 1) + 1).toNat (by omega) (iIni - 1) _ b' rfl ?_ hr
            exact hle
          · refine ih (iIni - 1 - (iBreak - 1) + 1).toNat (by omega) (iIni - 1) _ b' rfl ?_ hr
            exact hle
    · rw [if_neg h] at hr
      cases hr; exact hb

theorem doLookBack_from {P : Params} {K : Kit Y M V W D G} {m : M} {s : St Y M V W D G} {iBreak : Int} {r}
    (hs : From K s) (h : doLookBack P K m s iBreak = .ok r) : From K r.1 := by
  unfold doLookBack at h
  split at h
  · obtain ⟨b, hb, h⟩ := bind_ok h
    cases h
    refine ⟨hs.win, ?_⟩
    refine lookBack_from P K m iBreak _ _ _ b rfl ?_ hb
    exact hs.cm
  · cases h; exact hs

theorem firstCurve_from {P : Params} {K : Kit Y M V W D G} {s r : St Y M V W D G} {c : Option Int}
    {tested : List (Sc Y V W D)} (hs : From K s) (h : firstCurve P K s c tested = .ok r) : From K r := by
  unfold firstCurve at h
  split at h
  · obtain ⟨_, h1, h⟩ := bind_ok h
    obtain ⟨te, h2, h⟩ := bind_ok h
    obtain ⟨tb, h3, h⟩ := bind_ok h
    obtain ⟨ts, h4, h⟩ := bind_ok h
    cases c with
    | none => cases h
    | some c =>
      dsimp only at h
      split at h
      · cases h
        exact hs.of_eq rfl rfl
      · cases h
  · cases h; exact hs

theorem trainPhase_from {P : Params} {K : Kit Y M V W D G} {s : St Y M V W D G}
    {r : Bool × St Y M V W D G} (hs : From K s) (h : trainPhase P K s = .ok r) : From K r.2 := by
  unfold trainPhase at h
  obtain ⟨g, h1, h⟩ := bind_ok h
  split at h
  · cases h; exact hs.of_eq rfl rfl
  · obtain ⟨_, h2, h⟩ := bind_ok h
    dsimp only at h
    split at h
    · cases h; exact hs.of_eq rfl rfl
    · obtain ⟨a, h3, h⟩ := bind_ok h
      obtain ⟨b, h4, h⟩ := bind_ok h
      split at h
      · cases h; exact hs.of_eq rfl rfl
      · obtain ⟨_, h5, h⟩ := bind_ok h
        split at h
        · cases h; exact hs.of_eq rfl rfl
        · obtain ⟨ib, h6, h⟩ := bind_ok h
          obtain ⟨⟨s1, ic, te⟩, h7, h⟩ := bind_ok h
          obtain ⟨s2, h8, h⟩ := bind_ok h
          cases h
          refine firstCurve_from ?_ h8
          refine doLookBack_from ?_ h7
          exact ⟨hs.win, hs.cm⟩

theorem refresh_from {P : Params} {K : Kit Y M V W D G} {s r : St Y M V W D G} (hs : From K s)
    (h : refresh P K s = .ok r) : From K r := by
  rw [refresh_eq] at h
  cases hic : s.iCount with
  | none => rw [hic] at h; cases h
  | some ic =>
    rw [hic] at h
    dsimp only at h
    split at h
    · unfold fresh at h
      obtain ⟨_, _, h⟩ := bind_ok h
      obtain ⟨_, _, h⟩ := bind_ok h
      obtain ⟨_, _, h⟩ := bind_ok h
      obtain ⟨_, _, h⟩ := bind_ok h
      cases h
      refine ⟨?_, hs.cm⟩
      intro x hx
      obtain ⟨k, _, rfl⟩ := List.mem_map.1 hx
      exact .inl ⟨_, _, rfl⟩
    · unfold later at h
      dsimp only at h
      cases hpe : s.preEnd with
      | none => rw [hpe] at h; cases h
      | some pe =>
        rw [hpe] at h
        dsimp only at h
        obtain ⟨a, _, h⟩ := bind_ok h
        obtain ⟨b, _, h⟩ := bind_ok h
        obtain ⟨_, _, h⟩ := bind_ok h
        generalize hs0 : ({ s with
          iCount := some ic, iSpanSkip := if s.iSpanSkip = 0 then s.i - s.iStart + 1 else s.iSpanSkip,
          preEnd := some pe } : St Y M V W D G) = s0 at h
        have e0 : s0.win = s.win ∧ s0.cm = s.cm := by subst hs0; exact ⟨rfl, rfl⟩
        have e1 : (refit K s0 (s.i - s.iStart + 1)
            (Cold.updateCft (s.i - s.iStart + 1) 3 4 6 8 8) pe a.date b.date).win = s0.win ∧
            (refit K s0 (s.i - s.iStart + 1)
            (Cold.updateCft (s.i - s.iStart + 1) 3 4 6 8 8) pe a.date b.date).cm = s0.cm := by
          unfold refit
          split <;> exact ⟨rfl, rfl⟩
        generalize refit K s0 (s.i - s.iStart + 1)
          (Cold.updateCft (s.i - s.iStart + 1) 3 4 6 8 8) pe a.date b.date = s1 at h e1
        unfold shiftWin at h
        dsimp only at h
        cases hid : s1.idsOldLen with
        | none => rw [hid] at h; cases h
        | some l =>
          rw [hid] at h
          dsimp only at h
          split at h
          · cases h
          · obtain ⟨_, _, h⟩ := bind_ok h
            obtain ⟨_, _, h⟩ := bind_ok h
            split at h
            · cases h
            · cases hm : s1.cft with
              | none => rw [hm] at h; cases h
              | some m =>
                cases hm' : s1.dif with
                | none => rw [hm, hm'] at h; cases h
                | some m' =>
                  rw [hm, hm'] at h
                  cases h
                  refine ⟨?_, ?_⟩
                  · intro x hx
                    dsimp only at hx
                    rcases List.mem_append.1 hx with hx | hx
                    · rw [e1.1, e0.1] at hx
                      exact hs.win x (List.mem_of_mem_tail hx)
                    · rw [List.mem_singleton] at hx
                      subst hx
                      exact .inr ⟨_, _, _, _, _, rfl⟩
                  · show LogFrom K s1.cm
                    rw [e1.2, e0.2]; exact hs.cm

theorem monitorPhase_from {P : Params} {K : Kit Y M V W D G} {s r : St Y M V W D G} (hs : From K s)
    (h : monitorPhase P K s = .ok r) : From K r := by
  unfold monitorPhase at h
  obtain ⟨s1, h1, h⟩ := bind_ok h
  obtain ⟨d, h2, h⟩ := bind_ok h
  obtain ⟨cm, h3, h⟩ := bind_ok h
  have f1 := refresh_from hs h1
  have hcm : LogFrom K cm := cmPut_from f1.win f1.cm h3
  dsimp only at h
  split at h
  · cases h; exact ⟨f1.win, hcm⟩
  · split at h
    · cases h; exact ⟨f1.win, hcm⟩
    · cases h; exact ⟨f1.win, hcm⟩

theorem body_from {P : Params} {K : Kit Y M V W D G} {s r : St Y M V W D G} (hs : From K s)
    (h : body P K s = .ok r) : From K r := by
  unfold body at h
  obtain ⟨s', h1, h⟩ := bind_ok h
  cases h
  suffices From K s' from this.of_eq rfl rfl
  dsimp only at h1
  obtain ⟨a, h2, h1⟩ := bind_ok h1
  obtain ⟨b, h3, h1⟩ := bind_ok h1
  split at h1
  · obtain ⟨⟨go, s1⟩, h4, h1⟩ := bind_ok h1
    dsimp only at h1
    have g1 : From K s1 := by
      split at h4
      · exact trainPhase_from hs h4
      · cases h4; exact hs
    split at h1
    · obtain ⟨s2, h5, h1⟩ := bind_ok h1
      cases h1
      exact (monitorPhase_from g1 h5).of_eq rfl rfl
    · cases h1; exact g1
  · cases h1; exact hs.of_eq rfl rfl

theorem loop_from {P : Params} {K : Kit Y M V W D G} : ∀ (f : Nat) {s r : St Y M V W D G}, From K s →
    loop P K f s = .ok r → From K r := by
  intro f
  induction f with
  | zero =>
    intro s r hs h
    unfold loop at h
    split at h
    · cases h
    · cases h; exact hs
  | succ f ih =>
    intro s r hs h
    unfold loop at h
    split at h
    · obtain ⟨s', h1, h⟩ := bind_ok h
      exact ih (body_from hs h1) h
    · cases h; exact hs

/-- Every value offered for the change-magnitude output was computed from a window of scored
observations. -/
theorem standProcedure_offered {P : Params} {K : Kit Y M V W D G} (hP : 1 ≤ P.conse) {rows : List (Row Y)}
    {nCm : Nat} {out : Output Y M V W D G} (h : standProcedure P K rows nCm = .ok out) :
    LogFrom K out.cm := by
  obtain ⟨s, h1, h2⟩ := standProcedure_ends hP h
  rw [h2.cm]
  refine (loop_from _ ?_ h1).cm
  exact ⟨fun x hx => by simp [init] at hx, fun p hp => by simp [init] at hp⟩

end Pycold.ColdV
