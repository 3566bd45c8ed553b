import Verif.Proof.SccdSeq2
/-!
# S-CCD: any batching gives the same result while the pixel is monitored
-/
namespace Pycold.Sccd
open Spec
variable {V F R M : Type}

theorem update_resume (E : Env V F R M) (hc : E.conse = 8) (hN : ∀ rm f, (E.num rm).narrow f = f)
    {p q : Pack F R M} {all : List Obs} (h : Promise E.conse p) (L : Ledger p all)
    (hm : p.mode = 1 ∨ p.mode = 11) {ys zs : List Scene} (e : update E p ys = .ok q) (hmo : q.mode = p.mode)
    (hz : zs ≠ []) (hqz : ∀ o ∈ zs, KnownQa o.qa)
    (hasc : Asc (all ++ fresh E.bC2 false (ys ++ zs))) (hcod : Codable (all ++ fresh E.bC2 false (ys ++ zs)))
    (hlen : (all ++ fresh E.bC2 false (ys ++ zs)).length ≤ 32767) :
    update E q zs = update E p (ys ++ zs) := by
  obtain ⟨hne, hqy, ec⟩ := update_call E h e
  have hq' : ∀ o ∈ ys ++ zs, KnownQa o.qa := by
    intro o ho
    rcases List.mem_append.mp ho with h' | h'
    · exact hqy o h'
    · exact hqz o h'
  obtain ⟨⟨m, em, hm8⟩, hqe⟩ := h.monitor (by rcases hm with e | e <;> simp [e])
  have hPq : Promise E.conse q := by
    rcases call_cases E h (by omega) (by omega) p.model (fun _ => rfl) ys hqy with ⟨q', e', hp, _⟩ | ⟨e', _⟩
    · rw [ec] at e'; cases e'; exact hp
    · rw [ec] at e'; simp at e'
  rw [fresh_append, ← List.append_assoc] at hasc hcod hlen
  have hholds : (holds p).Sublist all := L.sub
  have hpp : (pending p).Sublist all := (List.sublist_append_right _ _).trans hholds
  have hasc1 : Asc (pending p ++ fresh E.bC2 false ys) :=
    hasc.sublist ((hpp.append (List.Sublist.refl _)).trans (List.sublist_append_left _ _))
  have hasc2 : Asc (pending p ++ fresh E.bC2 false (ys ++ zs)) := by
    rw [fresh_append, ← List.append_assoc]
    exact hasc.sublist ((hpp.append (List.Sublist.refl _)).append (List.Sublist.refl _))
  have hsb : snowBranch E p.mode ys = false := by
    rcases hm with e | e <;> simp [snowBranch, e]
  rw [update_eq E hPq hz, update_eq E h (by simp [hne])]
  rw [show ({ p with model := p.model } : Pack F R M) = p from rfl] at ec
  rw [monitor_call E h hm em (ys ++ zs) hq' hasc2]
  rw [monitor_call E h hm em ys hqy hasc1] at ec
  by_cases hfy : fresh E.bC2 false ys = []
  · rw [if_pos hfy] at ec
    cases ec
    rw [monitor_call E h hm em zs hqz (by
      rw [fresh_append, hfy] at hasc2; exact hasc2)]
    simp only [fresh_append, hfy, List.nil_append]
  · rw [if_neg hfy] at ec
    have hfyz : fresh E.bC2 false (ys ++ zs) ≠ [] := by
      rw [fresh_append]; simp [hfy]
    rw [if_neg hfyz]
    -- what the first call was given
    have hns : p.mode ≠ 3 ∧ p.mode ≠ 4 := by omega
    have hop := openPart_eq h.modes hns.1 p.model (fun _ => rfl)
    have hHp : flat p.recs ++ openPart p.mode p.model ++ (pending p ++ fresh E.bC2 false ys) =
        holds p ++ fresh E.bC2 false ys := by
      rw [hop, holds]; simp
    have hsub1 : (holds p ++ fresh E.bC2 false ys).Sublist (all ++ fresh E.bC2 false ys ++ fresh E.bC2 false zs) :=
      (hholds.append (List.Sublist.refl _)).trans (List.sublist_append_left _ _)
    have g : Given True 8 p.mode (some m) p.recs (pending p ++ fresh E.bC2 false ys) := by
      have g0 := given_false (hc ▸ h) (by omega) hns p.model (fun _ => rfl) (fresh E.bC2 false ys)
      rw [em] at g0 hHp hop
      refine ⟨g0.modes, ?_, g0.five, fun _ => L.recs, ?_, ?_, fun _ => L.year⟩
      · intro h1
        obtain ⟨m', hm1, hm2, _⟩ := g0.mon h1
        cases hm1
        exact ⟨m, rfl, hm2, fun _ => L.model hm m em⟩
      · intro _
        rw [hHp]
        exact hasc.sublist hsub1
      · intro _
        rw [hop, ← List.append_assoc]
        refine L.chrono.extend ?_ ?_
        · intro o ho y hy
          refine asc_split (hasc.sublist (List.sublist_append_left _ _)) o (hholds.subset ?_) y hy
          rw [holds, List.append_assoc]
          exact List.mem_append_right _ ho
        · intro hrne hnil
          have hpn : pending p = [] := (List.append_eq_nil_iff.mp hnil).2
          have := length_pending_mon h (by omega)
          rw [hpn] at this
          simp at this
    have ho1 : openPart p.mode p.model = m.pre ++ m.seg := by
      have h1 : p.mode % 10 = 1 := by omega
      simp [openPart, h1, em]
    rw [hc] at ec ⊢
    cases hst : standard (E.num p.minRmse) 8 p.mode (some m) p.recs [] (pending p ++ fresh E.bC2 false ys) with
    | error x => simp [hst, bind, Except.bind] at ec
    | ok out =>
      simp only [hst, bind, Except.bind] at ec
      obtain ⟨f1, f2, f3, f4⟩ := packOut_fields ec
      simp only at f1 f2 f3 f4
      obtain ⟨m1, k1, k2, k3, k4, k5⟩ := standard_resume (Z := fresh E.bC2 false zs) (E.num p.minRmse) (hN p.minRmse) hm g
        (by rw [ho1] at hHp; rw [hHp]; exact hcod.sublist hsub1)
        (by rw [ho1] at hHp; rw [hHp]; exact Nat.le_trans hsub1.length_le hlen) hst (by omega)
      have hq1 : q = ⟨p.mode, p.recs, p.minRmse, some m1, [], p.removed ++ out.removed⟩ := by
        rw [packOut_mon (by simp only; omega)] at ec
        cases ec
        simp only [k1, k2] at *
        simp [f1, hmo] at *
      have hqm : q.model = some m1 := by rw [hq1]
      have hpq : pending q = m1.obs.map decode := pending_mon (by omega) hqm
      have Lq : Ledger q (all ++ fresh E.bC2 false ys) := by
        have := ledger_call E h (by omega) (by omega) p.model (fun _ => rfl) ys hqy L (by omega)
          (by rw [hsb]; exact hasc.sublist (List.sublist_append_left _ _))
          (by rw [hsb]; exact hcod.sublist (List.sublist_append_left _ _))
          (by rw [hsb]; simp only [List.length_append] at hlen ⊢; omega)
          (update_call E h e).2.2 (fun _ => hc) (by rw [hq1]; simp)
        rwa [hsb] at this
      have hasc3 : Asc (pending q ++ fresh E.bC2 false zs) := by
        refine hasc.sublist (List.Sublist.append ?_ (List.Sublist.refl _))
        exact (List.sublist_append_right _ _).trans Lq.sub
      rw [monitor_call E hPq (by omega) hqm zs hqz hasc3, hpq, hc]
      by_cases hfz : fresh E.bC2 false zs = []
      · rw [if_pos hfz, fresh_append, hfz, List.append_nil]
        simp only [hst, bind, Except.bind]
        exact ec.symm
      · rw [if_neg hfz]
        have hPq' : Given False 8 p.mode (some m1) p.recs (m1.obs.map decode ++ fresh E.bC2 false zs) :=
          ⟨g.modes, fun _ => ⟨m1, rfl, by simp [k4], False.elim⟩, fun h5 => by omega, False.elim, False.elim,
            False.elim, False.elim⟩
        rcases standard_cases (E.num p.minRmse) [] (by omega) hPq' with
          ⟨out2, _, _, eo2, _⟩ | ⟨_, _, _, h1⟩
        · have := k5 out2 eo2
          rw [fresh_append, ← List.append_assoc]
          rw [hq1]
          simp only [bind, Except.bind, eo2, this]
          rw [List.append_assoc]
        · omega

theorem feed_eq (E : Env V F R M) (hc : E.conse = 8) (hN : ∀ rm f, (E.num rm).narrow f = f) :
    ∀ (bs : List (List Scene)) (p : Pack F R M) (all : List Obs), Promise E.conse p → Ledger p all →
      (p.mode = 1 ∨ p.mode = 11) → bs ≠ [] → (∀ b ∈ bs, b ≠ []) → (∀ b ∈ bs, ∀ o ∈ b, KnownQa o.qa) →
      Stays E p bs → Asc (all ++ fresh E.bC2 false bs.flatten) → Codable (all ++ fresh E.bC2 false bs.flatten) →
      (all ++ fresh E.bC2 false bs.flatten).length ≤ 32767 →
      feed E p bs = update E p bs.flatten
  | [], p, all, _, _, _, h, _, _, _, _, _, _ => absurd rfl h
  | [b], p, all, _, _, _, _, _, _, _, _, _, _ => by
    simp only [feed, List.flatten_cons, List.flatten_nil, List.append_nil, bind, Except.bind]
    cases update E p b <;> rfl
  | b :: c :: bs, p, all, hP, L, hm, _, hne, hk, hst, hasc, hcod, hlen => by
    obtain ⟨q, e, hmo, hst'⟩ := hst
    have hsb : snowBranch E p.mode b = false := by
      rcases hm with e | e <;> simp [snowBranch, e]
    obtain ⟨_, hqb, ec⟩ := update_call E hP e
    have hPq : Promise E.conse q := by
      rcases call_cases E hP (by omega) (by omega) p.model (fun _ => rfl) b hqb with ⟨q', e', hp, _⟩ | ⟨e', _⟩
      · rw [ec] at e'; cases e'; exact hp
      · rw [ec] at e'; simp at e'
    have hfl : (b :: c :: bs).flatten = b ++ (c :: bs).flatten := rfl
    have hqe : q.queue = [] := (hPq.monitor (by rcases hm with e | e <;> simp [e, hmo])).2
    rw [hfl] at hasc hcod hlen ⊢
    have hasc' := hasc
    have hcod' := hcod
    have hlen' := hlen
    rw [fresh_append, ← List.append_assoc] at hasc' hcod' hlen'
    have Lq : Ledger q (all ++ fresh E.bC2 false b) := by
      have := ledger_call E hP (by omega) (by omega) p.model (fun _ => rfl) b hqb L (by omega)
        (by rw [hsb]; exact hasc'.sublist (List.sublist_append_left _ _))
        (by rw [hsb]; exact hcod'.sublist (List.sublist_append_left _ _))
        (by rw [hsb]; simp only [List.length_append] at hlen' ⊢; omega)
        ec (fun _ => hc) (by rw [hqe]; simp)
      rwa [hsb] at this
    have hflat : (c :: bs).flatten ≠ [] := by
      have := hne c (by simp)
      simp [this]
    have hkf : ∀ o ∈ (c :: bs).flatten, KnownQa o.qa := by
      intro o ho
      obtain ⟨l, hl, hol⟩ := List.mem_flatten.mp ho
      exact hk l (by simp only [List.mem_cons] at hl ⊢; exact .inr hl) o hol
    have ih := feed_eq E hc hN (c :: bs) q (all ++ fresh E.bC2 false b) hPq Lq (by omega) (by simp)
      (fun b' hb' => hne b' (by simp only [List.mem_cons] at hb' ⊢; exact .inr hb'))
      (fun b' hb' => hk b' (by simp only [List.mem_cons] at hb' ⊢; exact .inr hb')) hst' hasc' hcod' hlen'
    rw [feed]
    simp only [e, bind, Except.bind]
    rw [ih]
    exact update_resume E hc hN hP L hm e hmo hflat hkf hasc hcod hlen

end Pycold.Sccd
