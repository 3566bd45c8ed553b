import Verif.Proof.SccdInv
/-!
# The S-CCD loop as a whole: it ends, loses nothing, and what changes from one iteration to the next
-/
namespace Pycold.Sccd
variable {V F R M : Type}

theorem length_tail8 {conse : Nat} {obs : List Obs} {i : Nat} (h : i + conse ≤ obs.length) :
    (tail8 conse obs i).length = 8 := by
  simp [tail8, NCONSE]; omega

/-- What one iteration does to records, stored model and flags. -/
structure Delta (conse mode0 : Nat) (s s' : St F R) : Prop where
  grow : s'.recs = s.recs ∨ ∃ r, s'.recs = s.recs ++ [r]
  act : (s'.changed = s.changed ∧ s'.model = s.model ∧
      (s.train = true → s'.train = true ∧ s'.recs = s.recs) ∧ (s.recs ≠ [] → s'.recs = s.recs)) ∨
    (s.train = true ∧ s'.train = false ∧ s'.changed = (s.changed || decide (mode0 ≠ 0)) ∧
      (∃ m, s'.model = some m ∧ m.obs.length = 8 ∧ m.conseLast = conse) ∧
      ∃ r, s'.recs = s.recs ++ [r])

theorem step_delta (N : Num V F R) {conse mode0 : Nat} {G : Prop} {H0 X : List Obs} {s s' : St F R} (hc : 0 < conse)
    (inv : Inv G H0 X s) (h2 : s.i + conse + 1 ≤ s.obs.length) (h : step N conse mode0 s = .ok s') :
    Delta conse mode0 s s' := by
  have hi : s.i < s.obs.length := by omega
  unfold step at h
  cases ht : s.train with
  | true =>
    simp only [ht, if_true] at h
    obtain ⟨f, hf⟩ := Option.isSome_iff_exists.mp (inv.tfilt ht)
    have hi1 : s.i + 1 < s.obs.length := by omega
    have hi2 : s.i + conse - 1 < s.obs.length := by omega
    unfold step2 at h
    simp only [hf, chk_ok hi2, rd_ok hi, rd_ok hi1, bind, Except.bind] at h
    split at h
    · cases h
      exact ⟨.inr ⟨_, rfl⟩, .inr ⟨ht, rfl, rfl, ⟨_, rfl, length_tail8 (by omega), rfl⟩, _, rfl⟩⟩
    · split at h
      · cases h
        exact ⟨.inl rfl, .inl ⟨rfl, rfl, fun _ => ⟨by simpa using ht, rfl⟩, fun _ => rfl⟩⟩
      · cases h
        exact ⟨.inl rfl, .inl ⟨rfl, rfl, fun _ => ⟨by simpa using ht, rfl⟩, fun _ => rfl⟩⟩
  | false =>
    simp only [ht, Bool.false_eq_true, if_false] at h
    have hst := inv.nstart ht
    have hs : s.iStart < s.obs.length := by omega
    unfold trainStep at h
    simp only [rd_ok hs, rd_ok hi, bind, Except.bind] at h
    by_cases hg : (decide (s.iStart + MIN_OBS ≤ s.i + 1) && yearOrMore (s.obs[s.i].date - s.obs[s.iStart].date)) = true
    · simp only [hg, if_true] at h
      rcases step1_cases N hc s hst h2 (inv.nprev ht) (inv.ndense ht) (inv.nfirst ht) with
        ⟨s1, e, hI⟩ | ⟨s2, P, Q1, E, K, T, e, hC⟩ | ⟨e, hc6, hr⟩
      · simp only [e, Bool.not_false, if_true] at h
        cases h
        obtain ⟨e1, e2, e3, e4, e5, e6, e7, e8, e9, e10⟩ := hI.same
        exact ⟨.inl e5, .inl ⟨by simpa using e7, by simpa using e6, by simp [ht], fun _ => e5⟩⟩
      · obtain ⟨e1, e2, e3, e4, e5, e6, e7, e8⟩ := hC.same
        have hl : s2.i + 1 < s2.obs.length := by
          rw [hC.i, hC.obs, hC.back]; simp; omega
        have hl' : s2.iStart < s2.obs.length := by
          rw [hC.start, hC.obs]; have := hC.long; simp; omega
        simp only [e, Bool.not_true, Bool.false_eq_true, if_false, rd_ok hl, rd_ok hl'] at h
        cases h
        refine ⟨?_, .inl ⟨e6, e5, by simp [ht], ?_⟩⟩
        rotate_left
        · intro hne
          rcases hC.recs with ⟨r1, _⟩ | ⟨r, r1, r2, _⟩
          · exact r1
          · exact absurd r1 hne
        rcases hC.recs with ⟨r1, _⟩ | ⟨r, r1, r2, _⟩
        · exact .inl r1
        · exact .inr ⟨r, by simp only [r1, r2, List.nil_append]⟩
      · simp [e] at h
    · simp only [hg] at h
      cases h
      exact ⟨.inl rfl, .inl ⟨rfl, rfl, by simp [ht], fun _ => rfl⟩⟩

/-- What a whole run of the loop does to them. -/
structure Run (conse mode0 : Nat) (s s' : St F R) : Prop where
  grow : s.recs <+: s'.recs
  zero : mode0 = 0 → s'.changed = s.changed
  keep : s'.changed = s.changed → mode0 ≠ 0 → s.changed = false →
    s'.model = s.model ∧ (s.train = true → s'.train = true ∧ s'.recs = s.recs) ∧
      (s.recs ≠ [] → s'.recs = s.recs)
  once : s.changed = true → s'.changed = true
  model : s'.model = s.model ∨ ∃ m, s'.model = some m ∧ m.obs.length = 8 ∧ m.conseLast = conse
  chg : s.changed = false → s'.changed = true →
    (∃ m, s'.model = some m ∧ m.obs.length = 8 ∧ m.conseLast = conse) ∧ s.recs.length < s'.recs.length

theorem Run.refl (conse mode0 : Nat) (s : St F R) : Run conse mode0 s s :=
  ⟨List.prefix_rfl, fun _ => rfl, fun _ _ _ => ⟨rfl, fun h => ⟨h, rfl⟩, fun _ => rfl⟩, id, .inl rfl,
    fun h1 h2 => by simp [h1] at h2⟩

theorem Delta.run {conse mode0 : Nat} {s s1 s' : St F R} (d : Delta conse mode0 s s1)
    (r : Run conse mode0 s1 s') : Run conse mode0 s s' := by
  have hg : s.recs <+: s1.recs := by
    rcases d.grow with h | ⟨x, h⟩
    · rw [h]; exact List.prefix_rfl
    · rw [h]; exact List.prefix_append _ _
  have hl : s.recs.length ≤ s1.recs.length := hg.length_le
  have hl' : s1.recs.length ≤ s'.recs.length := r.grow.length_le
  rcases d.act with ⟨c, m, t, tr⟩ | ⟨t, t', c, ⟨m, hm, hm8, hmc⟩, x, hx⟩
  · refine ⟨hg.trans r.grow, fun h0 => (r.zero h0).trans c, ?_, fun h => r.once (c.trans h), ?_, ?_⟩
    · intro h1 h2 h3
      obtain ⟨k1, k2, k3⟩ := r.keep (h1.trans c.symm) h2 (c.trans h3)
      exact ⟨k1.trans m, fun ht => ⟨(k2 (t ht).1).1, ((k2 (t ht).1).2).trans (t ht).2⟩,
        fun hr => (k3 (by rw [tr hr]; exact hr)).trans (tr hr)⟩
    · rw [← m]; exact r.model
    · intro h1 h2
      obtain ⟨k1, k2⟩ := r.chg (c.trans h1) h2
      exact ⟨k1, by omega⟩
  · have hlt : s.recs.length < s1.recs.length := by simp [hx]
    have hmod : ∃ m, s'.model = some m ∧ m.obs.length = 8 ∧ m.conseLast = conse := by
      rcases r.model with h | h
      · exact ⟨m, h.trans hm, hm8, hmc⟩
      · exact h
    refine ⟨hg.trans r.grow, ?_, ?_, ?_, .inr hmod, fun _ _ => ⟨hmod, by omega⟩⟩
    · intro h0
      rw [r.zero h0, c]; simp [h0]
    · intro h1 h2 h3
      have : s1.changed = true := by rw [c]; simp [h2]
      rw [r.once this, h3] at h1
      simp at h1
    · intro h
      exact r.once (by rw [c, h]; rfl)

/-- The loop ends (within the fuel the model gives it), fails only on the negative index of the
opening record, keeps the invariant and stops exactly `conse` observations before the end. -/
theorem loop_inv (N : Num V F R) {conse mode0 : Nat} {G : Prop} {H0 X : List Obs} (hc : 0 < conse) :
    ∀ (k : Nat) (s : St F R), Inv G H0 X s → s.obs.length - s.i - conse ≤ k →
    (∃ s', loop N conse mode0 k s = .ok s' ∧ Inv G H0 X s' ∧ Run conse mode0 s s' ∧
      s'.obs.length ≤ s'.i + conse ∧
      s'.obs.drop s'.i = s.obs.drop (s.i + (s.obs.length - s.i - conse))) ∨
    (loop N conse mode0 k s = .error .oob ∧ 6 < conse ∧ s.recs = [] ∧ s.train = false)
  | 0, s, inv, hk => by
    unfold loop
    rw [if_neg (by omega)]
    exact .inl ⟨s, rfl, inv, Run.refl .., by omega, by rw [show s.obs.length - s.i - conse = 0 by omega]; rfl⟩
  | k + 1, s, inv, hk => by
    unfold loop
    by_cases h2 : s.i + conse + 1 ≤ s.obs.length
    · rw [if_pos h2]
      rcases step_inv N (mode0 := mode0) hc inv h2 with ⟨s1, e, inv1, hd⟩ | ⟨e, h6, hr, ht⟩
      · have d := step_delta N hc inv h2 e
        have hlen : s1.obs.length - s1.i = s.obs.length - (s.i + 1) := by
          have := congrArg List.length hd
          simpa using this
        simp only [e, bind, Except.bind]
        rcases loop_inv N (mode0 := mode0) hc k s1 inv1 (by omega) with ⟨s', e', inv', r', l', d'⟩ | ⟨e', h6, hr, ht⟩
        · refine .inl ⟨s', e', inv', d.run r', l', ?_⟩
          rw [d', ← List.drop_drop, hd, List.drop_drop]
          congr 1
          omega
        · have hn : ∀ x, s1.recs ≠ s.recs ++ [x] := by intro x h; rw [hr] at h; simp at h
          have hr' : s.recs = [] := by
            rcases d.grow with h | ⟨x, h⟩
            · rw [← h, hr]
            · exact absurd h (hn x)
          refine .inr ⟨e', h6, hr', ?_⟩
          rcases d.act with ⟨_, _, t, _⟩ | ⟨_, _, _, _, x, hx⟩
          · cases hq : s.train with
            | false => rfl
            | true => rw [(t hq).1] at ht; simp at ht
          · exact absurd hx (hn x)
      · exact .inr ⟨by simp [e, bind, Except.bind], h6, hr, ht⟩
    · rw [if_neg h2]
      exact .inl ⟨s, rfl, inv, Run.refl .., by omega, by rw [show s.obs.length - s.i - conse = 0 by omega]; rfl⟩

end Pycold.Sccd
