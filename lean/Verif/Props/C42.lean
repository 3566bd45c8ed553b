import Verif.Proof.Validation
/-!
# C42: what the public functions accept
-/
namespace Pycold.Validation

open Spec

theorem asDouble_real {cy : Cy} {v : PyVal} {x : ℚ} (h : IsReal v x) (r : Fl) :
    asDouble cy v = .ok r ↔ r = .fin x := by
  rcases h with rfl | ⟨n, rfl | ⟨b, rfl, rfl⟩, rfl, _⟩
  · simp [asDouble, eq_comm]
  · simp [asDouble, eq_comm]
  · cases b <;> simp [asDouble, eq_comm]

theorem asInt_int {cy : Cy} {v : PyVal} {n : Int} (h : IsInt v n) (r : Int) :
    asInt cy v = .ok r ↔ r = n ∧ -2 ^ 31 ≤ n ∧ n < 2 ^ 31 := by
  rcases h with rfl | ⟨b, rfl, rfl⟩
  · by_cases h : -2 ^ 31 ≤ n ∧ n < 2 ^ 31
    · simp only [asInt, if_pos h, Except.ok.injEq]
      constructor
      · rintro rfl; exact ⟨rfl, h⟩
      · rintro ⟨rfl, _⟩; rfl
    · simp only [asInt, if_neg h, reduceCtorEq, false_iff]
      rintro ⟨_, h'⟩; exact h h'
  · cases b <;> simp [asInt, eq_comm]

theorem asBint_switch {v : PyVal} {b : Bool} (h : IsSwitch v b) (r : Bool) : asBint v = .ok r ↔ r = b := by
  rcases h with rfl | rfl | ⟨n, rfl, rfl⟩ <;> simp [asBint, eq_comm]

/-- The constraints of the table that are used, in words. -/
theorem realPos (v : PyVal) :
    (Constraint.interval ⟨.real, some 0, none, .neither⟩).satisfied v = .ok true ↔ ∃ x, IsReal v x ∧ 0 < x := by
  rw [sat_real _ rfl (.inl rfl)]
  simp [Inside]

theorem realNonneg (v : PyVal) :
    (Constraint.interval ⟨.real, some 0, none, .left⟩).satisfied v = .ok true ↔ ∃ x, IsReal v x ∧ 0 ≤ x := by
  rw [sat_real _ rfl (.inr ⟨by simp, rfl⟩)]
  simp [Inside]

theorem realAny (v : PyVal) :
    (Constraint.interval ⟨.real, none, none, .neither⟩).satisfied v = .ok true ↔ ∃ x, IsReal v x := by
  rw [sat_real _ rfl (.inl rfl)]
  simp [Inside]

theorem intPos (v : PyVal) : (Constraint.interval ⟨.integral, some 0, none, .neither⟩).satisfied v = .ok true ↔
    ∃ n, IsInt v n ∧ 0 < n ∧ n < 2 ^ 64 := by
  rw [sat_int _ rfl]
  constructor
  · rintro ⟨n, h, hi, _, h2⟩
    exact ⟨n, h, by simpa [Inside] using hi, h2⟩
  · rintro ⟨n, h, hi, h2⟩
    exact ⟨n, h, by simpa [Inside] using hi, by omega, h2⟩

theorem intNonneg (v : PyVal) : (Constraint.interval ⟨.integral, some 0, none, .left⟩).satisfied v = .ok true ↔
    ∃ n, IsInt v n ∧ 0 ≤ n ∧ n < 2 ^ 64 := by
  rw [sat_int _ rfl]
  constructor
  · rintro ⟨n, h, hi, _, h2⟩
    exact ⟨n, h, by simpa [Inside] using hi, h2⟩
  · rintro ⟨n, h, hi, h2⟩
    exact ⟨n, h, by simpa [Inside] using hi, by omega, h2⟩

theorem intBelow (v : PyVal) (k : Int) (hk : k < 2 ^ 64) :
    (Constraint.interval ⟨.integral, some 0, some k, .neither⟩).satisfied v = .ok true ↔
    ∃ n, IsInt v n ∧ 0 < n ∧ n < k := by
  rw [sat_int _ rfl]
  constructor
  · rintro ⟨n, h, hi, _, h2⟩
    simp only [Inside] at hi
    have h1 := hi.1 0 rfl
    have h3 := hi.2 k rfl
    simp at h1 h3
    exact ⟨n, h, h1, h3⟩
  · rintro ⟨n, h, h1, h3⟩
    exact ⟨n, h, by simp [Inside, h1, h3], by omega, by omega⟩

theorem intUpTo (v : PyVal) (k : Int) (hk : k < 2 ^ 64) :
    (Constraint.interval ⟨.integral, some 0, some k, .right⟩).satisfied v = .ok true ↔
    ∃ n, IsInt v n ∧ 0 < n ∧ n ≤ k := by
  rw [sat_int _ rfl]
  constructor
  · rintro ⟨n, h, hi, _, h2⟩
    simp only [Inside] at hi
    have h1 := hi.1 0 rfl
    have h3 := hi.2 k rfl
    simp at h1 h3
    exact ⟨n, h, h1, h3⟩
  · rintro ⟨n, h, h1, h3⟩
    exact ⟨n, h, by simp [Inside, h1, h3], by omega, by omega⟩

/-- `cold_detect` starts working exactly if every parameter that has a documented range is of the right
kind and in that range, positions and dates fit a C `int`, and the nine arrays are one-dimensional, of
the same length and not empty; and it then works with the values given.  `cm_output_interval` and `b_c2`
are not validated: whatever Cython can convert is accepted. -/
theorem C42_cold_detect_partial (cy : Cy) (a : ColdArgs) (d : Data) (r : ColdC) : coldDetect cy a d = .ok r ↔
    (∃ x, IsReal a.tCg x ∧ 0 < x ∧ r.tCg = .fin x) ∧
    (IsInt a.pos r.pos ∧ 0 < r.pos ∧ r.pos < 2 ^ 31) ∧
    (IsInt a.conse r.conse ∧ 0 < r.conse ∧ r.conse < 12) ∧
    IsSwitch a.bOutputCm r.bOutputCm ∧
    (IsInt a.startingDate r.startingDate ∧ 0 ≤ r.startingDate ∧ r.startingDate < 2 ^ 31) ∧
    (IsInt a.nCm r.nCm ∧ 0 ≤ r.nCm ∧ r.nCm < 2 ^ 31) ∧
    asInt cy a.cmOutputInterval = .ok r.cmOutputInterval ∧
    asBint a.bC2 = .ok r.bC2 ∧
    (∃ x, IsReal a.gapDays x ∧ 0 ≤ x ∧ r.gapDays = .fin x) ∧
    Vectors d r.n ∧ 0 < r.n := by
  have hv : validate [("t_cg", a.tCg), ("pos", a.pos), ("conse", a.conse), ("b_output_cm", a.bOutputCm),
    ("starting_date", a.startingDate), ("n_cm", a.nCm), ("cm_output_interval", a.cmOutputInterval),
    ("b_c2", a.bC2), ("gap_days", a.gapDays)] = .ok () ↔
      (∃ x, IsReal a.tCg x ∧ 0 < x) ∧ (∃ n, IsInt a.pos n ∧ 0 < n ∧ n < 2 ^ 64) ∧
      (∃ n, IsInt a.conse n ∧ 0 < n ∧ n < 12) ∧ (∃ b, IsSwitch a.bOutputCm b) ∧
      (∃ n, IsInt a.startingDate n ∧ 0 ≤ n ∧ n < 2 ^ 64) ∧ (∃ n, IsInt a.nCm n ∧ 0 ≤ n ∧ n < 2 ^ 64) ∧
      (∃ x, IsReal a.gapDays x ∧ 0 ≤ x) := by
    rw [validate_cons (by rfl), validate_cons (by rfl), validate_cons (by rfl), validate_cons (by rfl),
      validate_cons (by rfl), validate_cons (by rfl), validate_skip (by rfl), validate_skip (by rfl),
      validate_cons (by rfl), realPos, intPos, sat_bool, intNonneg, intNonneg, realNonneg]
    have := intBelow a.conse 12 (by norm_num)
    simp only [Int.cast_ofNat] at this
    rw [this]
    simp [validate]
  unfold coldDetect
  simp only [bind_ok, hv]
  constructor
  · rintro ⟨_, ⟨⟨x, hx, hx0⟩, ⟨p, hp, hp0, _⟩, ⟨c, hc, hc0, hc1⟩, ⟨b, hb⟩, ⟨s, hs, hs0, _⟩, ⟨m, hm, hm0, _⟩, ⟨g, hg, hg0⟩⟩,
      _, hd, t', h1, p', h2, c', h3, b', h4, s', h5, m', h6, i', h7, z', h8, g', h9, n, h10, h11⟩
    split at h11
    · cases h11
    · rename_i hn
      cases h11
      obtain ⟨rfl, hp1⟩ := (asInt_int hp _).mp h2
      obtain ⟨rfl, _⟩ := (asInt_int hc _).mp h3
      obtain ⟨rfl, hs1⟩ := (asInt_int hs _).mp h5
      obtain ⟨rfl, hm1⟩ := (asInt_int hm _).mp h6
      obtain rfl := (asBint_switch hb _).mp h4
      exact ⟨⟨x, hx, hx0, (asDouble_real hx _).mp h1⟩, ⟨hp, hp0, hp1.2⟩, ⟨hc, hc0, hc1⟩, hb, ⟨hs, hs0, hs1.2⟩,
        ⟨hm, hm0, hm1.2⟩, h7, h8, ⟨g, hg, hg0, (asDouble_real hg _).mp h9⟩, (data_ok d n).mp ⟨hd, h10⟩,
        Nat.pos_of_ne_zero hn⟩
  · rintro ⟨⟨x, hx, hx0, ex⟩, ⟨hp, hp0, hp1⟩, ⟨hc, hc0, hc1⟩, hb, ⟨hs, hs0, hs1⟩, ⟨hm, hm0, hm1⟩, h7, h8,
      ⟨g, hg, hg0, eg⟩, hd, hn⟩
    obtain ⟨hd1, hd2⟩ := (data_ok d r.n).mpr hd
    refine ⟨(), ⟨⟨x, hx, hx0⟩, ⟨_, hp, hp0, by omega⟩, ⟨_, hc, hc0, hc1⟩, ⟨_, hb⟩, ⟨_, hs, hs0, by omega⟩,
      ⟨_, hm, hm0, by omega⟩, ⟨g, hg, hg0⟩⟩, (), hd1, r.tCg, (asDouble_real hx _).mpr ex, r.pos,
      (asInt_int hp _).mpr ⟨rfl, by omega, hp1⟩, r.conse, (asInt_int hc _).mpr ⟨rfl, by omega, by omega⟩, r.bOutputCm,
      (asBint_switch hb _).mpr rfl, r.startingDate, (asInt_int hs _).mpr ⟨rfl, by omega, hs1⟩, r.nCm,
      (asInt_int hm _).mpr ⟨rfl, by omega, hm1⟩, r.cmOutputInterval, h7, r.bC2, h8, r.gapDays,
      (asDouble_real hg _).mpr eg, r.n, hd2, ?_⟩
    rw [if_neg (by omega)]

theorem data_ok_break (d : Data) (n : Nat) (b : Arr) (hb : b ≠ .missing) :
    (validateData d (some b) = .ok () ∧ asVectors d = .ok n) ↔ Vectors d n ∧ ∃ m, b = .nd [m] := by
  have h : validateData d (some b) = .ok () ↔ validateData d none = .ok () ∧ check1d b = .ok () := by
    have e : ∀ (u : Except Exc Unit), (match some b with
        | none => (Except.ok () : Except Exc Unit)
        | some .missing => .ok ()
        | some b => check1d b) = check1d b := by
      intro _
      cases b with
      | missing => exact absurd rfl hb
      | seq n => rfl
      | nd s => rfl
    unfold validateData
    simp only [bind_ok, e (.ok ())]
    constructor
    · rintro ⟨_, h1, _, h2, _, h3, _, h4, _, h5, _, h6, _, h7, _, h8, _, h9, _, h10, h11⟩
      exact ⟨⟨_, h1, _, h2, _, h3, _, h4, _, h5, _, h6, _, h7, _, h8, _, h9, (), trivial, h11⟩, h10⟩
    · rintro ⟨⟨_, h1, _, h2, _, h3, _, h4, _, h5, _, h6, _, h7, _, h8, _, h9, _, _, h11⟩, h10⟩
      exact ⟨_, h1, _, h2, _, h3, _, h4, _, h5, _, h6, _, h7, _, h8, _, h9, (), h10, h11⟩
  rw [h, check1d_ok]
  constructor
  · rintro ⟨⟨h1, h2⟩, h3⟩
    exact ⟨(data_ok d n).mp ⟨h1, h3⟩, h2⟩
  · rintro ⟨h1, h2⟩
    obtain ⟨h3, h4⟩ := (data_ok d n).mpr h1
    exact ⟨⟨h3, h2⟩, h4⟩

/-- `obcold_reconstruct`: there must be at least one break date. -/
theorem C42_obcold_reconstruct_partial (cy : Cy) (pos conse bC2 : PyVal) (d : Data) (breaks : Arr) (r : ObcoldC) :
    obcoldReconstruct cy pos conse bC2 d breaks = .ok r ↔
    (IsInt pos r.pos ∧ 0 < r.pos ∧ r.pos < 2 ^ 31) ∧
    (IsInt conse r.conse ∧ 0 < r.conse ∧ r.conse < 12) ∧
    asBint bC2 = .ok r.bC2 ∧
    Vectors d r.n ∧ 0 < r.n ∧ breaks = .nd [r.breaks] ∧ 0 < r.breaks := by
  have hv : validate [("pos", pos), ("conse", conse), ("b_c2", bC2)] = .ok () ↔
      (∃ n, IsInt pos n ∧ 0 < n ∧ n < 2 ^ 64) ∧ (∃ n, IsInt conse n ∧ 0 < n ∧ n < 12) := by
    rw [validate_cons (by rfl), validate_cons (by rfl), validate_skip (by rfl), intPos]
    have := intBelow conse 12 (by norm_num)
    simp only [Int.cast_ofNat] at this
    rw [this]
    simp [validate]
  unfold obcoldReconstruct
  simp only [bind_ok, hv]
  constructor
  · rintro ⟨_, ⟨⟨p, hp, hp0, _⟩, ⟨c, hc, hc0, hc1⟩⟩, _, hd, h⟩
    split at h
    · cases h
    · rename_i hb
      simp only [bind_ok] at h
      obtain ⟨p', h1, c', h2, z, h3, n, h4, m, h5, h6⟩ := h
      split at h6
      · cases h6
      · rename_i hn
        cases h6
        obtain ⟨rfl, hp1⟩ := (asInt_int hp _).mp h1
        obtain ⟨rfl, _⟩ := (asInt_int hc _).mp h2
        exact ⟨⟨hp, hp0, hp1.2⟩, ⟨hc, hc0, hc1⟩, h3, ((data_ok_break d n breaks hb).mp ⟨hd, h4⟩).1, by simp only; omega,
          (asVector_ok _ _).mp h5, by simp only; omega⟩
  · rintro ⟨⟨hp, hp0, hp1⟩, ⟨hc, hc0, hc1⟩, h3, hd, hn, hb, hm⟩
    have hb' : breaks ≠ .missing := by rw [hb]; simp
    obtain ⟨hd1, hd2⟩ := (data_ok_break d r.n breaks hb').mpr ⟨hd, _, hb⟩
    refine ⟨(), ⟨⟨_, hp, hp0, by omega⟩, ⟨_, hc, hc0, hc1⟩⟩, (), hd1, ?_⟩
    rw [if_neg hb']
    simp only [bind_ok]
    refine ⟨r.pos, (asInt_int hp _).mpr ⟨rfl, by omega, hp1⟩, r.conse, (asInt_int hc _).mpr ⟨rfl, by omega, by omega⟩,
      r.bC2, h3, r.n, hd2, r.breaks, (asVector_ok _ _).mpr hb, ?_⟩
    rw [if_neg (by omega)]

/-- `sccd_detect`: `conse` is at most 8.  The value given for `b_monitor_init` becomes the threshold
`predictability_tcg`. -/
theorem C42_sccd_detect_partial (cy : Cy) (a : SccdArgs) (d : Data) (r : SccdC) : sccdDetect cy a d = .ok r ↔
    (∃ x, IsReal a.tCg x ∧ 0 < x ∧ r.tCg = .fin x) ∧
    (IsInt a.pos r.pos ∧ 0 < r.pos ∧ r.pos < 2 ^ 31) ∧
    (IsInt a.conse r.conse ∧ 0 < r.conse ∧ r.conse ≤ 8) ∧
    asBint a.bC2 = .ok r.bC2 ∧
    (∃ b, IsSwitch a.bPinpoint b) ∧ r.bPinpoint = a.bPinpoint ∧
    (∃ x, IsReal a.gateTcg x ∧ 0 < x ∧ r.gate = .fin x) ∧
    asDouble cy a.bMonitorInit = .ok r.predictability ∧
    Vectors d r.n ∧ 0 < r.n := by
  have hv : validate [("t_cg", a.tCg), ("pos", a.pos), ("conse", a.conse), ("b_c2", a.bC2),
    ("b_pinpoint", a.bPinpoint), ("gate_tcg", a.gateTcg), ("b_monitor_init", a.bMonitorInit)] = .ok () ↔
      (∃ x, IsReal a.tCg x ∧ 0 < x) ∧ (∃ n, IsInt a.pos n ∧ 0 < n ∧ n < 2 ^ 64) ∧
      (∃ n, IsInt a.conse n ∧ 0 < n ∧ n < 12) ∧ (∃ b, IsSwitch a.bPinpoint b) ∧ (∃ x, IsReal a.gateTcg x ∧ 0 < x) := by
    rw [validate_cons (by rfl), validate_cons (by rfl), validate_cons (by rfl), validate_skip (by rfl),
      validate_cons (by rfl), validate_cons (by rfl), validate_skip (by rfl), realPos, intPos, sat_bool, realPos]
    have := intBelow a.conse 12 (by norm_num)
    simp only [Int.cast_ofNat] at this
    rw [this]
    simp [validate]
  unfold sccdDetect
  simp only [bind_ok, hv]
  constructor
  · rintro ⟨_, ⟨⟨x, hx, hx0⟩, ⟨p, hp, hp0, _⟩, ⟨c, hc, hc0, hc1⟩, hb, ⟨g, hg, hg0⟩⟩, _, hd, t', h1, p', h2, c', h3, z', h4,
      g', h5, q', h6, n, h7, h8⟩
    split at h8
    · cases h8
    · rename_i hc8
      split at h8
      · cases h8
      · rename_i hn
        cases h8
        obtain ⟨rfl, hp1⟩ := (asInt_int hp _).mp h2
        obtain ⟨rfl, _⟩ := (asInt_int hc _).mp h3
        exact ⟨⟨x, hx, hx0, (asDouble_real hx _).mp h1⟩, ⟨hp, hp0, hp1.2⟩, ⟨hc, hc0, by simp only; omega⟩, h4, hb, rfl,
          ⟨g, hg, hg0, (asDouble_real hg _).mp h5⟩, h6, (data_ok d n).mp ⟨hd, h7⟩, by simp only; omega⟩
  · rintro ⟨⟨x, hx, hx0, ex⟩, ⟨hp, hp0, hp1⟩, ⟨hc, hc0, hc1⟩, h4, hb, eb, ⟨g, hg, hg0, eg⟩, h6, hd, hn⟩
    obtain ⟨hd1, hd2⟩ := (data_ok d r.n).mpr hd
    refine ⟨(), ⟨⟨x, hx, hx0⟩, ⟨_, hp, hp0, by omega⟩, ⟨_, hc, hc0, by omega⟩, hb, ⟨g, hg, hg0⟩⟩, (), hd1, r.tCg,
      (asDouble_real hx _).mpr ex, r.pos, (asInt_int hp _).mpr ⟨rfl, by omega, hp1⟩, r.conse,
      (asInt_int hc _).mpr ⟨rfl, by omega, by omega⟩, r.bC2, h4, r.gate, (asDouble_real hg _).mpr eg, r.predictability,
      h6, r.n, hd2, ?_⟩
    rw [if_neg (by omega), if_neg (by omega), ← eb]

/-- `sccd_update` accepts `conse` up to 11, although a pack holds 8 observations. -/
theorem C42_sccd_update_partial (cy : Cy) (a : UpdateArgs) (d : Data) (r : SccdC) : sccdUpdate cy a d = .ok r ↔
    (∃ x, IsReal a.tCg x ∧ 0 < x ∧ r.tCg = .fin x) ∧
    (IsInt a.pos r.pos ∧ 0 < r.pos ∧ r.pos < 2 ^ 31) ∧
    (IsInt a.conse r.conse ∧ 0 < r.conse ∧ r.conse < 12) ∧
    asBint a.bC2 = .ok r.bC2 ∧ r.bPinpoint = .bool false ∧
    (∃ x, IsReal a.gateTcg x ∧ 0 < x ∧ r.gate = .fin x) ∧
    (∃ x, IsReal a.predictabilityTcg x ∧ 0 < x ∧ r.predictability = .fin x) ∧
    Vectors d r.n ∧ 0 < r.n := by
  have hv : validate [("t_cg", a.tCg), ("pos", a.pos), ("conse", a.conse), ("b_c2", a.bC2),
    ("b_pinpoint", .bool false), ("gate_tcg", a.gateTcg), ("predictability_tcg", a.predictabilityTcg)] = .ok () ↔
      (∃ x, IsReal a.tCg x ∧ 0 < x) ∧ (∃ n, IsInt a.pos n ∧ 0 < n ∧ n < 2 ^ 64) ∧
      (∃ n, IsInt a.conse n ∧ 0 < n ∧ n < 12) ∧ (∃ x, IsReal a.gateTcg x ∧ 0 < x) ∧
      (∃ x, IsReal a.predictabilityTcg x ∧ 0 < x) := by
    rw [validate_cons (by rfl), validate_cons (by rfl), validate_cons (by rfl), validate_skip (by rfl),
      validate_cons (by rfl), validate_cons (by rfl), validate_cons (by rfl), realPos, intPos, sat_bool, realPos, realPos]
    have := intBelow a.conse 12 (by norm_num)
    simp only [Int.cast_ofNat] at this
    rw [this]
    have hs : ∃ b, IsSwitch (.bool false) b := ⟨false, .inl rfl⟩
    simp [validate, hs]
  unfold sccdUpdate
  simp only [bind_ok, hv]
  constructor
  · rintro ⟨_, ⟨⟨x, hx, hx0⟩, ⟨p, hp, hp0, _⟩, ⟨c, hc, hc0, hc1⟩, ⟨g, hg, hg0⟩, ⟨q, hq, hq0⟩⟩, _, hd, t', h1, p', h2, c', h3,
      z', h4, g', h5, q', h6, n, h7, h8⟩
    split at h8
    · cases h8
    · rename_i hn
      cases h8
      obtain ⟨rfl, hp1⟩ := (asInt_int hp _).mp h2
      obtain ⟨rfl, _⟩ := (asInt_int hc _).mp h3
      exact ⟨⟨x, hx, hx0, (asDouble_real hx _).mp h1⟩, ⟨hp, hp0, hp1.2⟩, ⟨hc, hc0, hc1⟩, h4, rfl,
        ⟨g, hg, hg0, (asDouble_real hg _).mp h5⟩, ⟨q, hq, hq0, (asDouble_real hq _).mp h6⟩, (data_ok d n).mp ⟨hd, h7⟩,
        by simp only; omega⟩
  · rintro ⟨⟨x, hx, hx0, ex⟩, ⟨hp, hp0, hp1⟩, ⟨hc, hc0, hc1⟩, h4, eb, ⟨g, hg, hg0, eg⟩, ⟨q, hq, hq0, eq⟩, hd, hn⟩
    obtain ⟨hd1, hd2⟩ := (data_ok d r.n).mpr hd
    refine ⟨(), ⟨⟨x, hx, hx0⟩, ⟨_, hp, hp0, by omega⟩, ⟨_, hc, hc0, by omega⟩, ⟨g, hg, hg0⟩, ⟨q, hq, hq0⟩⟩, (), hd1, r.tCg,
      (asDouble_real hx _).mpr ex, r.pos, (asInt_int hp _).mpr ⟨rfl, by omega, hp1⟩, r.conse,
      (asInt_int hc _).mpr ⟨rfl, by omega, by omega⟩, r.bC2, h4, r.gate, (asDouble_real hg _).mpr eg, r.predictability,
      (asDouble_real hq _).mpr eq, r.n, hd2, ?_⟩
    rw [if_neg (by omega), ← eb]

/-- `sccd_identify`. -/
theorem C42_sccd_identify (distConse tCg tCgSingle tAngle transformMode : PyVal) :
    sccdIdentify distConse tCg tCgSingle tAngle transformMode = .ok () ↔
    (∃ n, IsInt distConse n ∧ 0 < n ∧ n ≤ 6) ∧ (∃ x, IsReal tCg x ∧ 0 < x) ∧ (∃ x, IsReal tCgSingle x) ∧
    (∃ n, IsInt tAngle n ∧ 0 < n ∧ n < 18000) ∧ (∃ b, IsSwitch transformMode b) := by
  unfold sccdIdentify
  rw [validate_cons (by rfl), validate_cons (by rfl), validate_cons (by rfl), validate_cons (by rfl),
    validate_cons (by rfl), realPos, realAny, sat_bool]
  have h1 := intUpTo distConse 6 (by norm_num)
  have h2 := intBelow tAngle 18000 (by norm_num)
  simp only [Int.cast_ofNat] at h1 h2
  rw [h1, h2]
  simp [validate]

theorem satisfied_err (c : Constraint) (v : PyVal) (e : Exc) (h : c.satisfied v = .error e) : e = .type := by
  cases c with
  | boolean => cases v <;> cases h
  | interval I =>
    rw [sat_eq] at h
    split at h
    · unfold Interval.contains at h
      cases hn : isnan v with
      | error e' =>
        rw [hn] at h
        cases h
        cases v with
        | int n =>
          by_cases hh : -2 ^ 63 ≤ n ∧ n < 2 ^ 64
          · simp only [isnan, if_pos hh] at hn
            cases hn
          · simp only [isnan, if_neg hh] at hn
            cases hn; rfl
        | bool b => cases hn
        | npBool b => cases hn
        | float f => cases f <;> cases hn
        | other t => cases hn; rfl
      | ok b =>
        rw [hn] at h
        cases b with
        | true => cases h
        | false =>
          simp only [bind, Except.bind] at h
          repeat' (split at h)
          all_goals first | cases h | skip
    · cases h

theorem anySatisfied_err (v : PyVal) : ∀ (cs : List Constraint) (e : Exc), anySatisfied v cs = .error e → e = .type
  | [], _, h => by cases h
  | c :: cs, e, h => by
    rw [anySatisfied] at h
    cases hc : c.satisfied v with
    | error e' =>
      rw [hc] at h
      cases h
      exact satisfied_err c v _ hc
    | ok b =>
      rw [hc] at h
      cases b with
      | true => cases h
      | false => exact anySatisfied_err v cs e h

theorem mem_of_lookup {α β} [BEq α] [LawfulBEq α] {p : α} {c : β} : ∀ {l : List (α × β)}, l.lookup p = some c → (p, c) ∈ l
  | [], h => by cases h
  | (q, d) :: l, h => by
    rw [List.lookup_cons] at h
    cases hq : p == q
    case true =>
      rw [hq] at h
      cases h
      rw [eq_of_beq hq]
      exact List.mem_cons_self
    case false =>
      rw [hq] at h
      exact List.mem_cons_of_mem _ (mem_of_lookup h)

theorem lookup_none {α β} [BEq α] [LawfulBEq α] {p : α} : ∀ {l : List (α × β)}, l.lookup p = none → ∀ c, (p, c) ∉ l
  | [], _, _ => by simp
  | (q, d) :: l, h, c => by
    rw [List.lookup_cons] at h
    cases hq : p == q
    case true => rw [hq] at h; cases h
    case false =>
      rw [hq] at h
      simp only [List.mem_cons, not_or, Prod.mk.injEq, not_and]
      exact ⟨fun e => by simp [e] at hq, lookup_none h c⟩

/-- What the table accepts under each name. -/
theorem accept {p : String} {cs : List Constraint} (h : table.lookup p = some cs) (v : PyVal) :
    anySatisfied v cs = .ok true ↔ Acceptable p v := by
  have hm := mem_of_lookup h
  have h12 := intBelow v 12 (by norm_num)
  have h6 := intUpTo v 6 (by norm_num)
  have h18 := intBelow v 18000 (by norm_num)
  simp only [Int.cast_ofNat] at h12 h6 h18
  simp only [table, List.mem_cons, List.not_mem_nil, or_false, Prod.mk.injEq] at hm
  rcases hm with ⟨rfl, rfl⟩ | ⟨rfl, rfl⟩ | ⟨rfl, rfl⟩ | ⟨rfl, rfl⟩ | ⟨rfl, rfl⟩ | ⟨rfl, rfl⟩ | ⟨rfl, rfl⟩ | ⟨rfl, rfl⟩ |
    ⟨rfl, rfl⟩ | ⟨rfl, rfl⟩ | ⟨rfl, rfl⟩ | ⟨rfl, rfl⟩ | ⟨rfl, rfl⟩ | ⟨rfl, rfl⟩ | ⟨rfl, rfl⟩ <;>
  rw [any_one] <;> simp [Acceptable, realPos, realNonneg, realAny, intPos, intNonneg, sat_bool, h12, h6, h18]

theorem acceptNone {p : String} (h : table.lookup p = none) (v : PyVal) : Acceptable p v := by
  have hm := lookup_none h
  simp only [table, List.mem_cons, List.not_mem_nil, or_false, Prod.mk.injEq, not_or, not_and] at hm
  unfold Acceptable
  repeat' (split)
  all_goals first
    | trivial
    | (rename_i h'; exfalso; rcases h' with h' | h' | h' | h' <;> subst h' <;> simp at hm; done)
    | (rename_i h'; exfalso; rcases h' with h' | h' | h' <;> subst h' <;> simp at hm; done)
    | (rename_i h'; exfalso; rcases h' with h' | h' <;> subst h' <;> simp at hm; done)
    | (rename_i h'; exfalso; subst h'; simp at hm; done)

/-- The parameters are accepted exactly if each is in its documented range; and if validation fails with a
`ValueError`, that names a parameter out of range, the first one. -/
theorem C42_parameters : ∀ (ps : List (String × PyVal)),
    (validate ps = .ok () ↔ ∀ q ∈ ps, Acceptable q.1 q.2) ∧
    ∀ p, validate ps = .error (.value p) → ∃ before v after, ps = before ++ (p, v) :: after ∧
      (∀ q ∈ before, Acceptable q.1 q.2) ∧ ¬ Acceptable p v
  | [] => ⟨by simp [validate], by simp [validate]⟩
  | (name, v) :: rest => by
    obtain ⟨ih1, ih2⟩ := C42_parameters rest
    cases ht : table.lookup name with
    | none =>
      have ha := acceptNone ht v
      have hsk : validate ((name, v) :: rest) = validate rest := by rw [validate, ht]
      rw [hsk]
      refine ⟨by rw [ih1]; simp [ha], ?_⟩
      intro p h
      obtain ⟨b, w, a, h1, h2, h3⟩ := ih2 p h
      refine ⟨(name, v) :: b, w, a, by rw [h1]; rfl, ?_, h3⟩
      simpa [ha] using h2
    | some cs =>
      have hac := accept ht v
      rw [validate, ht]
      simp only [List.mem_cons, forall_eq_or_imp]
      cases hs : anySatisfied v cs with
      | error e =>
        obtain rfl : e = .type := anySatisfied_err v cs e hs
        rw [hs] at hac
        simp only [reduceCtorEq, false_iff] at hac
        simp [bind, Except.bind, hac]
      | ok b =>
        rw [hs] at hac
        cases b with
        | false =>
          simp only [Except.ok.injEq, Bool.false_eq_true, false_iff] at hac
          refine ⟨by simp [bind, Except.bind, hac], ?_⟩
          intro p h
          cases h
          exact ⟨[], v, rest, rfl, by simp, hac⟩
        | true =>
          have hac := hac.mp rfl
          simp only [bind, Except.bind, if_true, hac, true_and]
          refine ⟨ih1, ?_⟩
          intro p h
          obtain ⟨b, w, a, h1, h2, h3⟩ := ih2 p h
          refine ⟨(name, v) :: b, w, a, by rw [h1]; rfl, ?_, h3⟩
          simp only [List.mem_cons, forall_eq_or_imp]
          exact ⟨hac, h2⟩

/-- A number that is not finite is acceptable nowhere where a range is documented. -/
theorem C42_nan_refused (ps : List (String × PyVal)) (p : String) (f : Fl) (hf : ∀ x, f ≠ .fin x)
    (h : (p, .float f) ∈ ps) (hp : (table.lookup p).isSome) : validate ps ≠ .ok () := by
  intro hv
  have ha := (C42_parameters ps).1.mp hv _ h
  obtain ⟨cs, hcs⟩ := Option.isSome_iff_exists.mp hp
  have hi : ∀ n, ¬ IsInt (.float f) n := by
    rintro n (h | ⟨b, h, _⟩) <;> cases h
  have hr : ∀ x, ¬ IsReal (.float f) x := by
    rintro x (h | ⟨n, h, _⟩)
    · cases h; exact hf x rfl
    · exact hi n h
  have hs : ∀ b, ¬ IsSwitch (.float f) b := by
    rintro b (h | h | ⟨n, h, _⟩) <;> cases h
  have hm := mem_of_lookup hcs
  simp only [table, List.mem_cons, List.not_mem_nil, or_false, Prod.mk.injEq] at hm
  rcases hm with ⟨rfl, _⟩ | ⟨rfl, _⟩ | ⟨rfl, _⟩ | ⟨rfl, _⟩ | ⟨rfl, _⟩ | ⟨rfl, _⟩ | ⟨rfl, _⟩ | ⟨rfl, _⟩ |
    ⟨rfl, _⟩ | ⟨rfl, _⟩ | ⟨rfl, _⟩ | ⟨rfl, _⟩ | ⟨rfl, _⟩ | ⟨rfl, _⟩ | ⟨rfl, _⟩ <;>
  simp [Acceptable, hi, hr, hs] at ha

/-! Concrete calls. -/

/-- The defaults with 100 observations are accepted. -/
example (cy : Cy) : ∃ r, coldDetect cy ⟨.float (.fin 15.0863), .int 1, .int 6, .bool false, .int 0, .int 0, .int 0,
    .bool false, .float (.fin 365.25)⟩ ⟨.nd [100], .nd [100], .nd [100], .nd [100], .nd [100], .nd [100], .nd [100],
    .nd [100], .nd [100]⟩ = .ok r :=
  ⟨⟨100, .fin 15.0863, 1, 6, false, 0, 0, 0, false, .fin 365.25⟩, (C42_cold_detect_partial _ _ _ _).mpr
    ⟨⟨_, .inl rfl, by norm_num, rfl⟩, ⟨.inl rfl, by norm_num, by norm_num⟩, ⟨.inl rfl, by norm_num, by norm_num⟩,
      .inl rfl, ⟨.inl rfl, by norm_num, by norm_num⟩, ⟨.inl rfl, by norm_num, by norm_num⟩, rfl, rfl,
      ⟨_, .inl rfl, by norm_num, rfl⟩, ⟨rfl, rfl, rfl, rfl, rfl, rfl, rfl, rfl, rfl⟩, by norm_num⟩⟩

/-- A threshold that is not a number is refused by name. -/
example : validate [("pos", .int 3), ("t_cg", .float .nan)] = .error (.value "t_cg") := by rfl

/-- `conse` 12 is refused, 11 is not. -/
example : validate [("conse", .int 12)] = .error (.value "conse") ∧ validate [("conse", .int 11)] = .ok () := ⟨rfl, rfl⟩

/-- Anything with a truth value is accepted for the documented Boolean `b_c2`: here a non-empty string. -/
theorem C42_b_c2_not_validated (cy : Cy) : ∃ r, coldDetect cy ⟨.float (.fin 15.0863), .int 1, .int 6, .bool false,
    .int 0, .int 0, .int 0, .other (some true), .float (.fin 365.25)⟩ ⟨.nd [100], .nd [100], .nd [100], .nd [100],
    .nd [100], .nd [100], .nd [100], .nd [100], .nd [100]⟩ = .ok r ∧ r.bC2 = true :=
  ⟨⟨100, .fin 15.0863, 1, 6, false, 0, 0, 0, true, .fin 365.25⟩, (C42_cold_detect_partial _ _ _ _).mpr
    ⟨⟨_, .inl rfl, by norm_num, rfl⟩, ⟨.inl rfl, by norm_num, by norm_num⟩, ⟨.inl rfl, by norm_num, by norm_num⟩,
      .inl rfl, ⟨.inl rfl, by norm_num, by norm_num⟩, ⟨.inl rfl, by norm_num, by norm_num⟩, rfl, rfl,
      ⟨_, .inl rfl, by norm_num, rfl⟩, ⟨rfl, rfl, rfl, rfl, rfl, rfl, rfl, rfl, rfl⟩, by norm_num⟩, rfl⟩

/-- A negative interval of the change magnitudes is accepted. -/
theorem C42_cm_output_interval_not_validated (cy : Cy) : ∃ r, coldDetect cy ⟨.float (.fin 15.0863), .int 1, .int 6,
    .bool false, .int 0, .int 0, .int (-32), .bool false, .float (.fin 365.25)⟩ ⟨.nd [100], .nd [100], .nd [100],
    .nd [100], .nd [100], .nd [100], .nd [100], .nd [100], .nd [100]⟩ = .ok r ∧ r.cmOutputInterval = -32 :=
  ⟨⟨100, .fin 15.0863, 1, 6, false, 0, 0, -32, false, .fin 365.25⟩, (C42_cold_detect_partial _ _ _ _).mpr
    ⟨⟨_, .inl rfl, by norm_num, rfl⟩, ⟨.inl rfl, by norm_num, by norm_num⟩, ⟨.inl rfl, by norm_num, by norm_num⟩,
      .inl rfl, ⟨.inl rfl, by norm_num, by norm_num⟩, ⟨.inl rfl, by norm_num, by norm_num⟩, rfl, rfl,
      ⟨_, .inl rfl, by norm_num, rfl⟩, ⟨rfl, rfl, rfl, rfl, rfl, rfl, rfl, rfl, rfl⟩, by norm_num⟩, rfl⟩

/-- `sccd_update` accepts `conse` 11 with the other defaults; `sccd_detect` does not. -/
example (cy : Cy) : (∃ r, sccdUpdate cy ⟨.float (.fin 15.0863), .int 1, .int 11, .bool false, .float (.fin 9.236),
      .float (.fin 9.236)⟩ ⟨.nd [7], .nd [7], .nd [7], .nd [7], .nd [7], .nd [7], .nd [7], .nd [7], .nd [7]⟩ = .ok r) ∧
    ∀ r, sccdDetect cy ⟨.float (.fin 15.0863), .int 1, .int 11, .bool false, .bool false, .float (.fin 9.236),
      .bool false⟩ ⟨.nd [7], .nd [7], .nd [7], .nd [7], .nd [7], .nd [7], .nd [7], .nd [7], .nd [7]⟩ ≠ .ok r := by
  constructor
  · exact ⟨⟨7, .fin 15.0863, 1, 11, false, .bool false, .fin 9.236, .fin 9.236⟩, (C42_sccd_update_partial _ _ _ _).mpr
      ⟨⟨_, .inl rfl, by norm_num, rfl⟩, ⟨.inl rfl, by norm_num, by norm_num⟩, ⟨.inl rfl, by norm_num, by norm_num⟩, rfl,
        rfl, ⟨_, .inl rfl, by norm_num, rfl⟩, ⟨_, .inl rfl, by norm_num, rfl⟩,
        ⟨rfl, rfl, rfl, rfl, rfl, rfl, rfl, rfl, rfl⟩, by norm_num⟩⟩
  · intro r h
    obtain ⟨_, _, ⟨h1, _, h2⟩, _⟩ := (C42_sccd_detect_partial _ _ _ _).mp h
    rcases h1 with h1 | ⟨b, h1, _⟩
    · injection h1 with h1; omega
    · cases h1

end Pycold.Validation
