import Verif.Proof.Kalman4
/-!
# C32, C33, C58, C59: the filter of S-CCD and the curve it stands for
-/
namespace Pycold.Kalman

open Matrix Spec

/-! ## C32 -/

/-- Converting coefficients to the state on a day and back changes nothing. -/
theorem C32_round_trip (cft : Vec) (t : Int) : toCoef (toState cft t) t = cft := toCoef_toState cft t

/-- Nor does converting a state to coefficients and back. -/
theorem C32_round_trip_state (a : Vec) (t : Int) : toState (toCoef a t) t = a := toState_toCoef a t

/-- The observation the filter expects on a day, the value S-CCD compares observations with, and the
harmonic curve on that day are the same. -/
theorem C32_prediction (cft : Vec) (t : Int) (r : ℝ) :
    (ssm r).Z ⬝ᵥ toState cft t = curve cft t ∧ predict cft t = curve cft t :=
  ⟨by rw [Z_state, predict_curve], predict_curve cft t⟩

/-- Advancing the filter by any number of days re-expresses the same curve that many days later. -/
theorem C32_days (cft : Vec) (t : Int) (r : ℝ) : ∀ n : Nat,
    ((ssm r).T.mulVec)^[n] (toState cft t) = toState cft (t + n)
  | 0 => by simp
  | n + 1 => by
    rw [Function.iterate_succ', Function.comp, C32_days cft t r n, T_state]
    congr 1
    push_cast
    omega

/-- Days without an observation, and observations taken for noise, leave the curve alone. -/
theorem C32_noise (r : ℝ) (t next : Int) (s : St) : (falseChange (ssm r) t next s).cft = s.cft := rfl

-- a curve that is not constant: level 1000, slope 2, both cycles
example : curve ![1000, 20000, 300, 0, 0, 0] 0 = 1300 := by
  simp [curve]; norm_num

/-! ## C58 -/

/-- An observation moves the curve, on that day, part of the way from its prediction to the
observation, never past it: the share is the variance of the prediction over the total variance.  Only
if the total variance is not above 1e-14 is the curve left as it is. -/
theorem C58_update (r : ℝ) (hr : 0 ≤ r) (y : ℝ) (t next : Int) (hn : t < next) (s : St) (h : Covariance s.P) :
    let s' := regular (ssm r) y t next s
    s'.vt = some (y - curve s.cft t) ∧
    (1E-14 < predVar s.P + r → ∃ g, 0 ≤ g ∧ g ≤ 1 ∧ g = predVar s.P / (predVar s.P + r) ∧
      curve s'.cft t = curve s.cft t + g * (y - curve s.cft t)) ∧
    (¬ 1E-14 < predVar s.P + r → s'.cft = s.cft) := by
  have hp : 0 ≤ predVar s.P := h.2 _
  obtain ⟨h1, h2, h3⟩ := regular_curve (r := r) y t next s h hn
  refine ⟨by rw [h1, predict_curve], fun hT => ?_, h3⟩
  have h0 : 0 < predVar s.P + r := lt_trans TOL_pos hT
  refine ⟨_, div_nonneg hp h0.le, (div_le_one h0).mpr (by linarith), rfl, ?_⟩
  have := h2 hT
  rwa [predict_curve, predict_curve] at this

/-- So the curve does not get further away from the observation. -/
theorem C58_closer (r : ℝ) (hr : 0 ≤ r) (y : ℝ) (t next : Int) (hn : t < next) (s : St) (h : Covariance s.P) :
    |y - curve (regular (ssm r) y t next s).cft t| ≤ |y - curve s.cft t| := by
  obtain ⟨_, h2, h3⟩ := C58_update r hr y t next hn s h
  by_cases hT : (1E-14 : ℝ) < predVar s.P + r
  · obtain ⟨g, g0, g1, _, e⟩ := h2 hT
    rw [e, show y - (curve s.cft t + g * (y - curve s.cft t)) = (1 - g) * (y - curve s.cft t) by ring, abs_mul,
      abs_of_nonneg (by linarith : 0 ≤ 1 - g)]
    exact mul_le_of_le_one_left (abs_nonneg _) (by linarith)
  · rw [h3 hT]

-- the first observation of a new model: the share is 30000 / 30100
example : Covariance (initP 0) ∧ predVar (initP 0) / (predVar (initP 0) + 100) = 30000 / 30100 := by
  refine ⟨initP_zero_cov, ?_⟩
  have : predVar (initP 0) = 30000 := by
    simp [predVar, dotProduct, mulVec, Fin.sum_univ_six, initP]; norm_num
  rw [this]; norm_num

/-! ## C33 -/

theorem T_eq (r : ℝ) : (ssm r).T = dayT := by
  have e1 : w = 2 * 3.1415926535897935 / 365.25 := by unfold w PI; norm_num
  ext i j
  fin_cases i <;> fin_cases j <;> simp [ssm, entryT, dayT, e1, mul_comm]

theorem Q_eq (r : ℝ) : (ssm r).Q = dayQ := by
  ext i j
  fin_cases i <;> fin_cases j <;> simp [ssm, dayQ, Matrix.diagonal]

theorem missing_eq (r : ℝ) (P : Mat) : missing (ssm r) P = nextDay (symU P) := by
  rw [missing, nextDay, T_eq, Q_eq]

theorem nextDay_cov {P : Mat} (h : Covariance P) : Covariance (nextDay P) := by
  have := missing_cov (P := P) 0 (symU_cov h)
  rwa [missing_eq, symU_of_symm h.1] at this

theorem missing_iter_eq (r : ℝ) : ∀ (n : Nat) (P : Mat), Covariance P → (missing (ssm r))^[n] P = nextDay^[n] P
  | 0, _, _ => rfl
  | n + 1, P, h => by
    simp only [Function.iterate_succ, Function.comp]
    rw [missing_eq, symU_of_symm h.1]
    exact missing_iter_eq r n _ (nextDay_cov h)

theorem absorb_eq {r : ℝ} {P : Mat} (h : Covariance P) :
    symU (syr (-(1 / resVar P r)) (gain P r) P) = absorb r P := by
  have hZ : (ssm r).Z = ![1, 0, 1, 0, 1, 0] := rfl
  rw [symU_syr, absorb, gain, resVar, gain, symU_of_symm h.1, hZ, neg_smul, ← sub_eq_add_neg]
  rfl

/-- The matrix and the curve follow the textbook filter day by day: an observation is absorbed on its
day and the result carried over exactly as many days as pass until the next observation; an observation
taken for noise is only carried over. -/
theorem C33_textbook (r : ℝ) (hr : 0 ≤ r) (y : ℝ) (t next : Int) (hn : t < next) (s : St) (h : Covariance s.P) :
    (falseChange (ssm r) t next s).P = nextDay^[(next - t).toNat] s.P ∧
    (1E-14 < predVar s.P + r →
      (regular (ssm r) y t next s).P = nextDay^[(next - t).toNat] (absorb r s.P) ∧
      toState (regular (ssm r) y t next s).cft t = toState s.cft t +
        ((y - curve s.cft t) / (predVar s.P + r)) • (s.P *ᵥ ![1, 0, 1, 0, 1, 0])) ∧
    (¬ 1E-14 < predVar s.P + r → (regular (ssm r) y t next s).P = nextDay^[(next - t).toNat] s.P) := by
  obtain ⟨n, hn'⟩ : ∃ n, (next - t).toNat = n + 1 := ⟨(next - t).toNat - 1, by omega⟩
  have hf : resVar s.P r = predVar s.P + r := by
    rw [resVar, gain, symU_of_symm h.1]; rfl
  have hfv : (ssm r).Z ⬝ᵥ (symU s.P *ᵥ (ssm r).Z) + (ssm r).H = predVar s.P + r := hf
  refine ⟨missing_iter_eq r _ _ h, fun hT => ?_, fun hT => ?_⟩
  · have h0 : 0 < predVar s.P + r := lt_trans TOL_pos hT
    have hu : Covariance (absorb r s.P) := by
      rw [← absorb_eq h]
      exact update_cov hr (symU_cov h) (by rw [hf]; exact h0)
    have hT' : predVar s.P + r > TOL := hT
    constructor
    · unfold regular
      rw [hn']
      simp only [valid, hfv, hT', if_true, Function.iterate_succ, Function.comp]
      have e := absorb_eq (r := r) h
      rw [hf] at e
      have e' : missing (ssm r) (syr (-(1 / (predVar s.P + r))) (symU s.P *ᵥ (ssm r).Z) s.P) = nextDay (absorb r s.P) := by
        rw [missing_eq, ← e]; rfl
      rw [e', missing_iter_eq r n _ (nextDay_cov hu)]
    · unfold regular
      rw [hn']
      simp only [valid, hfv, hT', if_true]
      generalize hx : toState s.cft t + ((y - (ssm r).Z ⬝ᵥ toState s.cft t) * (1 / (predVar s.P + r))) •
        (symU s.P *ᵥ (ssm r).Z) = x
      have e2 : (ssm r).T *ᵥ x = toState (toCoef x t) (t + 1) := by rw [← T_state _ _ r, toState_toCoef]
      rw [e2, toCoef_toState, toState_toCoef, ← hx, Z_state, predict_curve, symU_of_symm h.1, mul_one_div]
      rfl
  · unfold regular
    rw [hn']
    have hT' : ¬ predVar s.P + r > TOL := hT
    simp only [valid, hfv, hT', if_false, Function.iterate_succ, Function.comp]
    rw [missing_eq, symU_of_symm h.1, missing_iter_eq r n _ (nextDay_cov h)]

theorem event_cov {e : Event} {s : ℝ × St} (he : ∀ rmse win next cft, e ≠ .fit rmse win next cft) (h0 : 0 ≤ s.1)
    (h : Covariance s.2.P) : 0 ≤ (event e s).1 ∧ Covariance (event e s).2.P := by
  obtain ⟨H, s⟩ := s
  cases e with
  | fit rmse win next cft => exact absurd rfl (he rmse win next cft)
  | obs y t next => exact ⟨h0, regular_cov h0 y t next s h⟩
  | noise t next => exact ⟨h0, falseChange_cov t next s h⟩

/-- As long as no further model is fitted in the same call, the matrix is a covariance matrix: from the
start, if a call starts with a stored covariance matrix ... -/
theorem C33_monitoring : ∀ (es : List Event) (s : ℝ × St), SameModel es → 0 ≤ s.1 → Covariance s.2.P →
    0 ≤ (run es s).1 ∧ Covariance (run es s).2.P
  | [], _, _, h0, h => ⟨h0, h⟩
  | e :: es, s, hs, h0, h => by
    have he := event_cov (e := e) (s := s) (fun a b c d hh => hs a b c d (by simp [hh])) h0 h
    exact C33_monitoring es (event e s) (fun a b c d hh => hs a b c d (by simp [hh])) he.1 he.2

/-- ... and from the fit on, for the first model fitted in a call.  Whatever the observations, their
dates, and the error of the model.  (A later model of the same call may start from a matrix that is no
covariance matrix, see `C33_second_model`.) -/
theorem C33_first_model_partial (rmse : ℝ) (hr : 0 ≤ rmse) (win : List (Int × ℝ)) (next : Option (Int × ℝ))
    (cft : Vec) (es : List Event) (hs : SameModel es) (cft0 : Vec) (H0 : ℝ) (v0 : Option ℝ) :
    Covariance (run (.fit rmse win next cft :: es) (H0, ⟨cft0, 0, v0⟩)).2.P :=
  (C33_monitoring es _ hs hr (filterAll_cov hr _ _ initP_zero_cov)).2

/-- The days the filter runs over while no model is fitted. -/
theorem days_of : ∀ (es : List Event), SameModel es → ∃ l : List Bool, ∀ (r : ℝ) (s : St),
    (run es (r, s)).1 = r ∧ (run es (r, s)).2.P = covDays r l s.P
  | [], _ => ⟨[], fun _ _ => ⟨rfl, rfl⟩⟩
  | e :: es, hs => by
    obtain ⟨l, hl⟩ := days_of es (fun a b c d hh => hs a b c d (by simp [hh]))
    cases e with
    | fit rmse win next cft => exact absurd (List.mem_cons_self) (hs rmse win next cft)
    | obs y t next =>
      refine ⟨daysOf t next ++ l, fun r s => ?_⟩
      have := hl r (regular (ssm r) y t next s)
      simp only [run, event, covDays_append]
      rw [← regular_days r y t next s]
      exact this
    | noise t next =>
      refine ⟨List.replicate (next - t).toNat false ++ l, fun r s => ?_⟩
      have := hl r (falseChange (ssm r) t next s)
      simp only [run, event, covDays_append]
      rw [covDays_missing]
      exact this

/-- When a change has been found and a second model is fitted in the same call, only the diagonal of the
old matrix is overwritten.  Whatever happened since a first model was fitted to a window of 500 days or
more, for some error of that first model what the second one starts from is not a covariance matrix. -/
theorem C33_second_model (win : List (Int × ℝ)) (a b next : Int × ℝ) (ha : win.head? = some a)
    (hb : win.getLast? = some b) (h500 : 500 ≤ b.1 - a.1) (hn : b.1 < next.1) (cft cft0 : Vec) (H0 : ℝ)
    (v0 : Option ℝ) (es : List Event) (hs : SameModel es) :
    ∃ rmse : ℝ, 0 < rmse ∧
      ¬ Covariance (symU (initP (run (.fit rmse win (some next) cft :: es) (H0, ⟨cft0, 0, v0⟩)).2.P)) := by
  obtain ⟨l, hl⟩ := days_of es hs
  have hlen : 1001 ≤ (daysAll (extend win (some next)) ++ l).length := by
    have hx := extend_eq ha hb (some next)
    obtain ⟨x, xs, hw⟩ : ∃ x xs, win = x :: xs := by
      cases win with
      | nil => simp at ha
      | cons x xs => exact ⟨x, xs, rfl⟩
    have hxa : x = a := by rw [hw] at ha; simpa using ha
    have hh : (extend win (some next)).head? = some (shift (yearRange (b.1 - a.1 + 1)) a.1, a.2) := by
      rw [hx, hw]; simp [hxa]
    have ht : (extend win (some next)).getLast? = some next := by rw [hx]; simp
    have h1 := length_daysAll _ _ _ hh ht
    have h2 := yearRange_le (d := b.1 - a.1 + 1)
    have h3 : 4 * shift (yearRange (b.1 - a.1 + 1)) a.1 ≤ 4 * a.1 - 1461 * yearRange (b.1 - a.1 + 1) + 3 := shift_le
    simp only at h1
    rw [List.length_append]
    omega
  obtain ⟨r, hr, hnc⟩ := second_start _ hlen
  refine ⟨r, hr, ?_⟩
  have : (run (.fit r win (some next) cft :: es) (H0, ⟨cft0, 0, v0⟩)).2.P =
      covDays r (daysAll (extend win (some next)) ++ l) (initP 0) := by
    rw [covDays_append]
    simp only [run, event]
    rw [(hl r _).2, ssmInitialize, filterAll_days]
  rw [this]
  exact hnc

-- such a window: 18 observations 30 days apart
example : ∃ rmse : ℝ, 0 < rmse ∧ ¬ Covariance (symU (initP
    (run [.fit rmse ((List.range 18).map (fun i : Nat => (730000 + 30 * (i : Int), (1000 : ℝ)))) (some (730540, 1000))
      ![1000, 0, 0, 0, 0, 0], .obs 1000 730540 730570, .noise 730570 730600] (0, ⟨0, 0, none⟩)).2.P)) :=
  C33_second_model _ (730000, 1000) (730510, 1000) (730540, 1000) (by simp [List.range_succ])
    (by simp [List.range_succ]) (by norm_num) (by norm_num) _ _ _ _ _ (by intro a b c d; simp)

/-! ## C59 -/

/-- A new filter is run twice over the observations of its window, first over a copy moved back by whole
years (rounded by less than a day), always with dates strictly ascending, so no observation is left out.
(Dates are days since year 0, windows shorter than a century.) -/
theorem C59_window_partial (win : List (Int × ℝ)) (h : Ascending win) (a b next : Int × ℝ) (ha : win.head? = some a)
    (hb : win.getLast? = some b) (hn : b.1 < next.1) (hk : b.1 - a.1 ≤ 36500 ∧ 40000 ≤ a.1) :
    Ascending (extend win (some next)) ∧
    (extend win (some next)).map (·.2) = win.map (·.2) ++ win.map (·.2) ++ [next.2] ∧
    ((extend win (some next)).drop win.length).take win.length = win ∧
    ∀ p ∈ win, ∃ p' ∈ extend win (some next), p'.2 = p.2 ∧
      4 * (p.1 - p'.1) - 1461 * yearRange (b.1 - a.1 + 1) ∈ [0, 1, 2, 3] := by
  have h2 := yearRange_le (d := b.1 - a.1 + 1)
  have hkk : 1461 * yearRange (b.1 - a.1 + 1) ≤ 4 * a.1 := by
    unfold yearRange
    have := asc_head_le h ha (List.mem_of_getLast? hb)
    omega
  have hc := copy_ascending h ha hb hkk
  rw [extend_eq ha hb]
  refine ⟨?_, ?_, ?_, ?_⟩
  · refine List.pairwise_append.mpr ⟨hc, by simp, ?_⟩
    intro p hp p' hp'
    simp only [Option.getD_some, List.mem_singleton] at hp'
    subst hp'
    have hl : (win.map (fun p => (shift (yearRange (b.1 - a.1 + 1)) p.1, p.2)) ++ win).getLast? = some b := by
      rw [List.getLast?_append_of_ne_nil _ (by intro e; rw [e] at ha; simp at ha)]
      exact hb
    have := asc_le_last hc hl hp
    show p.1 < p'.1
    omega
  · simp [Function.comp_def]
  · rw [List.append_assoc, List.drop_left' (by simp)]
    simp
  · intro p hp
    refine ⟨(shift (yearRange (b.1 - a.1 + 1)) p.1, p.2), ?_, rfl, ?_⟩
    · apply List.mem_append_left
      apply List.mem_append_left
      exact List.mem_map.mpr ⟨p, hp, rfl⟩
    · have h1 := asc_head_le h ha hp
      simp only [shift]
      rw [Int.tdiv_eq_ediv_of_nonneg (by omega)]
      simp only [List.mem_cons, List.not_mem_nil, or_false]
      omega

-- a window and the observation after it
example : Ascending (extend [(730000, 1), (730016, 2), (730400, 3)] (some (730416, 4))) :=
  (C59_window_partial [(730000, 1), (730016, 2), (730400, 3)] (by simp [Ascending]) (730000, 1) (730400, 3)
    (730416, 4) rfl rfl (by norm_num) (by norm_num)).1

theorem regular_vt (r y : ℝ) (t next : Int) (hn : t < next) (s : St) :
    (regular (ssm r) y t next s).vt = some (y - curve s.cft t) := by
  obtain ⟨n, hn'⟩ : ∃ n, (next - t).toNat = n + 1 := ⟨(next - t).toNat - 1, by omega⟩
  unfold regular
  rw [hn']
  simp only [valid]
  split <;> rw [Z_state, predict_curve]

/-- When the dates are strictly ascending, every observation but the last is used: the residual recorded
for it is its distance from the curve that the observations before it led to. -/
theorem C59_every_observation (r : ℝ) : ∀ (l : List (Int × ℝ)) (_ : Ascending l) (s : St) (i : Nat)
    (hi : i + 1 < l.length), (residuals (ssm r) l s)[i]? =
      some (some (l[i].2 - curve (filterAll (ssm r) (l.take (i + 1)) s).cft l[i].1))
  | [], _, _, _, hi => by simp at hi
  | [_], _, _, _, hi => by simp at hi
  | a :: b :: rest, h, s, 0, _ => by
    have hab : a.1 < b.1 := (List.pairwise_cons.mp h).1 b (by simp)
    simp [residuals, filterAll, regular_vt r a.2 a.1 b.1 hab s]
  | a :: b :: rest, h, s, i + 1, hi => by
    have := C59_every_observation r (b :: rest) (List.pairwise_cons.mp h).2 (regular (ssm r) a.2 a.1 b.1 s) i
      (by simpa using hi)
    simpa [residuals, filterAll] using this

/-- For a snow pixel there is no observation after the window: the last observation is left out of the
second run, and the residual of the one before it is counted in its place. -/
theorem C59_snow_last_left_out (c : Ssm) (win : List (Int × ℝ)) (h2 : 2 ≤ win.length) (cft : Vec) (P : Mat)
    (a b : Int × ℝ) (ha : win.head? = some a) (hb : win.getLast? = some b) :
    ssmInitialize c win none cft P = filterAll c
      (win.map (fun p => (shift (yearRange (b.1 - a.1 + 1)) p.1, p.2)) ++ win) ⟨cft, initP P, none⟩ ∧
    ∃ rs v, initResiduals c win none cft P = rs ++ [v, v] ∧ rs.length + 2 = win.length := by
  have hx := extend_eq ha hb none
  have hl : (win.map (fun p => (shift (yearRange (b.1 - a.1 + 1)) p.1, p.2)) ++ win).getLast? = some b := by
    rw [List.getLast?_append_of_ne_nil _ (by intro e; rw [e] at ha; simp at ha)]
    exact hb
  simp only [Option.getD_none] at hx
  refine ⟨by rw [ssmInitialize, hx, filterAll_snoc_same c _ b b _ hl rfl], ?_⟩
  rw [initResiduals, hx, residuals_snoc_same c _ b b _ hl rfl]
  generalize hL : win.map (fun p => (shift (yearRange (b.1 - a.1 + 1)) p.1, p.2)) ++ win = L at *
  have hLn : L.length = 2 * win.length := by rw [← hL]; simp; omega
  have hrl := residuals_last c L ⟨cft, initP P, none⟩ (by omega)
  have hrn := length_residuals c L ⟨cft, initP P, none⟩
  obtain ⟨ys, hys⟩ := List.getLast?_eq_some_iff.mp hrl
  rw [hys] at hrn ⊢
  simp only [List.length_append, List.length_singleton] at hrn
  refine ⟨ys.drop win.length, (filterAll c L ⟨cft, initP P, none⟩).vt, ?_, ?_⟩
  · rw [List.append_assoc, List.drop_append_of_le_length (by omega)]
    rfl
  · rw [List.length_drop]; omega

example : extend [(730000, 1), (730016, 2)] none = [(729634, 1), (729650, 2), (730000, 1), (730016, 2), (730016, 2)] := by
  have e : yearRange 17 = 1 := by decide
  have e1 : shift 1 730000 = 729634 := by decide
  have e2 : shift 1 730016 = 729650 := by decide
  simp [extend, e, e1, e2]

end Pycold.Kalman
