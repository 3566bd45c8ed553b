import Verif.Spec.SccdOffset
import Verif.Model.SccdKalman
import Verif.Model.Glmnet
import Verif.Proof.ColdOffsetTop
import Verif.Proof.ColdNumHom
import Verif.Proof.SccdMove
import Verif.Proof.SccdPack
/-! S-CCD with a constant added to each band (C82). -/
namespace Pycold.SccdNum

open Pycold.ColdNum.Spec (exact)
open Pycold.ColdNum (plus Fit.offset zero_exact)
open Pycold.Glmnet (offset getD_zero_offset getD_succ_offset)
open Pycold.Sccd (Obs Rec Model Pack Moved)
open Pycold.SccdNum.Spec

theorem toState_offset (δ : ℝ) (c : List ℝ) (t : Int) :
    toState exact (offset δ c) t = offset δ (toState exact c t) := by
  unfold toState
  dsimp only
  rw [zero_exact]
  conv_rhs => unfold offset
  simp only [getD_zero_offset, getD_succ_offset δ c 0, getD_succ_offset δ c 1, getD_succ_offset δ c 2,
    getD_succ_offset δ c 3, getD_succ_offset δ c 4, List.tail_cons]
  congr 1
  show c.getD 0 0 + δ + (t : ℝ) * c.getD 1 0 / _ = (c.getD 0 0 + (t : ℝ) * c.getD 1 0 / _) + δ
  ring

theorem toCoef_offset (δ : ℝ) (a : List ℝ) (t : Int) :
    toCoef exact (offset δ a) t = offset δ (toCoef exact a t) := by
  unfold toCoef
  dsimp only
  rw [zero_exact]
  conv_rhs => unfold offset
  simp only [getD_zero_offset, getD_succ_offset δ a 0, getD_succ_offset δ a 1, getD_succ_offset δ a 2,
    getD_succ_offset δ a 3, getD_succ_offset δ a 4, List.tail_cons]
  congr 1
  show a.getD 0 0 + δ - a.getD 1 0 * (t : ℝ) = (a.getD 0 0 - a.getD 1 0 * (t : ℝ)) + δ
  ring

/-- `δ` in the level. -/
noncomputable def lift (δ : ℝ) : Kalman.Vec := fun i => if i = 0 then δ else 0

theorem vec_offset (δ : ℝ) (a : List ℝ) :
    (fun i : Fin 6 => (offset δ a).getD i 0) = (fun i : Fin 6 => a.getD i 0) + lift δ := by
  funext i
  show (offset δ a).getD i 0 = a.getD i 0 + lift δ i
  unfold lift
  by_cases h : i = 0
  · subst h
    rw [if_pos rfl]
    exact getD_zero_offset δ a
  · rw [if_neg h, add_zero]
    obtain ⟨k, hk⟩ : ∃ k, (i : ℕ) = k + 1 := Nat.exists_eq_succ_of_ne_zero (fun e => h (Fin.ext e))
    rw [hk]
    exact getD_succ_offset δ a k

theorem ofFn_lift (δ : ℝ) (u : Kalman.Vec) : List.ofFn (u + lift δ) = offset δ (List.ofFn u) := by
  unfold offset
  simp [List.ofFn_succ, lift]

theorem Z_lift (H δ : ℝ) : (Kalman.ssm H).Z ⬝ᵥ lift δ = δ := by
  unfold Kalman.ssm lift dotProduct
  simp [Fin.sum_univ_succ]

theorem T_lift (H δ : ℝ) : (Kalman.ssm H).T.mulVec (lift δ) = lift δ := by
  funext i
  unfold Kalman.ssm lift Matrix.mulVec dotProduct
  fin_cases i <;> simp [Fin.sum_univ_succ, Kalman.entryT]

theorem valid_lift (H y δ : ℝ) (a : Kalman.Vec) (P : Kalman.Mat) :
    Kalman.valid (Kalman.ssm H) (y + δ) (a + lift δ) P =
      ((Kalman.valid (Kalman.ssm H) y a P).1 + lift δ, (Kalman.valid (Kalman.ssm H) y a P).2.1,
        (Kalman.valid (Kalman.ssm H) y a P).2.2) := by
  have hv : y + δ - (Kalman.ssm H).Z ⬝ᵥ (a + lift δ) = y - (Kalman.ssm H).Z ⬝ᵥ a := by
    rw [dotProduct_add, Z_lift]; ring
  unfold Kalman.valid
  dsimp only
  rw [hv]
  split
  · refine Prod.ext ?_ rfl
    dsimp only
    rw [add_right_comm, Matrix.mulVec_add, T_lift]
  · refine Prod.ext ?_ rfl
    dsimp only
    rw [Matrix.mulVec_add, T_lift]

theorem kalmanValid_offset (H y δ : ℝ) (a : List ℝ) (P : Kalman.Mat) :
    kalmanValid H (y + δ) (offset δ a) P =
      (offset δ (kalmanValid H y a P).1, (kalmanValid H y a P).2.1, (kalmanValid H y a P).2.2) := by
  unfold kalmanValid
  dsimp only
  rw [vec_offset, valid_lift]
  dsimp only
  rw [ofFn_lift]

variable {E : Env ℝ Kalman.Mat (Fin 6)}

/-- The state of the filter with `δ` added to the curve. -/
noncomputable def Run.offset (δ : ℝ) (r : Run ℝ Kalman.Mat) : Run ℝ Kalman.Mat := ⟨Glmnet.offset δ r.cft, r.cov, r.vt⟩

theorem regular_offset (hA : E.base.A = exact) (hv : E.valid = kalmanValid) (H y δ : ℝ) (t next : Int)
    (r : Run ℝ Kalman.Mat) : regular E H (y + δ) t next (r.offset δ) = (regular E H y t next r).offset δ := by
  unfold regular
  cases (next - t).toNat with
  | zero => rfl
  | succ n =>
    unfold Run.offset
    dsimp only
    rw [hA, hv, toState_offset, kalmanValid_offset]
    dsimp only
    rw [toCoef_offset]

theorem ssmRun_offset (hA : E.base.A = exact) (hv : E.valid = kalmanValid) (H δ : ℝ) :
    ∀ (l : List (Int × ℝ)) (k : ℕ) (r : Run ℝ Kalman.Mat) (s : Int),
      ssmRun E H (l.map fun p => (p.1, p.2 + δ)) k (r.offset δ) s =
        ((ssmRun E H l k r s).1.offset δ, (ssmRun E H l k r s).2)
  | [], _, _, _ => rfl
  | [_], _, _, _ => rfl
  | a :: b :: l, k, r, s => by
    have ih := ssmRun_offset hA hv H δ (b :: l)
    simp only [List.map_cons] at ih
    simp only [List.map_cons, ssmRun]
    rw [regular_offset hA hv, ih]
    rfl

theorem extend_offset (A : ColdNum.Fl ℝ) (δ : ℝ) (w : List (Int × ℝ)) (x : Int × ℝ) :
    extend A (w.map fun p => (p.1, p.2 + δ)) (x.1, x.2 + δ) = (extend A w x).map fun p => (p.1, p.2 + δ) := by
  unfold extend
  rw [List.head?_map, List.getLast?_map]
  cases w.head? with
  | none => rfl
  | some a =>
    cases w.getLast? with
    | none => rfl
    | some b =>
      simp only [Option.map_some, List.map_append, List.map_map, List.map_cons, List.map_nil]
      rfl

/-- The filter of a band with `δ` added to the curve. -/
noncomputable def BandState.offset (δ : ℝ) (f : BandState ℝ Kalman.Mat) : BandState ℝ Kalman.Mat :=
  { f with cft := Glmnet.offset δ f.cft }

theorem ssmInit_offset (hA : E.base.A = exact) (hv : E.valid = kalmanValid) (H δ : ℝ) (w : List (Int × ℝ))
    (x : Int × ℝ) (c : List ℝ) (P : Kalman.Mat) :
    ssmInit E H (w.map fun p => (p.1, p.2 + δ)) (x.1, x.2 + δ) (offset δ c) P = (ssmInit E H w x c P).offset δ := by
  unfold ssmInit
  dsimp only
  rw [extend_offset, List.length_map]
  have := ssmRun_offset hA hv H δ (extend E.base.A w x) w.length ⟨c, E.resetP P, none⟩ 0
  unfold Run.offset at this
  dsimp only at this
  rw [this]
  rfl

/-! ### Observations -/

variable {d : Fin 7 → Int}

theorem raise_getD (o : Obs) (b : Fin 6) : (raise d o).vals.getD b 0 = o.vals.getD b 0 + d b.castSucc := by
  unfold raise
  fin_cases b <;> rfl

/-- The constants as numbers. -/
noncomputable def con (d : Fin 7 → Int) : Fin 6 → ℝ := fun b => (d b.castSucc : ℝ)

theorem value_raise (hA : E.base.A = exact) (hi : ∀ b : Fin 6, E.idx b = (b : ℕ)) (b : Fin 6) (o : Obs) :
    value E b (raise d o) = value E b o + con d b := by
  unfold value con
  rw [hA, hi]
  show (((raise d o).vals.getD b 0 : ℤ) : ℝ) = ((o.vals.getD b 0 : ℤ) : ℝ) + _
  rw [raise_getD]
  push_cast
  rfl

theorem row_raise (hA : E.base.A = exact) (hi : ∀ b : Fin 6, E.idx b = (b : ℕ)) (o : Obs) :
    row E (raise d o) = (row E o).map (plus (con d)) := by
  show (⟨_, _⟩ : ColdV.Row _) = ⟨_, _⟩
  congr 1
  funext b
  exact value_raise hA hi b o

theorem rows_raise (hA : E.base.A = exact) (hi : ∀ b : Fin 6, E.idx b = (b : ℕ)) (w : List Obs) :
    (w.map (raise d)).map (row E) = (w.map (row E)).map (ColdV.Row.map (plus (con d))) := by
  rw [List.map_map, List.map_map]
  apply List.map_congr_left
  intro o _
  exact row_raise hA hi o

theorem series_raise (hA : E.base.A = exact) (hi : ∀ b : Fin 6, E.idx b = (b : ℕ)) (b : Fin 6) (w : List Obs) :
    series E b (w.map (raise d)) = (series E b w).map fun p => (p.1, p.2 + con d b) := by
  unfold series
  rw [List.map_map, List.map_map]
  apply List.map_congr_left
  intro o _
  show (_, _) = (_, _)
  rw [value_raise hA hi]
  rfl

theorem fits_raise (hA : E.base.A = exact) (hi : ∀ b : Fin 6, E.idx b = (b : ℕ)) {fuel : ℕ} (hf : 200000001 ≤ fuel)
    (hE : E.base.lasso = Glmnet.lasso fuel) {df : Int} (hdf : 0 < df) {w : List Obs} (hs : Sccd.Asc w)
    (h2 : 2 ≤ w.length) (b : Fin 6) :
    fits E df (w.map (raise d)) b = (fits E df w b).offset (con d b) := by
  unfold fits
  rw [rows_raise hA hi]
  show ColdNum.fitBand E.base df _ _ = (ColdNum.fitBand E.base df _ _).offset _
  rw [ColdNum.bandOf_plus, ColdNum.dates_plus]
  refine ColdNum.fitBand_offset hA hf hE hdf ?_ ?_ ?_ _
  · rw [List.map_map, List.pairwise_map]; exact hs
  · rw [List.length_map, List.length_map]; exact h2
  · unfold ColdNum.bandOf; simp only [List.length_map]

theorem cftOf_offset (m : ColdNum.Fit ℝ) (δ : ℝ) : cftOf (m.offset δ) = offset δ (cftOf m) := by
  unfold cftOf ColdNum.Fit.offset offset
  cases m.coefs <;> simp

/-! ### Screening -/

theorem rows7 (hA : E.base.A = exact) (hi : ∀ b : Fin 6, E.idx b = (b : ℕ)) (w : List Obs) :
    (ColdNum.rowsOf exact (w.map fun o => ⟨o.date, o.vals⟩)).map (ColdV.Row.map fun y => y ∘ Fin.castSucc) =
      w.map (row E) := by
  unfold ColdNum.rowsOf
  rw [List.map_map, List.map_map]
  apply List.map_congr_left
  intro o _
  show (⟨_, _⟩ : ColdV.Row _) = ⟨_, _⟩
  congr 1
  funext b
  unfold value
  rw [hA, hi]
  rfl

theorem rows7_raise (hA : E.base.A = exact) (hi : ∀ b : Fin 6, E.idx b = (b : ℕ)) (w : List Obs) :
    (ColdNum.rowsOf exact ((w.map fun o => (⟨o.date, o.vals⟩ : ClrObs)).map (ColdNum.Spec.raise d))).map
      (ColdV.Row.map fun y => y ∘ Fin.castSucc) = (w.map (raise d)).map (row E) := by
  unfold ColdNum.rowsOf
  rw [List.map_map, List.map_map, List.map_map, List.map_map]
  apply List.map_congr_left
  intro o _
  show (⟨_, _⟩ : ColdV.Row _) = ⟨_, _⟩
  congr 1
  funext b
  unfold value
  rw [hA, hi]
  show exact.ofInt ((ColdNum.Spec.raise d ⟨o.date, o.vals⟩).bands.getD b.castSucc 0) = exact.ofInt ((raise d o).vals.getD b 0)
  rw [raise_getD, ColdNum.raise_getD]
  rfl

theorem mask_raise (hA : E.base.A = exact) (hi : ∀ b : Fin 6, E.idx b = (b : ℕ)) (hg : E.base.green = 1)
    (hsw : E.base.swir = 4) {rmin : Fin 6 → Int} {all : List Obs} (h : SameFlags E.base.robust rmin d all)
    {w : List Obs} (hw : w.Sublist all) (h6 : 6 ≤ w.length) :
    ColdNum.mask E.base (fun b => E.base.A.ofInt (rmin b)) ((w.map (raise d)).map (row E)) =
      ColdNum.mask E.base (fun b => E.base.A.ofInt (rmin b)) (w.map (row E)) := by
  have hf : (fun b => E.base.A.ofInt (rmin b)) = floorOf rmin ∘ Fin.castSucc := by
    funext b
    rw [hA]
    unfold floorOf
    simp only [Function.comp]
    rw [dif_pos (by simp)]
    rfl
  rw [hf, ← rows7_raise hA hi, ← rows7 hA hi, ColdNum.mask_restrict, ColdNum.mask_restrict]
  funext k
  rw [Bool.eq_iff_iff, ColdNum.mask_flags (E := E.base.along Fin.castSucc) hA (by show Fin.castSucc E.base.green = 1; rw [hg]; rfl)
      (by show Fin.castSucc E.base.swir = 4; rw [hsw]; rfl),
    ColdNum.mask_flags (E := E.base.along Fin.castSucc) hA (by show Fin.castSucc E.base.green = 1; rw [hg]; rfl)
      (by show Fin.castSucc E.base.swir = 4; rw [hsw]; rfl)]
  exact h _ (hw.map _) (by rw [List.length_map]; exact h6) k

/-! ### Codes -/

/-- Values that stay what they are in 16 bits, with and without the constants, and are not all zero. -/
def Plain (d : Fin 7 → Int) (x : Obs) : Prop :=
  0 < x.vals.getD 1 0 ∧ ∀ b : Fin 6, (-32768 ≤ x.vals.getD b 0 ∧ x.vals.getD b 0 ≤ 32767) ∧
    (-32768 ≤ x.vals.getD b 0 + d b.castSucc ∧ x.vals.getD b 0 + d b.castSucc ≤ 32767)

theorem toShort_eq {v : Int} (h : -32768 ≤ v ∧ v ≤ 32767) : Sccd.toShort v = v := by
  unfold Sccd.toShort
  rw [Int.bmod_def]
  split <;> omega

theorem encode_getD (x : Obs) (k : ℕ) : (Sccd.encode x).vals.getD k 0 = Sccd.toShort (x.vals.getD k 0) := by
  unfold Sccd.encode
  rw [List.getD_eq_getElem?_getD, List.getD_eq_getElem?_getD, List.getElem?_map]
  cases x.vals[k]? <;> rfl

theorem slot_encode {x : Obs} (h : Plain d x) : slot d (Sccd.encode x) = Sccd.encode (raise d x) := by
  obtain ⟨hg, hv⟩ := h
  unfold slot
  rw [if_neg]
  · show (⟨_, _⟩ : Obs) = ⟨_, _⟩
    congr 1
    unfold raise
    rw [List.map_map]
    apply List.map_congr_left
    intro b _
    show (Sccd.encode x).vals.getD b 0 + _ = Sccd.toShort (x.vals.getD b 0 + d b.castSucc)
    rw [encode_getD, toShort_eq (hv b).1, toShort_eq (hv b).2]
  · intro e
    have : (Sccd.encode x).vals.getD 1 0 = 0 := by rw [e]; rfl
    rw [encode_getD, toShort_eq (v := x.vals.getD 1 0) (hv 1).1] at this
    omega

/-! ### The numerical functions -/

/-- The filters with the constants added. -/
noncomputable def liftF (d : Fin 7 → Int) (f : Fin 6 → BandState ℝ Kalman.Mat) : Fin 6 → BandState ℝ Kalman.Mat :=
  fun b => (f b).offset (con d b)

/-- The body of a record with the constants added. -/
noncomputable def liftR (d : Fin 7 → Int) (r : Body ℝ (Fin 6)) : Body ℝ (Fin 6) :=
  { r with coefs := fun b => offset (con d b) (r.coefs b) }

open Classical in
/-- Models with an anomaly have the constants added. -/
noncomputable def liftM (d : Fin 7 → Int) (m : Model (Fin 6 → BandState ℝ Kalman.Mat)) :
    Model (Fin 6 → BandState ℝ Kalman.Mat) :=
  if 1 ≤ m.conseLast then m.move (raise d) (slot d) (liftF d) else m

theorem slot_date (x : Obs) : (slot d x).date = x.date := by
  unfold slot
  split <;> rfl

theorem difs_lift (hA : E.base.A = exact) (hi : ∀ b : Fin 6, E.idx b = (b : ℕ)) (f : Fin 6 → BandState ℝ Kalman.Mat)
    (o : Obs) : difs E (liftF d f) (raise d o) = difs E f o := by
  funext b
  unfold difs
  show E.base.A.sub _ (ColdNum.predict E.base.A 6 (offset (con d b) (f b).cft) o.date) = _
  rw [value_raise hA hi, hA, ColdNum.predict_offset]
  show _ + _ - (_ + _) = _ - _
  ring

theorem score_lift (hA : E.base.A = exact) (hi : ∀ b : Fin 6, E.idx b = (b : ℕ)) (rmin : Fin 6 → Int)
    (f : Fin 6 → BandState ℝ Kalman.Mat) (n df : Int) (o : Obs) :
    score E rmin (liftF d f) n df (raise d o) = score E rmin f n df o := by
  unfold score
  rw [difs_lift hA hi]
  rfl

theorem scoreC_lift (hA : E.base.A = exact) (hi : ∀ b : Fin 6, E.idx b = (b : ℕ)) (rm : Fin 6 → ℝ) (df : Int)
    (m : Fin 6 → ColdNum.Fit ℝ) (o : Obs) :
    ColdNum.score E.base rm df (fun b => (m b).offset (con d b)) (row E (raise d o)) =
      ColdNum.score E.base rm df m (row E o) := by
  rw [row_raise hA hi]
  unfold ColdNum.score
  rw [ColdNum.difs_offset hA]
  rfl

/-- Adding the constants commutes with every numerical function of S-CCD. -/
theorem num_moved (hA : E.base.A = exact) (hi : ∀ b : Fin 6, E.idx b = (b : ℕ)) (hv : E.valid = kalmanValid)
    (hg : E.base.green = 1) (hsw : E.base.swir = 4) {fuel : ℕ} (hf : 200000001 ≤ fuel)
    (hE : E.base.lasso = Glmnet.lasso fuel) {all : List Obs} (hs : Sccd.Asc all) (hp : ∀ x ∈ all, Plain d x)
    {rmin : Fin 6 → Int} (hm : SameFlags E.base.robust rmin d all) :
    Moved all (raise d) (slot d) (liftF d) (liftR d) (liftM d) (num E rmin) := by
  have asc : ∀ {w : List Obs}, w.Sublist all → Sccd.Asc w := fun h => List.Pairwise.sublist h hs
  have fit4 : ∀ {w : List Obs}, w.Sublist all → 6 ≤ w.length →
      fits E 4 (w.map (raise d)) = fun b => (fits E 4 w b).offset (con d b) := fun hw h6 =>
    funext fun b => fits_raise hA hi hf hE (by decide) (asc hw) (by omega) b
  constructor
  case closed =>
    intro m h
    unfold liftM
    rw [if_pos h]
  case dates =>
    intro m
    unfold liftM
    split
    · show (m.obs.map (slot d)).map _ = _
      rw [List.map_map]
      apply List.map_congr_left
      intro x _
      exact slot_date x
    · rfl
  case date => intro x; rfl
  case edate => exact slot_date
  case enc => exact fun x hx => slot_encode (hp x hx)
  case pad => exact if_pos rfl
  case mask => exact fun w hw h6 => mask_raise hA hi hg hsw hm hw h6
  case unstable =>
    intro w hw h6
    show ColdNum.unstable _ _ _ _ = ColdNum.unstable _ _ _ _
    rw [fit4 hw h6, rows_raise hA hi]
    unfold ColdNum.unstable
    simp only [ColdNum.dates_plus]
    have hz : E.base.A.zero = 0 := by rw [hA]; exact zero_exact
    simp only [ColdNum.Fit.offset, hz, getD_succ_offset _ _ 0]
  case lbMag =>
    intro w x hw h6
    show (ColdNum.score _ _ _ _ _).1 = (ColdNum.score _ _ _ _ _).1
    rw [fit4 hw h6, scoreC_lift hA hi]
  case lbAngle =>
    intro w l hw h6
    show ColdNum.meanAngle _ _ = ColdNum.meanAngle _ _
    rw [List.map_map, fit4 hw h6]
    congr 1
    apply List.map_congr_left
    intro o _
    show (ColdNum.score _ _ _ _ _).2.1 = (ColdNum.score _ _ _ _ _).2.1
    rw [scoreC_lift hA hi]
  case firstRec =>
    intro a b c ha ha6 hc hc6
    show (⟨_, _, _⟩ : Body ℝ (Fin 6)) = ⟨_, _, _⟩
    rw [fit4 ha ha6, fit4 hc hc6]
    congr 1
    funext k
    show E.base.A.neg (ColdNum.median _ _) = E.base.A.neg (ColdNum.median _ _)
    congr 2
    rw [← List.map_reverse, List.map_map]
    apply List.map_congr_left
    intro o _
    simp only [Function.comp]
    rw [row_raise hA hi, ColdNum.difs_offset hA]
  case fit =>
    intro p w x hw h6
    funext b
    show fit E _ _ _ b = (fit E p w x b).offset (con d b)
    unfold fit
    dsimp only
    rw [fits_raise hA hi hf hE (by decide) (asc hw) (by omega), series_raise hA hi, value_raise hA hi, cftOf_offset]
    cases p <;> exact ssmInit_offset hA hv _ _ _ (x.date, value E b x) _ _
  case mag => intro x n y; exact congrArg Prod.fst (score_lift hA hi rmin x n 6 y)
  case angle =>
    intro x n l
    show ColdNum.meanAngle _ _ = ColdNum.meanAngle _ _
    rw [List.map_map]
    congr 1
    apply List.map_congr_left
    intro o _
    exact congrArg (fun q => q.2.1) (score_lift hA hi rmin x n 6 o)
  case changeRec =>
    intro x n l
    show (⟨_, _, _⟩ : Body ℝ (Fin 6)) = ⟨_, _, _⟩
    congr 1
    funext b
    congr 1
    rw [List.map_map]
    apply List.map_congr_left
    intro o _
    exact congrFun (difs_lift hA hi x o) b
  case filter =>
    intro x y t
    funext b
    show filter E _ _ _ b = (filter E x y t b).offset _
    unfold filter
    dsimp only
    have := regular_offset hA hv (x b).H (value E b y) (con d b) y.date t ⟨(x b).cft, (x b).cov, none⟩
    rw [value_raise hA hi]
    show (BandState.mk _ _ _ _) = _
    unfold Run.offset at this
    dsimp only at this
    rw [show (liftF d x b).H = (x b).H from rfl, show (liftF d x b).cft = offset (con d b) (x b).cft from rfl,
      show (liftF d x b).cov = (x b).cov from rfl, show (raise d y).date = y.date from rfl, this]
    rfl
  case skip => intro x y t; rfl
  case endMag => intro x n y; exact congrArg Prod.fst (score_lift hA hi rmin x n (endOrder n) y)
  case endAngle =>
    intro x n l
    show ColdNum.meanAngle _ _ = ColdNum.meanAngle _ _
    rw [List.map_map]
    congr 1
    apply List.map_congr_left
    intro o _
    exact congrArg (fun q => q.2.1) (score_lift hA hi rmin x n (endOrder n) o)
  case narrow => intro x; rfl

/-! ### Whole calls -/

theorem toObs_raised {bC2 : Bool} {o o' : Scene} (h : ColdNum.Spec.Raised bC2 d o o') (hu : Pycold.Spec.ClearUsable bC2 o) :
    Sccd.toObs o' = raise d (Sccd.toObs o) := by
  obtain ⟨e0, e1, e2, e3, e4, e5, _⟩ := h.values hu
  unfold Sccd.toObs raise
  rw [h.date, e0, e1, e2, e3, e4, e5]
  rfl

theorem wanted_raised {bC2 : Bool} {o o' : Scene} (h : ColdNum.Spec.Raised bC2 d o o') :
    Sccd.Wanted bC2 false o ↔ Sccd.Wanted bC2 false o' := by
  unfold Sccd.Wanted Pycold.Spec.ClearUsable
  rw [h.qa]
  exact and_congr_right h.usable

theorem fresh_raised {bC2 : Bool} {l l' : List Scene} (h : List.Forall₂ (ColdNum.Spec.Raised bC2 d) l l') :
    Sccd.fresh bC2 false l' = (Sccd.fresh bC2 false l).map (raise d) ∧ ∀ x ∈ Sccd.fresh bC2 false l, Plain d x := by
  induction h with
  | nil => exact ⟨rfl, nofun⟩
  | @cons o o' l l' ho hl ih =>
    have hw := wanted_raised ho
    unfold Sccd.fresh at ih ⊢
    rw [List.filter_cons, List.filter_cons]
    by_cases hd : Sccd.Wanted bC2 false o
    · rw [if_pos (by simpa using hw.1 hd), if_pos (by simpa using hd)]
      have hu : Pycold.Spec.ClearUsable bC2 o := hd
      have hu' : Pycold.Spec.ClearUsable bC2 o' := hw.1 hd
      refine ⟨?_, ?_⟩
      · simp only [List.map_cons]
        rw [ih.1, toObs_raised ho hu]
      · intro x hx
        rw [List.map_cons, List.mem_cons] at hx
        rcases hx with rfl | hx
        · obtain ⟨e0, e1, e2, e3, e4, e5, _⟩ := ho.values hu
          obtain ⟨_, u0, u1, u2, u3, u4, u5, _⟩ := hu
          obtain ⟨_, v0, v1, v2, v3, v4, v5, _⟩ := hu'
          rw [e0] at v0
          rw [e1] at v1
          rw [e2] at v2
          rw [e3] at v3
          rw [e4] at v4
          rw [e5] at v5
          refine ⟨u1.1, fun b => ?_⟩
          fin_cases b
          · show (-32768 ≤ o.b ∧ o.b ≤ 32767) ∧ (-32768 ≤ o.b + d 0 ∧ o.b + d 0 ≤ 32767); omega
          · show (-32768 ≤ o.g ∧ o.g ≤ 32767) ∧ (-32768 ≤ o.g + d 1 ∧ o.g + d 1 ≤ 32767); omega
          · show (-32768 ≤ o.r ∧ o.r ≤ 32767) ∧ (-32768 ≤ o.r + d 2 ∧ o.r + d 2 ≤ 32767); omega
          · show (-32768 ≤ o.n ∧ o.n ≤ 32767) ∧ (-32768 ≤ o.n + d 3 ∧ o.n + d 3 ≤ 32767); omega
          · show (-32768 ≤ o.s1 ∧ o.s1 ≤ 32767) ∧ (-32768 ≤ o.s1 + d 4 ∧ o.s1 + d 4 ≤ 32767); omega
          · show (-32768 ≤ o.s2 ∧ o.s2 ≤ 32767) ∧ (-32768 ≤ o.s2 + d 5 ∧ o.s2 + d 5 ≤ 32767); omega
        · exact ih.2 x hx
    · rw [if_neg (by simpa using fun h => hd (hw.2 h)), if_neg (by simpa using hd)]
      exact ih

theorem variogram_raised (hA : E.base.A = exact) (hi : ∀ b : Fin 6, E.idx b = (b : ℕ)) (junk : Fin 6 → Int)
    {w : List Obs} (h1 : w.length ≠ 1) : variogram E junk (w.map (raise d)) = variogram E junk w := by
  funext b
  unfold variogram
  rw [List.length_map, if_neg h1, if_neg h1]
  have : (w.map (raise d)).map (value E b) = (w.map (value E b)).map (· + con d b) := by
    rw [List.map_map, List.map_map]
    apply List.map_congr_left
    intro o _
    exact value_raise hA hi b o
  rw [this, hA, ColdNum.variogram_offset]

/-- The pack with the constants added. -/
theorem same_move {p : Pack (Fin 6 → BandState ℝ Kalman.Mat) (Body ℝ (Fin 6)) (Fin 6 → Int)} :
    SamePack d p (p.move (raise d) (slot d) (liftF d) (liftR d)) where
  mode := rfl
  recs := by
    show List.Forall₂ _ p.recs (p.recs.map _)
    rw [List.forall₂_map_right_iff, List.forall₂_same]
    intro r _
    exact ⟨rfl, rfl, rfl, rfl, rfl, fun b => ⟨rfl, rfl⟩⟩
  minRmse := rfl
  noModel := by
    intro h
    show p.model.map _ = none
    rw [h]; rfl
  model := by
    intro m h
    refine ⟨m.move (raise d) (slot d) (liftF d), ?_, ⟨rfl, rfl, rfl, rfl, rfl, rfl, fun b => ⟨rfl, rfl, rfl, rfl, rfl⟩⟩⟩
    show p.model.map _ = _
    rw [h]; rfl
  queue := rfl

theorem sccd_first (X : Sccd.Env ℝ (Fin 6 → BandState ℝ Kalman.Mat) (Body ℝ (Fin 6)) (Fin 6 → Int)) (m0 : Fin 6 → Int)
    (z : Model (Fin 6 → BandState ℝ Kalman.Mat)) (l : List Scene)
    (hst : (preprocessing X.bC2 l).status = .success)
    (hsn : Sccd.snowBranch X 0 l = false) (hasc : Sccd.Asc (Sccd.fresh X.bC2 false l)) :
    Sccd.sccd X ⟨0, [], m0, some z, [], []⟩ l =
      if Sccd.fresh X.bC2 false l = [] then .ok ⟨0, [], m0, some z, [], []⟩
      else (Sccd.standard (X.num (X.variogram (Sccd.fresh X.bC2 false l))) X.conse 0 (some z) [] []
        (Sccd.fresh X.bC2 false l)).map
          fun r => ⟨r.mode, r.recs, X.variogram (Sccd.fresh X.bC2 false l), r.model, r.queue, r.removed⟩ := by
  have hk := (Pycold.preLoop_status X.bC2 l {}).1.mp hst
  obtain ⟨_, f2, f3, f4⟩ := Sccd.pre_facts X.bC2 l hk
  have hsn' : X.snowPct (preprocessing X.bC2 l).sums.snow (preprocessing X.bC2 l).sums.clear = false := by
    rw [f3, f4]; exact hsn
  have hacc : Sccd.append [] (Sccd.accepted false l (preprocessing X.bC2 l).idr) = Sccd.fresh X.bC2 false l := by
    rw [f2, Sccd.accepted_eq, Sccd.append_asc _ _ (by simpa using hasc)]
    rfl
  unfold Sccd.sccd
  rw [if_neg (by show ¬ (!Sccd.validModes.contains 0) = true; decide)]
  dsimp only
  rw [if_neg (by rw [hst]; simp)]
  have e2 : Sccd.stored 0 (some z) ([] : List Obs) = .ok [] := rfl
  simp only [if_true, hsn', e2, bind, Except.bind, hacc, Bool.false_eq_true, if_false, List.isEmpty_nil, decide_true,
    Bool.true_and, List.length_nil]
  by_cases he : Sccd.fresh X.bC2 false l = []
  · rw [if_pos he, he]
    rfl
  · rw [if_neg he, if_pos (List.length_pos_iff.2 he)]
    cases Sccd.standard (X.num (X.variogram (Sccd.fresh X.bC2 false l))) X.conse 0 (some z) [] []
        (Sccd.fresh X.bC2 false l) <;> rfl

/-- A first call ends in monitoring or waiting. -/
theorem first_mode {V F R : Type} {N : Sccd.Num V F R} {conse : ℕ} {model : Option (Model F)} {w : List Obs}
    {x : Sccd.Out F R} (h : Sccd.standard N conse 0 model [] [] w = .ok x) : x.mode = 1 ∨ x.mode = 12 := by
  unfold Sccd.standard at h
  simp only [bind, Except.bind] at h
  split at h
  · cases h
  · rename_i s0 _
    split at h
    · cases h
    · rename_i s _
      unfold Sccd.newMode at h
      rw [if_pos rfl] at h
      cases ht : s.train with
      | true =>
        rw [ht] at h
        simp only [if_true] at h
        unfold Sccd.step3 at h
        rw [if_pos (by decide)] at h
        cases hf : s.filt with
        | none => rw [hf] at h; cases h
        | some f =>
          rw [hf] at h
          simp only [bind, Except.bind] at h
          cases hst : Sccd.storeModel N conse 1 s f with
          | error _ => rw [hst] at h; cases h
          | ok y =>
            rw [hst] at h
            have hy : y.1 = 1 := by
              unfold Sccd.storeModel at hst
              split at hst
              · cases hst
              · simp only [bind, Except.bind] at hst
                split at hst
                · cases hst
                · cases hst
                  dsimp only
                  rw [if_neg (by rintro ⟨_, h, _⟩; revert h; decide)]
            simp only [hy] at h
            rw [if_neg (by decide)] at h
            cases h
            exact Or.inl rfl
      | false =>
        rw [ht] at h
        simp only [Bool.false_eq_true, if_false] at h
        obtain ⟨_, h2⟩ := Sccd.step3_mode x h
        exact Or.inr (h2 (by decide))

theorem packOut_one {F R M : Type} (p : Pack F R M) (h : p.mode = 1) : Sccd.packOut p = .ok { p with queue := [] } := by
  unfold Sccd.packOut
  rw [if_pos (by omega)]

theorem packOut_wait {F R M : Type} (p : Pack F R M) (h : p.mode = 12) : Sccd.packOut p = .ok { p with model := none } := by
  unfold Sccd.packOut
  rw [if_neg (by omega), if_pos (by omega)]

theorem detect_raised (hA : E.base.A = exact) (hi : ∀ b : Fin 6, E.idx b = (b : ℕ)) (hv : E.valid = kalmanValid)
    (hg : E.base.green = 1) (hsw : E.base.swir = 4) {fuel : ℕ} (hf : 200000001 ≤ fuel)
    (hE : E.base.lasso = Glmnet.lasso fuel) {junk m0 : Fin 6 → Int} {conse : ℕ} (hc : 1 ≤ conse) {bC2 : Bool}
    {snowPct : ℕ → ℕ → Bool} {z : Model (Fin 6 → BandState ℝ Kalman.Mat)} (hz : z.conseLast = 0) {l l' : List Scene}
    (h : List.Forall₂ (ColdNum.Spec.Raised bC2 d) l l')
    (hsn : Sccd.snowBranch (env E junk conse bC2 snowPct) 0 l = false) (hasc : Sccd.Asc (Sccd.fresh bC2 false l))
    (h1 : (Sccd.fresh bC2 false l).length ≠ 1)
    (hm : SameFlags E.base.robust (variogram E junk (Sccd.fresh bC2 false l)) d (Sccd.fresh bC2 false l)) :
    Sccd.detect (env E junk conse bC2 snowPct) m0 z l' =
      (Sccd.detect (env E junk conse bC2 snowPct) m0 z l).map (Pack.move (raise d) (slot d) (liftF d) (liftR d)) := by
  obtain ⟨hp1, hp2⟩ : (preprocessing bC2 l').status = (preprocessing bC2 l).status ∧
      (preprocessing bC2 l').sums = (preprocessing bC2 l).sums := ColdNum.preLoop_raised h _
  have hd : l'.map (·.date) = l.map (·.date) := by
    clear hsn hasc h1 hm hp1 hp2
    induction h with
    | nil => rfl
    | cons h0 _ ih => rw [List.map_cons, List.map_cons, h0.date, ih]
  have hq : ∀ k, Pycold.Spec.qaCount l' k = Pycold.Spec.qaCount l k := by
    intro k
    clear hsn hasc h1 hm hp1 hp2 hd
    unfold Pycold.Spec.qaCount
    induction h with
    | nil => rfl
    | cons h0 _ ih => rw [List.countP_cons, List.countP_cons, h0.qa, ih]
  obtain ⟨hfr, hpl⟩ := fresh_raised h
  have hsn' : Sccd.snowBranch (env E junk conse bC2 snowPct) 0 l' = false := by
    unfold Sccd.snowBranch at hsn ⊢
    rw [hq, hq, hq]
    exact hsn
  have hasc' : Sccd.Asc (Sccd.fresh bC2 false l') := by
    rw [hfr]
    unfold Sccd.Asc at hasc ⊢
    rw [List.pairwise_map]
    exact hasc
  have hl0 : z = liftM d z := by
    unfold liftM
    rw [if_neg (by rw [hz]; decide)]
  have main : (do let r ← Sccd.sccd (env E junk conse bC2 snowPct) ⟨0, [], m0, some z, [], []⟩ l'
                  Sccd.packOut r) =
      (do let r ← Sccd.sccd (env E junk conse bC2 snowPct) ⟨0, [], m0, some z, [], []⟩ l
          Sccd.packOut r).map (Pack.move (raise d) (slot d) (liftF d) (liftR d)) := by
    by_cases hst : (preprocessing bC2 l).status = .success
    · rw [sccd_first _ m0 z l hst hsn hasc, sccd_first _ m0 z l' (hp1.trans hst) hsn' hasc']
      have eb : (env E junk conse bC2 snowPct).bC2 = bC2 := rfl
      have ec : (env E junk conse bC2 snowPct).conse = conse := rfl
      have ev : (env E junk conse bC2 snowPct).variogram = variogram E junk := rfl
      have en : (env E junk conse bC2 snowPct).num = num E := rfl
      rw [eb, ec, ev, en, hfr, variogram_raised hA hi junk h1]
      by_cases he : Sccd.fresh bC2 false l = []
      · rw [he]
        rfl
      · rw [if_neg (by rw [List.map_eq_nil_iff]; exact he), if_neg he]
        obtain ⟨k, k1, k2, k3⟩ := Sccd.standard_move
          (num_moved hA hi hv hg hsw hf hE hasc hpl hm) hc 0 (some z) (by intro h; cases h) [] []
        have e0 : (some z).map (liftM d) = some z := by rw [Option.map_some, ← hl0]
        rw [e0] at k3
        simp only [List.map_nil] at k3
        rw [k3]
        cases hs : Sccd.standard (num E (variogram E junk (Sccd.fresh bC2 false l))) conse 0 (some z) [] []
            (Sccd.fresh bC2 false l) with
        | error e => rfl
        | ok x =>
          have hx := first_mode hs
          show Sccd.packOut _ = (Sccd.packOut _).map _
          rcases hx with hx | hx
          · have hk : k % 10 = 1 := by
              by_contra hk
              have := k2 x hs hk
              omega
            rw [packOut_one _ hx, packOut_one _ hx, if_pos hk]
            rfl
          · rw [packOut_wait _ hx, packOut_wait _ hx]
            rfl
    · have er : ∀ u : List Scene, (preprocessing bC2 u).status ≠ .success →
          Sccd.sccd (env E junk conse bC2 snowPct) ⟨0, [], m0, some z, [], []⟩ u = .error .fail := by
        intro u hu
        unfold Sccd.sccd
        rw [if_neg (by show ¬ (!Sccd.validModes.contains 0) = true; decide)]
        dsimp only
        exact if_pos hu
      rw [er l hst, er l' (by rw [hp1]; exact hst)]
      rfl
  have eh : l'.head?.map (·.date) = l.head?.map (·.date) := by rw [← List.head?_map, hd, List.head?_map]
  have el : l'.getLast?.map (·.date) = l.getLast?.map (·.date) := by rw [← List.getLast?_map, hd, List.getLast?_map]
  unfold Sccd.detect
  split
  · rfl
  · cases a1 : l.head? <;> cases a2 : l'.head? <;> cases a3 : l.getLast? <;> cases a4 : l'.getLast? <;>
      simp only [a1, a2, a3, a4, Option.map_some, Option.map_none, reduceCtorEq, Option.some.injEq] at eh el
      <;> first | rfl | skip
    simp only [eh, el]
    split
    · rfl
    · exact main

end Pycold.SccdNum
