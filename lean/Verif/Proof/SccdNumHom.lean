import Verif.Model.SccdNum
import Verif.Proof.SccdHom
import Verif.Proof.ColdNumHom
import Verif.Proof.ColdNumTop
/-! Restricting S-CCD to the bands of the change test. -/
namespace Pycold.SccdNum

open Pycold.ColdNum (Fl)
open Pycold.Sccd (Obs Num ObsMap Hom EnvHom)

variable {F P B B' : Type}

/-- An observation without its first value. -/
def blank (x : Obs) : Obs := ⟨x.date, match x.vals with | [] => [] | _ :: t => 0 :: t⟩

theorem blank_obsMap : ObsMap blank where
  date := fun _ => rfl
  enc := by
    rintro ⟨d, v⟩
    cases v <;> rfl
  dec := fun _ => rfl
  pad := rfl

theorem blank_getD (x : Obs) (k : Nat) : (blank x).vals.getD (k + 1) 0 = x.vals.getD (k + 1) 0 := by
  obtain ⟨d, v⟩ := x
  cases v <;> rfl

/-- The same settings for the bands named by `ι`. -/
def Env.along (E : Env F P B') (ι : B' → B) (idx : B → Nat) : Env F P B :=
  { base := E.base.along ι, idx := idx, valid := E.valid, missing := E.missing, zeroP := E.zeroP,
    resetP := E.resetP, narrowP := E.narrowP, junk := E.junk, gate := E.gate, pred := E.pred }

def Body.along (ι : B' → B) (x : Body F B) : Body F B' :=
  { coefs := x.coefs ∘ ι, rmse := x.rmse ∘ ι, magn := x.magn ∘ ι }

section
variable (E : Env F P B') (ι : B' → B) (idx : B → Nat) (h : ∀ b, ∃ k, E.idx b = k + 1 ∧ idx (ι b) = k + 1)
include h

theorem value_blank (b : B') (x : Obs) : value E b (blank x) = value (E.along ι idx) (ι b) x := by
  obtain ⟨k, h1, h2⟩ := h b
  show E.base.A.ofInt _ = E.base.A.ofInt _
  show E.base.A.ofInt ((blank x).vals.getD (E.idx b) 0) = E.base.A.ofInt (x.vals.getD (idx (ι b)) 0)
  rw [h1, h2, blank_getD]

theorem row_blank (x : Obs) : row E (blank x) = (row (E.along ι idx) x).map (fun y => y ∘ ι) := by
  show ColdV.Row.mk _ _ = ColdV.Row.mk _ _
  congr 1
  funext b
  exact value_blank E ι idx h b x

theorem rows_blank (w : List Obs) :
    (w.map blank).map (row E) = (w.map (row (E.along ι idx))).map (ColdV.Row.map (fun y => y ∘ ι)) := by
  rw [List.map_map, List.map_map]
  exact List.map_congr_left fun x _ => row_blank E ι idx h x

theorem fits_blank (df : Int) (w : List Obs) : fits E df (w.map blank) = fits (E.along ι idx) df w ∘ ι := by
  unfold fits
  rw [rows_blank E ι idx h]
  exact ColdNum.fit_restrict E.base ι df _

theorem series_blank (b : B') (w : List Obs) :
    series E b (w.map blank) = series (E.along ι idx) (ι b) w := by
  unfold series
  rw [List.map_map]
  refine List.map_congr_left fun x _ => ?_
  show ((blank x).date, value E b (blank x)) = _
  rw [value_blank E ι idx h]
  rfl

theorem regular_along (H y : F) (t n : Int) (r : Run F P) :
    regular E H y t n r = regular (E.along ι idx) H y t n r := rfl

omit h in
theorem ssmRun_along (H : F) : ∀ (l : List (Int × F)) (k : Nat) (r : Run F P) (s : Int),
    ssmRun E H l k r s = ssmRun (E.along ι idx) H l k r s
  | [], _, _, _ => rfl
  | [_], _, _, _ => rfl
  | a :: b :: l, k, r, s => ssmRun_along H (b :: l) _ _ _

omit h in
theorem ssmInit_along (H : F) (w : List (Int × F)) (nx : Int × F) (c : List F) (p : P) :
    ssmInit E H w nx c p = ssmInit (E.along ι idx) H w nx c p := by
  unfold ssmInit
  rw [ssmRun_along E ι idx]
  rfl

theorem score_blank (rmin : B → Int) (f : B → BandState F P) (n df : Int) (x : Obs) :
    score E (rmin ∘ ι) (f ∘ ι) n df (blank x) =
      ((score (E.along ι idx) rmin f n df x).1, (score (E.along ι idx) rmin f n df x).2.1,
        (score (E.along ι idx) rmin f n df x).2.2 ∘ ι) := by
  have hd : difs E (f ∘ ι) (blank x) = difs (E.along ι idx) f x ∘ ι := by
    funext b
    unfold difs
    rw [value_blank E ι idx h]
    rfl
  unfold score
  rw [hd]
  unfold ColdNum.zColumn
  refine Prod.ext ?_ (Prod.ext ?_ rfl)
  · show _ = List.foldl _ _ (E.base.blist.map ι)
    rw [List.foldl_map]
    rfl
  · show _ = (E.base.blist.map ι).map _
    rw [List.map_map]
    rfl

/-- Forgetting the other bands commutes with every numerical function of S-CCD. -/
theorem num_hom (rmin : B → Int) :
    Hom blank (fun f : B → BandState F P => f ∘ ι) (Body.along ι) (num (E.along ι idx) rmin)
      (num E (rmin ∘ ι)) := by
  let K := ColdNum.restrict E.base ι (fun b => E.base.A.ofInt (rmin b)) []
  have hs : ∀ (w : List Obs) (x : Obs), ColdNum.score E.base (fun b => E.base.A.ofInt (rmin (ι b))) 4 (fits E 4 (w.map blank))
      (row E (blank x)) = ((ColdNum.score (E.base.along ι) (fun b => E.base.A.ofInt (rmin b)) 4
        (fits (E.along ι idx) 4 w) (row (E.along ι idx) x)).1,
        (ColdNum.score (E.base.along ι) (fun b => E.base.A.ofInt (rmin b)) 4
        (fits (E.along ι idx) 4 w) (row (E.along ι idx) x)).2.1,
        (ColdNum.score (E.base.along ι) (fun b => E.base.A.ofInt (rmin b)) 4
        (fits (E.along ι idx) 4 w) (row (E.along ι idx) x)).2.2 ∘ ι) := fun w x => by
    rw [fits_blank E ι idx h, row_blank E ι idx h]
    exact K.score 4 (fits (E.along ι idx) 4 w) (row (E.along ι idx) x)
  constructor
  case lt => rfl
  case le => rfl
  case big => rfl
  case tcg => rfl
  case tmax => rfl
  case tmaxLb => rfl
  case nsign => rfl
  case gate => rfl
  case pred => rfl
  case scale => rfl
  case narrow => intro x; rfl
  case mask =>
    intro w
    funext k
    show ColdNum.mask E.base (fun b => E.base.A.ofInt ((rmin ∘ ι) b)) ((w.map blank).map (row E)) k =
      ColdNum.mask (E.base.along ι) (fun b => E.base.A.ofInt (rmin b)) (w.map (row (E.along ι idx))) k
    rw [rows_blank E ι idx h]
    exact congrFun (ColdNum.mask_restrict E.base ι (fun b => E.base.A.ofInt (rmin b)) (w.map (row (E.along ι idx)))) k
  case unstable =>
    intro w
    show ColdNum.unstable _ _ _ _ = ColdNum.unstable _ _ _ _
    rw [rows_blank E ι idx h, fits_blank E ι idx h]
    exact K.unstable _ _
  case lbMag =>
    intro w x
    show (ColdNum.score _ _ _ _ _).1 = (ColdNum.score _ _ _ _ _).1
    exact congrArg (·.1) (hs w x)
  case lbAngle =>
    intro w l
    show ColdNum.meanAngle _ _ = ColdNum.meanAngle _ _
    rw [List.map_map]
    congr 1
    refine List.map_congr_left fun x _ => ?_
    exact congrArg (·.2.1) (hs w x)
  case firstRec =>
    intro a b c
    show Body.mk _ _ _ = Body.mk _ _ _
    rw [fits_blank E ι idx h, fits_blank E ι idx h]
    congr 1
    funext k
    show E.base.A.neg _ = E.base.A.neg _
    rw [← List.map_reverse, List.map_map]
    congr 2
    refine List.map_congr_left fun x _ => ?_
    show ColdNum.difs _ _ _ (row E (blank x)) _ = _
    rw [row_blank E ι idx h]
    rfl
  case fit =>
    intro p w x
    funext b
    show ssmInit E _ _ _ _ _ = ssmInit (E.along ι idx) _ _ _ _ _
    rw [fits_blank E ι idx h, series_blank E ι idx h, value_blank E ι idx h, ssmInit_along E ι idx]
    cases p <;> rfl
  case mag =>
    intro f n x
    show (score E _ _ _ _ _).1 = _
    rw [score_blank E ι idx h]
    rfl
  case angle =>
    intro f n l
    show ColdNum.meanAngle _ _ = ColdNum.meanAngle _ _
    rw [List.map_map]
    congr 1
    refine List.map_congr_left fun x _ => ?_
    show (score E _ _ _ _ _).2.1 = _
    rw [score_blank E ι idx h]
  case endMag =>
    intro f n x
    show (score E _ _ _ _ _).1 = _
    rw [score_blank E ι idx h]
    rfl
  case endAngle =>
    intro f n l
    show ColdNum.meanAngle _ _ = ColdNum.meanAngle _ _
    rw [List.map_map]
    congr 1
    refine List.map_congr_left fun x _ => ?_
    show (score E _ _ _ _ _).2.1 = _
    rw [score_blank E ι idx h]
  case changeRec =>
    intro f n l
    show Body.mk _ _ _ = Body.mk _ _ _
    congr 1
    funext b
    show ColdNum.median _ _ = ColdNum.median _ _
    rw [List.map_map]
    congr 1
    refine List.map_congr_left fun x _ => ?_
    show difs E _ (blank x) b = difs (E.along ι idx) f x (ι b)
    unfold difs
    rw [value_blank E ι idx h]
    rfl
  case filter =>
    intro f x t
    funext b
    show filter E _ _ _ b = filter _ _ _ _ (ι b)
    unfold filter
    rw [value_blank E ι idx h]
    rfl
  case skip => intro f x t; rfl
  case snowFit =>
    intro w
    funext b
    show ssmInit E _ _ _ _ _ = ssmInit (E.along ι idx) _ _ _ _ _
    rw [fits_blank E ι idx h, series_blank E ι idx h, ssmInit_along E ι idx, List.getLast?_map]
    cases w.getLast? with
    | none => rfl
    | some x =>
      show ssmInit _ _ _ ((blank x).date, value E b (blank x)) _ _ = _
      rw [value_blank E ι idx h]
      rfl
  case snowFilter =>
    intro f x t
    funext b
    show snowFilter E _ _ _ b = snowFilter _ _ _ _ (ι b)
    unfold snowFilter
    rw [value_blank E ι idx h]
    rfl

theorem env_hom (junk : B → Int) (conse : Nat) (bC2 : Bool) (snowPct : Nat → Nat → Bool) :
    EnvHom blank (fun f : B → BandState F P => f ∘ ι) (Body.along ι) (fun m => m ∘ ι)
      (env (E.along ι idx) junk conse bC2 snowPct) (env E (junk ∘ ι) conse bC2 snowPct) where
  conse := rfl
  bC2 := rfl
  snowPct := rfl
  num := num_hom E ι idx h
  variogram := by
    intro w
    funext b
    show variogram E _ _ _ = variogram _ _ _ _
    unfold variogram
    obtain ⟨k, h1, h2⟩ := h b
    have e : (E.along ι idx).idx (ι b) = k + 1 := h2
    rw [List.length_map, h1, e]
    have hv : (w.map blank).map (value E b) = w.map (value (E.along ι idx) (ι b)) := by
      rw [List.map_map]
      exact List.map_congr_left fun x _ => value_blank E ι idx h b x
    rw [hv]
    rfl

end

/-- Positions of the bands of the change test among the six. -/
def ι5 (k : Fin 5) : Fin 6 := ⟨k.val + 1, by omega⟩

/-- The program on the five bands of the change test. -/
def five (A : Fl F) (lasso robust : List (List F) → List F → List F) (tcg gate pred junk : F)
    (valid : F → F → List F → P → List F × P × F) (missing resetP narrowP : P → P) (zeroP : P) :
    Env F P (Fin 5) :=
  { base := { A := A, lasso := lasso, robust := robust, blist := [0, 1, 2, 3, 4], green := 0, swir := 3,
              tcg := tcg }
    idx := fun b => b.val + 1, valid := valid, missing := missing, zeroP := zeroP, resetP := resetP,
    narrowP := narrowP, junk := junk, gate := gate, pred := pred }

theorem program_along (A : Fl F) (lasso robust : List (List F) → List F → List F) (tcg gate pred junk : F)
    (valid : F → F → List F → P → List F × P × F) (missing resetP narrowP : P → P) (zeroP : P) :
    program A lasso robust tcg gate pred junk valid missing resetP narrowP zeroP =
      (five A lasso robust tcg gate pred junk valid missing resetP narrowP zeroP).along ι5 (fun b => b) := rfl

/-! ### Scenes -/

open Pycold.ColdNum.Spec (AgreeBut) in
theorem alike_of_agree {bC2 : Bool} {l l' : List Scene} (h : List.Forall₂ (AgreeBut bC2) l l') :
    Sccd.Alike blank bC2 l l' where
  dates := by
    induction h with
    | nil => rfl
    | cons ho _ ih => rw [List.map_cons, List.map_cons, ih, ho.date]
  pre := ColdNum.preLoop_agree h {}
  acc := by
    intro s
    induction h with
    | nil => intro vs; rfl
    | @cons x x' l l' ho _ ih =>
      intro vs
      cases vs with
      | nil => rfl
      | cons v vs =>
        have e : blank (Sccd.toObs x) = blank (Sccd.toObs x') := by
          show Obs.mk _ _ = Obs.mk _ _
          simp only [Sccd.toObs, ho.date, ho.g, ho.r, ho.n, ho.s1, ho.s2]
        simp only [Sccd.accepted, ho.qa]
        generalize (if s = true then decide (x'.qa = CFMASK_SNOW) || decide (x'.qa < 2)
          else decide (x'.qa < 2) && v) = c
        cases c with
        | true => simp only [if_true, List.map_cons, e, ih]
        | false => exact ih vs

end Pycold.SccdNum
