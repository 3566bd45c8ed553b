import Verif.Proof.SccdNumHom
import Verif.Proof.ColdNumToy
import Verif.Spec.SccdNum
/-!
# C74: the blue and thermal bands take no part in S-CCD's decisions and in the other bands' numbers
-/
namespace Pycold.SccdNum

open Pycold.SccdNum.Spec
open Pycold.ColdNum (Fl)
open Pycold.ColdNum.Spec (AgreeBut)
open Pycold.Sccd (Pack)

variable {F P : Type}

def fives : List (Fin 5) := [0, 1, 2, 3, 4]

/-- The part of a pack C74 is about can be read off the pack on five bands. -/
def view5 (p : Pack (Fin 5 → BandState F P) (Body F (Fin 5)) (Fin 5 → Int)) : PackView F P :=
  { mode := p.mode
    recs := p.recs.map fun r =>
      { tStart := r.tStart, tBreak := r.tBreak, numObs := r.numObs, coefs := fives.map r.body.coefs,
        rmse := fives.map r.body.rmse, magnitude := fives.map r.body.magn }
    minRmse := fives.map p.minRmse
    model := p.model.map fun m =>
      { tStart := m.tStart, numObs := m.numObs, normCm := m.normCm, cmAngle := m.cmAngle,
        conseLast := m.conseLast, bands := fives.map m.filt, obs := m.obs.map unblue }
    queue := p.queue.map unblue }

theorem unblue_blank (l : List Sccd.Obs) : (l.map blank).map unblue = l.map unblue := by
  rw [List.map_map]
  refine List.map_congr_left fun o _ => ?_
  obtain ⟨d, v⟩ := o
  cases v <;> rfl

theorem view_eq (p : Pack (Fin 6 → BandState F P) (Body F (Fin 6)) (Fin 6 → Int)) :
    view p = view5 (p.map blank (fun f => f ∘ ι5) (Body.along ι5) (fun m => m ∘ ι5)) := by
  unfold view view5 Pack.map
  rw [unblue_blank]
  simp only [List.map_map, Option.map_map]
  congr 1
  cases p.model with
  | none => rfl
  | some m =>
    simp only [Option.map_some, Option.some.injEq, Function.comp, Sccd.Model.map]
    rw [unblue_blank]
    rfl

theorem feed_congr {V F R M F' R' M' : Type} {o : Sccd.Obs → Sccd.Obs} {f : F → F'} {r : R → R'} {m : M → M'}
    {E : Sccd.Env V F R M} {E' : Sccd.Env V F' R' M'} (ho : Sccd.ObsMap o) (h : Sccd.EnvHom o f r m E E') :
    ∀ {bs bs' : List (List Scene)}, List.Forall₂ (Sccd.Alike o E.bC2) bs bs' → ∀ {p p' : Pack F R M},
      p.map o f r m = p'.map o f r m →
      (Sccd.feed E p bs).map (Pack.map o f r m) = (Sccd.feed E p' bs').map (Pack.map o f r m)
  | [], [], _, p, p', hp => by simp only [Sccd.feed, Except.map, hp]
  | b :: bs, b' :: bs', .cons hb hbs, p, p', hp => by
    have hu := Sccd.update_congr ho h hp hb
    unfold Sccd.feed
    cases e : Sccd.update E p b with
    | error x =>
      cases e' : Sccd.update E p' b' with
      | error y =>
        rw [e, e'] at hu
        simp only [Except.map, Except.error.injEq] at hu
        subst hu
        rfl
      | ok q' => rw [e, e'] at hu; cases hu
    | ok q =>
      cases e' : Sccd.update E p' b' with
      | error y => rw [e, e'] at hu; cases hu
      | ok q' =>
        rw [e, e'] at hu
        simp only [Except.map, Except.ok.injEq] at hu
        exact feed_congr ho h hbs hu

theorem session_congr {V F R M F' R' M' : Type} {o : Sccd.Obs → Sccd.Obs} {f : F → F'} {r : R → R'} {m : M → M'}
    {E : Sccd.Env V F R M} {E' : Sccd.Env V F' R' M'} (ho : Sccd.ObsMap o) (h : Sccd.EnvHom o f r m E E')
    (m0 : M) (z : Sccd.Model F) {l l' : List Scene} (hl : Sccd.Alike o E.bC2 l l')
    {bs bs' : List (List Scene)} (hb : List.Forall₂ (Sccd.Alike o E.bC2) bs bs') :
    (session E m0 z l bs).map (Pack.map o f r m) = (session E m0 z l' bs').map (Pack.map o f r m) := by
  have hd := Sccd.detect_congr ho h (m0 := m0) (m0' := m0) (z := z) (z' := z) rfl rfl hl
  unfold session
  cases e : Sccd.detect E m0 z l with
  | error x =>
    cases e' : Sccd.detect E m0 z l' with
    | error y =>
      rw [e, e'] at hd
      simp only [Except.map, Except.error.injEq] at hd
      subst hd
      rfl
    | ok q' => rw [e, e'] at hd; cases hd
  | ok q =>
    cases e' : Sccd.detect E m0 z l' with
    | error y => rw [e, e'] at hd; cases hd
    | ok q' =>
      rw [e, e'] at hd
      simp only [Except.map, Except.ok.injEq] at hd
      exact feed_congr ho h hb hd

/-- **C74.**  Two histories of scenes that differ only in blue and thermal values (accepted or rejected alike)
give, through `sccd_detect` and any number of `sccd_update` calls, the same mode, the same breaks, the same
strengths and anomaly counts and the same numbers for green, red, NIR, SWIR1 and SWIR2 — whatever the
arithmetic, the regression routines and the matrix routines compute, and whatever `conse`, the threshold, the
collection and the snow test are. -/
theorem C74_blue_thermal (A : Fl F) (lasso robust : List (List F) → List F → List F)
    (tcg gate pred junk : F) (valid : F → F → List F → P → List F × P × F) (missing resetP narrowP : P → P)
    (zeroP : P) (junkRmse : Fin 6 → Int) (conse : Nat) (bC2 : Bool) (snowPct : Nat → Nat → Bool)
    (m0 : Fin 6 → Int) (z : Sccd.Model (Fin 6 → BandState F P))
    (first first' : List Scene) (batches batches' : List (List Scene))
    (hf : List.Forall₂ (AgreeBut bC2) first first')
    (hb : List.Forall₂ (List.Forall₂ (AgreeBut bC2)) batches batches') :
    let E := env (program A lasso robust tcg gate pred junk valid missing resetP narrowP zeroP) junkRmse conse
      bC2 snowPct
    (session E m0 z first batches).map view = (session E m0 z first' batches').map view := by
  intro E
  have h := env_hom (five A lasso robust tcg gate pred junk valid missing resetP narrowP zeroP) ι5 (fun b => b)
    (fun b => ⟨b.val, rfl, rfl⟩) junkRmse conse bC2 snowPct
  have hs := session_congr blank_obsMap h m0 z (alike_of_agree hf)
    (hb.imp fun _ _ => alike_of_agree)
  have hv : ∀ x : Except Sccd.Err (Pack (Fin 6 → BandState F P) (Body F (Fin 6)) (Fin 6 → Int)),
      x.map view = (x.map (Pack.map blank (fun f => f ∘ ι5) (Body.along ι5) (fun m => m ∘ ι5))).map view5 := by
    intro x
    cases x with
    | error e => rfl
    | ok p => exact congrArg Except.ok (view_eq p)
  rw [hv, hv]
  exact congrArg (Except.map view5) hs

/-! ### A case -/

namespace Toy

open Pycold.ColdNum.Toy (zA mean)

/-- Integer arithmetic; the filter moves the level halfway to the observation. -/
def zP : Env Int Int (Fin 6) :=
  program zA mean mean 75 100 90 0
    (fun _ y a p => ((a.getD 0 0 + (y - a.getD 0 0) / 2) :: a.drop 1, p + 1, y - a.getD 0 0))
    (fun p => p + 1) (fun _ => 7) id 0

def zE : Sccd.Env Int (Fin 6 → BandState Int Int) (Body Int (Fin 6)) (Fin 6 → Int) :=
  env zP (fun _ => 0) 8 false (fun _ _ => false)

/-- Every 25 days, level 500, from the 29th scene on 2000. -/
def scene (k : Nat) : Scene :=
  let lev : Int := (if k < 28 then 500 else 2000) + ((k % 2 : Nat) * 20 : Nat)
  ⟨726000 + 25 * k, 300, lev, lev, lev, lev, lev, 2900, 0⟩

/-- The same with other blue and thermal values. -/
def scene' (k : Nat) : Scene := { scene k with b := 100 + 70 * k, t := 2500 + 13 * k }

def first : List Scene := (List.range 30).map scene
def first' : List Scene := (List.range 30).map scene'
def later : List (List Scene) := [(List.range 4).map fun k => scene (30 + k), (List.range 4).map fun k => scene (34 + k)]
def later' : List (List Scene) := [(List.range 4).map fun k => scene' (30 + k), (List.range 4).map fun k => scene' (34 + k)]

def void : Sccd.Model (Fin 6 → BandState Int Int) := ⟨fun _ => ⟨[], 0, 0, 0⟩, 0, 0, [], 0, 0, 0, [], []⟩

set_option maxRecDepth 100000

/-- The breaks of a pack, if the call succeeded. -/
def breaks (x : Except Sccd.Err (PackView Int Int)) : Option (Nat × List (Int × List Int)) :=
  match x with
  | .ok p => some (p.mode, p.recs.map fun r => (r.tBreak, r.magnitude))
  | .error _ => none

/-- The second update confirms a break. -/
theorem run_breaks : breaks ((session zE (fun _ => 0) void first later).map view) =
    some (5, [(726700, [1497, 1497, 1497, 1497, 1497])]) := by
  decide +kernel

theorem agree (k : Nat) (h : k < 40) : AgreeBut false (scene k) (scene' k) :=
  ⟨rfl, rfl, rfl, rfl, rfl, rfl, rfl,
    ⟨fun _ => ⟨by simp only [scene']; omega, by simp only [scene']; omega⟩, fun _ => ⟨by simp only [scene]; omega, by simp only [scene]; omega⟩⟩,
    ⟨fun _ => .inr (.inr ⟨by simp only [scene']; omega, by simp only [scene']; omega⟩),
      fun _ => .inr (.inr ⟨by simp only [scene]; omega, by simp only [scene]; omega⟩)⟩⟩

theorem agree_range (m n : Nat) (h : m + n ≤ 40) :
    List.Forall₂ (AgreeBut false) ((List.range n).map fun k => scene (m + k))
      ((List.range n).map fun k => scene' (m + k)) := by
  rw [List.forall₂_map_left_iff, List.forall₂_map_right_iff, List.forall₂_same]
  intro k hk
  exact agree _ (by have := List.mem_range.mp hk; omega)

theorem first_agree : List.Forall₂ (AgreeBut false) first first' := by
  simpa [first, first'] using agree_range 0 30 (by omega)

theorem later_agree : List.Forall₂ (List.Forall₂ (AgreeBut false)) later later' :=
  .cons (agree_range 30 4 (by omega)) (.cons (agree_range 34 4 (by omega)) .nil)

/-- The case meets the hypotheses of C74, the blue values differ, and both histories confirm the same break. -/
example : first ≠ first' ∧ breaks ((session zE (fun _ => 0) void first' later').map view) =
    some (5, [(726700, [1497, 1497, 1497, 1497, 1497])]) :=
  ⟨fun h => absurd (congrArg (fun l => l.map (·.b)) h) (by decide),
    (congrArg breaks (C74_blue_thermal zA mean mean 75 100 90 0 _ (fun p => p + 1) (fun _ => 7) id 0
      (fun _ => 0) 8 false (fun _ _ => false) (fun _ => 0) void _ _ _ _ first_agree later_agree)).symm.trans
      run_breaks⟩

end Toy

end Pycold.SccdNum
