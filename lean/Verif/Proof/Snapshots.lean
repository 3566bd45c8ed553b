import Verif.Spec.Snapshots
import Verif.Proof.ChangeMap
import Verif.Props.C34_C36
import Verif.Props.C39_C40
/-!
# Lemmas on snapshots
-/
namespace Pycold.Snapshots

open Spec
open Pycold.ChangeMap (yearOf jan1 yearOf_iff)
open Pycold.ChangeMap.Spec (InYear)
open Pycold.Tile (Grid assembleCm)
open Pycold.Tile.Spec (Placed)
open Pycold.Obia (Pixel)

/-! ## Names -/

theorem toString_nonneg {d : Int} (h : 0 ≤ d) : (toString d).toList = Nat.toDigits 10 d.toNat := by
  rw [Int.toString_eq_repr, Int.repr_eq_if, if_pos h, Nat.toList_repr]

theorem digits_inj {a b : Nat} (h : Nat.toDigits 10 a = Nat.toDigits 10 b) : a = b := by
  have := congrArg (fun l => Nat.ofDigitChars 10 l 0) h
  simpa [Nat.ofDigitChars_ten_toDigits] using this

/-- Text up to the first underscore. -/
theorem before_underscore {a b x y : List Char} (ha : '_' ∉ a) (hb : '_' ∉ b) (h : a ++ '_' :: x = b ++ '_' :: y) : a = b := by
  induction a generalizing b with
  | nil =>
    cases b with
    | nil => rfl
    | cons c cs =>
      simp only [List.nil_append, List.cons_append, List.cons.injEq] at h
      exact absurd (h.1 ▸ List.mem_cons_self) hb
  | cons c cs ih =>
    cases b with
    | nil =>
      simp only [List.nil_append, List.cons_append, List.cons.injEq] at h
      exact absurd (h.1 ▸ List.mem_cons_self) ha
    | cons e es =>
      simp only [List.cons_append, List.cons.injEq] at h
      rw [h.1, ih (fun hm => ha (List.mem_cons_of_mem _ hm)) (fun hm => hb (List.mem_cons_of_mem _ hm)) h.2]

theorem date_of_name {u v : String} {d e : Int} (hd : 0 ≤ d) (he : 0 ≤ e) {x y : String}
    (h : u ++ toString d ++ "_" ++ x = v ++ toString e ++ "_" ++ y) (huv : u = v) : d = e := by
  subst huv
  have h' := congrArg String.toList h
  simp only [String.toList_append, List.append_assoc, List.append_cancel_left_eq, toString_nonneg hd, toString_nonneg he] at h'
  have e1 : "_".toList = ['_'] := rfl
  rw [e1] at h'
  have := digits_inj (before_underscore Nat.underscore_not_in_toDigits Nat.underscore_not_in_toDigits h')
  omega

theorem savedName_cm (d : Int) : savedName "CM" d = cmName d := by
  unfold savedName cmName getDoy
  rw [show ("CM" ++ "_maps_" : String) = "CM_maps_" from rfl]

theorem savedName_date (d : Int) : savedName "CM_date" d = cmDateName d := by
  unfold savedName cmDateName getDoy
  rw [show ("CM_date" ++ "_maps_" : String) = "CM_date_maps_" from rfl]

theorem awaitedCm_eq (d : Int) : awaitedCm d = cmName d := rfl
theorem awaitedDate_eq (d : Int) : awaitedDate d = cmDateName d := rfl

theorem cmName_inj {d e : Int} (hd : 0 ≤ d) (he : 0 ≤ e) (h : cmName d = cmName e) : d = e := by
  unfold cmName at h
  refine date_of_name (u := "CM_maps_") (v := "CM_maps_") (x := toString (yearOf d) ++ zfill 3 (toString (yday d)) ++ ".npy")
    (y := toString (yearOf e) ++ zfill 3 (toString (yday e)) ++ ".npy") hd he ?_ rfl
  simpa only [String.append_assoc] using h

theorem cmDateName_inj {d e : Int} (hd : 0 ≤ d) (he : 0 ≤ e) (h : cmDateName d = cmDateName e) : d = e := by
  unfold cmDateName at h
  refine date_of_name (u := "CM_date_maps_") (v := "CM_date_maps_")
    (x := toString (yearOf d) ++ zfill 3 (toString (yday d)) ++ ".npy")
    (y := toString (yearOf e) ++ zfill 3 (toString (yday e)) ++ ".npy") hd he ?_ rfl
  simpa only [String.append_assoc] using h

theorem names_apart (d e : Int) : cmName d ≠ cmDateName e := by
  intro h
  have h' := congrArg String.toList h
  unfold cmName cmDateName at h'
  simp only [String.toList_append, List.append_assoc] at h'
  have e1 : "CM_maps_".toList = ['C', 'M', '_', 'm', 'a', 'p', 's', '_'] := rfl
  have e2 : "CM_date_maps_".toList = ['C', 'M', '_', 'd', 'a', 't', 'e', '_', 'm', 'a', 'p', 's', '_'] := rfl
  rw [e1, e2] at h'
  simp at h'

theorem coverName_inj {y z : Int} (hy : 0 ≤ y) (hz : 0 ≤ z) (h : coverName y = coverName z) : y = z := by
  have h' := congrArg String.toList h
  unfold coverName at h'
  simp only [String.toList_append, List.append_assoc, List.append_cancel_left_eq, List.append_cancel_right_eq,
    toString_nonneg hy, toString_nonneg hz] at h'
  have := digits_inj h'
  omega

/-! ## Directories -/

theorem saveAll_mem {V : Type} {ws : List (String × V)} (hn : (ws.map Prod.fst).Nodup) {w : String × V} (hw : w ∈ ws)
    (d : Dir V) : ws.foldl save d w.1 = some w.2 := by
  have other : ∀ (ws : List (String × V)) (d : Dir V) (name : String), name ∉ ws.map Prod.fst → ws.foldl save d name = d name := by
    intro ws
    induction ws with
    | nil => intros; rfl
    | cons a as ih =>
      intro d name h
      simp only [List.map_cons, List.mem_cons, not_or] at h
      rw [List.foldl_cons, ih _ _ h.2]
      simp [save, h.1]
  induction ws generalizing d with
  | nil => cases hw
  | cons a as ih =>
    rw [List.map_cons, List.nodup_cons] at hn
    rw [List.foldl_cons]
    rcases List.mem_cons.mp hw with rfl | h
    · rw [other _ _ _ hn.1]; simp [save]
    · exact ih hn.2 h _

theorem mapM_some {α β : Type} {f : α → Option β} {g : α → β} : ∀ {l : List α}, (∀ a ∈ l, f a = some (g a)) →
    l.mapM f = some (l.map g)
  | [], _ => rfl
  | a :: as, h => by
    rw [List.mapM_cons, h a List.mem_cons_self, mapM_some fun b hb => h b (List.mem_cons_of_mem _ hb)]
    rfl

/-! ## Maps -/

theorem view_placed {nb bw bh n : Nat} {file : Nat → Nat → Nat → Int} {k : Nat} {g : Grid Int}
    (h : Placed nb nb bw bh (fun i r c => file (i % nb + 1) (i / nb + 1) ((r * bw + c) * n + k)) g) :
    view g = stored nb bw bh n file k := by
  obtain ⟨h1, h2, h3⟩ := h
  funext ⟨r, c⟩
  unfold view stored
  rw [h1, h2]
  by_cases hin : r < nb * bh ∧ c < nb * bw
  · rw [if_pos hin, if_pos hin]
    obtain ⟨hr, hc⟩ := hin
    have hbh : 0 < bh := by
      rcases Nat.eq_zero_or_pos bh with e | e
      · subst e; simp at hr
      · exact e
    have hbw : 0 < bw := by
      rcases Nat.eq_zero_or_pos bw with e | e
      · subst e; simp at hc
      · exact e
    have hbr : r / bh < nb := Nat.div_lt_of_lt_mul (by rw [Nat.mul_comm]; exact hr)
    have hbc : c / bw < nb := Nat.div_lt_of_lt_mul (by rw [Nat.mul_comm]; exact hc)
    have hk1 : (r / bh * nb + c / bw) / nb = r / bh := by
      rw [Nat.mul_comm, Nat.mul_add_div (Nat.pos_of_ne_zero fun h => by rw [h] at hbc; exact Nat.not_lt_zero _ hbc), Nat.div_eq_of_lt hbc]; omega
    have hk2 : (r / bh * nb + c / bw) % nb = c / bw := by
      rw [Nat.mul_comm, Nat.mul_add_mod, Nat.mod_eq_of_lt hbc]
    have := h3 (r / bh * nb + c / bw) (r % bh) (c % bw) (by
      calc r / bh * nb + c / bw < r / bh * nb + nb := by omega
        _ = (r / bh + 1) * nb := by ring
        _ ≤ nb * nb := Nat.mul_le_mul_right _ hbr) (Nat.mod_lt _ hbh) (Nat.mod_lt _ hbw)
    simp only [hk1, hk2, Nat.div_add_mod' r bh, Nat.div_add_mod' c bw] at this
    exact this
  · rw [if_neg hin, if_neg hin]; rfl

/-! ## Years -/

theorem yearOf_mono {d e : Int} (h : d ≤ e) : yearOf d ≤ yearOf e := by
  have h1 := Pycold.ChangeMap.yearOf_inYear d
  have h2 := Pycold.ChangeMap.yearOf_inYear e
  by_contra hlt
  rw [not_le] at hlt
  unfold InYear Pycold.Spec.ordinal at h1 h2
  rcases (show yearOf e + 1 = yearOf d ∨ yearOf e + 1 < yearOf d by omega) with h3 | h3
  · rw [h3] at h2; omega
  · have := Pycold.daysBeforeYear_mono h3
    have := Pycold.yearLength_bounds (yearOf e + 1)
    omega

theorem coverYear_spec {start date : Int} (h : start ≤ date) : YearBefore start date (coverYear start date) := by
  have hm := yearOf_mono h
  unfold YearBefore coverYear
  split
  · left
    have : yearOf date = yearOf start := by omega
    exact ⟨yearOf_iff.mp this, yearOf_iff.mp rfl⟩
  · right
    refine ⟨yearOf_iff.mp (by omega), fun hs => ?_⟩
    have := yearOf_iff.mpr hs
    omega

theorem mem_predicted {P : Plan} {y : Int} :
    y ∈ predicted P ↔ yearOf P.start ≤ y ∧ y < yearOf (P.start + ((P.n : Int) - 1) * P.interval) := by
  unfold predicted
  simp only [List.mem_map, List.mem_range]
  constructor
  · rintro ⟨i, hi, rfl⟩; omega
  · rintro ⟨h1, h2⟩; exact ⟨(y - yearOf P.start).toNat, by omega, by omega⟩

end Pycold.Snapshots
