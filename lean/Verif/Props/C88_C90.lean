import Verif.Proof.Pack
/-!
# C88: saved packs; C89: the export of S-CCD maps; C90: the export of the other methods
-/
namespace Pycold.Pack
open Spec
variable {F : Type} (single : F → F)

/-- **C88, round trip.**  A pack as returned by `sccd_detect` or `sccd_update` is the same after `unindex_sccdpack` and
`index_sccdpack`. -/
theorem C88_round_trip (p : Pack F) (h : Returned single p) : (unindex p).bind (index single) = some p := by
  obtain ⟨r, hr1, hr2⟩ := back_recs h.recs
  obtain ⟨m, hm1, hm2⟩ := back (single := single) (dt := nrtmodel_dt) (i := p.nrt_model)
    (h.model.imp id fun ⟨row, e, t⟩ => ⟨[row], e, t⟩)
  obtain ⟨q, hq1, hq2⟩ := back h.queue
  unfold unindex
  simp only [hr1, hm1, hq1, Option.bind_some]
  simp only [index, indexWith, hr2, hm2, hq2, Option.bind_some]

/-- **C88, a file of packs** is read back as it was written. -/
theorem C88_file (ps : List (Pack F)) (h : ∀ p ∈ ps, Returned single p) :
    ∃ saved, ps.mapM unindex = some saved ∧ saved.mapM (index single) = some ps := by
  induction ps with
  | nil => exact ⟨[], rfl, rfl⟩
  | cons p ps ih =>
    obtain ⟨saved, h1, h2⟩ := ih (fun x hx => h x (by simp [hx]))
    have hp := C88_round_trip single p (h p (by simp))
    cases hu : unindex p with
    | none => rw [hu] at hp; simp at hp
    | some s =>
      rw [hu] at hp
      refine ⟨s :: saved, ?_, ?_⟩
      · rw [List.mapM_cons, hu, h1]; rfl
      · rw [List.mapM_cons, show index single s = some p from hp, h2]; rfl

/-- **C88, other lists** than those of six elements are refused. -/
theorem C88_other_lists (l : List (Py F)) (h : l.length ≠ 6) : index single l = none := by
  unfold index indexWith
  split
  · simp at h
  · rfl

/-- **C88, places in memory.**  The record types that the C code writes through have name, place and size of every
field as the C structs, and the same size of a record: `reccg_dt` although it is packed, the others aligned. -/
theorem C88_places :
    npPlaces false 0 reccg_dt = cPlaces 0 Output_t ∧ extent 1 (npPlaces false 0 reccg_dt) = extent 4 (cPlaces 0 Output_t) ∧
    npPlaces true 0 sccd_dt = cPlaces 0 Output_sccd ∧ extent 4 (npPlaces true 0 sccd_dt) = extent 4 (cPlaces 0 Output_sccd) ∧
    npPlaces true 0 nrtmodel_dt = cPlaces 0 C_nrtmodel ∧
    extent 4 (npPlaces true 0 nrtmodel_dt) = extent 4 (cPlaces 0 C_nrtmodel) ∧
    npPlaces true 0 nrtqueue_dt = cPlaces 0 C_nrtqueue ∧
    extent 2 (npPlaces true 0 nrtqueue_dt) = extent 2 (cPlaces 0 C_nrtqueue) ∧
    npPlaces true 0 pinpoint_dt = cPlaces 0 Output_sccd_pinpoint ∧
    extent 4 (npPlaces true 0 pinpoint_dt) = extent 4 (cPlaces 0 Output_sccd_pinpoint) := by
  decide +kernel

/-- **C89, reading.**  The export reads a saved pack iff it has no model; then it sees the position and records of the
pack. -/
theorem C89_read_iff (p : Pack F) (h : Returned single p) (saved : List (Py F)) (hs : unindex p = some saved) :
    (HasModel p → exportIndex single saved = none) ∧
    (¬ HasModel p → ∃ p', exportIndex single saved = some p' ∧ p'.position = p.position ∧ p'.rec_cg = p.rec_cg) := by
  obtain ⟨r, hr1, hr2⟩ := back_recs h.recs
  obtain ⟨q, hq1, hq2⟩ := back h.queue
  have hr2' : indexRecs single output_sccd r = some p.rec_cg := hr2
  have hq2' : indexItem single output_nrtqueue q = some p.nrt_queue := hq2
  unfold HasModel
  rcases h.model with hm | ⟨row, hm, ht⟩
  · refine ⟨fun hn => absurd hm hn, fun _ => ?_⟩
    have h1 : unindexItem (Item.void : Item F) = some .void := rfl
    have h2 : indexItem single output_nrtmodel (Item.void : Item F) = some .void := rfl
    unfold unindex at hs
    simp only [hr1, hq1, hm, h1, Option.bind_some] at hs
    rw [← Option.some.inj hs]
    simp only [exportIndex, indexWith, hr2', hq2', h2, Option.bind_some]
    exact ⟨_, rfl, rfl, rfl⟩
  · refine ⟨fun _ => ?_, fun hn => absurd (show p.nrt_model ≠ .void by rw [hm]; simp) hn⟩
    have h1 : unindexItem (Item.records nrtmodel_dt [row]) = some (.tuples [row]) := rfl
    have h2 : indexItem single output_nrtmodel (.tuples [row]) = asarray single output_nrtmodel (.tuples [row]) := rfl
    unfold unindex at hs
    simp only [hr1, hq1, hm, h1, Option.bind_some] at hs
    rw [← Option.some.inj hs]
    simp only [exportIndex, indexWith, hr2', h2, export_model ht, Option.bind_some, Option.bind_none]

section
variable {M : Type} (fill : Nat → List (Pack F) → Option (Int → M)) (empty : M) (J : Job F)

/-- **C89, a pack with a model.**  If the record file of some block has a pack with a model, `main` raises and writes no
break map. -/
theorem C89_model_raises (D : Disk M) (b : Nat) (hb : b < J.nBlocks) (p : Pack F) (h : Returned single p) (hm : HasModel p)
    (saved : List (List (Py F))) (hf : J.file b = some saved) (s : List (Py F)) (hs : unindex p = some s) (hin : s ∈ saved) :
    exportSccd single fill empty J D = (D, false) := by
  unfold exportSccd blocks
  rw [blocks_raise fill empty J _ D b (List.mem_range.mpr hb)]
  intro D
  unfold block
  rw [hf]
  simp only [mapM_none hin ((C89_read_iff single p h s hs).1 hm)]
  rfl

/-- **C89, a record file.**  If the record file of some block is there, whatever packs are in it, and no temporary map of
this block and of the first year is left from another run, `main` raises and writes no break map. -/
theorem C89_file_raises (D : Disk M) (b : Nat) (hb : b < J.nBlocks) (hf : J.file b ≠ none) (hy : J.low ≤ J.upp)
    (hold : D.tmp b J.low = none) :
    (exportSccd single fill empty J D).1.breaks = D.breaks ∧ (exportSccd single fill empty J D).2 = false := by
  unfold exportSccd
  cases hB : blocks single fill empty J D with
  | none => exact ⟨rfl, rfl⟩
  | some D1 =>
    obtain ⟨h1, _, h3⟩ := blocks_disk fill empty J _ D D1 hB
    have ht : D1.tmp b J.low = none := by rw [h3, if_neg (by intro h; exact hf h.2.1), hold]
    obtain ⟨ys, hys⟩ := years_cons hy
    have ha : assembleYears J.nBlocks (years J.low J.upp) D1 = (D1, true) := by
      rw [hys, assembleYears]
      have : assembleYear J.nBlocks J.low D1 = none := by
        unfold assembleYear
        rw [mapM_none (List.mem_range.mpr hb) ht]
        rfl
      rw [this]
    simp only [finish, ha]
    exact ⟨h1, trivial⟩

/-- **C89, what the maps show.**  When break maps are written, a block whose record file is there shows what a temporary
file left from another run has, a missing one −9999; the packs have no part in it. -/
theorem C89_maps_without_packs (D D1 : Disk M) (hB : blocks single fill empty J D = some D1) :
    ∀ b < J.nBlocks, ∀ y, J.low ≤ y → y ≤ J.upp →
      D1.tmp b y = if J.file b = none then some empty else D.tmp b y := by
  intro b hb y h1 h2
  obtain ⟨_, _, h3⟩ := blocks_disk fill empty J _ D D1 hB
  rw [h3]
  simp [List.mem_range, hb, h1, h2]

/-- **C89, no record files** (the part that holds): every year gets a map of −9999, and the maps of recent and first
disturbance are reached unless coefficients are asked for. -/
theorem C89_no_files_partial (D : Disk M) (hf : ∀ b < J.nBlocks, J.file b = none) :
    (∀ y, J.low ≤ y → y ≤ J.upp →
      (exportSccd single fill empty J D).1.breaks y = some (List.replicate J.nBlocks empty)) ∧
    (J.coefs = false → (exportSccd single fill empty J D).2 = true) := by
  obtain ⟨D1, hB⟩ := blocks_missing (single := single) fill empty J (List.range J.nBlocks) D
    (fun b hb => hf b (List.mem_range.mp hb))
  have hm := C89_maps_without_packs single fill empty J D D1 hB
  obtain ⟨D2, ha, _, hbr⟩ := assemble_all J.nBlocks (years J.low J.upp) D1 (fun _ _ => empty) (years_nodup _ _) (by
    intro y hy b hb
    have := mem_years.mp hy
    rw [hm b hb y this.1 this.2, if_pos (hf b hb)])
  unfold exportSccd finish
  have hB : blocks single fill empty J D = some D1 := hB
  simp only [hB, ha]
  constructor
  · intro y h1 h2
    rw [hbr, if_pos (mem_years.mpr ⟨h1, h2⟩)]
    simp
  · intro hc; simp [hc]

/-- **C89, coefficients.**  With coefficients asked for and no temporary files left from another run, `main` raises. -/
theorem C89_coefs_raise (D : Disk M) (hc : J.coefs = true) (hn : 0 < J.nBlocks) (hy : J.low ≤ J.upp)
    (hold : ∀ b y, D.tmpCoef b y = none) : (exportSccd single fill empty J D).2 = false := by
  unfold exportSccd
  cases hB : blocks single fill empty J D with
  | none => rfl
  | some D1 =>
    obtain ⟨_, h2, _⟩ := blocks_disk fill empty J _ D D1 hB
    have h4 := assemble_coef J.nBlocks (years J.low J.upp) D1
    dsimp only
    unfold finish
    generalize assembleYears J.nBlocks (years J.low J.upp) D1 = r at h4
    obtain ⟨D2, e⟩ := r
    cases e with
    | true => rfl
    | false =>
      dsimp only at h4 ⊢
      rw [hc, coefYears_missing J.nBlocks D2 _ J.low 0 (mem_years.mpr ⟨by omega, hy⟩) hn (by rw [h4, h2]; exact hold 0 J.low)]
      rfl

end

section
variable {α M : Type} (fill : Nat → α → Option (Int → M)) (coefMap : Nat → α → Int → M) (empty : M) (J : JobCold α)

/-- **C90, break maps of COLD and OBCOLD.**  If the maps of every record file that is there can be filled, every year of
the range gets a break map put together from all blocks in order: the maps of the records, −9999 for missing files,
whatever was in the directory before; other years stay as they were.  It goes on to the maps of recent and first
disturbance if no coefficients are asked for, or no file is missing. -/
theorem C90_break_maps (D : Disk M) (maps : Nat → Int → M)
    (hmaps : ∀ b a, J.file b = some a → fill b a = some (maps b)) :
    (∀ y, J.low ≤ y → y ≤ J.upp → (exportCold fill coefMap empty J D).1.breaks y =
      some ((List.range J.nBlocks).map fun b => if J.file b = none then empty else maps b y)) ∧
    (∀ y, ¬ (J.low ≤ y ∧ y ≤ J.upp) → (exportCold fill coefMap empty J D).1.breaks y = D.breaks y) ∧
    (J.coefs = false ∨ (∀ b < J.nBlocks, J.file b ≠ none) → (exportCold fill coefMap empty J D).2 = true) := by
  obtain ⟨D1, hB, h2, h3, h4⟩ := blocksCold_disk fill coefMap empty J maps hmaps (List.range J.nBlocks) D
  obtain ⟨D2, ha, hco, hbr⟩ := assemble_all J.nBlocks (years J.low J.upp) D1
    (fun b y => if J.file b = none then empty else maps b y) (years_nodup _ _) (by
      intro y hy b hb
      have := mem_years.mp hy
      rw [h3, if_pos ⟨List.mem_range.mpr hb, this⟩])
  unfold exportCold finish
  simp only [hB, ha]
  refine ⟨fun y hy1 hy2 => ?_, fun y hy => ?_, fun h => ?_⟩
  · rw [hbr, if_pos (mem_years.mpr ⟨hy1, hy2⟩)]
  · rw [hbr, if_neg (fun h => hy (mem_years.mp h)), h2]
  · rcases h with h | h
    · simp [h]
    · by_cases hc : J.coefs = true
      · rw [hc, coefYears_all J.nBlocks D2 _ (fun y hy b hb => by
          have := mem_years.mp hy
          rw [hco, h4]
          cases hf : J.file b with
          | none => exact absurd hf (h b hb)
          | some a => simp [hc, hb, this.1, this.2])]
        rfl
      · simp [hc]

/-- **C90, missing file and coefficients.**  With coefficients asked for, a missing record file and no temporary file left
from another run, `main` raises after the break maps: the maps of recent and first disturbance are not written. -/
theorem C90_missing_with_coefs (D : Disk M) (maps : Nat → Int → M)
    (hmaps : ∀ b a, J.file b = some a → fill b a = some (maps b)) (hc : J.coefs = true) (hy : J.low ≤ J.upp) (b : Nat)
    (hb : b < J.nBlocks) (hf : J.file b = none) (hold : D.tmpCoef b J.low = none) :
    (exportCold fill coefMap empty J D).2 = false := by
  obtain ⟨D1, hB, h2, h3, h4⟩ := blocksCold_disk fill coefMap empty J maps hmaps (List.range J.nBlocks) D
  obtain ⟨D2, ha, hco, hbr⟩ := assemble_all J.nBlocks (years J.low J.upp) D1
    (fun b y => if J.file b = none then empty else maps b y) (years_nodup _ _) (by
      intro y hy b hb
      have := mem_years.mp hy
      rw [h3, if_pos ⟨List.mem_range.mpr hb, this⟩])
  unfold exportCold finish
  simp only [hB, ha]
  have : D1.tmpCoef b J.low = none := by
    have := h4 b J.low
    rw [hf, hold] at this
    simpa using this
  rw [hc, coefYears_missing J.nBlocks D2 _ J.low b (mem_years.mpr ⟨by omega, hy⟩) hb (by rw [hco, this])]
  rfl

end

/-! ## Concrete cases -/

/-- A pack with one record, a model and a queue of two. -/
def toyPack : Pack Int :=
  let f (n : Nat) (sh : List Nat) : Cell Int := ⟨sh, (List.range n).map fun k : Nat => .flt (k : Int)⟩
  let i (n : Nat) (sh : List Nat) : Cell Int := ⟨sh, (List.range n).map fun k : Nat => .int (k : Int)⟩
  { position := 7,
    rec_cg := .records sccd_dt [[i 1 [], i 1 [], i 1 [], f 36 [6, 6], f 6 [6], f 6 [6]]],
    min_rmse := [1, 2, 3, 4, 5, 6], nrt_mode := 5,
    nrt_model := .records nrtmodel_dt [[i 1 [], i 1 [], i 48 [6, 8], i 8 [8], f 216 [6, 36], f 36 [6, 6], f 6 [6], i 6 [6],
      i 1 [], i 1 [], i 1 []]],
    nrt_queue := .records nrtqueue_dt [[i 6 [6], i 1 []], [i 6 [6], i 1 []]] }

theorem fits_flt (k : Kind) (hk : k = .float32) : ∀ n, ∀ v ∈ (List.range n).map fun k : Nat => (Num.flt (k : Int) : Num Int), Fits id k v := by
  intro n v hv
  obtain ⟨a, _, rfl⟩ := List.mem_map.mp hv
  subst hk; rfl

theorem fits_int (k : Kind) (hk : k ≠ .float32) : ∀ n ≤ 48, ∀ v ∈ (List.range n).map fun k : Nat => (Num.int (k : Int) : Num Int), Fits id k v := by
  intro n hn v hv
  obtain ⟨a, ha, rfl⟩ := List.mem_map.mp hv
  have := List.mem_range.mp ha
  cases k <;> simp_all [Fits] <;> omega

/-- It is a pack as returned, with a model. -/
theorem toy_returned : Returned id toyPack ∧ HasModel toyPack := by
  refine ⟨⟨.inr ⟨_, by simp, rfl, ?_⟩, .inr ⟨_, rfl, ?_⟩, .inr ⟨_, rfl, ?_⟩⟩, by simp [HasModel, toyPack]⟩
  · intro row hr
    obtain rfl := List.mem_singleton.mp hr
    exact .cons ⟨rfl, fits_int _ (by simp) _ (by omega)⟩ (.cons ⟨rfl, fits_int _ (by simp) _ (by omega)⟩ (.cons ⟨rfl, fits_int _ (by simp) _ (by omega)⟩ (.cons ⟨rfl, fits_flt _ rfl _⟩ (.cons ⟨rfl, fits_flt _ rfl _⟩ (.cons ⟨rfl, fits_flt _ rfl _⟩ .nil)))))
  · intro row hr
    obtain rfl := List.mem_singleton.mp hr
    exact .cons ⟨rfl, fits_int _ (by simp) _ (by omega)⟩ (.cons ⟨rfl, fits_int _ (by simp) _ (by omega)⟩ (.cons ⟨rfl, fits_int _ (by simp) _ (by omega)⟩ (.cons ⟨rfl, fits_int _ (by simp) _ (by omega)⟩ (.cons ⟨rfl, fits_flt _ rfl _⟩ (.cons ⟨rfl, fits_flt _ rfl _⟩ (.cons ⟨rfl, fits_flt _ rfl _⟩ (.cons ⟨rfl, fits_int _ (by simp) _ (by omega)⟩ (.cons ⟨rfl, fits_int _ (by simp) _ (by omega)⟩ (.cons ⟨rfl, fits_int _ (by simp) _ (by omega)⟩ (.cons ⟨rfl, fits_int _ (by simp) _ (by omega)⟩ .nil))))))))))
  · intro row hr
    rcases List.mem_cons.mp hr with rfl | hr
    · exact .cons ⟨rfl, fits_int _ (by simp) _ (by omega)⟩ (.cons ⟨rfl, fits_int _ (by simp) _ (by omega)⟩ .nil)
    · obtain rfl := List.mem_singleton.mp hr
      exact .cons ⟨rfl, fits_int _ (by simp) _ (by omega)⟩ (.cons ⟨rfl, fits_int _ (by simp) _ (by omega)⟩ .nil)

example : Returned id toyPack ∧ HasModel toyPack ∧ ∃ s, unindex toyPack = some s := ⟨toy_returned.1, toy_returned.2, _, rfl⟩

/-- Two blocks, the first with the pack above in its file; an empty directory. -/
example : ∃ (J : Job Int) (s : List (Py Int)), unindex toyPack = some s ∧ 0 < J.nBlocks ∧ J.file 0 = some [s] ∧ J.file 1 = none ∧
    J.low ≤ J.upp ∧ J.coefs = true :=
  ⟨⟨2, 2000, 2010, true, fun b => if b = 0 then some [_] else none⟩, _, rfl, by decide, rfl, rfl, by decide, rfl⟩

/-- A pack without model is read, and a run without record files goes through. -/
example : Returned id { toyPack with nrt_model := .void, nrt_mode := 2 } ∧ ¬ HasModel { toyPack with nrt_model := .void, nrt_mode := 2 } ∧
    (exportSccd (id : Int → Int) (fun _ _ => none) (0 : Nat) ⟨2, 2000, 2001, false, fun _ => none⟩ ⟨fun _ _ => none, fun _ _ => none, fun _ => none⟩).2 = true :=
  ⟨⟨toy_returned.1.recs, .inl rfl, toy_returned.1.queue⟩, by simp [HasModel], by decide +kernel⟩

/-- Three blocks, the second missing. -/
example : ∃ (J : JobCold Nat) (fill : Nat → Nat → Option (Int → Nat)) (maps : Nat → Int → Nat),
    (∀ b a, J.file b = some a → fill b a = some (maps b)) ∧ J.nBlocks = 3 ∧ J.file 0 = some 10 ∧ J.file 1 = none ∧ J.file 2 = some 12 ∧
    J.low ≤ J.upp ∧ J.coefs = true :=
  ⟨⟨3, 2000, 2010, true, fun b => if b = 1 then none else some (b + 10)⟩, fun _ a => some fun y => a + y.toNat,
    fun b y => b + 10 + y.toNat, by
      intro b a h
      dsimp only at h
      split at h
      · simp at h
      · rw [← Option.some.inj h], rfl, rfl, rfl, rfl, by decide, rfl⟩

end Pycold.Pack
