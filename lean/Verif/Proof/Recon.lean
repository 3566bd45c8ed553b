import Verif.Spec.Recon
import Verif.Proof.Stack
import Verif.Props.C39_C40
/-!
# Proofs for `Recon`
-/
namespace Pycold.Recon
open Stack Stack.Spec

/-! ## Names -/

theorem str_small {n : Nat} (h : n < 10) : str n = [digit n] := by rw [str, if_pos h]

theorem str_big {n : Nat} (h : ¬ n < 10) : str n = str (n / 10) ++ [digit n] := by rw [str, if_neg h]

theorem str_dec : ∀ w n : Nat, 10 ^ w ≤ n → n < 10 ^ (w + 1) → str n = dec (w + 1) n
  | 0, n, _, h => by
    rw [str_small (by simpa using h)]
    simp [dec, digit]
  | w + 1, n, h1, h2 => by
    have h10 : 10 ≤ n := le_trans (by rw [Nat.pow_succ]; have := Nat.pow_pos (n := w) (show 0 < 10 by decide); omega) h1
    rw [str_big (by omega), str_dec w (n / 10) (by rw [Nat.pow_succ] at h1; omega) (by rw [Nat.pow_succ] at h2; omega)]
    rfl

theorem parse_str (n : Nat) : parseDigits 0 (str n) = some n := by
  induction n using Nat.strongRecOn with
  | _ n ih =>
    by_cases h : n < 10
    · rw [str_small h]
      simp only [parseDigits, digit, digitVal_digit, Option.bind_some]
      congr 1; omega
    · rw [str_big h, parseDigits_append, ih (n / 10) (by omega)]
      simp only [parseDigits, digit, digitVal_digit, Option.bind_some]
      congr 1; omega

theorem str_inj {m n : Nat} (h : str m = str n) : m = n := by
  have := parse_str m
  rw [h, parse_str n] at this
  exact (Option.some.inj this).symm

theorem digit_ne (n : Nat) : digit n ≠ '_' := by
  intro h
  have := digitVal_digit n
  rw [digit] at h
  rw [h] at this
  exact absurd this (by simp [digitVal])

theorem under_str (n : Nat) : '_' ∉ str n := by
  induction n using Nat.strongRecOn with
  | _ n ih =>
    by_cases h : n < 10
    · rw [str_small h]; simpa using (digit_ne n).symm
    · rw [str_big h, List.mem_append]
      rintro (g | g)
      · exact ih (n / 10) (by omega) g
      · exact digit_ne n (List.mem_singleton.1 g).symm

/-- A list is cut at its last underscore in one way. -/
theorem last_cut {x y a b : Name} (h : x ++ '_' :: a = y ++ '_' :: b) (ha : '_' ∉ a) (hb : '_' ∉ b) : x = y ∧ a = b := by
  rcases List.append_eq_append_iff.1 h with ⟨t, e1, e2⟩ | ⟨t, e1, e2⟩
  · cases t with
    | nil => simp at e1 e2; exact ⟨e1.symm, e2⟩
    | cons z t =>
      rw [List.cons_append, List.cons.injEq] at e2
      exact absurd (e2.2 ▸ List.mem_append_right t List.mem_cons_self) ha
  · cases t with
    | nil => simp at e1 e2; exact ⟨e1, e2.symm⟩
    | cons z t =>
      rw [List.cons_append, List.cons.injEq] at e2
      exact absurd (e2.2 ▸ List.mem_append_right t List.mem_cons_self) hb

theorem suffix_cut (bx by_ : Nat) : suffix bx by_ = ([] ++ '_' :: ('x' :: str bx)) ++ '_' :: ('y' :: (str by_ ++ ['.', 'n', 'p', 'y'])) := by
  simp [suffix]

theorem suffix_iff (p : Name) (bx by_ bx' by_' : Nat) :
    (suffix bx by_).isSuffixOf (p ++ suffix bx' by_') = true ↔ bx = bx' ∧ by_ = by_' := by
  rw [List.isSuffixOf_iff_suffix]
  constructor
  · rintro ⟨t, ht⟩
    have hu : ∀ n : Nat, '_' ∉ 'y' :: (str n ++ ['.', 'n', 'p', 'y']) := fun n => by simp [under_str n]
    have hv : ∀ n : Nat, '_' ∉ 'x' :: str n := fun n => by simp [under_str n]
    rw [suffix_cut, suffix_cut, ← List.append_assoc, ← List.append_assoc, ← List.append_assoc, ← List.append_assoc] at ht
    obtain ⟨e1, e2⟩ := last_cut ht (hu _) (hu _)
    obtain ⟨_, e3⟩ := last_cut e1 (hv _) (hv _)
    simp only [List.cons.injEq, true_and, List.append_cancel_right_eq] at e2 e3
    exact ⟨str_inj e3, str_inj e2⟩
  · rintro ⟨rfl, rfl⟩
    exact ⟨p, rfl⟩

/-- Six digits from place 11 on. -/
theorem name_date {d : Nat} (h1 : 100000 ≤ d) (h2 : d < 1000000) (bx by_ : Nat) :
    parseNat (slice (obiaName d bx by_) 11 17) = some d := by
  rw [obiaName, List.append_assoc (obiaresult ++ ['_'] ++ str d), str_dec 5 d (by simpa using h1) (by simpa using h2),
    slice_mid (by rfl) (by rw [dec_length]) (by decide)]
  exact parseNat_dec (by decide) (by simpa using h2)

theorem name_prefix (d bx by_ : Nat) : (obiaresult ++ ['_']).isPrefixOf (obiaName d bx by_) = true := by
  rw [List.isPrefixOf_iff_prefix, obiaName, List.append_assoc, List.append_assoc (obiaresult ++ ['_'])]
  exact ⟨_, rfl⟩

theorem name_start (d bx by_ : Nat) : obiaresult.isPrefixOf (obiaName d bx by_) = true := by
  rw [List.isPrefixOf_iff_prefix]
  have := name_prefix d bx by_
  rw [List.isPrefixOf_iff_prefix] at this
  exact (List.prefix_append _ _).trans this

theorem name_suffix (d bx by_ bx' by_' : Nat) :
    (suffix bx by_).isSuffixOf (obiaName d bx' by_') = true ↔ bx = bx' ∧ by_ = by_' := suffix_iff _ _ _ _ _

theorem name_inj {d e bx by_ bx' by_' : Nat} (h1 : 100000 ≤ d) (h2 : d < 1000000) (h3 : 100000 ≤ e) (h4 : e < 1000000)
    (h : obiaName d bx by_ = obiaName e bx' by_') : d = e ∧ bx = bx' ∧ by_ = by_' := by
  refine ⟨?_, ?_⟩
  · have := name_date h1 h2 bx by_
    rw [h, name_date h3 h4] at this
    exact (Option.some.inj this).symm
  · exact (name_suffix e bx by_ bx' by_').1 (h ▸ (name_suffix d bx by_ bx by_).2 ⟨rfl, rfl⟩)

/-! ## Saving -/

theorem foldl_writes : ∀ (l : List (Name × List Int)) (dir : Store), (l.map (·.1)).Nodup →
    l.foldl (fun dir f => write dir f.1 f.2) dir = l.reverse ++ dir.filter fun f => decide (f.1 ∉ l.map (·.1))
  | [], dir, _ => by simp
  | f :: l, dir, h => by
    rw [List.map_cons, List.nodup_cons] at h
    rw [List.foldl_cons, foldl_writes l _ h.2, write, List.filter_cons, if_pos (by simpa using h.1), List.filter_filter,
      List.reverse_cons, List.append_assoc]
    congr 1
    simp only [List.singleton_append, List.map_cons, List.mem_cons, not_or, List.cons.injEq, true_and]
    refine List.filter_congr fun g _ => ?_
    rw [← Bool.decide_and, decide_eq_decide]
    exact and_comm

/-- The file of block `x` of date `d`. -/
def result (c : Config) (img : Nat → List Int) (d : Nat) (x : Nat × Nat) : Name × List Int :=
  (obiaName d (x.2 + 1) (x.1 + 1), (List.range (c.bh * c.bw)).map fun pos => (img d).getD (pixel c x.1 x.2 pos) 0)

def resultsOf (c : Config) (img : Nat → List Int) (d : Nat) : List (Name × List Int) := (blockIds c).map (result c img d)

theorem foldlM_ok {α β : Type} (f : β → α → Res β) (g : β → α → β) : ∀ (l : List α) (b : β), (∀ a ∈ l, ∀ b, f b a = .ok (g b a)) →
    l.foldlM f b = .ok (l.foldl g b)
  | [], b, _ => rfl
  | a :: l, b, h => by
    rw [List.foldlM_cons, h a List.mem_cons_self, List.foldl_cons]
    exact foldlM_ok f g l _ fun a ha => h a (List.mem_cons_of_mem _ ha)

theorem saveResult_eq {c : Config} (ht : Tiled c) {d : Nat} {img : Nat → List Int} (hl : (img d).length = c.nRows * c.nCols) (dir : Store) :
    saveResult c d (img d) dir = .ok ((resultsOf c img d).foldl (fun dir f => write dir f.1 f.2) dir) := by
  rw [saveResult, foldlM_ok _ (fun dir x => write dir (result c img d x).1 (result c img d x).2), resultsOf, List.foldl_map]
  intro x hx dir
  obtain ⟨hi, hj⟩ := mem_blockIds.1 hx
  rw [blockOf_eq ht hi hj hl 0]
  rfl

theorem saveAll_eq {c : Config} (ht : Tiled c) {img : Nat → List Int} {order : List Nat}
    (hl : ∀ d ∈ order, (img d).length = c.nRows * c.nCols) (dir : Store) :
    saveAll c img order dir = .ok ((order.flatMap (resultsOf c img)).foldl (fun dir f => write dir f.1 f.2) dir) := by
  rw [saveAll, foldlM_ok _ (fun dir d => (resultsOf c img d).foldl (fun dir f => write dir f.1 f.2) dir), List.foldl_flatMap]
  exact fun d hd dir => saveResult_eq ht (hl d hd) dir

theorem ids_nodup (c : Config) : (blockIds c).Nodup := List.Nodup.product List.nodup_range List.nodup_range

theorem results_nodup {c : Config} {img : Nat → List Int} : ∀ {order : List Nat}, order.Nodup → (∀ d ∈ order, 100000 ≤ d ∧ d < 1000000) →
    ((order.flatMap (resultsOf c img)).map (·.1)).Nodup
  | [], _, _ => by simp
  | d :: ds, hn, h6 => by
    rw [List.nodup_cons] at hn
    have hd := h6 d List.mem_cons_self
    have h6' : ∀ e ∈ ds, 100000 ≤ e ∧ e < 1000000 := fun e he => h6 e (List.mem_cons_of_mem _ he)
    rw [List.flatMap_cons, List.map_append, List.nodup_append]
    refine ⟨?_, results_nodup hn.2 h6', ?_⟩
    · rw [resultsOf, List.map_map]
      refine List.Nodup.map_on ?_ (ids_nodup c)
      rintro ⟨a, b⟩ _ ⟨a', b'⟩ _ e
      have := name_inj hd.1 hd.2 hd.1 hd.2 e
      simp only [Prod.mk.injEq]; omega
    · intro n hn1 m hm e
      subst e
      simp only [resultsOf, List.map_map, List.mem_map, List.mem_flatMap, Function.comp] at hn1 hm
      obtain ⟨x, _, rfl⟩ := hn1
      obtain ⟨f, ⟨e, he, y, _, rfl⟩, hf⟩ := hm
      have := (name_inj (h6' e he).1 (h6' e he).2 hd.1 hd.2 hf).1
      exact hn.1 (this ▸ he)

def wanted (bx by_ : Nat) (f : Name × List Int) : Bool := obiaresult.isPrefixOf f.1 && (suffix bx by_).isSuffixOf f.1

theorem wanted_results {c : Config} (img : Nat → List Int) {i j : Nat} (hi : i < c.nby) (hj : j < c.nbx) : ∀ order : List Nat,
    (order.flatMap (resultsOf c img)).filter (wanted (j + 1) (i + 1)) = order.map fun d => result c img d (i, j)
  | [] => rfl
  | d :: ds => by
    rw [List.flatMap_cons, List.filter_append, wanted_results img hi hj ds, List.map_cons, resultsOf, List.filter_map]
    have e : (blockIds c).filter (wanted (j + 1) (i + 1) ∘ result c img d) = ((blockIds c).filter fun _ => true).filter fun x => x = (i, j) := by
      rw [List.filter_true]
      refine List.filter_congr fun x _ => ?_
      obtain ⟨a, b⟩ := x
      rw [Function.comp, wanted, Bool.eq_iff_iff, result]
      simp only [name_start, Bool.true_and, name_suffix, decide_eq_true_eq, Prod.mk.injEq]
      omega
    rw [e, filter_unique (ids_nodup c) (mem_blockIds.2 ⟨hi, hj⟩) (fun _ => true)]
    rfl

/-- The files of a block after saving. -/
theorem saved_block {c : Config} (ht : Tiled c) {img : Nat → List Int} {order : List Nat} (hn : order.Nodup)
    (h6 : ∀ d ∈ order, 100000 ≤ d ∧ d < 1000000) (hl : ∀ d ∈ order, (img d).length = c.nRows * c.nCols) {dir : Store}
    (hdir : Spec.OnlyEarlierRun c order dir) :
    ∃ out, saveAll c img order dir = .ok out ∧ ∀ i j, i < c.nby → j < c.nbx →
      (out.filter (wanted (j + 1) (i + 1))).Perm (order.map fun d => result c img d (i, j)) := by
  refine ⟨_, saveAll_eq ht hl dir, fun i j hi hj => ?_⟩
  rw [foldl_writes _ _ (results_nodup hn h6), List.filter_append, List.filter_filter]
  have : (dir.filter fun f => wanted (j + 1) (i + 1) f && decide (f.1 ∉ (order.flatMap (resultsOf c img)).map (·.1))) = [] := by
    rw [List.filter_eq_nil_iff]
    intro f hf h
    rw [Bool.and_eq_true, wanted, Bool.and_eq_true, decide_eq_true_eq] at h
    obtain ⟨d, hd, a, b, ha, hb, e⟩ := hdir f hf (List.isPrefixOf_iff_prefix.1 h.1.1)
    refine h.2 ?_
    simp only [List.mem_map, List.mem_flatMap, resultsOf]
    exact ⟨_, ⟨d, hd, (a, b), mem_blockIds.2 ⟨ha, hb⟩, rfl⟩, e.symm⟩
  rw [this, List.append_nil, ← wanted_results img hi hj order]
  exact (List.reverse_perm _).filter _

/-! ## Reading -/

theorem Le.trans {a b d : Nat × Name × List Int} (h1 : Le a b) (h2 : Le b d) : Le a d := by
  simp only [Le] at *
  rcases h1 with h1 | ⟨h1, h1'⟩ <;> rcases h2 with h2 | ⟨h2, h2'⟩
  · left; omega
  · left; omega
  · left; omega
  · right; exact ⟨by omega, List.le_trans h1' h2'⟩

theorem Le.total (a b : Nat × Name × List Int) : Le a b ∨ Le b a := by
  simp only [Le]
  rcases lt_trichotomy a.1 b.1 with h | h | h
  · left; left; exact h
  · rcases List.le_total a.2.1 b.2.1 with g | g
    · left; right; exact ⟨h, g⟩
    · right; right; exact ⟨h.symm, g⟩
  · right; left; exact h

instance : Std.Total Le := ⟨Le.total⟩
instance : IsTrans _ Le := ⟨fun _ _ _ => Le.trans⟩

theorem allResults_eq {c : Config} {img : Nat → List Int} {dates : List Nat} (hs : dates.Pairwise (· < ·))
    (h6 : ∀ d ∈ dates, 100000 ≤ d ∧ d < 1000000) (hne : dates ≠ []) {listing : Store} {i j : Nat}
    (hp : (listing.filter (wanted (j + 1) (i + 1))).Perm (dates.map fun d => result c img d (i, j))) :
    allResults c (j + 1) (i + 1) listing = .ok (dates.map fun d => (result c img d (i, j)).2) := by
  rw [allResults]
  change ((orRaise ((listing.filter (wanted (j + 1) (i + 1))).mapM _)).bind _) = _
  generalize listing.filter (wanted (j + 1) (i + 1)) = files at hp
  let date : Name × List Int → Nat := fun f => (parseNat (slice f.1 11 17)).getD 0
  have hdate : ∀ d ∈ dates, date (result c img d (i, j)) = d := fun d hd => by
    show (parseNat (slice (obiaName d (j + 1) (i + 1)) 11 17)).getD 0 = d
    rw [name_date (h6 d hd).1 (h6 d hd).2]; rfl
  rw [ChangeMap.mapM_some _ (fun f => (date f, f)) files (by
    intro f hf
    obtain ⟨d, hd, rfl⟩ := List.mem_map.1 (hp.mem_iff.1 hf)
    show Option.map _ (parseNat (if (obiaresult ++ ['_']).isPrefixOf (obiaName d (j + 1) (i + 1)) then _ else _)) = _
    rw [if_pos (name_prefix d (j + 1) (i + 1)), hdate d hd]
    show Option.map _ (parseNat (slice (obiaName d (j + 1) (i + 1)) 11 17)) = _
    rw [name_date (h6 d hd).1 (h6 d hd).2]; rfl)]
  have hp2 : (files.map fun f => (date f, f)).Perm (dates.map fun d => (d, result c img d (i, j))) := by
    refine (hp.map _).trans ?_
    rw [List.map_map]
    refine List.Perm.of_eq (List.map_congr_left fun d hd => ?_)
    simp only [Function.comp, hdate d hd]
  have hsort : (files.map fun f => (date f, f)).insertionSort Le = dates.map fun d => (d, result c img d (i, j)) := by
    refine List.Perm.eq_of_pairwise ?_ (List.pairwise_insertionSort _ _) ?_ ((List.perm_insertionSort _ _).trans hp2)
    · intro a b ha hb h1 h2
      obtain ⟨d, _, rfl⟩ := List.mem_map.1 (hp2.mem_iff.1 ((List.perm_insertionSort _ _).mem_iff.1 ha))
      obtain ⟨e, _, rfl⟩ := List.mem_map.1 hb
      have : d = e := by
        simp only [Le] at h1 h2
        omega
      rw [this]
    · rw [List.pairwise_map]
      exact hs.imp fun h => Or.inl h
  simp only [orRaise, Res.bind, hsort]
  rw [if_pos, if_neg (by simpa using hne), List.map_map]
  · rfl
  · rw [List.all_eq_true]
    intro x hx
    obtain ⟨d, _, rfl⟩ := List.mem_map.1 hx
    simp [result, Nat.mul_comm]

/-! ## The block -/

theorem block_numbers {nbx : Nat} (i : Nat) {j : Nat} (hj : j < nbx) :
    (Tile.blockY ((i * nbx + j + 1 : Nat) : Int) nbx).toNat = i + 1 ∧ (Tile.blockX ((i * nbx + j + 1 : Nat) : Int) nbx).toNat = j + 1 := by
  have e : (((i * nbx + j + 1 : Nat) : Int) - 1) = ((i * nbx + j : Nat) : Int) := by push_cast; ring
  have hb : 0 < nbx := by omega
  simp only [Tile.blockY, Tile.blockX, e]
  rw [← Int.ofNat_tdiv, ← Int.natCast_mod, Nat.add_comm (i * nbx) j, Nat.add_mul_div_right _ _ hb, Nat.add_mul_mod_self_right,
    Nat.div_eq_of_lt hj, Nat.mod_eq_of_lt hj]
  omega

theorem position {c : Config} (ht : Tiled c) {i j pos : Nat} (hpos : pos < c.bw * c.bh) :
    Tile.posOf c.nCols (Tile.rowcolInTile pos c.bw c.bh ((j + 1 : Nat) : Int) ((i + 1 : Nat) : Int)).1
      (Tile.rowcolInTile pos c.bw c.bh ((j + 1 : Nat) : Int) ((i + 1 : Nat) : Int)).2 = pixel c i j pos + 1 := by
  have := Obia.C62_pixel c.nbx c.bw c.bh i j pos hpos
  rw [← ht.2.2.1, offset_eq] at this
  rw [Tile.posOf, this]
  push_cast
  ring

theorem product_length {c : Config} {x : Spec.Decision} (h : x.Sized c) : (product x.change x.dates).length = c.nRows * c.nCols := by
  rw [product, List.length_zipWith, h.1, h.2.1, Nat.min_self]

theorem product_at {c : Config} {x : Spec.Decision} (h : x.Sized c) {k : Nat} (hk : k < c.nRows * c.nCols) :
    (product x.change x.dates).getD k 0 = x.break_ k := by
  have h1 : k < x.change.length := by rw [h.1]; exact hk
  have h2 : k < x.dates.length := by rw [h.2.1]; exact hk
  rw [List.getD_eq_getElem _ _ (by rw [product_length h]; exact hk), Spec.Decision.break_, List.getD_eq_getElem _ _ h1,
    List.getD_eq_getElem _ _ h2]
  simp only [product, List.getElem_zipWith, Obia.saved]
  rcases h.2.2 _ (List.getElem_mem h1) with e | e
  · simp [e]
  · simp only [e, true_and]
    split_ifs <;> omega

theorem reconstruct_eq {R : Type} {c : Config} (ht : Tiled c) {decided : Nat → Spec.Decision} {dates : List Nat} (hs : dates.Pairwise (· < ·))
    (h6 : Spec.SixDigits dates) (hsz : ∀ d ∈ dates, (decided d).Sized c) (hne : dates ≠ []) {listing : Store} {i j : Nat}
    (hi : i < c.nby) (hj : j < c.nbx)
    (hp : (listing.filter (wanted (j + 1) (i + 1))).Perm
      (dates.map fun d => result c (fun d => product (decided d).change (decided d).dates) d (i, j)))
    (obcold : Call → Option R) (stack : List (Int × Block)) (hst : ∀ x ∈ stack, x.2.length = c.bw * c.bh) (files : List (Name × Block)) (conse : Nat) :
    reconstruct c obcold (i * c.nbx + j + 1) (some stack) files listing conse =
      .ok ((List.range (c.bw * c.bh)).filterMap fun pos => obcold (Spec.callOf c decided dates stack conse i j pos)) := by
  obtain ⟨e1, e2⟩ := block_numbers i hj
  simp only [reconstruct, e1, e2]
  change (Res.bind (allResults c (j + 1) (i + 1) listing) _) = _
  rw [allResults_eq hs h6 hne hp]
  simp only [Res.bind]
  congr 1
  refine List.filterMap_congr fun pos hpos => ?_
  rw [List.mem_range] at hpos
  rw [if_pos]
  · congr 1
    rw [position ht hpos, List.map_map]
    simp only [Spec.callOf, argDates]
    congr 1
    refine List.map_congr_left fun d hd => ?_
    have hpos' : pos < c.bh * c.bw := by rw [Nat.mul_comm]; exact hpos
    simp only [Function.comp, result]
    rw [List.getD_eq_getElem _ _ (by simpa using hpos'), List.getElem_map, List.getElem_range, product_at (hsz d hd) (pixel_lt ht hi hj hpos')]
  · rw [Bool.and_eq_true, List.all_eq_true, List.all_eq_true]
    refine ⟨fun x hx => ?_, fun b hb => ?_⟩
    · rw [decide_eq_true_eq, hst x hx]; exact hpos
    · obtain ⟨d, _, rfl⟩ := List.mem_map.1 hb
      rw [decide_eq_true_eq, result, List.length_map, List.length_range, Nat.mul_comm]
      exact hpos

end Pycold.Recon
