import Verif.Model.Fallback
import Verif.Spec.Fallback
import Verif.Proof.Preprocess
import Verif.Proof.Sort
import Verif.Proof.Misc
/-! Lemmas for the fallback fit. -/
namespace Pycold.Fallback

open Pycold.Fallback.Spec Pycold.Spec

/-! ## The snow branch -/

/-- The pairs at or after position `i` that are in range. -/
def kept (ok : Int → Bool) (xs ys : List Int) : List (Int × Int) := (xs.zip ys).filter (fun p => ok p.2)

theorem squeeze_spec (ok : Int → Bool) : ∀ (m i span : Nat) (xs ys : List Int), span ≤ i →
    xs.length = i + m → ys.length = i + m →
    squeeze ok m i span xs ys =
      (xs.take span ++ (kept ok (xs.drop i) (ys.drop i)).map (·.1) ++
          xs.drop (span + (kept ok (xs.drop i) (ys.drop i)).length),
       ys.take span ++ (kept ok (xs.drop i) (ys.drop i)).map (·.2) ++
          ys.drop (span + (kept ok (xs.drop i) (ys.drop i)).length),
       span + (kept ok (xs.drop i) (ys.drop i)).length) := by
  intro m
  induction m with
  | zero =>
    intro i span xs ys h1 h2 h3
    rw [List.drop_eq_nil_of_le (by omega : xs.length ≤ i)]
    simp [squeeze, kept]
  | succ m ih =>
    intro i span xs ys h1 h2 h3
    have hx : xs.drop i = xs.getD i 0 :: xs.drop (i + 1) := by
      rw [List.drop_eq_getElem_cons (by omega)]; simp [List.getD_eq_getElem?_getD, List.getElem?_eq_getElem (show i < xs.length by omega)]
    have hy : ys.drop i = ys.getD i 0 :: ys.drop (i + 1) := by
      rw [List.drop_eq_getElem_cons (by omega)]; simp [List.getD_eq_getElem?_getD, List.getElem?_eq_getElem (show i < ys.length by omega)]
    by_cases hok : ok (ys.getD i 0) = true
    · have hk : kept ok (xs.drop i) (ys.drop i) =
          (xs.getD i 0, ys.getD i 0) :: kept ok (xs.drop (i + 1)) (ys.drop (i + 1)) := by
        rw [hx, hy]; unfold kept; rw [List.zip_cons_cons, List.filter_cons, if_pos hok]
      rw [squeeze, if_pos hok, ih (i + 1) (span + 1) _ _ (by omega) (by simp; omega) (by simp; omega)]
      have d1 : ∀ (l : List Int) (v : Int), (l.set span v).drop (i + 1) = l.drop (i + 1) := by
        intro l v; rw [List.drop_set_of_lt (by omega)]
      have d2 : ∀ (l : List Int) (v : Int) (k : Nat), (l.set span v).drop (span + 1 + k) = l.drop (span + (k + 1)) := by
        intro l v k; rw [List.drop_set_of_lt (by omega)]; congr 1; omega
      have d3 : ∀ (l : List Int) (v : Int), span < l.length → (l.set span v).take (span + 1) = l.take span ++ [v] := by
        intro l v hl
        rw [List.take_succ, List.getElem?_set_self hl, List.take_set_of_le (by omega)]
        rfl
      rw [d1, d1, hk]
      simp only [List.length_cons, List.map_cons]
      rw [d2, d2, d3 _ _ (by omega), d3 _ _ (by omega)]
      simp only [List.append_assoc, List.cons_append, List.nil_append]
      refine Prod.ext rfl (Prod.ext rfl ?_)
      show span + 1 + _ = span + (_ + 1)
      omega
    · have hk : kept ok (xs.drop i) (ys.drop i) = kept ok (xs.drop (i + 1)) (ys.drop (i + 1)) := by
        rw [hx, hy]; unfold kept; rw [List.zip_cons_cons, List.filter_cons, if_neg hok]
      rw [squeeze, if_neg hok, ih (i + 1) span xs ys (by omega) (by omega) (by omega), hk]

/-- One band. -/
theorem squeeze_top (ok : Int → Bool) (n : Nat) (xs ys : List Int) (h1 : xs.length = n) (h2 : ys.length = n) :
    squeeze ok n 0 0 xs ys =
      ((kept ok xs ys).map (·.1) ++ xs.drop (kept ok xs ys).length,
       (kept ok xs ys).map (·.2) ++ ys.drop (kept ok xs ys).length, (kept ok xs ys).length) := by
  rw [squeeze_spec ok n 0 0 xs ys (by omega) (by omega) (by omega)]
  simp

theorem kept_all {ok : Int → Bool} {xs ys : List Int} (h : ∀ y ∈ ys, ok y = true) :
    kept ok xs ys = xs.zip ys := by
  unfold kept
  rw [List.filter_eq_self]
  intro p hp
  exact h _ (List.of_mem_zip hp).2

theorem kept_le (ok : Int → Bool) {xs ys : List Int} {n : Nat} (h1 : xs.length = n) (h2 : ys.length = n) :
    (kept ok xs ys).length ≤ n := by
  unfold kept
  refine Nat.le_trans (List.length_filter_le _ _) ?_
  simp; omega

/-- `clrx` after a band. -/
def squeezed (ok : Int → Bool) (xs ys : List Int) : List Int :=
  (kept ok xs ys).map (·.1) ++ xs.drop (kept ok xs ys).length

theorem squeezed_length (ok : Int → Bool) {xs ys : List Int} {n : Nat} (h1 : xs.length = n)
    (h2 : ys.length = n) : (squeezed ok xs ys).length = n := by
  have := kept_le ok h1 h2
  unfold squeezed
  simp; omega

theorem squeezed_all {ok : Int → Bool} {xs ys : List Int} {n : Nat} (h1 : xs.length = n)
    (h2 : ys.length = n) (h : ∀ y ∈ ys, ok y = true) : squeezed ok xs ys = xs := by
  unfold squeezed
  rw [kept_all h]
  have h3 : (xs.zip ys).map (·.1) = xs := by
    rw [List.map_fst_zip]; omega
  have h4 : (xs.zip ys).length = n := by simp; omega
  rw [h3, h4, List.drop_eq_nil_of_le (by omega), List.append_nil]

theorem squeezed_last (ok : Int → Bool) {xs ys : List Int} {n : Nat} (h1 : xs.length = n)
    (h2 : ys.length = n) : (squeezed ok xs ys)[n - 1]? = xs[n - 1]? := by
  have hle := kept_le ok h1 h2
  by_cases hk : (kept ok xs ys).length = n
  · have hall : ∀ p ∈ xs.zip ys, ok p.2 = true := by
      have : (kept ok xs ys).length = (xs.zip ys).length := by rw [hk]; simp; omega
      exact List.length_filter_eq_length_iff.mp this
    have hys : ∀ y ∈ ys, ok y = true := by
      intro y hy
      have : y ∈ (xs.zip ys).map (·.2) := by rw [List.map_snd_zip (by omega)]; exact hy
      obtain ⟨p, hp, rfl⟩ := List.mem_map.mp this
      exact hall p hp
    rw [squeezed_all h1 h2 hys]
  · unfold squeezed
    rw [List.getElem?_append_right (by simp; omega)]
    simp only [List.length_map, List.getElem?_drop]
    congr 1; omega

theorem snowBands_cons (n : Nat) (xs : List Int) (th : Bool) (ys : List Int) (rest : List (Bool × List Int))
    (h1 : xs.length = n) (h2 : ys.length = n) :
    snowBands n xs ((th, ys) :: rest) =
      ((snowBands n (squeezed (inRange th) xs ys) rest).1,
       (if !th && decide ((kept (inRange th) xs ys).length < MIN_OBS) then Band.saturated
        else .fit ((kept (inRange th) xs ys).map (fun p => (p.1, some p.2)))) ::
       (snowBands n (squeezed (inRange th) xs ys) rest).2) := by
  rw [snowBands, squeeze_top _ _ _ _ h1 h2]
  simp only
  have e1 : ((kept (inRange th) xs ys).map (·.1) ++ xs.drop (kept (inRange th) xs ys).length).take
      (kept (inRange th) xs ys).length = (kept (inRange th) xs ys).map (·.1) := by
    rw [List.take_left']; simp
  have e2 : ((kept (inRange th) xs ys).map (·.2) ++ ys.drop (kept (inRange th) xs ys).length).take
      (kept (inRange th) xs ys).length = (kept (inRange th) xs ys).map (·.2) := by
    rw [List.take_left']; simp
  rw [e1, e2]
  have e3 : ((kept (inRange th) xs ys).map (·.1)).zip (((kept (inRange th) xs ys).map (·.2)).map some) =
      (kept (inRange th) xs ys).map (fun p => (p.1, some p.2)) := by
    rw [List.map_map, List.zip_map']; rfl
  rw [e3]
  rfl

/-- The date of the last selected scene stays where it is, whatever is removed. -/
theorem snowBands_last (n : Nat) : ∀ (cols : List (Bool × List Int)) (xs : List Int), xs.length = n →
    (∀ c ∈ cols, c.2.length = n) →
    (snowBands n xs cols).1.length = n ∧ (snowBands n xs cols).1[n - 1]? = xs[n - 1]? ∧
      (snowBands n xs cols).2.length = cols.length := by
  intro cols
  induction cols with
  | nil => intro xs h _; simp [snowBands, h]
  | cons c cols ih =>
    obtain ⟨th, ys⟩ := c
    intro xs h1 h2
    have hy : ys.length = n := h2 (th, ys) (by simp)
    rw [snowBands_cons n xs th ys cols h1 hy]
    obtain ⟨i1, i2, i3⟩ := ih (squeezed (inRange th) xs ys) (squeezed_length _ h1 hy)
      (fun c hc => h2 c (by simp [hc]))
    exact ⟨i1, by rw [i2, squeezed_last _ h1 hy], by simp [i3]⟩

/-- A band whose predecessors are completely in range. -/
theorem snowBands_at (n : Nat) : ∀ (cols : List (Bool × List Int)) (xs : List Int), xs.length = n →
    (∀ c ∈ cols, c.2.length = n) → ∀ (k : Nat) (th : Bool) (ys : List Int), cols[k]? = some (th, ys) →
    (∀ (j : Nat) (c : Bool × List Int), j < k → cols[j]? = some c → ∀ y ∈ c.2, inRange c.1 y = true) →
    (snowBands n xs cols).2[k]? =
      some (if !th && decide ((kept (inRange th) xs ys).length < MIN_OBS) then Band.saturated
        else .fit ((kept (inRange th) xs ys).map (fun p => (p.1, some p.2)))) := by
  intro cols
  induction cols with
  | nil => intro xs _ _ k th ys hk; simp at hk
  | cons c cols ih =>
    obtain ⟨th0, ys0⟩ := c
    intro xs h1 h2 k th ys hk hall
    have hy : ys0.length = n := h2 (th0, ys0) (by simp)
    rw [snowBands_cons n xs th0 ys0 cols h1 hy]
    cases k with
    | zero =>
      simp only [List.getElem?_cons_zero, Option.some.injEq, Prod.mk.injEq] at hk
      obtain ⟨rfl, rfl⟩ := hk
      rfl
    | succ k =>
      have h0 := hall 0 (th0, ys0) (by omega) rfl
      rw [squeezed_all h1 hy h0]
      simp only [List.getElem?_cons_succ] at hk ⊢
      refine ih xs h1 (fun c hc => h2 c (by simp [hc])) k th ys hk ?_
      intro j c hj hc
      exact hall (j + 1) c (by omega) (by simpa using hc)

theorem marked_columns (bC2 : Bool) (sel : List Scene) :
    marked (columns bC2 sel) = [(false, sel.map (·.b)), (false, sel.map (·.g)), (false, sel.map (·.r)),
      (false, sel.map (·.n)), (false, sel.map (·.s1)), (false, sel.map (·.s2)), (true, sel.map (thermal bC2))] :=
  rfl

theorem marked_at (bC2 : Bool) (sel : List Scene) (k : Nat) (f : Scene → Int)
    (hf : (fields bC2)[k]? = some f) :
    (marked (columns bC2 sel))[k]? = some (decide (k = 6), sel.map f) := by
  rw [marked_columns]
  have hk : k < 7 := by
    have := (List.getElem?_eq_some_iff.mp hf).1
    simpa [fields] using this
  match k, hk with
  | 0, _ | 1, _ | 2, _ | 3, _ | 4, _ | 5, _ | 6, _ =>
    simp only [fields, List.getElem?_cons_succ, List.getElem?_cons_zero, Option.some.injEq] at hf
    subst hf; rfl

theorem inRange_iff (k : Nat) (v : Int) : inRange (decide (k = 6)) v = decide (InRange k v) := by
  unfold inRange InRange
  by_cases h : k = 6
  · simp [h]
  · simp [h]

theorem kept_scenes (k : Nat) (f : Scene → Int) (sel : List Scene) :
    (kept (inRange (decide (k = 6))) (sel.map (·.date)) (sel.map f)).map (fun p => (p.1, some p.2)) =
      goodPairs k f sel := by
  unfold kept goodPairs
  rw [List.zip_map', List.filter_map, List.map_map]
  congr 1
  congr 1
  funext o
  exact inRange_iff k (f o)

theorem snowSel_eq (scenes : List Scene) : snowSel scenes = snowScenes scenes := rfl

/-- The snow branch in one statement. -/
theorem snowBranch_ok (bC2 : Bool) (scenes : List Scene) :
    ((snowScenes scenes).length < 12 ∧ snowBranch bC2 scenes = none) ∨
    (12 ≤ (snowScenes scenes).length ∧ ∃ r, snowBranch bC2 scenes = some r ∧
      r.category = 54 ∧ r.tBreak = 0 ∧ r.changeProb = 0 ∧ r.numObs = (snowScenes scenes).length ∧
      (snowScenes scenes).getLast?.map (·.date) = some r.tEnd ∧ r.bands.length = 7 ∧
      ∀ (k : Nat) (f : Scene → Int), (fields bC2)[k]? = some f →
        (∀ (j : Nat) (g : Scene → Int), j < k → (fields bC2)[j]? = some g →
          ∀ o ∈ snowScenes scenes, InRange j (g o)) →
        r.bands[k]? = some (snowBand k f (snowScenes scenes))) := by
  unfold snowBranch
  rw [snowSel_eq]
  generalize snowScenes scenes = sel
  simp only
  by_cases hn : sel.length < MIN_OBS
  · left; exact ⟨hn, by rw [if_pos hn]⟩
  · right
    have hn' : 12 ≤ sel.length := by unfold MIN_OBS at hn; omega
    refine ⟨hn', ?_⟩
    rw [if_neg hn]
    have hlen : ∀ c ∈ marked (columns bC2 sel), c.2.length = sel.length := by
      rw [marked_columns]
      intro c hc
      simp only [List.mem_cons, List.not_mem_nil, or_false] at hc
      rcases hc with rfl | rfl | rfl | rfl | rfl | rfl | rfl <;> simp
    obtain ⟨l1, l2, l3⟩ := snowBands_last sel.length (marked (columns bC2 sel)) (sel.map (·.date))
      (by simp) hlen
    have hat := snowBands_at sel.length (marked (columns bC2 sel)) (sel.map (·.date)) (by simp) hlen
    generalize snowBands sel.length (sel.map (·.date)) (marked (columns bC2 sel)) = res at l1 l2 l3 hat
    obtain ⟨xs, bands⟩ := res
    refine ⟨_, rfl, rfl, rfl, rfl, rfl, ?_, ?_, ?_⟩
    · show sel.getLast?.map (·.date) = some (xs.getD (sel.length - 1) 0)
      simp only at l2
      rw [List.getD_eq_getElem?_getD, l2, List.getElem?_map, List.getLast?_eq_getElem?,
        List.getElem?_eq_getElem (by omega)]
      rfl
    · show bands.length = 7
      simpa [marked_columns] using l3
    · intro k f hf hall
      have := hat k _ _ (marked_at bC2 sel k f hf) ?_
      · show bands[k]? = _
        simp only at this
        rw [this]
        unfold snowBand
        rw [← kept_scenes k f sel]
        simp only [List.length_map, MIN_OBS]
        congr 1
        by_cases h6 : k = 6
        · simp [h6]
        · simp [h6]
      · intro j c hj hc y hy
        have hk7 : k < 7 := by
          have := (List.getElem?_eq_some_iff.mp hf).1
          simpa [fields] using this
        obtain ⟨g, hg⟩ : ∃ g, (fields bC2)[j]? = some g :=
          ⟨(fields bC2)[j]'(by simp [fields]; omega), by simp⟩
        rw [marked_at bC2 sel j g hg] at hc
        cases hc
        simp only [List.mem_map] at hy
        obtain ⟨o, ho, rfl⟩ := hy
        rw [inRange_iff]
        simpa using hall j g hj hg o ho

end Pycold.Fallback
