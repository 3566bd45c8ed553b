import Verif.Spec.Bip
import Mathlib.Tactic.Ring
import Mathlib.Tactic.Linarith
/-!
# The readers deliver the observations of each pixel
-/
namespace Pycold.Bip

open Spec

theorem bind_eq {α β} (x : Res α) (f : α → Res β) : (x >>= f) = x.bind f := rfl

theorem set_same {α} (f : Nat → α) (i : Nat) (v : α) : set f i v i = v := if_pos rfl

theorem set_ne {α} {f : Nat → α} {i j : Nat} {v : α} (h : j ≠ i) : set f i v j = f j := if_neg h

theorem readShorts_ok {f : List Int} {i n : Nat} (h : i + n ≤ f.length) :
    readShorts f (i * 2) n = some ((f.drop i).take n) := by
  unfold readShorts
  rw [if_pos (by omega), Nat.mul_div_cancel _ (by norm_num)]

theorem getD_window {f : List Int} {i n j : Nat} (hj : j < n) : ((f.drop i).take n).getD j 0 = f.getD (i + j) 0 := by
  simp only [List.getD_eq_getElem?_getD, List.getElem?_take, hj, if_true, List.getElem?_drop]

theorem headD_one {f : List Int} {i : Nat} : ((f.drop i).take 1).headD 0 = f.getD i 0 := by
  simp only [List.getD_eq_getElem?_getD, List.headD_eq_head?_getD, List.head?_take, List.head?_drop]
  simp

theorem pixel_bound {width height row col : Nat} (hr : 1 ≤ row) (hr2 : row ≤ height) (hc : 1 ≤ col) (hc2 : col ≤ width) :
    (row - 1) * width + (col - 1) + 1 ≤ height * width := by
  calc (row - 1) * width + (col - 1) + 1 ≤ (row - 1) * width + width := by omega
    _ = (row - 1 + 1) * width := by ring
    _ ≤ height * width := Nat.mul_le_mul_right _ (by omega)

/-! ## One pixel -/

theorem readBands_ok (f : List Int) (qa : Int) (base : Nat) (hf : base + 7 ≤ f.length) : ∀ (fuel k : Nat) (b : Pixel),
    k + fuel = 8 → k ≤ 7 → ∃ b', readBands f qa fuel k ((base + k) * 2) b = .ok b' ∧
      b'.count = b.count ∧ b'.sensor = b.sensor ∧ b'.sdate = b.sdate ∧ b'.fmask = set b.fmask b.count qa ∧
      (∀ j i, b'.image j i = if k ≤ j ∧ j < 7 ∧ i = b.count then f.getD (base + j) 0 else b.image j i)
  | 0, k, b, h, h7 => by omega
  | fuel + 1, k, b, h, h7 => by
    by_cases hk : k < 7
    · obtain ⟨b', h1, h2, h3, h4, h5, h6⟩ := readBands_ok f qa base hf fuel (k + 1)
        { b with image := set b.image k (set (b.image k) b.count (f.getD (base + k) 0)) } (by omega) (by omega)
      refine ⟨b', ?_, h2, h3, h4, h5, ?_⟩
      · rw [readBands, if_pos (by simpa [totalBands] using hk), readShorts_ok (by omega)]
        simp only [headD_one]
        rw [← h1]
        congr 1
        omega
      · intro j i
        rw [h6]
        by_cases hj : j = k
        · subst hj
          rw [if_neg (by omega)]
          simp only [set_same]
          by_cases hi : i = b.count
          · rw [if_pos ⟨le_refl _, hk, hi⟩, hi, set_same]
          · rw [if_neg (fun h => hi h.2.2), set_ne hi]
        · simp only [set_ne hj]
          have e : (k + 1 ≤ j ↔ k ≤ j) := by omega
          simp [hj, e]
    · obtain rfl : k = 7 := by omega
      obtain rfl : fuel = 0 := by omega
      refine ⟨{ b with fmask := set b.fmask b.count qa }, ?_, rfl, rfl, rfl, rfl, ?_⟩
      · rw [readBands, if_neg (by simp [totalBands]), readBands]
      · intro j i
        rw [if_neg (by omega)]

/-- Appending to the observations found. -/
theorem found_put {b b' : Pixel} {o : Obs} (hc : b'.count = b.count + 1)
    (h1 : ∀ j < 7, ∀ i < b.count, b'.image j i = b.image j i) (h2 : ∀ i < b.count, b'.fmask i = b.fmask i)
    (h3 : ∀ i < b.count, b'.sdate i = b.sdate i)
    (ho : o = ⟨(List.range 7).map fun j => b'.image j b.count, b'.fmask b.count, b'.sdate b.count⟩) :
    found b' = found b ++ [o] := by
  unfold found
  rw [hc, List.range_succ (n := b.count), List.map_append, ho]
  congr 1
  apply List.map_congr_left
  intro i hi
  rw [List.mem_range] at hi
  rw [h2 i hi, h3 i hi]
  congr 1
  apply List.map_congr_left
  intro j hj
  rw [List.mem_range] at hj
  exact h1 j hj i hi

theorem obs_image {s : Scene} {width height : Nat} {f : List Int} (h : Image s width height f) (row col : Nat) :
    obs s width row col = ⟨(List.range 7).map (value f width row col), value f width row col 7, s.date⟩ := by
  simp [obs, h.1]

theorem readBip_ok {s : Scene} {width height row col : Nat} {f : List Int} (h : Image s width height f)
    (hr : 1 ≤ row) (hr2 : row ≤ height) (hc : 1 ≤ col) (hc2 : col ≤ width) (hsz : height * width * 8 < 2 ^ 31)
    (b : Pixel) : ∃ b', readBip s row col width b = .ok b' ∧
      (255 ≤ (obs s width row col).mask → b' = b) ∧
      ((obs s width row col).mask < 255 → b'.count = b.count + 1 ∧ found b' = found b ++ [obs s width row col] ∧
        (∀ i, b'.sensor i = if i = b.count then (sensorOf s.platform).or (b.sensor i) else b.sensor i)) := by
  have hp := pixel_bound hr hr2 hc hc2
  have hlen := h.2
  rw [obs_image h]
  simp only
  have hpix : (row - 1) * width + col - 1 = (row - 1) * width + (col - 1) := by omega
  unfold readBip
  rw [h.1]
  simp only [hpix]
  generalize hq : (row - 1) * width + (col - 1) = q at *
  have hv : ∀ j, value f width row col j = f.getD (q * 8 + j) 0 := by intro j; rw [value, hq]
  rw [if_neg (by simp only [totalBands]; omega)]
  have e1 : q * totalBands + totalBands - 1 = q * 8 + 7 := by simp only [totalBands]; omega
  rw [e1, readShorts_ok (by omega)]
  simp only [headD_one]
  rw [← hv]
  by_cases hm : value f width row col 7 < 255
  · rw [if_pos (show _ < fill from hm)]
    have hb1' : (withSensor s b).count = b.count ∧ (withSensor s b).image = b.image ∧ (withSensor s b).fmask = b.fmask ∧
        (withSensor s b).sdate = b.sdate ∧
        ∀ i, (withSensor s b).sensor i = if i = b.count then (sensorOf s.platform).or (b.sensor i) else b.sensor i := by
      unfold withSensor
      cases hs : sensorOf s.platform with
      | none => simp
      | some x =>
        refine ⟨rfl, rfl, rfl, rfl, ?_⟩
        intro i; simp only [set]; split <;> simp_all
    generalize withSensor s b = b1 at *
    obtain ⟨c1, c2, c3, c4, c5⟩ := hb1'
    obtain ⟨b2, h1, h2, h3, h4, h5, h6⟩ := readBands_ok f (value f width row col 7) (q * 8) (by omega) 8 0 b1 (by omega) (by omega)
    refine ⟨{ b2 with sdate := set b2.sdate b2.count s.date, count := b2.count + 1 }, ?_, ?_, ?_⟩
    · have e2 : q * totalBands * 2 = (q * 8 + 0) * 2 := by simp only [totalBands]; omega
      rw [bind_eq, e2, show totalBands = 8 from rfl, h1]
      rfl
    · intro h'; omega
    · intro _
      refine ⟨by simp only [h2, c1], ?_, ?_⟩
      · apply found_put
        · simp only [h2, c1]
        · intro j hj i hi
          simp only [h6, c1, c2]
          rw [if_neg (by omega)]
        · intro i hi
          simp only [h5, c1, c3, set]
          rw [if_neg (by omega)]
        · intro i hi
          simp only [h2, h4, c1, c4, set]
          rw [if_neg (by omega)]
        · simp only [h2, h4, h5, h6, c1, set, if_true]
          congr 1
          apply List.map_congr_left
          intro j hj
          rw [List.mem_range] at hj
          rw [if_pos ⟨by omega, hj, trivial⟩, hv]
      · intro i
        simp only [h3, c5]
  · rw [if_neg (show ¬ _ < fill from hm)]
    exact ⟨b, rfl, fun _ => rfl, fun h => absurd h hm⟩

theorem readPixel_ok {width height row col : Nat} (hr : 1 ≤ row) (hr2 : row ≤ height) (hc : 1 ≤ col) (hc2 : col ≤ width)
    (hsz : height * width * 8 < 2 ^ 31) : ∀ (scenes : List Scene), (∀ s ∈ scenes, ∃ f, Image s width height f) →
    ∀ b : Pixel, ∃ b', readPixel row col width scenes b = .ok b' ∧
      b'.count = b.count + (covering scenes width row col).length ∧
      found b' = found b ++ (covering scenes width row col).map fun s => obs s width row col
  | [], _, b => ⟨b, rfl, by simp [covering], by simp [covering]⟩
  | s :: ss, hs, b => by
    obtain ⟨f, hf⟩ := hs s List.mem_cons_self
    obtain ⟨b1, h1, h2, h3⟩ := readBip_ok hf hr hr2 hc hc2 hsz b
    obtain ⟨b2, g1, g2, g3⟩ := readPixel_ok hr hr2 hc hc2 hsz ss (fun s h => hs s (List.mem_cons_of_mem _ h)) b1
    refine ⟨b2, ?_, ?_, ?_⟩
    · rw [readPixel, bind_eq, h1]; exact g1
    · by_cases hm : (obs s width row col).mask < 255
      · rw [g2, (h3 hm).1]
        simp only [covering, List.filter_cons, hm, decide_true, if_true, List.length_cons]
        omega
      · rw [g2, h2 (by omega)]
        simp [covering, hm]
    · by_cases hm : (obs s width row col).mask < 255
      · rw [g3, (h3 hm).2.1]
        simp [covering, List.filter_cons, hm]
      · rw [g3, h2 (by omega)]
        simp [covering, hm]

theorem readPixel_sensor {width height row col : Nat} (hr : 1 ≤ row) (hr2 : row ≤ height) (hc : 1 ≤ col) (hc2 : col ≤ width)
    (hsz : height * width * 8 < 2 ^ 31) : ∀ (scenes : List Scene), (∀ s ∈ scenes, ∃ f, Image s width height f) →
    (∀ s ∈ scenes, Known s) → ∀ b b' : Pixel, readPixel row col width scenes b = .ok b' →
      (List.range b'.count).map b'.sensor =
        (List.range b.count).map b.sensor ++ (covering scenes width row col).map fun s => some (sensor s)
  | [], _, _, b, b', h => by cases h; simp [covering]
  | s :: ss, hs, hk, b, b', h => by
    obtain ⟨f, hf⟩ := hs s List.mem_cons_self
    obtain ⟨b1, h1, h2, h3⟩ := readBip_ok hf hr hr2 hc hc2 hsz b
    rw [readPixel, bind_eq, h1] at h
    have := readPixel_sensor hr hr2 hc hc2 hsz ss (fun s h => hs s (List.mem_cons_of_mem _ h))
      (fun s h => hk s (List.mem_cons_of_mem _ h)) b1 b' h
    rw [this]
    by_cases hm : (obs s width row col).mask < 255
    · obtain ⟨e1, _, e3⟩ := h3 hm
      have hsn : sensorOf s.platform = some (sensor s) := by
        unfold sensorOf sensor
        rcases hk s List.mem_cons_self with h | h | h | h <;> simp [h]
      have e4 : (List.range b.count).map b1.sensor = (List.range b.count).map b.sensor := by
        apply List.map_congr_left
        intro i hi
        rw [List.mem_range] at hi
        rw [e3, if_neg (by omega)]
      rw [e1, List.range_succ, List.map_append, e4]
      simp [covering, List.filter_cons, hm, e3, hsn]
    · rw [h2 (by omega)]
      simp [covering, hm]

/-! ## One line -/

theorem foundAt_put {b : Line} {n k : Nat} {tmp : List Int} {date : Int} {sn : Option Int} (k' : Nat)
    (hk : b.count k < n) (hk' : b.count k' ≤ n) :
    foundAt (put n k tmp date sn b) n k' = if k' = k then foundAt b n k ++
      [⟨(List.range 7).map fun j => tmp.getD j 0, tmp.getD 7 0, date⟩] else foundAt b n k' := by
  have himg : ∀ i < b.count k', (k' = k → i ≠ b.count k) → k' * n + i ≠ k * n + b.count k := by
    intro i hi hne he
    have hd : ∀ a c, c < n → (a * n + c) / n = a := by
      intro a c hc
      rw [Nat.mul_comm, Nat.mul_add_div (by omega), Nat.div_eq_of_lt hc, Nat.add_zero]
    have := congrArg (· / n) he
    simp only [hd k' i (by omega), hd k _ hk] at this
    subst this
    exact hne rfl (by omega)
  by_cases h : k' = k
  · subst h
    rw [if_pos rfl]
    unfold foundAt
    simp only [put, set, if_true]
    rw [List.range_succ (n := b.count k'), List.map_append]
    congr 1
    · apply List.map_congr_left
      intro i hi
      rw [List.mem_range] at hi
      rw [if_neg (by omega), if_neg (by omega)]
      congr 1
      apply List.map_congr_left
      intro j hj
      rw [List.mem_range] at hj
      rw [if_pos (by simpa [imageBands] using hj), set_ne (himg i hi (by omega))]
    · simp only [List.map_cons, List.map_nil, if_true, totalBands]
      congr 2
      apply List.map_congr_left
      intro j hj
      rw [List.mem_range] at hj
      rw [if_pos (by simpa [imageBands] using hj), set_same]
  · rw [if_neg h]
    unfold foundAt
    simp only [put, set, if_neg h]
    apply List.map_congr_left
    intro i hi
    rw [List.mem_range] at hi
    congr 1
    apply List.map_congr_left
    intro j hj
    rw [List.mem_range] at hj
    rw [if_pos (by simpa [imageBands] using hj), set_ne (himg i hi (fun e => absurd e h))]

/-- One scene, from pixel `k` on. -/
theorem readLine_ok {s : Scene} {width height row n : Nat} {f : List Int} (h : Image s width height f)
    (hr : 1 ≤ row) (hr2 : row ≤ height) (sn : Option Int) : ∀ (fuel k : Nat) (b : Line), k + fuel = width →
    (∀ k', b.count k' ≤ n) → (∀ k', k ≤ k' → k' < width → b.count k' < n) →
    ∃ b', readLine f n s.date sn fuel k (((row - 1) * width + k) * 8 * 2) b = .ok b' ∧
      ∀ k', b'.count k' = b.count k' + (if k ≤ k' ∧ k' < width ∧ (obs s width row (k' + 1)).mask < 255 then 1 else 0) ∧
        foundAt b' n k' = foundAt b n k' ++
          (if k ≤ k' ∧ k' < width ∧ (obs s width row (k' + 1)).mask < 255 then [obs s width row (k' + 1)] else [])
  | 0, k, b, hk, _, _ => ⟨b, rfl, fun k' => by rw [if_neg (by omega), if_neg (by omega)]; simp⟩
  | fuel + 1, k, b, hk, hn, hn1 => by
    have hp := pixel_bound (width := width) (col := k + 1) hr hr2 (by omega) (by omega)
    have hlen := h.2
    simp only [Nat.add_sub_cancel] at hp
    have hread : readShorts f (((row - 1) * width + k) * 8 * 2) totalBands = some ((f.drop (((row - 1) * width + k) * 8)).take 8) :=
      readShorts_ok (by simp only [totalBands]; omega)
    have hg : ∀ j < 8, ((f.drop (((row - 1) * width + k) * 8)).take 8).getD j 0 = value f width row (k + 1) j := by
      intro j hj
      rw [getD_window hj, value, Nat.add_sub_cancel]
    have hobs : obs s width row (k + 1) = ⟨(List.range 7).map fun j => ((f.drop (((row - 1) * width + k) * 8)).take 8).getD j 0,
        ((f.drop (((row - 1) * width + k) * 8)).take 8).getD 7 0, s.date⟩ := by
      rw [obs_image h, hg 7 (by omega)]
      congr 1
      apply List.map_congr_left
      intro j hj
      rw [List.mem_range] at hj
      rw [hg j (by omega)]
    have hoff : ((row - 1) * width + k) * 8 * 2 + 2 * totalBands = ((row - 1) * width + (k + 1)) * 8 * 2 := by
      simp only [totalBands]; ring
    rw [readLine, hread]
    simp only
    rw [show totalBands - 1 = 7 from rfl, hoff]
    generalize hb1 : (if ((f.drop (((row - 1) * width + k) * 8)).take 8).getD 7 0 < fill then
      put n k ((f.drop (((row - 1) * width + k) * 8)).take 8) s.date sn b else b) = b1
    have hmask : (obs s width row (k + 1)).mask = ((f.drop (((row - 1) * width + k) * 8)).take 8).getD 7 0 := by rw [hobs]
    have key : ∀ k', b1.count k' = b.count k' + (if k' = k ∧ (obs s width row (k + 1)).mask < 255 then 1 else 0) ∧
        foundAt b1 n k' = foundAt b n k' ++
          (if k' = k ∧ (obs s width row (k + 1)).mask < 255 then [obs s width row (k + 1)] else []) := by
      intro k'
      by_cases hm : (obs s width row (k + 1)).mask < 255
      · rw [if_pos (by rw [← hmask]; exact hm)] at hb1
        subst hb1
        constructor
        · simp only [put, set]
          by_cases e : k' = k
          · subst e; simp [hm]
          · simp [e]
        · rw [foundAt_put k' (hn1 k (by omega) (by omega)) (hn k'), ← hobs]
          by_cases e : k' = k
          · subst e; simp [hm]
          · simp [e]
      · rw [if_neg (by rw [← hmask]; exact hm)] at hb1
        subst hb1
        simp [hm]
    obtain ⟨b2, h1, h2⟩ := readLine_ok (n := n) h hr hr2 sn fuel (k + 1) b1 (by omega)
      (by
        intro k'
        rw [(key k').1]
        by_cases e : k' = k
        · have := hn1 k (by omega) (by omega)
          subst e
          split <;> omega
        · rw [if_neg (by tauto)]
          exact hn k')
      (by
        intro k' hk' hw
        rw [(key k').1, if_neg (by omega)]
        exact hn1 k' (by omega) hw)
    refine ⟨b2, h1, ?_⟩
    intro k'
    obtain ⟨a1, a2⟩ := h2 k'
    obtain ⟨c1, c2⟩ := key k'
    rw [a1, a2, c1, c2]
    by_cases e : k' = k
    · subst e
      have e1 : ¬ (k' + 1 ≤ k' ∧ k' < width ∧ (obs s width row (k' + 1)).mask < 255) := by omega
      have e2 : (k' ≤ k' ∧ k' < width ∧ (obs s width row (k' + 1)).mask < 255) ↔ (obs s width row (k' + 1)).mask < 255 := by
        constructor
        · exact fun h => h.2.2
        · exact fun h => ⟨le_refl _, by omega, h⟩
      simp only [if_neg e1, e2, true_and]
      simp
    · have e2 : (k + 1 ≤ k' ↔ k ≤ k') := by omega
      simp [e, e2]

theorem readScenes_ok {width height row n : Nat} (hr : 1 ≤ row) (hr2 : row ≤ height) (hsz : height * width * 8 < 2 ^ 31) :
    ∀ (scenes : List Scene), (∀ s ∈ scenes, ∃ f, Image s width height f) →
    ∀ (tmp : Option Int) (b : Line), (∀ k, b.count k + scenes.length ≤ n) →
    ∃ b', readScenes row width n scenes tmp b = .ok b' ∧ ∀ k < width,
      foundAt b' n k = foundAt b n k ++ (covering scenes width row (k + 1)).map (fun s => obs s width row (k + 1)) ∧
      b'.count k = b.count k + (covering scenes width row (k + 1)).length
  | [], _, _, b, _ => ⟨b, rfl, by simp [covering]⟩
  | s :: ss, hs, tmp, b, hn => by
    obtain ⟨f, hf⟩ := hs s List.mem_cons_self
    have hoff : (row - 1) * width * totalBands * 2 = ((row - 1) * width + 0) * 8 * 2 := by simp [totalBands]
    have hub : ¬ 2 ^ 31 ≤ (row - 1) * width * totalBands := by
      have : (row - 1) * width ≤ height * width := Nat.mul_le_mul_right _ (by omega)
      simp only [totalBands]
      omega
    simp only [List.length_cons] at hn
    obtain ⟨b1, h1, h2⟩ := readLine_ok (n := n) hf hr hr2 ((sensorOf s.platform).or tmp) width 0 b (by omega)
      (fun k => by have := hn k; omega) (fun k _ _ => by have := hn k; omega)
    obtain ⟨b2, g1, g2⟩ := readScenes_ok (n := n) hr hr2 hsz ss (fun s h => hs s (List.mem_cons_of_mem _ h))
      ((sensorOf s.platform).or tmp) b1 (fun k => by
        have := hn k
        rw [(h2 k).1]
        split <;> omega)
    refine ⟨b2, ?_, ?_⟩
    · rw [readScenes, hf.1]
      simp only
      rw [if_neg hub, bind_eq, hoff, h1]
      exact g1
    · intro k hk
      obtain ⟨a1, a2⟩ := g2 k hk
      obtain ⟨c1, c2⟩ := h2 k
      by_cases hm : (obs s width row (k + 1)).mask < 255
      · rw [if_pos ⟨by omega, hk, hm⟩] at c1 c2
        rw [a1, a2, c1, c2]
        constructor
        · simp [covering, List.filter_cons, hm]
        · simp only [covering, List.filter_cons, hm, decide_true, if_true, List.length_cons]
          omega
      · rw [if_neg (by tauto)] at c1 c2
        rw [a1, a2, c1, c2]
        simp [covering, List.filter_cons, hm]

end Pycold.Bip
