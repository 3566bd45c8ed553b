import Verif.Spec.Array2d
import Mathlib.Tactic.Ring
import Mathlib.Data.List.Pairwise
import Mathlib.Tactic.Linarith
/-!
# The layout of two-dimensional arrays keeps matrices apart
-/
namespace Pycold.Array2d

open Spec

/-- The bytes `bs` are at `a`. -/
def Holds (m : Mem) (a : Nat) (bs : List UInt8) : Prop := ∀ i < bs.length, m.byte (a + i) = bs.getD i 0

theorem encode_length : ∀ n v, (encode n v).length = n
  | 0, _ => rfl
  | n + 1, v => by simp [encode, encode_length n]

theorem decode_encode : ∀ n v, v < 256 ^ n → decode (encode n v) = v
  | 0, v, h => by simp at h; simp [encode, decode, h]
  | n + 1, v, h => by
    have hd : v / 256 < 256 ^ n := by
      rw [Nat.div_lt_iff_lt_mul (by norm_num), ← pow_succ]
      exact h
    simp only [encode, decode, decode_encode n _ hd, UInt8.toNat_ofNat']
    have := Nat.mod_add_div v 256
    norm_num
    omega

theorem ok_iff (m : Mem) (a n : Nat) : m.ok a n = true ↔ ∃ B ∈ m.live, B.1 ≤ a ∧ a + n ≤ B.1 + B.2 := by
  simp [Mem.ok]

theorem load_holds {m : Mem} {a : Nat} {bs : List UInt8} (h : m.ok a bs.length = true) (hb : Holds m a bs) :
    m.load a bs.length = some bs := by
  unfold Mem.load
  rw [if_pos h]
  congr 1
  apply List.ext_getElem
  · simp
  · intro i h1 h2
    simp only [List.getElem_map, List.getElem_range]
    rw [hb i h2, List.getD_eq_getElem?_getD, List.getElem?_eq_getElem h2]
    rfl

theorem store_ok {m : Mem} {a : Nat} {bs : List UInt8} (h : m.ok a bs.length = true) :
    ∃ m', m.store a bs = some m' ∧ m'.live = m.live ∧ Holds m' a bs ∧
      ∀ x, x < a ∨ a + bs.length ≤ x → m'.byte x = m.byte x := by
  unfold Mem.store
  rw [if_pos h]
  refine ⟨_, rfl, rfl, ?_, ?_⟩
  · intro i hi
    simp only
    rw [if_pos (by omega), Nat.add_sub_cancel_left]
  · intro x hx
    simp only
    rw [if_neg (by omega)]

theorem ok_live {m m' : Mem} (h : m'.live = m.live) (a n : Nat) : m'.ok a n = m.ok a n := by
  unfold Mem.ok; rw [h]

/-- The address of the data of a matrix. -/
def data (a : Matrix) : Nat := a.name + 8 * (a.rows + a.rows % 2)

/-- A matrix is represented in memory. -/
structure Good (m : Mem) (a : Matrix) : Prop where
  big : 32 < a.name
  size : 0 < a.size
  count : a.rows * a.columns < 2 ^ 31
  fits : a.name - 32 + (32 + a.rows * 8 + a.rows * a.columns * a.size + 16) ≤ 2 ^ 64
  sig : Holds m (a.name - 32) (encode 4 signature)
  row : ∀ r < a.rows, Holds m (a.name + 8 * r) (encode 8 (data a + r * a.columns * a.size))
  cell : ∀ r < a.rows, ∀ c < a.columns, ∀ v, a.cell r c = some v →
    v.length = a.size ∧ Holds m (data a + (r * a.columns + c) * a.size) v

theorem Holds.frame {m m' : Mem} {a : Nat} {bs : List UInt8} (h : Holds m a bs)
    (hx : ∀ x, a ≤ x → x < a + bs.length → m'.byte x = m.byte x) : Holds m' a bs := by
  intro i hi
  rw [hx (a + i) (by omega) (by omega), h i hi]

/-- Where a cell is. -/
theorem cell_bounds {a : Matrix} {r c : Nat} (hr : r < a.rows) (hc : c < a.columns) :
    (r * a.columns + c) * a.size + a.size ≤ a.rows * a.columns * a.size := by
  have h1 : r * a.columns + c + 1 ≤ a.rows * a.columns := by
    calc r * a.columns + c + 1 ≤ r * a.columns + a.columns := by omega
      _ = (r + 1) * a.columns := by ring
      _ ≤ a.rows * a.columns := Nat.mul_le_mul_right _ hr
  calc (r * a.columns + c) * a.size + a.size = (r * a.columns + c + 1) * a.size := by ring
    _ ≤ _ := Nat.mul_le_mul_right _ h1

theorem cells_apart {cols size r c r' c' : Nat} (hc : c < cols) (hc' : c' < cols) (hne : ¬ (r = r' ∧ c = c')) :
    (r * cols + c) * size + size ≤ (r' * cols + c') * size ∨ (r' * cols + c') * size + size ≤ (r * cols + c) * size := by
  have key : ∀ i j : Nat, i < j → i * size + size ≤ j * size := by
    intro i j h
    calc i * size + size = (i + 1) * size := by ring
      _ ≤ j * size := Nat.mul_le_mul_right _ h
  have hi : r * cols + c ≠ r' * cols + c' := by
    intro h
    have h1 : (r * cols + c) / cols = (r' * cols + c') / cols := by rw [h]
    have e : ∀ a b, b < cols → (a * cols + b) / cols = a := by
      intro a b hb
      rw [Nat.mul_comm, Nat.mul_add_div (by omega), Nat.div_eq_of_lt hb, Nat.add_zero]
    rw [e r c hc, e r' c' hc'] at h1
    subst h1
    exact hne ⟨rfl, by omega⟩
  rcases Nat.lt_or_gt_of_ne hi with h | h
  · exact .inl (key _ _ h)
  · exact .inr (key _ _ h)

theorem Good.frame {m m' : Mem} {a : Matrix} (h : Good m a)
    (hx : ∀ x, a.extent.1 ≤ x → x < a.extent.1 + a.extent.2 → m'.byte x = m.byte x) : Good m' a := by
  have hb := h.big
  simp only [Matrix.extent] at hx
  refine ⟨h.big, h.size, h.count, h.fits, ?_, ?_, ?_⟩
  · refine h.sig.frame fun x h1 h2 => hx x h1 ?_
    rw [encode_length] at h2
    omega
  · intro r hr
    refine (h.row r hr).frame fun x h1 h2 => hx x (by omega) ?_
    rw [encode_length] at h2
    omega
  · intro r hr c hc v hv
    obtain ⟨hl, hh⟩ := h.cell r hr c hc v hv
    have hbd := cell_bounds hr hc
    refine ⟨hl, hh.frame fun x h1 h2 => hx x ?_ ?_⟩
    · simp only [data] at h1; omega
    · rw [hl] at h2
      simp only [data] at h2
      omega

/-- The state of memory while matrices `A` are live and `F` are blocks of others, whose contents are those
of `m0`. -/
structure Inv (m : Mem) (A : List Matrix) (F : List (Nat × Nat)) (m0 : Mem) : Prop where
  live : m.live = A.map Matrix.extent ++ F
  apart : (A.map Matrix.extent ++ F).Pairwise Apart
  good : ∀ a ∈ A, Good m a
  foreign : ∀ B ∈ F, ∀ x, B.1 ≤ x → x < B.1 + B.2 → m.byte x = m0.byte x

theorem Apart.symm' {x y : Nat × Nat} (h : Apart x y) : Apart y x := by
  unfold Apart at *; omega

instance : Std.Symm (fun a b : Matrix => Apart a.extent b.extent) := ⟨fun _ _ h => Apart.symm' h⟩

/-- Different matrices are apart; in particular a name has one matrix. -/
theorem two_apart {A : List Matrix} {F : List (Nat × Nat)} (h : (A.map Matrix.extent ++ F).Pairwise Apart)
    {a b : Matrix} (ha : a ∈ A) (hb : b ∈ A) (hn : a ≠ b) : Apart a.extent b.extent := by
  rw [List.pairwise_append, List.pairwise_map] at h
  exact h.1.forall ha hb hn

theorem one_name {A : List Matrix} {F : List (Nat × Nat)} (h : (A.map Matrix.extent ++ F).Pairwise Apart)
    {a b : Matrix} (ha : a ∈ A) (hb : b ∈ A) (hn : a.name = b.name) : a = b := by
  by_contra hne
  have := two_apart h ha hb hne
  simp only [Apart, Matrix.extent, hn] at this
  omega

theorem foreign_apart {A : List Matrix} {F : List (Nat × Nat)} (h : (A.map Matrix.extent ++ F).Pairwise Apart)
    {a : Matrix} (ha : a ∈ A) {B : Nat × Nat} (hB : B ∈ F) : Apart a.extent B := by
  rw [List.pairwise_append] at h
  exact h.2.2 _ (List.mem_map_of_mem ha) _ hB

theorem row_ok {m : Mem} {A F m0} (h : Inv m A F m0) {a : Matrix} (ha : a ∈ A) {r : Nat} (hr : r < a.rows) :
    m.ok (a.name + 8 * r) 8 = true := by
  have hb := (h.good a ha).big
  rw [ok_iff, h.live]
  refine ⟨a.extent, List.mem_append_left _ (List.mem_map_of_mem ha), ?_⟩
  simp only [Matrix.extent]
  omega

theorem address_eq {m : Mem} {A F m0} (h : Inv m A F m0) {a : Matrix} (ha : a ∈ A) {r c : Nat} (hr : r < a.rows)
    (hc : c < a.columns) : address m a.name r c a.size = some (data a + (r * a.columns + c) * a.size) := by
  have hg := h.good a ha
  have hl : m.load (a.name + 8 * r) 8 = some (encode 8 (data a + r * a.columns * a.size)) := by
    have := load_holds (m := m) (by rw [encode_length]; exact row_ok h ha hr) (hg.row r hr)
    rwa [encode_length] at this
  have hbd := cell_bounds hr hc
  have hf := hg.fits
  have hb := hg.big
  have e : (r * a.columns + c) * a.size = r * a.columns * a.size + c * a.size := by ring
  rw [e] at hbd
  unfold address
  rw [hl]
  simp only [bind, Option.bind]
  rw [decode_encode]
  · rw [e]
    congr 1
    omega
  · have := hg.size
    simp only [data]
    norm_num
    omega

theorem cell_ok {m : Mem} {A F m0} (h : Inv m A F m0) {a : Matrix} (ha : a ∈ A) {r c : Nat} (hr : r < a.rows)
    (hc : c < a.columns) : m.ok (data a + (r * a.columns + c) * a.size) a.size = true := by
  have hb := (h.good a ha).big
  have hbd := cell_bounds hr hc
  rw [ok_iff, h.live]
  refine ⟨a.extent, List.mem_append_left _ (List.mem_map_of_mem ha), ?_⟩
  simp only [Matrix.extent, data]
  omega

theorem step_write {m : Mem} {A F m0} (h : Inv m A F m0) {p r c : Nat} {v : List UInt8}
    (hl : Legal F A (.write p r c v)) :
    ∃ m', write m p r c v = some m' ∧ Inv m' (apply A (.write p r c v)) F m0 := by
  obtain ⟨a, ha, rfl, hr, hc, hv⟩ := hl
  have hg := h.good a ha
  have hb := hg.big
  have hbd := cell_bounds hr hc
  have hok := cell_ok h ha hr hc
  rw [← hv] at hok
  obtain ⟨m', hs, hlive, hh, hfr⟩ := store_ok (bs := v) hok
  rw [hv] at hfr hh hs
  refine ⟨m', ?_, ?_⟩
  · unfold write
    rw [hv, address_eq h ha hr hc]
    exact hs
  have hext : (apply A (.write a.name r c v)).map Matrix.extent = A.map Matrix.extent := by
    simp only [apply, List.map_map]
    apply List.map_congr_left
    intro b _
    simp only [Function.comp]
    split <;> rfl
  -- bytes that change lie in the cell
  have hin : ∀ x, x < a.extent.1 ∨ a.extent.1 + a.extent.2 ≤ x → m'.byte x = m.byte x := by
    intro x hx
    apply hfr
    simp only [Matrix.extent, data] at hx ⊢
    omega
  refine ⟨by rw [hlive, hext, h.live], by rw [hext]; exact h.apart, ?_, ?_⟩
  · intro b hb'
    simp only [apply, List.mem_map] at hb'
    obtain ⟨b0, hb0, rfl⟩ := hb'
    have hg0 := h.good b0 hb0
    by_cases hn : b0.name = a.name
    · -- the same matrix
      obtain rfl := one_name h.apart hb0 ha hn
      rw [if_pos rfl]
      refine ⟨hg.big, hg.size, hg.count, hg.fits, ?_, ?_, ?_⟩
      · refine hg.sig.frame fun x h1 h2 => hfr x ?_
        rw [encode_length] at h2
        simp only [data]
        omega
      · intro i hi
        refine (hg.row i hi).frame fun x h1 h2 => hfr x ?_
        rw [encode_length] at h2
        simp only [data]
        simp only at hi
        omega
      · intro i hi j hj w hw
        simp only at hw hi hj
        by_cases hij : i = r ∧ j = c
        · rw [if_pos hij] at hw
          cases hw
          obtain ⟨rfl, rfl⟩ := hij
          exact ⟨hv, hh⟩
        · rw [if_neg hij] at hw
          obtain ⟨hl, hw'⟩ := hg.cell i hi j hj w hw
          refine ⟨hl, hw'.frame fun x h1 h2 => hfr x ?_⟩
          rw [hl] at h2
          have := cells_apart (size := b0.size) hj hc hij
          simp only [data] at h1 h2 ⊢
          omega
    · rw [if_neg hn]
      have hap := two_apart h.apart hb0 ha (fun e => hn (by rw [e]))
      refine hg0.frame fun x h1 h2 => hin x ?_
      simp only [Apart] at hap
      omega
  · intro B hB x h1 h2
    rw [← h.foreign B hB x h1 h2]
    apply hin
    have hap := foreign_apart h.apart ha hB
    simp only [Apart] at hap
    omega

theorem step_read {m : Mem} {A F m0} (h : Inv m A F m0) {p r c size : Nat} (hl : Legal F A (.read p r c size)) :
    ∃ v, read m p r c size = some v ∧ Answer A (.read p r c size) (.value v) := by
  obtain ⟨a, ha, rfl, hr, hc, rfl⟩ := hl
  have hok := cell_ok h ha hr hc
  unfold read
  rw [address_eq h ha hr hc]
  simp only [bind, Option.bind]
  have hld : m.load (data a + (r * a.columns + c) * a.size) a.size =
      some ((List.range a.size).map fun i => m.byte (data a + (r * a.columns + c) * a.size + i)) := by
    unfold Mem.load
    rw [if_pos hok]
  refine ⟨_, hld, _, rfl, by simp, ?_⟩
  intro b hb hn w hw
  obtain rfl := one_name h.apart hb ha hn
  obtain ⟨hlen, hh⟩ := (h.good b hb).cell r hr c hc w hw
  have := load_holds (m := m) (by rw [hlen]; exact hok) hh
  rw [hlen, hld] at this
  exact Option.some.inj this

theorem eraseP_congr {α} {p q : α → Bool} : ∀ {l : List α}, (∀ x ∈ l, p x = q x) → l.eraseP p = l.eraseP q
  | [], _ => rfl
  | x :: l, h => by
    rw [List.eraseP_cons, List.eraseP_cons, h x List.mem_cons_self,
      eraseP_congr fun y hy => h y (List.mem_cons_of_mem _ hy)]

theorem step_free {m : Mem} {A F m0} (h : Inv m A F m0) {p : Nat} (hl : Legal F A (.free p)) :
    ∃ m', free m p = some (true, m') ∧ Inv m' (apply A (.free p)) F m0 := by
  unfold free
  rcases hl with rfl | ⟨a, ha, rfl⟩
  · refine ⟨m, by simp, ?_⟩
    have : apply A (.free 0) = A := by
      simp only [apply]
      apply List.eraseP_of_forall_not
      intro a ha
      have := (h.good a ha).big
      simp only [decide_eq_true_eq]
      omega
    rw [this]
    exact h
  · have hg := h.good a ha
    have hb := hg.big
    have hok : m.ok (a.name - 32) 4 = true := by
      rw [ok_iff, h.live]
      refine ⟨a.extent, List.mem_append_left _ (List.mem_map_of_mem ha), ?_⟩
      simp only [Matrix.extent]
      omega
    have hld : m.load (a.name - 32) 4 = some (encode 4 signature) :=
      load_holds (bs := encode 4 signature) (by rw [encode_length]; exact hok) hg.sig
    rw [if_neg (by omega), hld]
    simp only [bind, Option.bind]
    rw [if_neg (by rw [decode_encode _ _ (by decide)]; simp)]
    have hany : m.live.any (fun B => decide (B.1 = a.name - 32)) = true := by
      rw [List.any_eq_true]
      refine ⟨a.extent, ?_, by simp [Matrix.extent]⟩
      rw [h.live]
      exact List.mem_append_left _ (List.mem_map_of_mem ha)
    unfold release
    rw [if_pos hany]
    refine ⟨_, rfl, ?_⟩
    have hlv : (m.live.eraseP fun B => decide (B.1 = a.name - 32)) =
        (apply A (.free a.name)).map Matrix.extent ++ F := by
      rw [h.live, List.eraseP_append_left (a := a.extent) (by simp [Matrix.extent]) _ (List.mem_map_of_mem ha),
        List.eraseP_map]
      congr 2
      simp only [apply]
      apply eraseP_congr
      intro b hb'
      have := (h.good b hb').big
      show decide (b.name - 32 = a.name - 32) = decide (b.name = a.name)
      by_cases hn : b.name = a.name
      · rw [hn]; simp
      · rw [decide_eq_false hn, decide_eq_false (by omega)]
    refine ⟨hlv, ?_, ?_, h.foreign⟩
    · rw [← hlv]
      have := h.apart
      rw [← h.live] at this
      exact this.sublist List.eraseP_sublist
    · intro b hb'
      exact (h.good b (List.mem_of_mem_eraseP hb')).frame fun _ _ _ => rfl

theorem setRows_ok (table dataPtr columns size b total : Nat) : ∀ (fuel row : Nat) (m : Mem), (b, total) ∈ m.live →
    b ≤ table → table + 8 * (row + fuel) ≤ b + total → (row + fuel) * columns < 2 ^ 31 →
    ∃ m', setRows table dataPtr columns size fuel row m = some m' ∧ m'.live = m.live ∧
      (∀ r, row ≤ r → r < row + fuel → Holds m' (table + 8 * r) (encode 8 (dataPtr + r * columns * size))) ∧
      ∀ x, x < table + 8 * row ∨ table + 8 * (row + fuel) ≤ x → m'.byte x = m.byte x
  | 0, row, m, _, _, _, _ => ⟨m, rfl, rfl, by omega, fun _ _ => rfl⟩
  | fuel + 1, row, m, hm, h1, h2, h3 => by
    have hrow : row * columns < 2 ^ 31 :=
      lt_of_le_of_lt (Nat.mul_le_mul_right _ (by omega : row ≤ row + (fuel + 1))) h3
    have hok : m.ok (table + 8 * row) (encode 8 (dataPtr + row * columns * size)).length = true := by
      rw [ok_iff, encode_length]
      exact ⟨_, hm, by simp only; omega⟩
    obtain ⟨m1, hs, hl, hh, hf⟩ := store_ok hok
    obtain ⟨m2, hs2, hl2, hh2, hf2⟩ := setRows_ok table dataPtr columns size b total fuel (row + 1) m1 (by rw [hl]; exact hm)
      h1 (by omega) (by rw [show row + 1 + fuel = row + (fuel + 1) by omega]; exact h3)
    rw [encode_length] at hf
    refine ⟨m2, ?_, by rw [hl2, hl], ?_, ?_⟩
    · rw [setRows, if_neg (by omega), hs]
      exact hs2
    · intro r hr1 hr2
      by_cases hr : r = row
      · subst hr
        refine hh.frame fun x hx1 hx2 => hf2 x ?_
        rw [encode_length] at hx2
        omega
      · exact hh2 r (by omega) (by omega)
    · intro x hx
      rw [hf2 x (by omega), hf x (by omega)]

theorem step_alloc {m : Mem} {A F m0} (h : Inv m A F m0) {rows columns size : Nat} {base : Option Nat}
    (hl : Legal F A (.alloc rows columns size base)) :
    ∃ p m', allocate m base rows columns size = some (p, m') ∧ Inv m' (apply A (.alloc rows columns size base)) F m0 ∧
      Answer A (.alloc rows columns size base) (.pointer p) := by
  obtain ⟨hr, hc, ht, hsz, hfresh⟩ := hl
  unfold allocate
  rw [if_neg (by omega)]
  cases base with
  | none => exact ⟨0, m, rfl, h, rfl⟩
  | some b =>
    obtain ⟨hb0, hb1, hap⟩ := hfresh b rfl
    have hbs : blockSize rows columns size = 32 + rows * 8 + rows * columns * size + 16 := by
      unfold blockSize
      rw [Nat.mod_eq_of_lt (by omega)]
    simp only [hbs]
    simp only at hb0 hb1 hap
    generalize hT : 32 + rows * 8 + rows * columns * size + 16 = total at *
    let m1 : Mem := { m with live := (b, total) :: m.live }
    have hm1 : (b, total) ∈ m1.live := List.mem_cons_self
    have hd : rows * 8 / 8 = rows := Nat.mul_div_cancel _ (by norm_num)
    have okk : ∀ (k : Mem), k.live = m1.live → ∀ off (bs : List UInt8), off + bs.length ≤ total →
        k.ok (b + off) bs.length = true := by
      intro k hk off bs ho
      rw [ok_iff, hk]
      exact ⟨_, hm1, by simp only; omega⟩
    obtain ⟨m2, hs2, hl2, hh2, hf2⟩ := store_ok (m := m1) (a := b) (bs := encode 4 signature)
      (by simpa using okk m1 rfl 0 (encode 4 signature) (by rw [encode_length]; omega))
    obtain ⟨m3, hs3, hl3, hh3, hf3⟩ := store_ok (m := m2) (a := b + 4) (bs := encode 4 rows)
      (okk m2 hl2 4 _ (by rw [encode_length]; omega))
    obtain ⟨m4, hs4, hl4, hh4, hf4⟩ := store_ok (m := m3) (a := b + 8) (bs := encode 4 columns)
      (okk m3 (by rw [hl3, hl2]) 8 _ (by rw [encode_length]; omega))
    obtain ⟨m5, hs5, hl5, hh5, hf5⟩ := store_ok (m := m4) (a := b + 12) (bs := encode 4 size)
      (okk m4 (by rw [hl4, hl3, hl2]) 12 _ (by rw [encode_length]; omega))
    obtain ⟨m6, hs6, hl6, hh6, hf6⟩ := store_ok (m := m5) (a := b + 24) (bs := encode 8 (b + 32))
      (okk m5 (by rw [hl5, hl4, hl3, hl2]) 24 _ (by rw [encode_length]; omega))
    have hds : (if rows % 2 = 1 then rows + 1 else rows) = rows + rows % 2 := by
      split <;> omega
    obtain ⟨m7, hs7, hl7, hh7, hf7⟩ := store_ok (m := m6) (a := b + 16)
      (bs := encode 8 (b + 32 + 8 * (rows + rows % 2)))
      (okk m6 (by rw [hl6, hl5, hl4, hl3, hl2]) 16 _ (by rw [encode_length]; omega))
    have hlive7 : m7.live = m1.live := by rw [hl7, hl6, hl5, hl4, hl3, hl2]
    obtain ⟨m8, hs8, hl8, hh8, hf8⟩ := setRows_ok (b + 32) (b + 32 + 8 * (rows + rows % 2)) columns size b total rows 0 m7
      (by rw [hlive7]; exact hm1) (by omega) (by omega) (by simpa using hc)
    simp only [encode_length] at hf2 hf3 hf4 hf5 hf6 hf7
    have hout : ∀ x, x < b ∨ b + total ≤ x → m8.byte x = m.byte x := by
      intro x hx
      rw [hf8 x (by omega), hf7 x (by omega), hf6 x (by omega), hf5 x (by omega), hf4 x (by omega), hf3 x (by omega),
        hf2 x (by omega)]
    refine ⟨b + 32, m8, ?_, ?_, rfl⟩
    · change (do
        let m ← m1.store b (encode 4 signature)
        let m ← m.store (b + 4) (encode 4 rows)
        let m ← m.store (b + 8) (encode 4 columns)
        let m ← m.store (b + 12) (encode 4 size)
        let m ← m.store (b + 24) (encode 8 (b + 32))
        if rows % 2 = 1 ∧ rows * 8 / 8 + 1 = 2 ^ 31 then none
        else
          let m ← m.store (b + 16) (encode 8 (b + 32 + 8 * (if rows % 2 = 1 then rows * 8 / 8 + 1 else rows * 8 / 8)))
          let m ← setRows (b + 32) (b + 32 + 8 * (if rows % 2 = 1 then rows * 8 / 8 + 1 else rows * 8 / 8)) columns size
            rows 0 m
          some (b + 32, m)) = _
      simp only [hd, hds, hs2, hs3, hs4, hs5, hs6, hs7, hs8, bind, Option.bind]
      rw [if_neg (by omega)]
    · have hlv : m8.live = (apply A (.alloc rows columns size (some b))).map Matrix.extent ++ F := by
        rw [hl8, hlive7]
        simp only [apply, List.map_cons, List.cons_append]
        rw [← h.live]
        simp only [Matrix.extent, Nat.add_sub_cancel, hT, m1]
      refine ⟨hlv, ?_, ?_, ?_⟩
      · simp only [apply, List.map_cons, List.cons_append, List.pairwise_cons]
        refine ⟨?_, h.apart⟩
        simp only [Matrix.extent, Nat.add_sub_cancel, hT]
        exact hap
      · intro a ha
        simp only [apply, List.mem_cons] at ha
        rcases ha with rfl | ha
        · refine ⟨by simp only; omega, hsz, hc, ?_, ?_, ?_, by simp⟩
          · simp only [Nat.add_sub_cancel, hT]
            exact hb1
          · simp only [Nat.add_sub_cancel]
            refine hh2.frame fun x h1 h2 => ?_
            rw [encode_length] at h2
            rw [hf8 x (by omega), hf7 x (by omega), hf6 x (by omega), hf5 x (by omega), hf4 x (by omega), hf3 x (by omega)]
          · intro r hr
            exact hh8 r (by omega) (by simpa using hr)
        · have hg := h.good a ha
          refine hg.frame fun x h1 h2 => hout x ?_
          have := hap a.extent (List.mem_append_left _ (List.mem_map_of_mem ha))
          simp only [Apart] at this
          omega
      · intro B hB x h1 h2
        rw [← h.foreign B hB x h1 h2]
        apply hout
        have := hap B (List.mem_append_right _ hB)
        simp only [Apart] at this
        omega

theorem step_ok {m : Mem} {A F m0} (h : Inv m A F m0) (o : Op) (hl : Legal F A o) :
    ∃ x m', step m o = some (x, m') ∧ Answer A o x ∧ Inv m' (apply A o) F m0 := by
  cases o with
  | alloc rows columns size base =>
    obtain ⟨p, m', h1, h2, h3⟩ := step_alloc h hl
    exact ⟨_, m', by simp [step, h1], h3, h2⟩
  | write p r c v =>
    obtain ⟨m', h1, h2⟩ := step_write h hl
    exact ⟨_, m', by simp [step, h1], rfl, h2⟩
  | read p r c size =>
    obtain ⟨v, h1, h2⟩ := step_read h hl
    exact ⟨_, m, by simp [step, h1], h2, h⟩
  | free p =>
    obtain ⟨m', h1, h2⟩ := step_free h hl
    exact ⟨_, m', by simp [step, h1], rfl, h2⟩

theorem run_ok {F m0} : ∀ (os : List Op) {m : Mem} {A}, Inv m A F m0 → AllLegal F A os →
    ∃ xs m', run m os = some (xs, m') ∧ Answers A os xs ∧ Inv m' (final A os) F m0
  | [], m, A, h, _ => ⟨[], m, rfl, rfl, h⟩
  | o :: os, m, A, h, ⟨h1, h2⟩ => by
    obtain ⟨x, m', e1, a1, i1⟩ := step_ok h o h1
    obtain ⟨xs, m'', e2, a2, i2⟩ := run_ok os i1 h2
    refine ⟨x :: xs, m'', ?_, ⟨x, xs, rfl, a1, a2⟩, i2⟩
    simp [run, e1, e2]

end Pycold.Array2d
