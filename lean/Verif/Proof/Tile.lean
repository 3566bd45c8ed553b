import Verif.Model.Tile
import Mathlib.Tactic.Ring
import Mathlib.Tactic.Linarith
import Mathlib.Tactic.GCongr
import Mathlib.Algebra.Order.Ring.Int
/-! Proofs about tile and block arithmetic. -/
namespace Pycold.Tile

/-! ### Division with remainder -/

theorem ediv_mul_add {n q a : Int} (h0 : 0 ≤ a) (h1 : a < n) : (q * n + a) / n = q := by
  rw [Int.add_comm, Int.add_mul_ediv_right _ _ (by omega), Int.ediv_eq_zero_of_lt h0 h1]; omega

theorem emod_mul_add {n q a : Int} (h0 : 0 ≤ a) (h1 : a < n) : (q * n + a) % n = a := by
  rw [Int.add_comm, Int.add_mul_emod_self_right, Int.emod_eq_of_lt h0 h1]

theorem combine_lt {n m q a : Int} (hn : 0 < n) (h1 : q < m) (h2 : a < n) : q * n + a < m * n := by
  have : (q + 1) * n ≤ m * n := Int.mul_le_mul_of_nonneg_right (by omega) (by omega)
  have : (q + 1) * n = q * n + n := by ring
  omega

theorem combine_nonneg {n q a : Int} (hn : 0 < n) (h1 : 0 ≤ q) (h2 : 0 ≤ a) : 0 ≤ q * n + a := by
  have := Int.mul_nonneg h1 (Int.le_of_lt hn)
  omega

theorem split {n m x : Int} (hn : 0 < n) (h0 : 0 ≤ x) (h1 : x < m * n) :
    0 ≤ x / n ∧ x / n < m ∧ 0 ≤ x % n ∧ x % n < n ∧ x = x / n * n + x % n := by
  refine ⟨Int.ediv_nonneg h0 (by omega), Int.ediv_lt_of_lt_mul hn h1, Int.emod_nonneg _ (by omega),
    Int.emod_lt_of_pos _ hn, ?_⟩
  have := Int.mul_ediv_add_emod x n
  rw [Int.mul_comm] at this
  omega

theorem blockXY {nbx nby id : Int} (h1 : 1 ≤ nbx) (h : 1 ≤ id ∧ id ≤ nbx * nby) :
    1 ≤ blockX id nbx ∧ blockX id nbx ≤ nbx ∧ 1 ≤ blockY id nbx ∧ blockY id nbx ≤ nby ∧
      id = (blockY id nbx - 1) * nbx + blockX id nbx := by
  have := split (n := nbx) (m := nby) (x := id - 1) (by omega) (by omega)
    (by rw [Int.mul_comm nby]; omega)
  simp only [blockX, blockY]
  rw [Int.tdiv_eq_ediv_of_nonneg (by omega)]
  have e : (id - 1) / nbx + 1 - 1 = (id - 1) / nbx := by omega
  rw [e]
  omega

theorem blockXY_of {nbx nby bx by_ : Int} (hx : 1 ≤ bx ∧ bx ≤ nbx) (hy : 1 ≤ by_ ∧ by_ ≤ nby) :
    let id := (by_ - 1) * nbx + bx
    1 ≤ id ∧ id ≤ nbx * nby ∧ blockX id nbx = bx ∧ blockY id nbx = by_ := by
  have e : (by_ - 1) * nbx + bx - 1 = (by_ - 1) * nbx + (bx - 1) := by omega
  have h0 := combine_nonneg (n := nbx) (q := by_ - 1) (a := bx - 1) (by omega) (by omega) (by omega)
  have h1 := combine_lt (n := nbx) (m := nby) (q := by_ - 1) (a := bx - 1) (by omega) (by omega) (by omega)
  rw [Int.mul_comm nby] at h1
  simp only [blockX, blockY]
  refine ⟨by omega, by omega, ?_, ?_⟩
  · rw [e, emod_mul_add (by omega) (by omega)]; omega
  · rw [e, Int.tdiv_eq_ediv_of_nonneg h0, ediv_mul_add (by omega) (by omega)]; omega

theorem rowcol_eq {idx bw bh bx by_ : Int} (hbw : 1 ≤ bw) (hbh : 1 ≤ bh) (h0 : 0 ≤ idx)
    (hy : 1 ≤ by_) :
    rowcolInTile idx bw bh bx by_ = (idx / bw + (by_ - 1) * bh + 1, idx % bw + (bx - 1) * bw + 1) := by
  simp only [rowcolInTile, Prod.mk.injEq, and_true]
  have : 0 ≤ ((by_ - 1) * bh + 1) * bw := by
    have := combine_nonneg (n := bh) (q := by_ - 1) (a := 1) (by omega) (by omega) (by omega)
    exact Int.mul_nonneg this (by omega)
  rw [Int.tdiv_eq_ediv_of_nonneg (by omega), Int.add_mul_ediv_right _ _ (by omega)]
  omega

/-- Everything about one pixel of one block. -/
theorem pixel {nbx nby bw bh bx by_ idx : Int} (hbw : 1 ≤ bw) (hbh : 1 ≤ bh)
    (hx : 1 ≤ bx ∧ bx ≤ nbx) (hy : 1 ≤ by_ ∧ by_ ≤ nby) (h0 : 0 ≤ idx) (h1 : idx < bw * bh) :
    let row := (rowcolInTile idx bw bh bx by_).1
    let col := (rowcolInTile idx bw bh bx by_).2
    let pos := posOf (nbx * bw) row col
    (1 ≤ row ∧ row ≤ nby * bh) ∧ (1 ≤ col ∧ col ≤ nbx * bw) ∧
    (pos - 1).tdiv (nbx * bw) = row - 1 ∧ (pos - 1) % (nbx * bw) = col - 1 ∧
    row - 1 = (by_ - 1) * bh + idx / bw ∧ col - 1 = (bx - 1) * bw + idx % bw ∧
    1 ≤ pos ∧ pos ≤ (nby * bh) * (nbx * bw) := by
  intro row col pos
  obtain ⟨a1, a2, a3, a4, a5⟩ := split (n := bw) (m := bh) (x := idx) (by omega) h0
    (by rw [Int.mul_comm]; exact h1)
  have er : row = idx / bw + (by_ - 1) * bh + 1 := by
    show (rowcolInTile idx bw bh bx by_).1 = _; rw [rowcol_eq hbw hbh h0 hy.1]
  have ec : col = idx % bw + (bx - 1) * bw + 1 := by
    show (rowcolInTile idx bw bh bx by_).2 = _; rw [rowcol_eq hbw hbh h0 hy.1]
  have r1 := combine_nonneg (n := bh) (q := by_ - 1) (a := idx / bw) (by omega) (by omega) a1
  have r2 := combine_lt (n := bh) (m := nby) (q := by_ - 1) (a := idx / bw) (by omega) (by omega) a2
  have c1 := combine_nonneg (n := bw) (q := bx - 1) (a := idx % bw) (by omega) (by omega) a3
  have c2 := combine_lt (n := bw) (m := nbx) (q := bx - 1) (a := idx % bw) (by omega) (by omega) a4
  have ep : pos - 1 = (row - 1) * (nbx * bw) + (col - 1) := by
    show nbx * bw * (row - 1) + col - 1 = _
    rw [Int.mul_comm]; omega
  have p0 := combine_nonneg (n := nbx * bw) (q := row - 1) (a := col - 1) (by omega) (by omega) (by omega)
  have p1 := combine_lt (n := nbx * bw) (m := nby * bh) (q := row - 1) (a := col - 1) (by omega) (by omega)
    (by omega)
  refine ⟨by omega, by omega, ?_, ?_, by omega, by omega, by omega, by omega⟩
  · rw [ep, Int.tdiv_eq_ediv_of_nonneg p0, ediv_mul_add (by omega) (by omega)]
  · rw [ep, emod_mul_add (by omega) (by omega)]

/-! ### Sharing out -/

theorem perCore_spec {n cores : Nat} (hc : 1 ≤ cores) :
    n ≤ perCore n cores * cores ∧ (perCore n cores) * cores < n + cores := by
  unfold perCore
  have h1 := Nat.div_add_mod (n + cores - 1) cores
  have h2 := Nat.mod_lt (n + cores - 1) (show 0 < cores by omega)
  rw [Nat.mul_comm] at h1
  omega

theorem mem_shareFrom {n cores rank k i b : Nat} :
    b ∈ shareFrom n cores rank k i ↔ b ≤ n ∧ ∃ j, i ≤ j ∧ j < i + k ∧ b = cores * j + rank := by
  induction k generalizing i with
  | zero => simp [shareFrom]; intros; omega
  | succ k ih =>
    simp only [shareFrom]
    by_cases h : cores * i + rank > n
    · simp only [h, if_true, List.not_mem_nil, false_iff, not_and, not_exists]
      intro hb j hj _ he
      have : cores * i ≤ cores * j := Nat.mul_le_mul_left _ hj
      omega
    · simp only [h, if_false, List.mem_cons, ih]
      constructor
      · rintro (rfl | ⟨hb, j, h1, h2, h3⟩)
        · exact ⟨by omega, i, by omega, by omega, rfl⟩
        · exact ⟨hb, j, by omega, by omega, h3⟩
      · rintro ⟨hb, j, h1, h2, h3⟩
        rcases Nat.eq_or_lt_of_le h1 with rfl | h1
        · exact Or.inl h3
        · exact Or.inr ⟨hb, j, by omega, by omega, h3⟩

theorem nodup_shareFrom {n cores rank k i : Nat} (hc : 1 ≤ cores) : (shareFrom n cores rank k i).Nodup := by
  induction k generalizing i with
  | zero => simp [shareFrom]
  | succ k ih =>
    simp only [shareFrom]
    by_cases h : cores * i + rank > n
    · simp [h]
    · simp only [h, if_false, List.nodup_cons]
      refine ⟨?_, ih⟩
      rw [mem_shareFrom]
      rintro ⟨_, j, h1, _, h3⟩
      have : cores * (i + 1) ≤ cores * j := Nat.mul_le_mul_left _ h1
      have : cores * (i + 1) = cores * i + cores := by ring
      omega

theorem mem_share0From {n cores rank k i b : Nat} :
    b ∈ share0From n cores rank k i ↔ b < n ∧ ∃ j, i ≤ j ∧ j < i + k ∧ b = cores * j + rank := by
  induction k generalizing i with
  | zero => simp [share0From]; intros; omega
  | succ k ih =>
    simp only [share0From]
    by_cases h : cores * i + rank ≥ n
    · simp only [h, if_true, List.not_mem_nil, false_iff, not_and, not_exists]
      intro hb j hj _ he
      have : cores * i ≤ cores * j := Nat.mul_le_mul_left _ hj
      omega
    · simp only [h, if_false, List.mem_cons, ih]
      constructor
      · rintro (rfl | ⟨hb, j, h1, h2, h3⟩)
        · exact ⟨by omega, i, by omega, by omega, rfl⟩
        · exact ⟨hb, j, by omega, by omega, h3⟩
      · rintro ⟨hb, j, h1, h2, h3⟩
        rcases Nat.eq_or_lt_of_le h1 with rfl | h1
        · exact Or.inl h3
        · exact Or.inr ⟨hb, j, by omega, by omega, h3⟩

theorem nodup_share0From {n cores rank k i : Nat} (hc : 1 ≤ cores) : (share0From n cores rank k i).Nodup := by
  induction k generalizing i with
  | zero => simp [share0From]
  | succ k ih =>
    simp only [share0From]
    by_cases h : cores * i + rank ≥ n
    · simp [h]
    · simp only [h, if_false, List.nodup_cons]
      refine ⟨?_, ih⟩
      rw [mem_share0From]
      rintro ⟨_, j, h1, _, h3⟩
      have : cores * (i + 1) ≤ cores * j := Nat.mul_le_mul_left _ h1
      have : cores * (i + 1) = cores * i + cores := by ring
      omega

/-- Of the rows `q*cores + a` with `a < cores`, only `perCore` many are needed to reach every id below
`n`. -/
theorem row_lt {n cores j a : Nat} (hc : 1 ≤ cores) (h : cores * j + a < n) : j < perCore n cores := by
  have := (perCore_spec (n := n) hc).1
  by_contra hcon
  have : perCore n cores * cores ≤ j * cores := Nat.mul_le_mul_right _ (by omega)
  rw [Nat.mul_comm j] at this
  omega

theorem mem_share {n cores rank b : Nat} (hc : 1 ≤ cores) (hr : 1 ≤ rank) :
    b ∈ share n cores rank ↔ b ≤ n ∧ ∃ j, b = cores * j + rank := by
  simp only [share, mem_shareFrom]
  constructor
  · rintro ⟨h, j, _, _, e⟩; exact ⟨h, j, e⟩
  · rintro ⟨h, j, e⟩
    exact ⟨h, j, by omega, by have := row_lt (a := 0) hc (show cores * j + 0 < n by omega); omega, e⟩

theorem mem_share0 {n cores rank b : Nat} (hc : 1 ≤ cores) :
    b ∈ share0 n cores rank ↔ b < n ∧ ∃ j, b = cores * j + rank := by
  simp only [share0, mem_share0From]
  constructor
  · rintro ⟨h, j, _, _, e⟩; exact ⟨h, j, e⟩
  · rintro ⟨h, j, e⟩
    exact ⟨h, j, by omega, by have := row_lt (a := rank) hc (show cores * j + rank < n by omega); omega, e⟩

/-- The arithmetic behind "exactly one rank". -/
theorem rank_unique {cores b r j r' j' : Nat} (h : b = cores * j + r) (h' : b = cores * j' + r')
    (hr : r < cores) (hr' : r' < cores) : r = r' := by
  have h1 : b % cores = r := by rw [h, Nat.mul_add_mod, Nat.mod_eq_of_lt hr]
  have h2 : b % cores = r' := by rw [h', Nat.mul_add_mod, Nat.mod_eq_of_lt hr']
  omega

theorem mem_dateShareFrom {start interval : Int} {nMaps cores : Nat} {rank : Int} {k i : Nat} {d : Int}
    (hint : 1 ≤ interval) :
    d ∈ dateShareFrom start interval nMaps cores rank k i ↔
      d ≤ start + (nMaps - 1) * interval ∧
      ∃ j : Nat, i ≤ j ∧ j < i + k ∧ d = start + (rank - 1 + j * cores) * interval := by
  induction k generalizing i with
  | zero => simp [dateShareFrom]; intros; omega
  | succ k ih =>
    simp only [dateShareFrom]
    by_cases h : start + (rank - 1 + i * cores) * interval > start + (nMaps - 1) * interval
    · simp only [h, if_true, List.not_mem_nil, false_iff, not_and, not_exists]
      intro hb j hj _ he
      have : (rank - 1 + i * cores) * interval ≤ (rank - 1 + j * cores) * interval := by
        apply Int.mul_le_mul_of_nonneg_right _ (by omega)
        have : (i : Int) * cores ≤ j * cores := Int.mul_le_mul_of_nonneg_right (by omega) (by omega)
        omega
      omega
    · simp only [h, if_false, List.mem_cons, ih]
      constructor
      · rintro (rfl | ⟨hb, j, h1, h2, h3⟩)
        · exact ⟨by omega, i, by omega, by omega, rfl⟩
        · exact ⟨hb, j, by omega, by omega, h3⟩
      · rintro ⟨hb, j, h1, h2, h3⟩
        rcases Nat.eq_or_lt_of_le h1 with rfl | h1
        · exact Or.inl h3
        · exact Or.inr ⟨hb, j, by omega, by omega, h3⟩

theorem nodup_dateShareFrom {start interval : Int} {nMaps cores : Nat} {rank : Int} {k i : Nat}
    (hc : 1 ≤ cores) (hint : 1 ≤ interval) : (dateShareFrom start interval nMaps cores rank k i).Nodup := by
  induction k generalizing i with
  | zero => simp [dateShareFrom]
  | succ k ih =>
    simp only [dateShareFrom]
    by_cases h : start + (rank - 1 + i * cores) * interval > start + (nMaps - 1) * interval
    · simp [h]
    · simp only [h, if_false, List.nodup_cons]
      refine ⟨?_, ih⟩
      rw [mem_dateShareFrom hint]
      rintro ⟨_, j, h1, _, h3⟩
      have h4 : (rank - 1 + i * cores) * interval = (rank - 1 + j * cores) * interval := by omega
      have h5 : rank - 1 + (i : Int) * cores = rank - 1 + j * cores :=
        Int.eq_of_mul_eq_mul_right (by omega) h4
      have : ((i + 1 : Nat) : Int) * cores ≤ j * cores := Int.mul_le_mul_of_nonneg_right (by omega) (by omega)
      have : ((i + 1 : Nat) : Int) * cores = i * cores + cores := by push_cast; ring
      omega

/-! ### Assembly -/

variable {V : Type}

/-- Stacking `n` blocks of equal shape side by side. -/
theorem hstack_spec (bw bh : Nat) (l : List (Grid V)) (hne : l ≠ [])
    (hshape : ∀ b ∈ l, b.rows = bh ∧ b.cols = bw) :
    ∃ g, hstack l = some g ∧ g.rows = bh ∧ g.cols = l.length * bw ∧
      ∀ r (k c : Nat) (b : Grid V), l[k]? = some b → c < bw → g.at_ r (k * bw + c) = b.at_ r c := by
  induction l with
  | nil => exact absurd rfl hne
  | cons a rest ih =>
    cases rest with
    | nil =>
      obtain ⟨h1, h2⟩ := hshape a (by simp)
      refine ⟨a, rfl, h1, by simpa using h2, ?_⟩
      intro r k c b hb hc
      cases k with
      | zero => simp at hb; subst hb; simp
      | succ k => simp at hb
    | cons a' rest' =>
      obtain ⟨g, g1, g2, g3, g4⟩ := ih (by simp) (fun b hb => hshape b (by simp [hb]))
      obtain ⟨h1, h2⟩ := hshape a (by simp)
      refine ⟨hcat a g, ?_, by simpa [hcat] using h1, ?_, ?_⟩
      · simp only [hstack, g1]; rw [if_pos (by omega)]
      · simp only [hcat, h2, g3, List.length_cons]; ring
      · intro r k c b hb hc
        simp only [hcat, h2]
        cases k with
        | zero => simp at hb; subst hb; simp [hc]
        | succ k =>
          have e : (k + 1) * bw + c = k * bw + c + bw := by ring
          rw [e, if_neg (by omega), Nat.add_sub_cancel]
          exact g4 r k c b (by simpa using hb) hc

theorem vstack_spec (w bh : Nat) (l : List (Grid V)) (hne : l ≠ [])
    (hshape : ∀ b ∈ l, b.rows = bh ∧ b.cols = w) :
    ∃ g, vstack l = some g ∧ g.rows = l.length * bh ∧ g.cols = w ∧
      ∀ c (k r : Nat) (b : Grid V), l[k]? = some b → r < bh → g.at_ (k * bh + r) c = b.at_ r c := by
  induction l with
  | nil => exact absurd rfl hne
  | cons a rest ih =>
    cases rest with
    | nil =>
      obtain ⟨h1, h2⟩ := hshape a (by simp)
      refine ⟨a, rfl, by simpa using h1, h2, ?_⟩
      intro c k r b hb hc
      cases k with
      | zero => simp at hb; subst hb; simp
      | succ k => simp at hb
    | cons a' rest' =>
      obtain ⟨g, g1, g2, g3, g4⟩ := ih (by simp) (fun b hb => hshape b (by simp [hb]))
      obtain ⟨h1, h2⟩ := hshape a (by simp)
      refine ⟨vcat a g, ?_, ?_, by simpa [vcat] using h2, ?_⟩
      · simp only [vstack, g1]; rw [if_pos (by omega)]
      · simp only [vcat, h1, g2, List.length_cons]; ring
      · intro c k r b hb hr
        simp only [vcat, h1]
        cases k with
        | zero => simp at hb; subst hb; simp [hr]
        | succ k =>
          have e : (k + 1) * bh + r = k * bh + r + bh := by ring
          rw [e, if_neg (by omega), Nat.add_sub_cancel]
          exact g4 c k r b (by simpa using hb) hr

/-- What `assemble_array` produces for any grid: `nbx` block rows of `nby` blocks each. -/
theorem assembleArray_spec (nbx nby bw bh : Nat) (hx : 1 ≤ nbx) (hy : 1 ≤ nby)
    (blocks : List (Grid V)) (hlen : blocks.length = nbx * nby)
    (hshape : ∀ b ∈ blocks, b.rows = bh ∧ b.cols = bw) :
    ∃ g, assembleArray blocks nbx = some g ∧ g.rows = nbx * bh ∧ g.cols = nby * bw ∧
      ∀ (i j r c : Nat) (b : Grid V), i < nbx → j < nby → r < bh → c < bw →
        blocks[i * nby + j]? = some b → g.at_ (i * bh + r) (j * bw + c) = b.at_ r c := by
  have hne : blocks ≠ [] := by
    intro h; rw [h] at hlen; simp at hlen
    rcases hlen with h | h <;> omega
  obtain ⟨f, f1, f2, f3, f4⟩ := hstack_spec bw bh blocks hne hshape
  have hcols : f.cols = nby * bw * nbx := by rw [f3, hlen]; ring
  have hdiv : f.cols / nbx = nby * bw := by rw [hcols, Nat.mul_div_cancel _ (by omega)]
  have hmod : f.cols % nbx = 0 := by rw [hcols, Nat.mul_mod_left]
  let parts : List (Grid V) := (List.range nbx).map (fun j =>
    { rows := f.rows, cols := f.cols / nbx, at_ := fun r c => f.at_ r (j * (f.cols / nbx) + c) })
  have hp : hsplit f nbx = some parts := by
    simp only [hsplit]; rw [if_neg (by omega)]
  have hplen : parts.length = nbx := by simp [parts]
  obtain ⟨g, g1, g2, g3, g4⟩ := vstack_spec (nby * bw) bh parts
    (by intro h; rw [h] at hplen; simp at hplen; omega)
    (by
      intro b hb
      simp only [parts, List.mem_map, List.mem_range] at hb
      obtain ⟨j, _, rfl⟩ := hb
      exact ⟨f2, hdiv⟩)
  refine ⟨g, ?_, by rw [g2, hplen], g3, ?_⟩
  · simp only [assembleArray, f1, hp, g1]
  · intro i j r c b hi hj hr hc hb
    have := g4 (j * bw + c) i r
      { rows := f.rows, cols := f.cols / nbx, at_ := fun r c => f.at_ r (i * (f.cols / nbx) + c) }
      (by simp [parts, hi]) hr
    rw [this]
    simp only [hdiv]
    have e : i * (nby * bw) + (j * bw + c) = (i * nby + j) * bw + c := by ring
    rw [e]
    exact f4 r _ c b hb hc

/-! ### Change-magnitude maps -/

/-- With as many block columns as rows and all files readable, the loop fills in every visited block and
leaves the rest alone. -/
theorem cmLoop_square (nb bw bh nCm count : Nat) (hnb : 1 ≤ nb) (files : Nat → Nat → Option (Nat → V))
    (file : Nat → Nat → Nat → V) (hfile : ∀ x y, 1 ≤ x → x ≤ nb → 1 ≤ y → y ≤ nb → files x y = some (file x y)) :
    ∀ (l : List Nat), (∀ b ∈ l, b < nb * nb) → ∀ (prev : Option (Nat → V)) (m : Grid V),
      m.rows = nb * bh → m.cols = nb * bw →
      ∃ g, cmLoop nb nb bw bh nCm count files l prev m = some g ∧ g.rows = nb * bh ∧ g.cols = nb * bw ∧
        ∀ i j r c, i < nb → j < nb → r < bh → c < bw →
          (i * nb + j ∈ l → g.at_ (i * bh + r) (j * bw + c) =
              file (j + 1) (i + 1) ((r * bw + c) * nCm + count)) ∧
          (i * nb + j ∉ l → g.at_ (i * bh + r) (j * bw + c) = m.at_ (i * bh + r) (j * bw + c)) := by
  intro l
  induction l with
  | nil =>
    intro _ prev m h1 h2
    exact ⟨m, rfl, h1, h2, by intros; simp⟩
  | cons b l ih =>
    intro hl prev m h1 h2
    have hb := hl b (by simp)
    have hq : b / nb < nb := Nat.div_lt_of_lt_mul hb
    have hm : b % nb < nb := Nat.mod_lt _ (by omega)
    have hbe : b = b / nb * nb + b % nb := by
      have := Nat.div_add_mod b nb; rw [Nat.mul_comm] at this; omega
    have hf : files (b % nb + 1) (b / nb + 1) = some (file (b % nb + 1) (b / nb + 1)) :=
      hfile _ _ (Nat.le_add_left _ _) hm (Nat.le_add_left _ _) hq
    simp only [cmLoop, Nat.add_sub_cancel, hf, Option.some_or]
    have hr : b / nb * bh + bh ≤ m.rows := by
      rw [h1]
      calc b / nb * bh + bh = (b / nb + 1) * bh := by ring
        _ ≤ nb * bh := Nat.mul_le_mul_right _ hq
    have hc : b % nb * bw + bw ≤ m.cols := by
      rw [h2]
      calc b % nb * bw + bw = (b % nb + 1) * bw := by ring
        _ ≤ nb * bw := Nat.mul_le_mul_right _ hm
    have hput : putBlock m (b / nb * bh) (b % nb * bw)
        (blockOfFile bw bh nCm count (file (b % nb + 1) (b / nb + 1))) = some
        { m with at_ := fun r c =>
          if (b / nb * bh ≤ r ∧ r < b / nb * bh + bh) ∧ (b % nb * bw ≤ c ∧ c < b % nb * bw + bw) then
            (blockOfFile bw bh nCm count (file (b % nb + 1) (b / nb + 1))).at_ (r - b / nb * bh) (c - b % nb * bw)
          else m.at_ r c } := by
      unfold putBlock
      exact if_pos ⟨hr, hc⟩
    rw [hput]
    obtain ⟨g, g1, g2, g3, g4⟩ := ih (fun x hx => hl x (by simp [hx]))
      (some (file (b % nb + 1) (b / nb + 1)))
      { m with at_ := fun r c =>
          if (b / nb * bh ≤ r ∧ r < b / nb * bh + bh) ∧ (b % nb * bw ≤ c ∧ c < b % nb * bw + bw) then
            (blockOfFile bw bh nCm count (file (b % nb + 1) (b / nb + 1))).at_ (r - b / nb * bh) (c - b % nb * bw)
          else m.at_ r c } h1 h2
    refine ⟨g, g1, g2, g3, ?_⟩
    intro i j r c hi hj hr' hc'
    obtain ⟨k1, k2⟩ := g4 i j r c hi hj hr' hc'
    by_cases hmem : i * nb + j ∈ l
    · exact ⟨fun _ => k1 hmem, fun hn => absurd (List.mem_cons_of_mem _ hmem) hn⟩
    · rw [k2 hmem]
      by_cases hbij : i * nb + j = b
      · have e1 : b / nb = i := by
          rw [← hbij, Nat.add_comm, Nat.add_mul_div_right _ _ (by omega), Nat.div_eq_of_lt hj]; omega
        have e2 : b % nb = j := by
          rw [← hbij, Nat.add_comm, Nat.add_mul_mod_self_right, Nat.mod_eq_of_lt hj]
        refine ⟨fun _ => ?_, fun hn => absurd (by simp [hbij]) hn⟩
        simp only [e1, e2, blockOfFile]
        rw [if_pos (by omega), Nat.add_sub_cancel_left, Nat.add_sub_cancel_left]
      · refine ⟨fun h => absurd h (by simp [hbij, hmem]), fun _ => ?_⟩
        simp only
        rw [if_neg]
        intro hcon
        apply hbij
        have hi' : i = b / nb := by
          rcases Nat.lt_trichotomy i (b / nb) with h | h | h
          · have : (i + 1) * bh ≤ b / nb * bh := Nat.mul_le_mul_right _ h
            have : (i + 1) * bh = i * bh + bh := by ring
            omega
          · exact h
          · have : (b / nb + 1) * bh ≤ i * bh := Nat.mul_le_mul_right _ h
            have : (b / nb + 1) * bh = b / nb * bh + bh := by ring
            omega
        have hj' : j = b % nb := by
          rcases Nat.lt_trichotomy j (b % nb) with h | h | h
          · have : (j + 1) * bw ≤ b % nb * bw := Nat.mul_le_mul_right _ h
            have : (j + 1) * bw = j * bw + bw := by ring
            omega
          · exact h
          · have : (b % nb + 1) * bw ≤ j * bw := Nat.mul_le_mul_right _ h
            have : (b % nb + 1) * bw = b % nb * bw + bw := by ring
            omega
        rw [hi', hj']; omega

theorem putBlock_shape {m b m' : Grid V} {r0 c0 : Nat} (h : putBlock m r0 c0 b = some m') :
    m'.rows = m.rows ∧ m'.cols = m.cols ∧ r0 + b.rows ≤ m.rows ∧ c0 + b.cols ≤ m.cols ∧
    ∀ r c, c0 + b.cols ≤ c → m'.at_ r c = m.at_ r c := by
  unfold putBlock at h
  split_ifs at h with hc
  cases h
  refine ⟨rfl, rfl, hc.1, hc.2, ?_⟩
  intro r c h
  simp only
  rw [if_neg (by omega)]

/-- A block column outside the tile makes the assembly fail. -/
theorem cmLoop_outside {nbx nby bw bh nCm count : Nat} {files : Nat → Nat → Option (Nat → V)} (hw : 1 ≤ bw)
    {l : List Nat} (hl : ∃ b ∈ l, nbx ≤ b % nby) {prev : Option (Nat → V)} {m : Grid V}
    (hm : m.cols = nbx * bw) : cmLoop nbx nby bw bh nCm count files l prev m = none := by
  induction l generalizing prev m with
  | nil => simp at hl
  | cons b l ih =>
    simp only [cmLoop]
    generalize ((files (b % nby + 1) (b / nbx + 1)).or prev) = cur
    cases cur with
    | none => rfl
    | some f =>
      simp only
      cases hp : putBlock m ((b / nbx + 1 - 1) * bh) ((b % nby + 1 - 1) * bw) (blockOfFile bw bh nCm count f) with
      | none => rfl
      | some m' =>
        obtain ⟨h1, h2, h3, h4, _⟩ := putBlock_shape hp
        simp only [Nat.add_sub_cancel, blockOfFile] at h4
        have hin : ¬ nbx ≤ b % nby := by
          intro hcon
          have : nbx * bw ≤ b % nby * bw := Nat.mul_le_mul_right _ hcon
          omega
        obtain ⟨x, hx, hx2⟩ := hl
        rcases List.mem_cons.1 hx with rfl | hx
        · exact absurd hx2 hin
        · exact ih ⟨x, hx, hx2⟩ (by rw [h2, hm])

/-- Columns from block column `nby` on are never written. -/
theorem cmLoop_untouched {nbx nby bw bh nCm count : Nat} {files : Nat → Nat → Option (Nat → V)} (hy : 1 ≤ nby)
    {l : List Nat} {prev : Option (Nat → V)} {m g : Grid V}
    (h : cmLoop nbx nby bw bh nCm count files l prev m = some g) :
    ∀ r c, nby * bw ≤ c → g.at_ r c = m.at_ r c := by
  induction l generalizing prev m with
  | nil => simp only [cmLoop, Option.some.injEq] at h; subst h; intros; rfl
  | cons b l ih =>
    simp only [cmLoop] at h
    generalize ((files (b % nby + 1) (b / nbx + 1)).or prev) = cur at h
    cases cur with
    | none => simp at h
    | some f =>
      simp only at h
      cases hp : putBlock m ((b / nbx + 1 - 1) * bh) ((b % nby + 1 - 1) * bw) (blockOfFile bw bh nCm count f) with
      | none => rw [hp] at h; simp at h
      | some m' =>
        rw [hp] at h
        intro r c hc
        rw [ih h r c hc]
        obtain ⟨_, _, _, _, h5⟩ := putBlock_shape hp
        apply h5
        simp only [Nat.add_sub_cancel, blockOfFile]
        have hlt := Nat.mod_lt b (show 0 < nby by omega)
        have : (b % nby + 1) * bw ≤ nby * bw := Nat.mul_le_mul_right _ hlt
        have : (b % nby + 1) * bw = b % nby * bw + bw := by ring
        omega

/-- An unreadable block is the same as a copy of the block before it. -/
theorem cmLoop_missing {nb bw bh nCm count : Nat} (_hnb : 1 ≤ nb) (k : Nat) (hk : 1 ≤ k)
    (files files' : Nat → Nat → Option (Nat → V))
    (hne : ∀ b, b ≠ k → files (b % nb + 1) (b / nb + 1) = files' (b % nb + 1) (b / nb + 1))
    (hmiss : files (k % nb + 1) (k / nb + 1) = none)
    (hprev : files' (k % nb + 1) (k / nb + 1) = files ((k - 1) % nb + 1) ((k - 1) / nb + 1) ∧
      (files ((k - 1) % nb + 1) ((k - 1) / nb + 1)).isSome) :
    ∀ n s prev m, (s = k → prev = files' (k % nb + 1) (k / nb + 1)) →
      cmLoop nb nb bw bh nCm count files (List.range' s n) prev m =
      cmLoop nb nb bw bh nCm count files' (List.range' s n) prev m := by
  intro n
  induction n with
  | zero => intros; rfl
  | succ n ih =>
    intro s prev m hs
    simp only [List.range'_succ, cmLoop]
    have hcur : ((files (s % nb + 1) (s / nb + 1)).or prev) =
        ((files' (s % nb + 1) (s / nb + 1)).or prev) := by
      by_cases h : s = k
      · subst h
        rw [hmiss, ← hs rfl]
        cases prev <;> rfl
      · rw [hne s h]
    rw [hcur]
    cases hc : ((files' (s % nb + 1) (s / nb + 1)).or prev) with
    | none => rfl
    | some f =>
      simp only
      cases putBlock m ((s / nb + 1 - 1) * bh) ((s % nb + 1 - 1) * bw) (blockOfFile bw bh nCm count f) with
      | none => rfl
      | some m' =>
        simp only
        apply ih
        intro hsk
        have e : s = k - 1 := by omega
        rw [hprev.1]
        obtain ⟨f', hf'⟩ := Option.isSome_iff_exists.1 hprev.2
        rw [← hne s (by omega), e, hf'] at hc
        rw [Option.some_or] at hc
        rw [hf', ← hc]

end Pycold.Tile
