import Verif.Proof.Array2d
/-!
# C43: two-dimensional arrays do not overlap
-/
namespace Pycold.Array2d

open Spec

/-- A program that allocates, writes, reads and frees two-dimensional arrays of any number and sizes, in
any order, sees independent matrices: no access is undefined, a cell holds what was last assigned to it,
`free_2d_array` succeeds for every array; the memory of other parts of the program keeps its contents, and
in the end exactly the arrays that were not freed are still allocated. -/
theorem C43_matrices (m : Mem) (hm : m.live.Pairwise Apart) (os : List Op) (hl : AllLegal m.live [] os) :
    ∃ xs m', run m os = some (xs, m') ∧ Answers [] os xs ∧
      (∀ B ∈ m.live, ∀ x, B.1 ≤ x → x < B.1 + B.2 → m'.byte x = m.byte x) ∧
      m'.live = (final [] os).map Matrix.extent ++ m.live := by
  obtain ⟨xs, m', h1, h2, h3⟩ := run_ok os (m := m) (A := []) (F := m.live) (m0 := m)
    ⟨rfl, hm, by simp, fun _ _ _ _ _ => rfl⟩ hl
  exact ⟨xs, m', h1, h2, h3.foreign, h3.live⟩

/-- One allocation: `a[r][c]` is an address inside the block, behind the header and the row table, and the
`size` bytes of different cells do not overlap. -/
theorem C43_cells (m : Mem) (hm : m.live.Pairwise Apart) (rows columns size b : Nat)
    (hl : Legal m.live [] (.alloc rows columns size (some b))) :
    ∃ (m' : Mem) (at' : Nat → Nat → Nat), allocate m (some b) rows columns size = some (b + 32, m') ∧
      (∀ r < rows, ∀ c < columns, address m' (b + 32) r c size = some (at' r c) ∧
        b + 32 + 8 * rows ≤ at' r c ∧ at' r c + size ≤ b + (32 + rows * 8 + rows * columns * size + 16)) ∧
      (∀ r < rows, ∀ c < columns, ∀ r' < rows, ∀ c' < columns, ¬ (r = r' ∧ c = c') →
        Apart (at' r c, size) (at' r' c', size)) := by
  obtain ⟨p, m', h1, h2, h3⟩ := step_alloc (m := m) (A := []) (F := m.live) (m0 := m)
    ⟨rfl, hm, by simp, fun _ _ _ _ _ => rfl⟩ hl
  obtain ⟨rfl⟩ : Out.pointer p = .pointer (b + 32) := h3
  let a : Matrix := ⟨b + 32, rows, columns, size, fun _ _ => none⟩
  have ha : a ∈ apply [] (.alloc rows columns size (some b)) := List.mem_cons_self
  refine ⟨m', fun r c => data a + (r * columns + c) * size, h1, ?_, ?_⟩
  · intro r hr c hc
    have hbd := cell_bounds (a := a) hr hc
    refine ⟨address_eq h2 ha hr hc, ?_⟩
    simp only [data, a] at hbd ⊢
    omega
  · intro r hr c hc r' hr' c' hc' hne
    have := cells_apart (size := size) hc hc' hne
    simp only [Apart]
    omega

/-- `free_2d_array` never releases anything but an allocated block that begins with the signature, and
reports failure, changing nothing, when the signature is not there. -/
theorem C43_free_checks (m m' : Mem) (p : Nat) (s : Bool) (h : free m p = some (s, m')) :
    (p = 0 ∧ s = true ∧ m' = m) ∨
    (p ≠ 0 ∧ ∃ v, m.load (p - 32) 4 = some v ∧
      ((s = false ∧ m' = m ∧ decode v ≠ signature) ∨
       (s = true ∧ decode v = signature ∧ ∃ n, (p - 32, n) ∈ m.live ∧ m'.byte = m.byte ∧
         m'.live = m.live.eraseP fun B => decide (B.1 = p - 32)))) := by
  unfold free at h
  by_cases hp : p = 0
  · rw [if_pos hp] at h
    cases h
    exact .inl ⟨hp, rfl, rfl⟩
  · rw [if_neg hp] at h
    right
    refine ⟨hp, ?_⟩
    cases hv : m.load (p - 32) 4 with
    | none => rw [hv] at h; cases h
    | some v =>
      rw [hv] at h
      refine ⟨v, rfl, ?_⟩
      simp only [bind, Option.bind] at h
      by_cases hs : decode v = signature
      · rw [if_neg (by simpa using hs)] at h
        right
        unfold release at h
        by_cases ha : (m.live.any fun B => decide (B.1 = p - 32)) = true
        · rw [if_pos ha] at h
          cases h
          rw [List.any_eq_true] at ha
          obtain ⟨⟨q, n⟩, hB, hq⟩ := ha
          simp only [decide_eq_true_eq] at hq
          subst hq
          exact ⟨rfl, hs, n, hB, rfl, rfl⟩
        · rw [if_neg ha] at h; cases h
      · rw [if_pos hs] at h
        cases h
        exact .inl ⟨rfl, rfl, hs⟩

/-- A number of elements that is not an `int` is undefined behaviour, before anything is allocated. -/
theorem C43_int_overflow (m : Mem) (base : Option Nat) (rows columns size : Nat) (h : 2 ^ 31 ≤ rows * columns) :
    allocate m base rows columns size = none := by
  unfold allocate; rw [if_pos h]

/-- The number of bytes is not checked either: it wraps around.  Here it becomes 0, and the header is
written outside the block. -/
theorem C43_size_wraps (m : Mem) (hm : m.live = []) : allocate m (some 4096) 1 1 (2 ^ 64 - 56) = none := by
  unfold allocate
  rw [if_neg (by norm_num)]
  have : blockSize 1 1 (2 ^ 64 - 56) = 0 := by decide
  simp only [this, hm, Mem.store, Mem.ok]
  rw [if_neg (by simp [encode_length])]
  rfl

/-- The signature is the only check: a block of 32 bytes that someone else allocated and that happens to
begin with it is freed as well. -/
theorem C43_free_foreign : ∃ (m m' : Mem), m.live = [(4096, 32)] ∧ free m (4096 + 32) = some (true, m') ∧ m'.live = [] :=
  ⟨⟨fun x => (encode 4 signature).getD (x - 4096) 0, [(4096, 32)]⟩, _, rfl, rfl, rfl⟩

/-- Seven bands of 300 floats and six of 8 doubles, side by side: a value written to one is read back,
the other one is not affected; both are freed. -/
def demo : List Op :=
  [.alloc 7 300 4 (some 4096), .alloc 6 8 8 (some 65536), .write 4128 6 299 [1, 2, 3, 4],
   .write 65568 0 0 [9, 9, 9, 9, 9, 9, 9, 9], .read 4128 6 299 4, .free 4128, .read 65568 0 0 8, .free 65568]

example : AllLegal [] [] demo := by
  refine ⟨⟨by norm_num, by norm_num, by norm_num, by norm_num, ?_⟩, ⟨by norm_num, by norm_num, by norm_num, by norm_num, ?_⟩,
    ?_, ?_, ?_, ?_, ?_, ?_, trivial⟩
  · rintro b ⟨⟩; exact ⟨by norm_num, by norm_num, by simp⟩
  · rintro b ⟨⟩; exact ⟨by norm_num, by norm_num, by simp [apply, Apart, Matrix.extent]⟩
  · exact ⟨_, by simp [apply]; right; rfl, rfl, by norm_num, by norm_num, rfl⟩
  · exact ⟨_, by simp [apply]; left; rfl, rfl, by norm_num, by norm_num, rfl⟩
  · exact ⟨_, by simp [apply]; right; rfl, rfl, by norm_num, by norm_num, rfl⟩
  · exact .inr ⟨_, by simp [apply]; right; rfl, rfl⟩
  · exact ⟨_, by simp [apply]; rfl, rfl, by norm_num, by norm_num, rfl⟩
  · exact .inr ⟨_, by simp [apply]; rfl, rfl⟩

/-- and that is what the model computes -/
example : (run ⟨fun _ => 0, []⟩ demo).map Prod.fst = some [.pointer 4128, .pointer 65568, .written, .written,
    .value [1, 2, 3, 4], .status true, .value [9, 9, 9, 9, 9, 9, 9, 9], .status true] := by decide +kernel

end Pycold.Array2d
