import Verif.Model.Array2d
/-!
# Matrices as a program may think of them

A matrix has a name (its pointer), dimensions, an element size and a value for every cell that has been
assigned.  There is no memory here: cells of one matrix are independent of each other and of those of
other matrices.
-/
namespace Pycold.Array2d.Spec

open Array2d (Op Out)

structure Matrix where
  name : Nat
  rows : Nat
  columns : Nat
  size : Nat
  /-- `none`: not assigned yet -/
  cell : Nat → Nat → Option (List UInt8)

/-- The memory that a matrix occupies: it begins 32 bytes before the pointer. -/
def Matrix.extent (a : Matrix) : Nat × Nat := (a.name - 32, 32 + a.rows * 8 + a.rows * a.columns * a.size + 16)

/-- Two pieces of memory (address and size) have no byte in common. -/
def Apart (x y : Nat × Nat) : Prop := x.1 + x.2 ≤ y.1 ∨ y.1 + y.2 ≤ x.1

/-- What `malloc` promises about a new block, given the blocks in use. -/
def Fresh (used : List (Nat × Nat)) (new : Nat × Nat) : Prop :=
  0 < new.1 ∧ new.1 + new.2 ≤ 2 ^ 64 ∧ ∀ x ∈ used, Apart new x

/-- The operation respects the rules: `foreign` are the blocks allocated by other parts of the program.
An allocation has sizes that fit (`int` for the number of elements, `size_t` for the bytes) and `malloc`
keeps its promise; elements are accessed within the dimensions, with the right type; a freed pointer is
`NULL` or that of a live matrix. -/
def Legal (foreign : List (Nat × Nat)) (A : List Matrix) : Op → Prop
  | .alloc rows columns size base =>
    rows + 1 < 2 ^ 31 ∧ rows * columns < 2 ^ 31 ∧ 32 + rows * 8 + rows * columns * size + 16 < 2 ^ 64 ∧ 0 < size ∧
      ∀ b, base = some b → Fresh (A.map Matrix.extent ++ foreign) (b, 32 + rows * 8 + rows * columns * size + 16)
  | .write p r c v => ∃ a ∈ A, a.name = p ∧ r < a.rows ∧ c < a.columns ∧ v.length = a.size
  | .read p r c size => ∃ a ∈ A, a.name = p ∧ r < a.rows ∧ c < a.columns ∧ size = a.size
  | .free p => p = 0 ∨ ∃ a ∈ A, a.name = p

/-- The effect of an operation on the matrices. -/
def apply (A : List Matrix) : Op → List Matrix
  | .alloc _ _ _ none => A
  | .alloc rows columns size (some b) => ⟨b + 32, rows, columns, size, fun _ _ => none⟩ :: A
  | .write p r c v => A.map fun a =>
    if a.name = p then { a with cell := fun i j => if i = r ∧ j = c then some v else a.cell i j } else a
  | .read .. => A
  | .free p => A.eraseP fun a => decide (a.name = p)

/-- The answer that the program may expect (a cell not yet assigned has any value). -/
def Answer (A : List Matrix) : Op → Out → Prop
  | .alloc _ _ _ none, o => o = .pointer 0
  | .alloc _ _ _ (some b), o => o = .pointer (b + 32)
  | .write .., o => o = .written
  | .read p r c size, o => ∃ v, o = .value v ∧ v.length = size ∧
      ∀ a ∈ A, a.name = p → ∀ w, a.cell r c = some w → v = w
  | .free _, o => o = .status true

/-- All operations respect the rules, in the order in which they come. -/
def AllLegal (foreign : List (Nat × Nat)) : List Matrix → List Op → Prop
  | _, [] => True
  | A, o :: os => Legal foreign A o ∧ AllLegal foreign (apply A o) os

/-- The answers of a whole program. -/
def Answers : List Matrix → List Op → List Out → Prop
  | _, [], xs => xs = []
  | A, o :: os, xs => ∃ x ys, xs = x :: ys ∧ Answer A o x ∧ Answers (apply A o) os ys

/-- The matrices left at the end. -/
def final : List Matrix → List Op → List Matrix
  | A, [] => A
  | A, o :: os => final (apply A o) os

end Pycold.Array2d.Spec
