import Verif.Model.Pack
import Mathlib.Data.List.Forall2
/-!
# Packs as `sccd_detect` and `sccd_update` return them (C88, C89)
-/
namespace Pycold.Pack.Spec
variable {F : Type} (single : F → F)

/-- A number that an element of this type holds; `single x = x`: `x` is in single precision. -/
def Fits : Kind → Num F → Prop
  | .short, .int n => -32768 ≤ n ∧ n ≤ 32767
  | .int32, .int n => -2147483648 ≤ n ∧ n ≤ 2147483647
  | .uint32, .int n => 0 ≤ n ∧ n ≤ 4294967295
  | .ubyte, .int n => 0 ≤ n ∧ n ≤ 255
  | .float32, .flt x => single x = x
  | _, _ => False

/-- Records of the type `dt`. -/
def Typed (dt : List Field) (rows : List (Row F)) : Prop :=
  ∀ row ∈ rows, List.Forall₂ (fun f c => c.shape = f.shape ∧ ∀ v ∈ c.data, Fits single f.kind v) dt row

/-- A pack as returned: the records or an empty array, a model or an empty array, the queue or an empty array. -/
structure Returned (p : Pack F) : Prop where
  recs : p.rec_cg = .void ∨ ∃ rows, rows ≠ [] ∧ p.rec_cg = .records sccd_dt rows ∧ Typed single sccd_dt rows
  model : p.nrt_model = .void ∨ ∃ row, p.nrt_model = .records nrtmodel_dt [row] ∧ Typed single nrtmodel_dt [row]
  queue : p.nrt_queue = .void ∨ ∃ rows, p.nrt_queue = .records nrtqueue_dt rows ∧ Typed single nrtqueue_dt rows

/-- The pack has a model. -/
def HasModel (p : Pack F) : Prop := p.nrt_model ≠ .void

end Pycold.Pack.Spec
