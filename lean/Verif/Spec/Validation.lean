import Verif.Model.Validation
/-!
# What the public functions are documented to accept
-/
namespace Pycold.Validation.Spec

/-- `v` is the integer `n` (Python's `True` and `False` are the integers 1 and 0). -/
def IsInt (v : PyVal) (n : Int) : Prop := v = .int n ∨ ∃ b, v = .bool b ∧ n = if b then 1 else 0

/-- `v` is the finite number `x`: a float, or an integer that numpy can hold (64 bits). -/
def IsReal (v : PyVal) (x : ℚ) : Prop :=
  v = .float (.fin x) ∨ ∃ n : Int, IsInt v n ∧ x = n ∧ -2 ^ 63 ≤ n ∧ n < 2 ^ 64

/-- `v` is given as a switch: a Python or numpy boolean, or an integer; `b` is its truth value. -/
def IsSwitch (v : PyVal) (b : Bool) : Prop :=
  v = .bool b ∨ v = .npBool b ∨ ∃ n, v = .int n ∧ b = decide (n ≠ 0)

/-- All nine arrays are one-dimensional with `n` entries. -/
def Vectors (d : Data) (n : Nat) : Prop :=
  d.dates = .nd [n] ∧ d.tsB = .nd [n] ∧ d.tsG = .nd [n] ∧ d.tsR = .nd [n] ∧ d.tsN = .nd [n] ∧ d.tsS1 = .nd [n] ∧
    d.tsS2 = .nd [n] ∧ d.tsT = .nd [n] ∧ d.qas = .nd [n]

/-- The number `x` lies in the interval. -/
def Inside (I : Interval) (x : ℚ) : Prop :=
  (∀ l, I.left = some l → (if I.closed = .left ∨ I.closed = .both then l ≤ x else l < x)) ∧
  (∀ r, I.right = some r → (if I.closed = .right ∨ I.closed = .both then x ≤ r else x < r))

/-- The documented range of each parameter by name (colds.py 15–31 and the docstrings); a parameter that
is not listed has none. -/
def Acceptable (p : String) (v : PyVal) : Prop :=
  if p = "t_cg" ∨ p = "gate_tcg" ∨ p = "predictability_tcg" ∨ p = "t_cg_scale100" then ∃ x, IsReal v x ∧ 0 < x
  else if p = "gap_days" then ∃ x, IsReal v x ∧ 0 ≤ x
  else if p = "t_cg_singleband_scale1000" then ∃ x, IsReal v x
  else if p = "pos" then ∃ n, IsInt v n ∧ 0 < n ∧ n < 2 ^ 64
  else if p = "starting_date" ∨ p = "n_cm" then ∃ n, IsInt v n ∧ 0 ≤ n ∧ n < 2 ^ 64
  else if p = "conse" then ∃ n, IsInt v n ∧ 0 < n ∧ n < 12
  else if p = "dist_conse" then ∃ n, IsInt v n ∧ 0 < n ∧ n ≤ 6
  else if p = "t_angle_scale100" then ∃ n, IsInt v n ∧ 0 < n ∧ n < 18000
  else if p = "b_output_cm" ∨ p = "b_pinpoint" ∨ p = "transform_mode" then ∃ b, IsSwitch v b
  else True

end Pycold.Validation.Spec
