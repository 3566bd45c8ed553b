import Mathlib.Algebra.Order.Ring.Rat
import Mathlib.Data.List.Dedup
/-!
# Parameter and data validation of the public functions
(`src/python/pycold/_param_validation.py`, `src/python/pycold/colds.py`, and the argument conversions of
`src/python/pycold/_colds_cython.pyx`)

Python values are modelled as far as validation looks at them.  Not modelled: `fractions.Fraction` and
user-defined numeric types; `astype` failing on the contents of an array; rounding of large integers to
`double`; the text of messages except the name of the parameter.
-/
namespace Pycold.Validation

/-- A floating-point number; finite ones are rational. -/
inductive Fl where
  | nan
  | ninf
  | fin (q : ℚ)
  | pinf
deriving DecidableEq

/-- A Python value.  `int` covers numpy integers, `float` numpy floats.  `other`: anything that is neither
number nor boolean; its truth value, or `none` if asking for it raises. -/
inductive PyVal where
  | int (n : Int)
  | bool (b : Bool)
  | npBool (b : Bool)
  | float (x : Fl)
  | other (truth : Option Bool)
deriving DecidableEq

/-- Exceptions; `value p` is the `ValueError` naming parameter `p`. -/
inductive Exc where
  | value (param : String)
  | length
  | ndim
  | type
  | attribute
  | overflow
  | index
  | runtime
deriving DecidableEq

/-- `numbers.Integral`, `numbers.Real`. -/
inductive Ty where
  | integral
  | real

/-- `isinstance(val, Integral)`, `isinstance(val, Real)`: `bool` is a subclass of `int`, `numpy.bool_` is
not. -/
def isInstance : Ty → PyVal → Bool
  | _, .int _ => true
  | _, .bool _ => true
  | .real, .float _ => true
  | _, _ => false

/-- The numeric value. -/
def num : PyVal → Fl
  | .int n => .fin n
  | .bool b => .fin (if b then 1 else 0)
  | .npBool b => .fin (if b then 1 else 0)
  | .float x => x
  | .other _ => .nan

/-- `np.isnan(val)`: integers that fit no numpy integer type raise `TypeError`. -/
def isnan : PyVal → Except Exc Bool
  | .int n => if -2 ^ 63 ≤ n ∧ n < 2 ^ 64 then .ok false else .error .type
  | .bool _ => .ok false
  | .npBool _ => .ok false
  | .float .nan => .ok true
  | .float _ => .ok false
  | .other _ => .error .type

/-- `a < b`, `a <= b` for floats. -/
def flt : Fl → Fl → Bool
  | .nan, _ => false
  | _, .nan => false
  | .ninf, .ninf => false
  | .ninf, _ => true
  | .fin _, .ninf => false
  | .fin a, .fin b => decide (a < b)
  | .fin _, .pinf => true
  | .pinf, _ => false

def fle : Fl → Fl → Bool
  | .nan, _ => false
  | _, .nan => false
  | .ninf, _ => true
  | .fin _, .ninf => false
  | .fin a, .fin b => decide (a ≤ b)
  | .fin _, .pinf => true
  | .pinf, .pinf => true
  | .pinf, _ => false

/-- `closed`. -/
inductive Closed where
  | left
  | right
  | both
  | neither
deriving DecidableEq

/-- `Interval`, `_param_validation.py` 328–370. -/
structure Interval where
  type : Ty
  left : Option ℚ
  right : Option ℚ
  closed : Closed

/-- `Interval.__contains__`, 394–408. -/
def Interval.contains (I : Interval) (val : PyVal) : Except Exc Bool := do
  if ← isnan val then .ok false
  else
    let leftCmp := if I.closed = .left ∨ I.closed = .both then flt else fle
    let rightCmp := if I.closed = .right ∨ I.closed = .both then flt else fle
    let left := match I.left with | none => Fl.ninf | some q => .fin q
    let right := match I.right with | none => Fl.pinf | some q => .fin q
    if leftCmp (num val) left then .ok false
    else if rightCmp right (num val) then .ok false
    else .ok true

/-- A constraint used in `colds.py`. -/
inductive Constraint where
  | interval (I : Interval)
  | boolean

/-- `Interval.is_satisfied_by`, 410–414; `_Booleans.is_satisfied_by`, 486–495 (`bool`, `np.bool_`,
`Integral`). -/
def Constraint.satisfied : Constraint → PyVal → Except Exc Bool
  | .interval I, val => if isInstance I.type val then I.contains val else .ok false
  | .boolean, .npBool _ => .ok true
  | .boolean, val => .ok (isInstance .integral val)

/-- `_parameter_constraints`, `colds.py` 15–31. -/
def table : List (String × List Constraint) :=
  [("t_cg", [.interval ⟨.real, some 0, none, .neither⟩]),
   ("pos", [.interval ⟨.integral, some 0, none, .neither⟩]),
   ("starting_date", [.interval ⟨.integral, some 0, none, .left⟩]),
   ("n_cm", [.interval ⟨.integral, some 0, none, .left⟩]),
   ("conse", [.interval ⟨.integral, some 0, some 12, .neither⟩]),
   ("b_output_cm", [.boolean]),
   ("gap_days", [.interval ⟨.real, some 0, none, .left⟩]),
   ("b_pinpoint", [.boolean]),
   ("gate_tcg", [.interval ⟨.real, some 0, none, .neither⟩]),
   ("predictability_tcg", [.interval ⟨.real, some 0, none, .neither⟩]),
   ("dist_conse", [.interval ⟨.integral, some 0, some 6, .right⟩]),
   ("t_cg_scale100", [.interval ⟨.real, some 0, none, .neither⟩]),
   ("t_cg_singleband_scale1000", [.interval ⟨.real, none, none, .neither⟩]),
   ("t_angle_scale100", [.interval ⟨.integral, some 0, some 18000, .neither⟩]),
   ("transform_mode", [.boolean])]

/-- The inner loop 76–100: the first satisfied constraint ends it. -/
def anySatisfied (val : PyVal) : List Constraint → Except Exc Bool
  | [] => .ok false
  | c :: cs => do if ← c.satisfied val then .ok true else anySatisfied val cs

/-- `validate_parameter_constraints`, 62–100: parameters without a constraint are skipped. -/
def validate : List (String × PyVal) → Except Exc Unit
  | [] => .ok ()
  | (name, val) :: rest =>
    match table.lookup name with
    | none => validate rest
    | some cs => do if ← anySatisfied val cs then validate rest else .error (.value name)

/-! ## Data -/

/-- An array argument. -/
inductive Arr where
  /-- `None` -/
  | missing
  /-- a list or tuple -/
  | seq (n : Nat)
  /-- a numpy array of the given shape -/
  | nd (shape : List Nat)
deriving DecidableEq

/-- `_num_samples`, 604–620. -/
def numSamples : Arr → Except Exc Nat
  | .missing => .error .type
  | .seq n => .ok n
  | .nd [] => .error .type
  | .nd (n :: _) => .ok n

/-- `check_consistent_length`, 623–637: arrays that are `None` are left out. -/
def consistent (as : List Arr) : Except Exc Unit := do
  let ls ← (as.filter (· ≠ .missing)).mapM numSamples
  if (ls.dedup).length > 1 then .error .length else .ok ()

/-- `check_1d`, 640–653. -/
def check1d : Arr → Except Exc Unit
  | .nd s => if s.length = 1 then .ok () else .error .ndim
  | _ => .error .attribute

/-- `ts_t.astype(...)`: attribute of arrays only. -/
def astype : Arr → Except Exc Unit
  | .nd _ => .ok ()
  | _ => .error .attribute

/-- The nine arrays of every detecting function. -/
structure Data where
  dates : Arr
  tsB : Arr
  tsG : Arr
  tsR : Arr
  tsN : Arr
  tsS1 : Arr
  tsS2 : Arr
  tsT : Arr
  qas : Arr

/-- `_validate_data`, `colds.py` 56–99; `ts_t` is not given to `check_1d`. -/
def validateData (d : Data) (breaks : Option Arr) : Except Exc Unit := do
  consistent [d.dates, d.tsB, d.tsG, d.tsR, d.tsN, d.tsS1, d.tsS2, d.tsT, d.qas]
  check1d d.dates
  check1d d.tsB
  check1d d.tsG
  check1d d.tsR
  check1d d.tsN
  check1d d.tsS1
  check1d d.tsS2
  check1d d.qas
  match breaks with
  | none => .ok ()
  | some .missing => .ok ()
  | some b => check1d b
  astype d.tsT

/-! ## Entering the compiled functions -/

/-- What Cython does with values it is not made for (depends on its version). -/
structure Cy where
  toInt : PyVal → Except Exc Int
  toDouble : PyVal → Except Exc Fl

/-- A `double` argument. -/
def asDouble (cy : Cy) : PyVal → Except Exc Fl
  | .int n => .ok (.fin n)
  | .bool b => .ok (.fin (if b then 1 else 0))
  | .float x => .ok x
  | v => cy.toDouble v

/-- An `int` argument: 32 bits. -/
def asInt (cy : Cy) : PyVal → Except Exc Int
  | .int n => if -2 ^ 31 ≤ n ∧ n < 2 ^ 31 then .ok n else .error .overflow
  | .bool b => .ok (if b then 1 else 0)
  | v => cy.toInt v

/-- A `bint` argument: the truth value. -/
def asBint : PyVal → Except Exc Bool
  | .int n => .ok (decide (n ≠ 0))
  | .bool b => .ok b
  | .npBool b => .ok b
  | .float (.fin q) => .ok (decide (q ≠ 0))
  | .float _ => .ok true
  | .other (some b) => .ok b
  | .other none => .error .type

/-- An `np.ndarray[np.int64_t, ndim=1, mode='c']` argument. -/
def asVector : Arr → Except Exc Nat
  | .nd [n] => .ok n
  | .nd _ => .error .ndim
  | .missing => .error .attribute
  | .seq _ => .error .type

/-- The nine vectors; `&view[0]` of an empty one raises `IndexError`. -/
def asVectors (d : Data) : Except Exc Nat := do
  let _ ← asVector d.dates
  let _ ← asVector d.tsB
  let _ ← asVector d.tsG
  let _ ← asVector d.tsR
  let _ ← asVector d.tsN
  let _ ← asVector d.tsS1
  let _ ← asVector d.tsS2
  let _ ← asVector d.tsT
  asVector d.qas

/-- The parameters of `cold_detect`, `colds.py` 167–186. -/
structure ColdArgs where
  tCg : PyVal
  pos : PyVal
  conse : PyVal
  bOutputCm : PyVal
  startingDate : PyVal
  nCm : PyVal
  cmOutputInterval : PyVal
  bC2 : PyVal
  gapDays : PyVal

/-- What `_cold_detect` works with. -/
structure ColdC where
  n : Nat
  tCg : Fl
  pos : Int
  conse : Int
  bOutputCm : Bool
  startingDate : Int
  nCm : Int
  cmOutputInterval : Int
  bC2 : Bool
  gapDays : Fl

/-- `cold_detect`, `colds.py` 223–260, up to the first use of the data in `_cold_detect`
(`_colds_cython.pyx` 134–140, 205). -/
def coldDetect (cy : Cy) (a : ColdArgs) (d : Data) : Except Exc ColdC := do
  validate [("t_cg", a.tCg), ("pos", a.pos), ("conse", a.conse), ("b_output_cm", a.bOutputCm),
    ("starting_date", a.startingDate), ("n_cm", a.nCm), ("cm_output_interval", a.cmOutputInterval),
    ("b_c2", a.bC2), ("gap_days", a.gapDays)]
  validateData d none
  let tCg ← asDouble cy a.tCg
  let pos ← asInt cy a.pos
  let conse ← asInt cy a.conse
  let bOutputCm ← asBint a.bOutputCm
  let startingDate ← asInt cy a.startingDate
  let nCm ← asInt cy a.nCm
  let cmOutputInterval ← asInt cy a.cmOutputInterval
  let bC2 ← asBint a.bC2
  let gapDays ← asDouble cy a.gapDays
  let n ← asVectors d
  if n = 0 then .error .index
  else .ok ⟨n, tCg, pos, conse, bOutputCm, startingDate, nCm, cmOutputInterval, bC2, gapDays⟩

/-- What `_obcold_reconstruct` works with. -/
structure ObcoldC where
  n : Nat
  breaks : Nat
  pos : Int
  conse : Int
  bC2 : Bool

/-- `obcold_reconstruct`, `colds.py` 288–295, up to the call at `_colds_cython.pyx` 275.  If `break_dates`
is `None`, `_validate_data` returns nine values and unpacking ten raises `ValueError`. -/
def obcoldReconstruct (cy : Cy) (pos conse bC2 : PyVal) (d : Data) (breaks : Arr) : Except Exc ObcoldC := do
  validate [("pos", pos), ("conse", conse), ("b_c2", bC2)]
  validateData d (some breaks)
  if breaks = .missing then .error .length
  else
    let p ← asInt cy pos
    let c ← asInt cy conse
    let b ← asBint bC2
    let n ← asVectors d
    let m ← asVector breaks
    if n = 0 ∨ m = 0 then .error .index else .ok ⟨n, m, p, c, b⟩

/-- What `_sccd_detect` works with. -/
structure SccdC where
  n : Nat
  tCg : Fl
  pos : Int
  conse : Int
  bC2 : Bool
  bPinpoint : PyVal
  gate : Fl
  predictability : Fl

/-- The parameters of `sccd_detect`, `colds.py` 298–315. -/
structure SccdArgs where
  tCg : PyVal
  pos : PyVal
  conse : PyVal
  bC2 : PyVal
  bPinpoint : PyVal
  gateTcg : PyVal
  bMonitorInit : PyVal

/-- `sccd_detect`, `colds.py` 349–385, and `_colds_cython.pyx` 287–297, 329–342: the value of
`b_monitor_init` is passed in the place of `predictability_tcg`.  `b_pinpoint` is an untyped argument. -/
def sccdDetect (cy : Cy) (a : SccdArgs) (d : Data) : Except Exc SccdC := do
  validate [("t_cg", a.tCg), ("pos", a.pos), ("conse", a.conse), ("b_c2", a.bC2), ("b_pinpoint", a.bPinpoint),
    ("gate_tcg", a.gateTcg), ("b_monitor_init", a.bMonitorInit)]
  validateData d none
  let tCg ← asDouble cy a.tCg
  let pos ← asInt cy a.pos
  let conse ← asInt cy a.conse
  let bC2 ← asBint a.bC2
  let gate ← asDouble cy a.gateTcg
  let pred ← asDouble cy a.bMonitorInit
  let n ← asVectors d
  if conse > 8 then .error .runtime
  else if n = 0 then .error .index
  else .ok ⟨n, tCg, pos, conse, bC2, a.bPinpoint, gate, pred⟩

/-- The parameters of `sccd_update`, `colds.py` 388–405. -/
structure UpdateArgs where
  tCg : PyVal
  pos : PyVal
  conse : PyVal
  bC2 : PyVal
  gateTcg : PyVal
  predictabilityTcg : PyVal

/-- `sccd_update`, `colds.py` 439–471, and `_colds_cython.pyx` 415–426 (the pack is not validated). -/
def sccdUpdate (cy : Cy) (a : UpdateArgs) (d : Data) : Except Exc SccdC := do
  validate [("t_cg", a.tCg), ("pos", a.pos), ("conse", a.conse), ("b_c2", a.bC2), ("b_pinpoint", .bool false),
    ("gate_tcg", a.gateTcg), ("predictability_tcg", a.predictabilityTcg)]
  validateData d none
  let tCg ← asDouble cy a.tCg
  let pos ← asInt cy a.pos
  let conse ← asInt cy a.conse
  let bC2 ← asBint a.bC2
  let gate ← asDouble cy a.gateTcg
  let pred ← asDouble cy a.predictabilityTcg
  let n ← asVectors d
  if n = 0 then .error .index
  else .ok ⟨n, tCg, pos, conse, bC2, .bool false, gate, pred⟩

/-- `sccd_identify`, `colds.py` 498–505: only its parameters. -/
def sccdIdentify (distConse tCg tCgSingle tAngle transformMode : PyVal) : Except Exc Unit :=
  validate [("dist_conse", distConse), ("t_cg_scale100", tCg), ("t_cg_singleband_scale1000", tCgSingle),
    ("t_angle_scale100", tAngle), ("transform_mode", transformMode)]

end Pycold.Validation
