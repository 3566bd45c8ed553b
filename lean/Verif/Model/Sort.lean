/-!
# The quicksort helpers

`partition*`/`quick_sort*` of `src/cxx/utilities.c` (108–261, 283–654) and `src/cxx/misc.c` (465–690).
All of them are the same Hoare partition on a key array; they differ in the companion arrays that are
swapped along, and `quick_sort_index` in the start of its second recursive call.

Arrays are functions on indices together with an allocated length `n`; every access is checked against
`0 .. n-1`.  `K` is the key type with an arbitrary Boolean `<` (`int`, `long`, `float`, `double`; for
floats the relation need not be an order, so NaN is covered).  Recursion and the `while (i <= j)` loop
carry a bound, whose exhaustion is the distinct outcome `fuel`.
-/
namespace Pycold.Sort

inductive Err where
  /-- access outside the array -/
  | oob
  /-- the bound on iterations was exhausted -/
  | fuel
deriving DecidableEq, Repr

/-- A key array with `nb` companion arrays: none for `quick_sort_int/float/double/long`, one (`index`)
for `quick_sort_index`, two (`brr` strings, `crr`) for `quick_sort`, `band_num` for
`quick_sort_2d_float/double`, `TOTAL_IMAGE_BANDS + 1 (+ 1)` for `quick_sort_buf(_sensor)`. -/
structure Arr (K B : Type) where
  n : Nat
  nb : Nat
  arr : Int → K
  brr : Nat → Int → B

variable {K B : Type}

/-- `arr[k]` with bounds check. -/
def rd (s : Arr K B) (k : Int) : Except Err K :=
  if 0 ≤ k ∧ k < s.n then .ok (s.arr k) else .error .oob

/-- `a[i] = x` -/
def upd {A : Type} (f : Int → A) (i : Int) (x : A) : Int → A := fun k => if k = i then x else f k

/-- `while (arr[i] < pivot) i++;` (`src/cxx/misc.c` 473–476 and the same lines of the others). -/
def scanUp (lt : K → K → Bool) (s : Arr K B) (pivot : K) (i : Int) : Except Err Int :=
  if 0 ≤ i ∧ i < s.n then
    if lt (s.arr i) pivot then scanUp lt s pivot (i + 1) else .ok i
  else .error .oob
termination_by (s.n - i).toNat

/-- `while (arr[j] > pivot) j--;` (`src/cxx/misc.c` 477–480). -/
def scanDown (lt : K → K → Bool) (s : Arr K B) (pivot : K) (j : Int) : Except Err Int :=
  if 0 ≤ j ∧ j < s.n then
    if lt pivot (s.arr j) then scanDown lt s pivot (j - 1) else .ok j
  else .error .oob
termination_by (j + 1).toNat

/-- The exchange of entries `i` and `j` in the key array and in every companion array, through
temporaries (`src/cxx/misc.c` 483–485, 563–571; `src/cxx/utilities.c` 304–322, 379–395, 443–449,
480–500).  `partition` (`src/cxx/utilities.c` 301–328) skips the exchange when `i == j`, which has the
same effect. -/
def swap (s : Arr K B) (i j : Int) : Except Err (Arr K B) :=
  if (0 ≤ i ∧ i < s.n) ∧ (0 ≤ j ∧ j < s.n) then
    let tmp := s.arr i
    let a1 := upd s.arr i (s.arr j)
    let a2 := upd a1 j tmp
    .ok { s with
      arr := a2
      brr := fun b =>
        if b < s.nb then
          let t2 := s.brr b i
          let b1 := upd (s.brr b) i (s.brr b j)
          upd b1 j t2
        else s.brr b }
  else .error .oob

/-- The loop `while (i <= j)` of `partition*` (`src/cxx/misc.c` 471–489). -/
def partLoop (lt : K → K → Bool) (pivot : K) : Nat → Arr K B → Int → Int → Except Err (Arr K B × Int)
  | f, s, i, j =>
    if i ≤ j then
      match f with
      | 0 => .error .fuel
      | f + 1 => do
        let i ← scanUp lt s pivot i
        let j ← scanDown lt s pivot j
        if i ≤ j then do
          let s ← swap s i j
          partLoop lt pivot f s (i + 1) (j - 1)
        else partLoop lt pivot f s i j
    else .ok (s, i)

/-- `partition_int` and relatives, `src/cxx/misc.c` 465–492, 540–583, 595–638; `src/cxx/utilities.c`
283–333, 355–404, 421–455, 457–508, 526–554, 573–601, 621–649.  The division truncates as in C. -/
def partition (lt : K → K → Bool) (s : Arr K B) (left right : Int) : Except Err (Arr K B × Int) := do
  let pivot ← rd s ((left + right).tdiv 2)
  partLoop lt pivot (right - left + 2).toNat s left right

/-- `quick_sort*`, `src/cxx/misc.c` 508–520, 645–657, 673–685; `src/cxx/utilities.c` 108–120,
136–148, 150–162, 192–204, 221–233, 250–262.  `back` is 0 for all of them and 1 for `quick_sort_index`
(`src/cxx/utilities.c` 164–176), whose second call starts at `ind - 1`. -/
def quickSort (lt : K → K → Bool) (back : Int) : Nat → Arr K B → Int → Int → Except Err (Arr K B)
  | 0, _, _, _ => .error .fuel
  | f + 1, s, left, right => do
    let (s, index) ← partition lt s left right
    let s ← (if left < index - 1 then quickSort lt back f s left (index - 1) else .ok s)
    if index < right then quickSort lt back f s (index - back) right else .ok s

end Pycold.Sort
