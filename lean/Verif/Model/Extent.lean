import Mathlib.Data.Rat.Floor
/-!
# The extent of a feature

Model of `explode`, `bbox` and `get_extent` (`src/python/pycold/imagetool/prepare_ard.py`).  Numbers are rational; rounding of
floats is not modelled.
-/
namespace Pycold.Extent

/-- The `coordinates` of a GeoJSON geometry: numbers and lists (or tuples). -/
inductive Geo where
  | num (q : ℚ)
  | list (l : List Geo)

mutual
/-- `explode(coords)`, `prepare_ard.py` 1744–1753: the values it yields.  (A number as `coords` raises; not reached.) -/
def explode : Geo → List (List Geo)
  | .num _ => []
  | .list l => scan l l

/-- The loop of `explode` over the rest of `coords` (1747–1753). -/
def scan (coords : List Geo) : List Geo → List (List Geo)
  | [] => []
  | .num _ :: _ => [coords]
  | .list l :: rest => explode (.list l) ++ scan coords rest
end

/-- A number, for `min` and `max`; comparing lists with numbers raises, lists alone are not modelled. -/
def number : Geo → Option ℚ
  | .num q => some q
  | .list _ => none

/-- `min(x)`, `max(x)` of the tuple `x`, -/
def minimum : List ℚ → Option ℚ
  | [] => none
  | x :: xs => some (xs.foldl min x)

/-- see `minimum`. -/
def maximum : List ℚ → Option ℚ
  | [] => none
  | x :: xs => some (xs.foldl max x)

/-- The length of `zip(*l)`: that of the shortest; 0 for no lists at all. -/
def zipLength : List (List Geo) → Nat
  | [] => 0
  | p :: ps => ps.foldl (fun m q => min m q.length) p.length

/-- `bbox`, `prepare_ard.py` 1756–1758.  Unpacking into `x, y` raises (`none`) unless `zip` gives two tuples. -/
def bbox (g : Geo) : Option (ℚ × ℚ × ℚ × ℚ) :=
  let pts := explode g
  if zipLength pts = 2 then
    (pts.mapM fun p => p[0]?.bind number).bind fun x => (pts.mapM fun p => p[1]?.bind number).bind fun y =>
    (minimum x).bind fun x0 => (minimum y).bind fun y0 => (maximum x).bind fun x1 => (maximum y).bind fun y1 =>
    some (x0, y0, x1, y1)
  else none

/-- What `get_extent` returns. -/
structure Extent where
  xmin : ℚ
  xmax : ℚ
  ymin : ℚ
  ymax : ℚ
  nRow : ℤ
  nCol : ℤ

/-- `get_extent`, `prepare_ard.py` 1712–1735, for a feature with this `bbox`; division by 0 raises (`none`). -/
def getExtent (box : ℚ × ℚ × ℚ × ℚ) (res buf : ℚ) : Option Extent :=
  if res = 0 then none
  else
    let txmin := box.1 - res * buf
    let txmax := box.2.2.1 + res * buf
    let tymin := box.2.1 - res * buf
    let tymax := box.2.2.2 + res * buf
    let nRow := ⌈(tymax - tymin) / res⌉
    let nCol := ⌈(txmax - txmin) / res⌉
    some ⟨(txmin + txmax) / 2 - nCol / 2 * res, (txmin + txmax) / 2 + nCol / 2 * res,
      (tymin + tymax) / 2 - nRow / 2 * res, (tymin + tymax) / 2 + nRow / 2 * res, nRow, nCol⟩

end Pycold.Extent
