import Verif.Model.Obia
/-!
# What the object-based analysis should compute
-/
namespace Pycold.Obia.Spec

/-- Inside the image. -/
def Inside (rows cols : Nat) (p : Pixel) : Prop := p.1 < rows ∧ p.2 < cols

/-- Rows and columns differ by at most one. -/
def Neighbour (p q : Pixel) : Prop := p.1 ≤ q.1 + 1 ∧ q.1 ≤ p.1 + 1 ∧ p.2 ≤ q.2 + 1 ∧ q.2 ≤ p.2 + 1

/-- Reached from the seed by steps to neighbours, through free pixels only (the seed included). -/
inductive Joined (free : Pixel → Prop) (seed : Pixel) : Pixel → Prop
  | seed : free seed → Joined free seed seed
  | step {p q : Pixel} : Joined free seed p → Neighbour p q → free q → Joined free seed q

/-- The magnitude differs from that of the seed by at most the ratio, and the date by at most the interval. -/
def Close (g : Pixel → ℚ) (date : Pixel → Int) (ratio : ℚ) (interval : Int) (seed p : Pixel) : Prop :=
  |g p - g seed| ≤ g seed * ratio ∧ |date p - date seed| ≤ interval

/-- The seeds: exactly the pixels above the threshold, each once, the strongest first. -/
def SeedList (rows cols : Nat) (g : Pixel → ℚ) (peak : ℚ) (l : List Pixel) : Prop :=
  l.Nodup ∧ (∀ p, p ∈ l ↔ Inside rows cols p ∧ peak < g p) ∧ l.Pairwise fun a b => g b ≤ g a

/-- `skimage.measure.label` with connectivity 2 on the pixels that have an object: 0 outside, and the same
number exactly for pixels joined by neighbours. -/
def Labels (rows cols : Nat) (lab patch : Pixel → Nat) : Prop :=
  (∀ p, Inside rows cols p → (patch p = 0 ↔ lab p = 0)) ∧
    ∀ p q, Inside rows cols p → Inside rows cols q → lab p ≠ 0 → lab q ≠ 0 →
      (patch p = patch q ↔ Joined (fun r => Inside rows cols r ∧ lab r ≠ 0) p q)

/-- `v` is the most frequent value of the list, the smallest if there are several. -/
def Mode (l : List Nat) (v : Nat) : Prop := v ∈ l ∧ ∀ w ∈ l, l.count w ≤ l.count v ∧ (l.count w = l.count v → v ≤ w)

/-- The decision for an object: magnitude times scale above the threshold, where the scale grows with the
logarithm of the size, up to 2. -/
def Exceeds (lg : Nat → ℚ) (c : Class) (size : Nat) (magnitude : ℚ) : Prop :=
  c.threshold < magnitude * min 2 (lg size * c.slope + 95/100)

/-- The class that decides: without a map the default; with a map the uniform values if both are given, the
default for class 255, else the class, if it is one of 1 to 8. -/
def classFor (par : Parameters) (withMap : Bool) (uniform : Option ℚ × Option ℚ) (mode : Nat) (c : Class) : Prop :=
  if withMap = false then c = par.default
  else match uniform with
    | (some t, some s) => c = ⟨t, s⟩
    | _ => (mode = 255 ∧ c = par.default) ∨ (1 ≤ mode ∧ mode ≤ 8 ∧ c = par.cls mode)

/-- The class of an object: without a map 255, with a map its most frequent class. -/
def ObjectClass : Option (Pixel → Nat) → List Pixel → Nat → Prop
  | none, _, m => m = 255
  | some c, object, m => Mode (object.map c) m

end Pycold.Obia.Spec
