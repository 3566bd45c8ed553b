import Verif.Model.Bip
/-!
# What the readers should deliver
-/
namespace Pycold.Bip.Spec

/-- The value of band `j` (7 is the mask) of the pixel in line `row` and column `col`, counted from 1, of an
image that is `width` pixels wide. -/
def value (f : List Int) (width row col j : Nat) : Int := f.getD (((row - 1) * width + (col - 1)) * 8 + j) 0

/-- A complete image. -/
def Image (s : Scene) (width height : Nat) (f : List Int) : Prop := s.file = some f ∧ f.length = height * width * 8

/-- An observation of a pixel: the seven bands, the mask, the date. -/
structure Obs where
  bands : List Int
  mask : Int
  date : Int
deriving DecidableEq

/-- The observation in a scene. -/
def obs (s : Scene) (width row col : Nat) : Obs :=
  let f := s.file.getD []
  ⟨(List.range 7).map (value f width row col), value f width row col 7, s.date⟩

/-- The scenes that cover the pixel, in order: the mask is not the fill value 255. -/
def covering (scenes : List Scene) (width row col : Nat) : List Scene :=
  scenes.filter fun s => decide ((obs s width row col).mask < 255)

/-- The observations found in the buffers of a pixel. -/
def found (b : Pixel) : List Obs :=
  (List.range b.count).map fun i => ⟨(List.range 7).map fun j => b.image j i, b.fmask i, b.sdate i⟩

/-- The observations found for column `k` (from 0) in the buffers of a line for `n` scenes. -/
def foundAt (b : Line) (n k : Nat) : List Obs :=
  (List.range (b.count k)).map fun i => ⟨(List.range 7).map fun j => b.image j (k * n + i), b.fmask k i, b.sdate k i⟩

/-- The code (4, 5, 8) of the sensor in the name of a scene, for the four Landsats the program knows. -/
def sensor (s : Scene) : Int :=
  if s.platform = '4' ∨ s.platform = '5' then 4 else if s.platform = '7' then 5 else 8

/-- The program knows the sensor. -/
def Known (s : Scene) : Prop := s.platform = '4' ∨ s.platform = '5' ∨ s.platform = '7' ∨ s.platform = '8'

end Pycold.Bip.Spec
