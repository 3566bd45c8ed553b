import Verif.Proof.Bip
/-!
# C44: reading stacked scenes
-/
namespace Pycold.Bip

open Spec

/-- Different pixels of an image are stored at different places, inside the file. -/
theorem C44_positions (width height row col row' col' : Nat) (hr : 1 ≤ row) (hr2 : row ≤ height) (hc : 1 ≤ col)
    (hc2 : col ≤ width) (hc' : 1 ≤ col') (hr' : 1 ≤ row') (hc2' : col' ≤ width) (hne : ¬ (row = row' ∧ col = col'))
    (j j' : Nat) (hj : j < 8) (hj' : j' < 8) :
    ((row - 1) * width + (col - 1)) * 8 + j < height * width * 8 ∧
    ((row - 1) * width + (col - 1)) * 8 + j ≠ ((row' - 1) * width + (col' - 1)) * 8 + j' := by
  have hp := pixel_bound hr hr2 hc hc2
  refine ⟨by omega, ?_⟩
  intro h
  have h1 : (row - 1) * width + (col - 1) = (row' - 1) * width + (col' - 1) := by omega
  have hd : ∀ a c, c < width → (a * width + c) / width = a := by
    intro a c hc
    rw [Nat.mul_comm, Nat.mul_add_div (by omega), Nat.div_eq_of_lt hc, Nat.add_zero]
  have h2 := congrArg (· / width) h1
  simp only [hd _ (col - 1) (by omega), hd _ (col' - 1) (by omega)] at h2
  rw [h2] at h1
  exact hne ⟨by omega, by omega⟩

/-- Reading a pixel scene by scene delivers exactly its observations in the scenes that cover it, in order:
bands, mask, date, and the sensor of each. -/
theorem C44_pixel (width height row col : Nat) (hr : 1 ≤ row) (hr2 : row ≤ height) (hc : 1 ≤ col) (hc2 : col ≤ width)
    (hsz : height * width * 8 < 2 ^ 31) (scenes : List Scene) (hs : ∀ s ∈ scenes, ∃ f, Image s width height f)
    (b : Pixel) (hb : b.count = 0) :
    ∃ b', readPixel row col width scenes b = .ok b' ∧
      found b' = (covering scenes width row col).map (fun s => obs s width row col) ∧
      b'.count = (covering scenes width row col).length ∧
      ((∀ s ∈ scenes, Known s) →
        (List.range b'.count).map b'.sensor = (covering scenes width row col).map fun s => some (sensor s)) := by
  obtain ⟨b', h1, h2, h3⟩ := readPixel_ok hr hr2 hc hc2 hsz scenes hs b
  refine ⟨b', h1, ?_, by omega, ?_⟩
  · simpa [found, hb] using h3
  · intro hk
    have := readPixel_sensor hr hr2 hc hc2 hsz scenes hs hk b b' h1
    simpa [hb] using this

/-- Reading a line delivers the same for every pixel of the line at once, except the sensors.  Missing: the
sensors (see `C44_sensors_shared`). -/
theorem C44_line_partial (width height row : Nat) (hr : 1 ≤ row) (hr2 : row ≤ height) (hsz : height * width * 8 < 2 ^ 31)
    (scenes : List Scene) (hs : ∀ s ∈ scenes, ∃ f, Image s width height f) (b : Line) :
    ∃ b', readBipLines row width scenes b = .ok b' ∧ ∀ k < width,
      foundAt b' scenes.length k = (covering scenes width row (k + 1)).map (fun s => obs s width row (k + 1)) ∧
      b'.count k = (covering scenes width row (k + 1)).length := by
  obtain ⟨b', h1, h2⟩ := readScenes_ok (n := scenes.length) hr hr2 hsz scenes hs none { b with count := fun _ => 0 } (by simp)
  refine ⟨b', h1, ?_⟩
  intro k hk
  obtain ⟨h3, h4⟩ := h2 k hk
  exact ⟨by simpa [foundAt] using h3, by simpa using h4⟩

/-- A scene that cannot be read stops both readers with an error; nothing is delivered silently. -/
theorem C44_missing_file (width row col : Nat) (s : Scene) (ss : List Scene) (h : s.file = none) (b : Pixel) (l : Line) :
    readPixel row col width (s :: ss) b = .failure ∧ readBipLines row width (s :: ss) l = .failure := by
  constructor
  · rw [readPixel, bind_eq, readBip, h]; rfl
  · rw [readBipLines, readScenes, h]

/-! A line of two pixels in two scenes (Landsat 5, then Landsat 7); the second pixel is outside the first
scene. -/

def first : List Int := [1, 2, 3, 4, 5, 6, 7, 0, 11, 12, 13, 14, 15, 16, 17, 255]
def second : List Int := [21, 22, 23, 24, 25, 26, 27, 1, 31, 32, 33, 34, 35, 36, 37, 0]
def two : List Scene := [⟨'5', 730000, some first⟩, ⟨'7', 730016, some second⟩]
def blank : Line := ⟨fun _ _ => 0, fun _ _ => 0, fun _ => none, fun _ _ => 0, fun _ => 0⟩
def blankPixel : Pixel := ⟨fun _ _ => 0, fun _ => 0, fun _ => none, fun _ => 0, 0⟩

example : ∀ s ∈ two, ∃ f, Image s 2 1 f := by
  intro s hs
  simp only [two, List.mem_cons, List.not_mem_nil, or_false] at hs
  rcases hs with rfl | rfl
  · exact ⟨first, rfl, rfl⟩
  · exact ⟨second, rfl, rfl⟩

example : (covering two 2 1 1).map (fun s => obs s 2 1 1) =
    [⟨[1, 2, 3, 4, 5, 6, 7], 0, 730000⟩, ⟨[21, 22, 23, 24, 25, 26, 27], 1, 730016⟩] ∧
    (covering two 2 1 2).map (fun s => obs s 2 1 2) = [⟨[31, 32, 33, 34, 35, 36, 37], 0, 730016⟩] := by decide +kernel

/-- Read by lines, the first observation of the first pixel is attributed to Landsat 7, because the second
pixel, whose first observation is from Landsat 7, uses the same buffer; read by pixels, it is attributed to
Landsat 5. -/
theorem C44_sensors_shared :
    (∃ b', readBipLines 1 2 two blank = .ok b' ∧ b'.sensor 0 = some 5) ∧
    (∃ b', readPixel 1 1 2 two blankPixel = .ok b' ∧ b'.sensor 0 = some 4) :=
  ⟨⟨_, rfl, rfl⟩, ⟨_, rfl, rfl⟩⟩

/-- A scene of Landsat 9 is given the sensor of the scene before it when reading by lines (none, if it is the
first), and none when reading by pixels. -/
theorem C44_landsat9 :
    (∃ b', readBipLines 1 1 [⟨'5', 1, some [1, 2, 3, 4, 5, 6, 7, 0]⟩, ⟨'9', 2, some [1, 2, 3, 4, 5, 6, 7, 0]⟩] blank = .ok b' ∧
      b'.count 0 = 2 ∧ b'.sensor 1 = some 4) ∧
    (∃ b', readPixel 1 1 1 [⟨'9', 2, some [1, 2, 3, 4, 5, 6, 7, 0]⟩] blankPixel = .ok b' ∧ b'.count = 1 ∧ b'.sensor 0 = none) :=
  ⟨⟨_, rfl, rfl, rfl⟩, ⟨_, rfl, rfl, rfl⟩⟩

end Pycold.Bip
