import Verif.Spec.Stack
import Verif.Model.Ranks
/-!
# What the preparation of a tile by several ranks is held against
-/
namespace Pycold.Ranks.Spec
open Pycold.Stack Pycold.Stack.Spec

/-- The tile has not been prepared yet: nothing of it is in the output folder. -/
def Fresh (w : World) : Prop := w.paths = false ∧ w.dates = none ∧ w.files = [] ∧ w.flags = []

/-- If the file of dates is already there, then so is all that the ranks wait for: the folders of the blocks of this
configuration and, where one is used, the map of paths.  So for a tile not prepared yet, and for a repeated run. -/
def Usable (J : Job) (w : World) : Prop :=
  w.dates.isSome → w.out = true ∧ (∀ i j, i < J.c.nby → j < J.c.nbx → (j + 1, i + 1) ∈ w.folders) ∧
    (J.hpc = true → J.c.kind = .ard ∨ J.c.kind = .ardC2 → w.paths = true)

/-- The scenes have the size of the tile and names of their collection with valid dates, and their stacked images
different names. -/
def Scenes (J : Job) (date : Stack.Scene → Int) : Prop :=
  Tiled J.c ∧ J.scenes ≠ [] ∧ (∀ s ∈ J.scenes, Sized J.c s ∧ Acquired J.c.kind s.folder (date s)) ∧
    J.scenes.Pairwise fun s t => ((parse J.c.kind s.folder).map (·.name)) ≠ ((parse J.c.kind t.folder).map (·.name))

/-- No rank has anything left to do. -/
def Done (J : Job) (s : State) : Prop := ∀ r, 1 ≤ r → r ≤ J.cores → s.left r = []

end Pycold.Ranks.Spec
