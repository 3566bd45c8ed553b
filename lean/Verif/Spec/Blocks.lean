import Verif.Model.Blocks
/-!
# What the files of a finished block must contain
-/
namespace Pycold.Blocks.Spec

variable {V : Type}

/-- The change magnitudes (dates) of one pixel, the fill value if detection failed. -/
def cmOf (fill : List V) : Pixel V → List V
  | .ok _ m _ => m
  | _ => fill

def dateOf (fill : List V) : Pixel V → List V
  | .ok _ _ d => d
  | _ => fill

def recOf : Pixel V → List V
  | .ok r _ _ => r
  | _ => []

def isOk : Pixel V → Bool
  | .ok _ _ _ => true
  | _ => false

/-- The contents each result file of a block must have: the records of all pixels for which detection
succeeded, in pixel order, and for OBCOLD one entry per pixel in the magnitude files. -/
def expected (method : Method) (fill : List V) (nPix : Nat) (pixels : Option (List (Pixel V))) : Kind → File V
  | .record =>
    match pixels with
    | none => .absent
    | some ps =>
      if method = .sccd ∨ ps.any isOk then .full (ps.flatMap recOf) else .absent
  | .cm =>
    if method = .obcold then
      match pixels with
      | none => .full (List.replicate nPix fill).flatten
      | some ps => .full (ps.flatMap (cmOf fill))
    else .absent
  | .cmDate =>
    if method = .obcold then
      match pixels with
      | none => .full (List.replicate nPix fill).flatten
      | some ps => .full (ps.flatMap (dateOf fill))
    else .absent

/-- Detection fails on this block in the way that stops the program. -/
def fatal (method : Method) (pixels : Option (List (Pixel V))) : Prop :=
  match pixels with
  | none => False
  | some ps =>
    match method with
    | .sccd => Pixel.otherError ∈ ps
    | _ => Pixel.runtimeError ∈ ps

end Pycold.Blocks.Spec
