import Verif.Spec.View
import Verif.Model.Oriented

/-!
# Specification vocabulary for oriented cochains
-/

namespace Verif

variable {R L : Type}

/-- Every cell's sign is 1 or -1. -/
def Signs (s : Nat → Int) : Prop := ∀ c, s c = 1 ∨ s c = -1

/-- The rows with row `c` multiplied by `s c`. -/
def flipRows [AddCommGroup R] (s : Nat → Int) (rows : List R) : List R :=
  rows.mapIdx fun c r => s c • r

/-- The relative orientations after the cells with sign -1 have been flipped: an orientation changes
when exactly one end is flipped. -/
def flipCols (s : Nat → Int) (index : List (Nat × Nat)) (orient : List Int) : List Int :=
  (index.zip orient).map fun p => s p.1.1 * s p.1.2 * p.2

/-- The cochain with the orientation of the cells with sign -1 reversed. -/
def Cochain.flip [AddCommGroup R] (s : Nat → Int) (c : Cochain R L) : Cochain R L :=
  { c with
    x := c.x.map (flipRows s)
    upperOrient := c.upperOrient.map (flipCols s (c.upperIndex.getD []))
    lowerOrient := c.lowerOrient.map (flipCols s (c.lowerIndex.getD [])) }

/-- An odd map, such as a linear map without bias or `tanh`. -/
def Odd' [AddCommGroup R] (f : R → R) : Prop := ∀ r, f (-r) = -f r

/-- All maps of the layer are odd and orientations are used. -/
structure OrientedLevel.Equivariant [AddCommGroup R] (l : OrientedLevel R) : Prop where
  orient : l.orient = true
  up : Odd' l.updateUp
  down : Odd' l.updateDown
  update : Odd' l.update
  act : Odd' l.act

end Verif
