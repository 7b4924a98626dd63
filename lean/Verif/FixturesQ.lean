import Verif.Fixtures
import Verif.Lemmas.Relabel
import Mathlib.Data.Rat.Defs
import Mathlib.Algebra.Field.Rat
import Mathlib.Algebra.Module.Rat
import Mathlib.Logic.Equiv.Basic

/-!
# Concrete complexes with rational features, used by the examples beside the theorems
-/

namespace Verif.Fixtures

/-- The complex with every feature row mapped by `f`. -/
def mapX {F G L : Type} (f : F → G) (comp : Complex F L) : Complex G L where
  dimension := comp.dimension
  cochains := comp.cochains.map fun c =>
    { dim := c.dim, x := c.x.map (·.map f), upperIndex := c.upperIndex, lowerIndex := c.lowerIndex,
      sharedBoundaries := c.sharedBoundaries, sharedCoboundaries := c.sharedCoboundaries,
      boundaryIndex := c.boundaryIndex, upperOrient := c.upperOrient, lowerOrient := c.lowerOrient,
      y := c.y, mask := c.mask, batch := c.batch, ptr := c.ptr, numCellsAttr := c.numCellsAttr,
      numCellsUpAttr := c.numCellsUpAttr, numCellsDownAttr := c.numCellsDownAttr }
  y := comp.y
  numComplexes := comp.numComplexes

/-- The house with rational features. -/
def houseQ : Complex ℚ Nat := mapX (fun n : Nat => (n : ℚ)) house
/-- The segment with rational features. -/
def segQ : Complex ℚ Nat := mapX (fun n : Nat => (n : ℚ)) seg
/-- The isolated vertices with rational features. -/
def dotsQ : Complex ℚ Nat := mapX (fun n : Nat => (n : ℚ)) dots

theorem houseQ_ready : houseQ.Ready := ⟨validB_sound (by decide), by unfold Complex.Featured; decide, rfl⟩
theorem segQ_ready : segQ.Ready := ⟨validB_sound (by decide), by unfold Complex.Featured; decide, rfl⟩
theorem dotsQ_ready : dotsQ.Ready := ⟨validB_sound (by decide), by unfold Complex.Featured; decide, rfl⟩

/-- Swap the first two cells in every dimension that has them. -/
def swap01 (comp : Complex ℚ Nat) (d : Nat) : Equiv.Perm Nat :=
  if 2 ≤ comp.cellsIn d then Equiv.swap 0 1 else Equiv.refl Nat

theorem swap01_permutes (comp : Complex ℚ Nat) : comp.Permutes (swap01 comp) := by
  intro d c
  unfold swap01
  split
  · by_cases h0 : c = 0
    · subst h0; simp; omega
    · by_cases h1 : c = 1
      · subst h1; simp; omega
      · rw [Equiv.swap_apply_of_ne_of_ne h0 h1]
  · rfl

end Verif.Fixtures
