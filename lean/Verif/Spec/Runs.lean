import Verif.Spec.View

/-!
# Complexes on which message passing is defined
-/

namespace Verif

variable {R L : Type}

/-- A complex (or batch) that message passing can run on: every dimension has features, one row per
reported cell, shared ids go with the columns, nothing is below the vertices, indices are in range. -/
structure Complex.Runs (comp : Complex R L) : Prop where
  len : comp.cochains.length = comp.dimension + 1
  feat : ∀ (d : Nat) (c : Cochain R L), comp.cochains[d]? = some c →
    ∃ x, c.x = some x ∧ c.numCells = .ok (some x.length)
  upBoth : ∀ (d : Nat) (c : Cochain R L), comp.cochains[d]? = some c →
    c.upperIndex.isSome = c.sharedCoboundaries.isSome
  upLen : ∀ (d : Nat) (c : Cochain R L), comp.cochains[d]? = some c →
    (c.sharedCoboundaries.getD []).length = (c.upperIndex.getD []).length
  downBoth : ∀ (d : Nat) (c : Cochain R L), comp.cochains[d]? = some c →
    c.lowerIndex.isSome = c.sharedBoundaries.isSome
  downLen : ∀ (d : Nat) (c : Cochain R L), comp.cochains[d]? = some c →
    (c.sharedBoundaries.getD []).length = (c.lowerIndex.getD []).length
  vertices : comp.attr 0 Cochain.lowerIndex = none
  range : comp.view.InRange

/-- A complex as a data set provides it: valid, with features in every dimension, and nothing below
the vertices. -/
structure Complex.Ready (comp : Complex R L) : Prop where
  valid : comp.Valid
  featured : comp.Featured
  vertices : comp.attr 0 Cochain.lowerIndex = none

/-- Cell `c` of dimension `d` of the `i`-th complex, in the numbering of the batch. -/
def inBatch (cs : List (Complex R L)) (i d c : Nat) : Nat := c + before (Complex.cellsIn d) cs i

end Verif
