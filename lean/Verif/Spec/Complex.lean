import Verif.Spec.Batch

/-!
# Specification vocabulary for complexes

What it means for a complex to be coherent and valid; none of these is used by the model.
-/

namespace Verif

variable {F L : Type}

/-- The attribute `get` of the cells of dimension `d`, absent when there is no such dimension. -/
def Complex.attr {A : Type} (comp : Complex F L) (d : Nat) (get : Cochain F L → Option A) :
    Option A :=
  (comp.cochains[d]?).bind get

/-- The number of cells of dimension `d`, 0 when there is no such dimension. -/
def Complex.cellsIn (d : Nat) (comp : Complex F L) : Nat :=
  ((comp.cochains[d]?).map Cochain.count).getD 0

/-- The number of cells one dimension below `d`; there is nothing below the vertices. -/
def Complex.cellsBelow (d : Nat) (comp : Complex F L) : Nat :=
  match d with
  | 0 => 0
  | d + 1 => comp.cellsIn d

/-- Coherence: one cochain per dimension, carrying its dimension, and reporting as numbers of
neighbouring cells what the neighbouring cochains report as their own number of cells. -/
structure Complex.Coherent (comp : Complex F L) : Prop where
  len : comp.cochains.length = comp.dimension + 1
  dim : ∀ (d : Nat) (c : Cochain F L), comp.cochains[d]? = some c → c.dim = d
  up : ∀ (d : Nat) (c c' : Cochain F L), comp.cochains[d]? = some c → comp.cochains[d + 1]? = some c' →
    c.numCellsUp = c'.numCells
  down : ∀ (d : Nat) (c c' : Cochain F L), comp.cochains[d]? = some c → comp.cochains[d + 1]? = some c' →
    c'.numCellsDown = c.numCells

/-- A cochain whose indices are valid for `n` cells, `nDown` cells below and `nUp` cells above. -/
structure ValidCochain (c : Cochain F L) (nDown n nUp : Nat) : Prop where
  plain : c.batch = none ∧ c.ptr = none
  rows : ∀ x, c.x = some x → x.length = n
  upper : ∀ p ∈ c.upperIndex.getD [], p.1 < n ∧ p.2 < n
  upperShared : (c.sharedCoboundaries.getD []).length = (c.upperIndex.getD []).length
  upperBoth : c.upperIndex.isSome = c.sharedCoboundaries.isSome
  shared : ∀ s ∈ c.sharedCoboundaries.getD [], s < nUp
  lower : ∀ p ∈ c.lowerIndex.getD [], p.1 < n ∧ p.2 < n
  lowerShared : (c.sharedBoundaries.getD []).length = (c.lowerIndex.getD []).length
  lowerBoth : c.lowerIndex.isSome = c.sharedBoundaries.isSome
  sharedDown : ∀ s ∈ c.sharedBoundaries.getD [], s < nDown
  boundary : ∀ p ∈ c.boundaryIndex.getD [], p.1 < nDown ∧ p.2 < n

/-- A valid complex: coherent, all counts known, nothing above the top dimension, and all indices
in range. -/
structure Complex.Valid (comp : Complex F L) : Prop extends comp.Coherent where
  known : ∀ c ∈ comp.cochains, ∃ n, c.numCells = .ok (some n)
  top : ∀ c : Cochain F L, comp.cochains[comp.dimension]? = some c → ∃ n, c.numCellsUp = .ok n ∧ n.getD 0 = 0
  valid : ∀ (d : Nat) (c : Cochain F L), comp.cochains[d]? = some c →
    ValidCochain c (comp.cellsBelow d) (comp.cellsIn d) (comp.cellsIn (d + 1))

/-- Every dimension carries a feature matrix. -/
def Complex.Featured (comp : Complex F L) : Prop := ∀ c ∈ comp.cochains, c.x.isSome

end Verif
