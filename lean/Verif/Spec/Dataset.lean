import Verif.Model.Dataset
import Verif.Spec.Complex

/-!
# Specification of the in-memory storage

Nothing here is used by the model of the code.
-/

namespace Verif

variable {F L A : Type}

/-- A matrix without rows (an index without columns) counts as absent. -/
def nonEmpty : Option (List A) → Option (List A)
  | some [] => none
  | v => v

/-- The cochain `c'` has the attributes of `c`, empty ones absent, and the same counts. -/
structure SameCells (c c' : Cochain F L) : Prop where
  dim : c'.dim = c.dim
  x : c'.x = nonEmpty c.x
  upperIndex : c'.upperIndex = nonEmpty c.upperIndex
  lowerIndex : c'.lowerIndex = nonEmpty c.lowerIndex
  sharedBoundaries : c'.sharedBoundaries = nonEmpty c.sharedBoundaries
  sharedCoboundaries : c'.sharedCoboundaries = nonEmpty c.sharedCoboundaries
  boundaryIndex : c'.boundaryIndex = nonEmpty c.boundaryIndex
  upperOrient : c'.upperOrient = nonEmpty c.upperOrient
  lowerOrient : c'.lowerOrient = nonEmpty c.lowerOrient
  y : c'.y = nonEmpty c.y
  mask : c'.mask = nonEmpty c.mask
  batch : c'.batch = nonEmpty c.batch
  ptr : c'.ptr = nonEmpty c.ptr
  count : c'.numCells = c.numCells
  down : c'.numCellsDown = c.numCellsDown
  up : ∀ n, c.numCellsUp = .ok n → c'.numCellsUp = .ok (some (n.getD 0))

/-- The complex `comp'` is `comp`, up to empty attributes. -/
structure SameComplex (comp comp' : Complex F L) : Prop where
  dimension : comp'.dimension = comp.dimension
  y : comp'.y = comp.y
  len : comp'.cochains.length = comp.cochains.length
  cells : ∀ (d : Nat) (c c' : Cochain F L), comp.cochains[d]? = some c → comp'.cochains[d]? = some c' →
    SameCells c c'

/-- Every dimension has cells, or their number was given explicitly. -/
def Complex.Counted (comp : Complex F L) : Prop :=
  ∀ c ∈ comp.cochains, c.count ≠ 0 ∨ c.numCellsAttr.isSome

/-- Some complex has some attribute in a dimension that is stored. -/
def HasAttribute (cs : List (Complex F L)) (maxDim : Nat) : Prop :=
  ∃ comp ∈ cs, ∃ (d : Nat) (c : Cochain F L), d ≤ maxDim ∧ comp.cochains[d]? = some c ∧ c.keys ≠ []

end Verif
