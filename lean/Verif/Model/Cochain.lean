import Verif.Base
import Mathlib.Algebra.Group.Prod

/-!
# `Cochain` (data/complex.py:26-298)

Type parameters: `F` is the type of a feature row, `L` the type of a label.
-/

namespace Verif

/-- The attributes of a `Cochain` or `CochainBatch` object (data/complex.py:59-92, 303-321).

A 2xN index tensor is its list of columns. `None` is `none`. The attributes `__num_cells__`,
`__num_cells_up__`, `__num_cells_down__` are only created when set (lines 85-90, 195-198,
211-215, 228-232), so they are doubly optional: `none` = no such attribute, `some none` = set to
`None`. `mask` stands for a keyword attribute stored with `self[key] = item` (line 92) whose
values are never shifted; `batch` and `ptr` are `none` on a plain cochain (lines 312-313).

Simplified: `mapping`, `__oriented__`, `__hodge_laplacian__` (never read by the modelled code),
sparse tensors and negative indices are left out. -/
structure Cochain (F L : Type) where
  dim : Nat
  x : Option (List F) := none
  upperIndex : Option (List (Nat × Nat)) := none
  lowerIndex : Option (List (Nat × Nat)) := none
  sharedBoundaries : Option (List Nat) := none
  sharedCoboundaries : Option (List Nat) := none
  boundaryIndex : Option (List (Nat × Nat)) := none
  upperOrient : Option (List Int) := none
  lowerOrient : Option (List Int) := none
  y : Option (List L) := none
  mask : Option (List Bool) := none
  batch : Option (List Nat) := none
  ptr : Option (List Nat) := none
  numCellsAttr : Option (Option Nat) := none
  numCellsUpAttr : Option (Option Nat) := none
  numCellsDownAttr : Option (Option Nat) := none
  deriving DecidableEq

namespace Cochain

variable {F L : Type}

/-- The constructor (data/complex.py:59-92). The only checks are those on dimension 0
(lines 62-65). -/
def mk? (c : Cochain F L) : Py (Cochain F L) := do
  if c.dim = 0 then
    pyAssert c.lowerIndex.isNone
    pyAssert c.sharedBoundaries.isNone
    pyAssert c.boundaryIndex.isNone
  return c

/-- `keys` (data/complex.py:116-121): the names of the attributes that are not `None` and whose
name does not begin or end with `__`. The features are stored under the mangled name
`_Cochain__x` (line 71), which passes that filter. -/
def keys (c : Cochain F L) : List String :=
  (if c.x.isSome then ["_Cochain__x"] else []) ++
  (if c.upperIndex.isSome then ["upper_index"] else []) ++
  (if c.lowerIndex.isSome then ["lower_index"] else []) ++
  (if c.boundaryIndex.isSome then ["boundary_index"] else []) ++
  (if c.y.isSome then ["y"] else []) ++
  (if c.sharedBoundaries.isSome then ["shared_boundaries"] else []) ++
  (if c.sharedCoboundaries.isSome then ["shared_coboundaries"] else []) ++
  (if c.upperOrient.isSome then ["upper_orient"] else []) ++
  (if c.lowerOrient.isSome then ["lower_orient"] else []) ++
  (if c.mask.isSome then ["mask"] else []) ++
  (if c.batch.isSome then ["batch"] else []) ++
  (if c.ptr.isSome then ["ptr"] else [])

/-- `__contains__` (data/complex.py:131-133). -/
def contains (c : Cochain F L) (key : String) : Bool := decide (key ∈ c.keys)

/-- `int(t.max()) + 1` for a tensor of indices; torch raises `RuntimeError` on an empty tensor. -/
def maxPlusOne (l : List Nat) : Py Nat :=
  match l.max? with
  | some m => .ok (m + 1)
  | none => .error .runtime

/-- `num_cells` (data/complex.py:182-192). -/
def numCells (c : Cochain F L) : Py (Option Nat) :=
  match c.numCellsAttr with
  | some n => .ok n
  | none =>
    match c.x with
    | some rows => .ok (some rows.length)
    | none =>
      match c.boundaryIndex with
      | some b => some <$> maxPlusOne (b.map Prod.snd)
      | none => do
        pyAssert (c.upperIndex.isNone && c.lowerIndex.isNone)
        return none

/-- `num_cells_up` (data/complex.py:200-209). -/
def numCellsUp (c : Cochain F L) : Py (Option Nat) :=
  match c.numCellsUpAttr with
  | some n => .ok n
  | none =>
    match c.sharedCoboundaries with
    | some s => do
      pyAssert c.upperIndex.isSome
      some <$> maxPlusOne s
    | none => do
      pyAssert c.upperIndex.isNone
      return some 0

/-- `num_cells_down` (data/complex.py:217-226). -/
def numCellsDown (c : Cochain F L) : Py (Option Nat) :=
  if c.dim = 0 then .ok none
  else
    match c.numCellsDownAttr with
    | some n => .ok n
    | none =>
      match c.lowerIndex with
      | none => .ok (some 0)
      | some _ => .error .value

/-- The `x` setter (data/complex.py:107-114); `None` only logs a warning. -/
def setX (c : Cochain F L) (newX : Option (List F)) : Py (Cochain F L) :=
  match newX with
  | none => .ok { c with x := none }
  | some rows => do
    let n ← c.numCells
    pyAssert (n == some rows.length)
    return { c with x := some rows }

/-- The increment of `__inc__` (data/complex.py:148-169) for the keys `upper_index` and
`lower_index`; `None` becomes 0 (lines 166-167). -/
def incIndex (c : Cochain F L) : Py Nat := do
  let n ← c.numCells
  return n.getD 0

/-- The increment of `__inc__` for `shared_boundaries` (data/complex.py:156-157). -/
def incSharedBoundaries (c : Cochain F L) : Py Nat := do
  let n ← c.numCellsDown
  return n.getD 0

/-- The increment of `__inc__` for `shared_coboundaries` (data/complex.py:158-159). -/
def incSharedCoboundaries (c : Cochain F L) : Py Nat := do
  let n ← c.numCellsUp
  return n.getD 0

/-- The increment of `__inc__` for `boundary_index` (data/complex.py:160-163): one offset for
the row of boundary cells and one for the row of cells. -/
def incBoundary (c : Cochain F L) : Py (Nat × Nat) := do
  let down ← c.numCellsDown
  let n ← c.numCells
  return (down.getD 0, n.getD 0)

end Cochain

end Verif
