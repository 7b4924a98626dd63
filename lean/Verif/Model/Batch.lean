import Verif.Model.Cochain

/-!
# `CochainBatch.from_cochain_list` (data/complex.py:323-458)
-/

namespace Verif

variable {F L : Type}

/-- The names of the attributes present on at least one item (data/complex.py:332). -/
def unionKeys (cs : List (Cochain F L)) : List String := cs.flatMap Cochain.keys

/-- The loop of lines 353-410 for one key: an item that has the attribute contributes its
entries shifted by the running offset, and every item, whether it has the attribute or not,
advances the offset by its increment.

Simplified: the code visits all keys of an item before going to the next item, the model visits
the items key by key; the values are the same, and only which of several exceptions is raised
first may differ. Adding a zero offset is skipped by the code (line 361) and is the identity.
The book-keeping lists `slices`, `cat_dims` and `follow_batch` (lines 378-405) are left out. -/
def shiftLoop {A K : Type} [Add K] (get : Cochain F L → Option (List A)) (shift : K → A → A)
    (inc : Cochain F L → Py K) : K → List (Cochain F L) → Py (List A)
  | _, [] => .ok []
  | cum, c :: cs => do
    let here := match get c with
      | some l => l.map (shift cum)
      | none => []
    let k ← inc c
    let rest ← shiftLoop get shift inc (k + cum) cs
    return here ++ rest

/-- One attribute of the batch: absent when no item has it (line 342 only initialises the keys
of the union), else the concatenation of the shifted items (lines 447-456). -/
def batchKey {A K : Type} [Add K] (key : String) (get : Cochain F L → Option (List A))
    (shift : K → A → A) (inc : Cochain F L → Py K) (zero : K) (cs : List (Cochain F L)) :
    Py (Option (List A)) :=
  if key ∈ unionKeys cs then some <$> shiftLoop get shift inc zero cs else .ok none

/-- Shift of an adjacency column: both rows by the same offset. -/
def shiftPair (k : Nat) (p : Nat × Nat) : Nat × Nat := (p.1 + k, p.2 + k)

/-- Shift of an incidence column: row 0 and row 1 by their own offsets. -/
def shiftPair2 (k : Nat × Nat) (p : Nat × Nat) : Nat × Nat := (p.1 + k.1, p.2 + k.2)

/-- Lines 427-432: the segments of the batch vector and the pointer values after the initial 0.
Items whose number of cells is `None` contribute neither. -/
def batchLoop : Nat → Nat → List (Cochain F L) → Py (List (List Nat) × List Nat)
  | _, _, [] => .ok ([], [])
  | i, last, c :: cs => do
    let n ← c.numCells
    match n with
    | none => batchLoop (i + 1) last cs
    | some n => do
      let r ← batchLoop (i + 1) (last + n) cs
      return (List.replicate n i :: r.1, (last + n) :: r.2)

/-- No shift: keys for which `__inc__` returns 0 (lines 164-165). -/
def noShift {A : Type} (_ : Nat) (a : A) : A := a

/-- The zero increment of lines 164-165. -/
def incZero (_ : Cochain F L) : Py Nat := .ok 0

/-- `CochainBatch.from_cochain_list` (data/complex.py:323-458), without `follow_batch`.
`set.union(*[])` on an empty list raises `TypeError` (line 332). The batch is created with only
its dimension (line 335), so none of the explicit cell counts of the items survives. -/
def fromCochainList (cs : List (Cochain F L)) : Py (Cochain F L) :=
  match cs with
  | [] => .error .type
  | c0 :: _ => do
    pyAssert (!decide ("batch" ∈ unionKeys cs) && !decide ("ptr" ∈ unionKeys cs))
    let x ← batchKey "_Cochain__x" Cochain.x noShift incZero 0 cs
    let upperIndex ← batchKey "upper_index" Cochain.upperIndex shiftPair Cochain.incIndex 0 cs
    let lowerIndex ← batchKey "lower_index" Cochain.lowerIndex shiftPair Cochain.incIndex 0 cs
    let boundaryIndex ← batchKey "boundary_index" Cochain.boundaryIndex shiftPair2
      Cochain.incBoundary (0, 0) cs
    let sharedBoundaries ← batchKey "shared_boundaries" Cochain.sharedBoundaries (fun k a => a + k)
      Cochain.incSharedBoundaries 0 cs
    let sharedCoboundaries ← batchKey "shared_coboundaries" Cochain.sharedCoboundaries
      (fun k a => a + k) Cochain.incSharedCoboundaries 0 cs
    let y ← batchKey "y" Cochain.y noShift incZero 0 cs
    let upperOrient ← batchKey "upper_orient" Cochain.upperOrient noShift incZero 0 cs
    let lowerOrient ← batchKey "lower_orient" Cochain.lowerOrient noShift incZero 0 cs
    let mask ← batchKey "mask" Cochain.mask noShift incZero 0 cs
    let b ← batchLoop 0 0 cs
    return {
      dim := c0.dim
      x := x
      upperIndex := upperIndex
      lowerIndex := lowerIndex
      boundaryIndex := boundaryIndex
      sharedBoundaries := sharedBoundaries
      sharedCoboundaries := sharedCoboundaries
      y := y
      upperOrient := upperOrient
      lowerOrient := lowerOrient
      mask := mask
      batch := if b.1.isEmpty then none else some b.1.flatten
      ptr := if b.2.isEmpty then none else some (0 :: b.2) }

end Verif
