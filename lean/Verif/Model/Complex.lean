import Verif.Model.Batch

/-!
# `Complex` and `ComplexBatch` (data/complex.py:490-728)
-/

namespace Verif

/-- The attributes of a `Complex` or `ComplexBatch` (data/complex.py:507-513, 686-688).
The dictionary `cochains` has the keys `0 .. dimension` (line 508), so it is a list; `nodes`,
`edges` and `two_cells` are its entries 0, 1, 2 (lines 509-511). `numComplexes` is only used by
batches. -/
structure Complex (F L : Type) where
  dimension : Nat
  cochains : List (Cochain F L)
  y : Option (List L) := none
  numComplexes : Option Nat := none
  deriving DecidableEq

variable {F L : Type}

/-- Lines 522-529 of `_consolidate` (data/complex.py): record the number of cells of the cochain
above. `'num_cells_up' in cochain` is `Cochain.contains`. -/
def consolidateUp (cochain : Cochain F L) (upper : Option (Cochain F L)) : Py (Cochain F L) :=
  match upper with
  | none => .ok cochain
  | some upper => do
    let numUp ← upper.numCells
    pyAssert numUp.isSome
    if cochain.contains "num_cells_up" then do
      let cur ← cochain.numCellsUp
      pyAssert (cur == numUp)
      return cochain
    else
      return { cochain with numCellsUpAttr := some numUp }

/-- Lines 530-537 of `_consolidate` (data/complex.py): record the number of cells of the cochain
below. -/
def consolidateDown (cochain : Cochain F L) (lower : Option (Cochain F L)) : Py (Cochain F L) :=
  match lower with
  | none => .ok cochain
  | some lower => do
    let numDown ← lower.numCells
    pyAssert numDown.isSome
    if cochain.contains "num_cells_down" then do
      let cur ← cochain.numCellsDown
      pyAssert (cur == numDown)
      return cochain
    else
      return { cochain with numCellsDownAttr := some numDown }

/-- `_consolidate` (data/complex.py:518-537) from dimension `dim` on. `lower` is the cochain of
the previous dimension as left by the previous iteration; the list is what is still to do.
Simplified: the cochains are mutated in place by the code and returned by the model. -/
def consolidateFrom (dim : Nat) (lower : Option (Cochain F L)) :
    List (Cochain F L) → Py (List (Cochain F L))
  | [] => .ok []
  | cochain :: rest => do
    pyAssert (cochain.dim == dim)
    let c1 ← consolidateUp cochain rest.head?
    let c2 ← consolidateDown c1 lower
    let rest' ← consolidateFrom (dim + 1) (some c2) rest
    return c2 :: rest'

/-- `Complex.__init__` (data/complex.py:498-516). -/
def Complex.new (cochains : List (Cochain F L)) (y : Option (List L)) (dimension : Option Nat) :
    Py (Complex F L) :=
  if cochains.length = 0 then .error .value
  else
    let dimension := dimension.getD (cochains.length - 1)
    if cochains.length < dimension + 1 then .error .value
    else do
      let cs ← consolidateFrom 0 none (cochains.take (dimension + 1))
      return { dimension := dimension, cochains := cs, y := y }

/-- Lines 708-718 of `from_complex_list`, for one complex and one dimension: the cochain of that
dimension, or a fresh one knowing the number of cells below (data/complex.py:710-718). -/
def cochainOrEmpty (dim : Nat) (comp : Complex F L) : Py (Cochain F L) :=
  match comp.cochains[dim]? with
  | some c => .ok c
  | none =>
    match dim with
    | 0 => .ok { dim := 0 }
    | d + 1 =>
      match comp.cochains[d]? with
      | none => .ok { dim := d + 1 }
      | some below => do
        let n ← below.numCells
        return { dim := d + 1, numCellsDownAttr := some n }

/-- Lines 706-707 and 719-721, 725 of `from_complex_list`: the concatenated labels as long as
every complex seen so far has some. -/
def labelLoop : Bool → List L → List (Complex F L) → Option (List L)
  | per, acc, [] => if per then some acc else none
  | per, acc, comp :: rest =>
    let per := per && comp.y.isSome
    let acc := if per then acc ++ comp.y.getD [] else acc
    labelLoop per acc rest

/-- `ComplexBatch.__init__` (data/complex.py:681-688). -/
def ComplexBatch.new (cochains : List (Cochain F L)) (dimension : Nat) (y : Option (List L))
    (numComplexes : Option Nat) : Py (Complex F L) := do
  let c ← Complex.new cochains y none
  return { c with numComplexes := numComplexes, dimension := dimension }

/-- `ComplexBatch.from_complex_list` (data/complex.py:690-728), without `follow_batch`.
`max([])` raises `ValueError` (line 703). -/
def fromComplexList (cs : List (Complex F L)) (maxDim : Nat) : Py (Complex F L) :=
  match (cs.map Complex.dimension).max? with
  | none => .error .value
  | some m => do
    let dimension := min m maxDim
    let cochains ← mapE (fun dim => mapE (cochainOrEmpty dim) cs) (List.range (dimension + 1))
    let batched ← mapE fromCochainList cochains
    ComplexBatch.new batched dimension (labelLoop true [] cs) (some cs.length)

/-- `set_xs` (data/complex.py:644-648): the cochains are assigned one after the other. -/
def setXsLoop : List (Cochain F L) → List (Option (List F)) → Py (List (Cochain F L))
  | cs, [] => .ok cs
  | [], _ :: _ => .error .key
  | c :: cs, x :: xs => do
    let c ← c.setX x
    let cs ← setXsLoop cs xs
    return c :: cs

/-- `set_xs` (data/complex.py:644-648), as a function to the updated complex. -/
def Complex.setXs (comp : Complex F L) (xs : List (Option (List F))) : Py (Complex F L) := do
  pyAssert (decide (xs.length ≤ comp.dimension + 1))
  let cs ← setXsLoop comp.cochains xs
  return { comp with cochains := cs }

/-- The object left behind by `set_xs`, also when it raises: assignments made before the failing
one are not undone (data/complex.py:647-648). -/
def Complex.setXsState (comp : Complex F L) (xs : List (Option (List F))) : Complex F L :=
  if xs.length ≤ comp.dimension + 1 then
    { comp with cochains := go comp.cochains xs }
  else comp
where
  /-- The sequence of assignments, stopping at the first exception. -/
  go : List (Cochain F L) → List (Option (List F)) → List (Cochain F L)
    | cs, [] => cs
    | [], _ :: _ => []
    | c :: cs, x :: xs =>
      match c.setX x with
      | .ok c' => c' :: go cs xs
      | .error _ => c :: cs

/-- `CochainMessagePassingParams` (mp/cell_mp.py:527-550). -/
structure MPParams (F : Type) where
  x : Option (List F)
  upIndex : Option (List (Nat × Nat)) := none
  downIndex : Option (List (Nat × Nat)) := none
  upAttr : Option (List F) := none
  downAttr : Option (List F) := none
  boundaryAttr : Option (List F) := none
  boundaryIndex : Option (List (Nat × Nat)) := none
  deriving DecidableEq

/-- `torch.index_select(x, 0, idx)` where `idx` may be `None` (then torch raises `TypeError`). -/
def indexSelectOpt (rows : List F) (idx : Option (List Nat)) : Py (List F) :=
  match idx with
  | some idx => indexSelect rows idx
  | none => .error .type

/-- Lines 572-580 of `get_cochain_params` (data/complex.py): the upper adjacency, exposed only
when the dimension above exists, and the features of the shared coboundaries. -/
def upParams (cells : Cochain F L) (above : Option (Cochain F L)) (dim maxDim : Nat)
    (includeTop : Bool) : Py (Option (List (Nat × Nat)) × Option (List F)) :=
  match cells.upperIndex, above with
  | some ui, some above =>
    match above.x with
    | some ax =>
      if dim < maxDim || includeTop then do
        let f ← indexSelectOpt ax cells.sharedCoboundaries
        return (some ui, some f)
      else .ok (some ui, none)
    | none => .ok (some ui, none)
  | _, _ => .ok (none, none)

/-- Lines 583-588 of `get_cochain_params` (data/complex.py): the lower adjacency and the features
of the shared boundaries. `belowX` is the feature matrix of the dimension below, if any. -/
def downParams (cells : Cochain F L) (belowX : Option (List F)) (includeDown : Bool) :
    Py (Option (List (Nat × Nat)) × Option (List F)) :=
  match includeDown, cells.lowerIndex with
  | true, some li =>
    match belowX with
    | some bx => do
      let f ← indexSelectOpt bx cells.sharedBoundaries
      return (some li, some f)
    | none => .ok (some li, none)
  | _, _ => .ok (none, none)

/-- Lines 590-594 of `get_cochain_params` (data/complex.py): the incidence and the features of
the whole dimension below. -/
def boundaryParams (cells : Cochain F L) (belowX : Option (List F)) (includeBoundary : Bool) :
    Option (List (Nat × Nat)) × Option (List F) :=
  match includeBoundary, cells.boundaryIndex with
  | true, some bi => (some bi, belowX)
  | _, _ => (none, none)

/-- `self.cochains[dim - 1].x` if `dim > 0` (data/complex.py:586, 593), else nothing. -/
def Complex.belowX (comp : Complex F L) (dim : Nat) : Option (List F) :=
  match dim with
  | 0 => none
  | d + 1 => (comp.cochains[d]?).bind Cochain.x

/-- `get_cochain_params` (data/complex.py:548-602). -/
def Complex.getCochainParams (comp : Complex F L) (dim : Nat) (maxDim : Nat := 2)
    (includeTop includeDown includeBoundary : Bool := true) : Py (MPParams F) :=
  match comp.cochains[dim]? with
  | none => .error .notImplemented
  | some cells => do
    let up ← upParams cells comp.cochains[dim + 1]? dim maxDim includeTop
    let down ← downParams cells (comp.belowX dim) includeDown
    let bnd := boundaryParams cells (comp.belowX dim) includeBoundary
    return { x := cells.x, upIndex := up.1, downIndex := down.1, upAttr := up.2,
             downAttr := down.2, boundaryAttr := bnd.2, boundaryIndex := bnd.1 }

/-- `get_all_cochain_params` (data/complex.py:604-626). -/
def Complex.getAllCochainParams (comp : Complex F L) (maxDim : Nat := 2)
    (includeTop includeDown includeBoundary : Bool := true) : Py (List (MPParams F)) :=
  mapE (fun dim => comp.getCochainParams dim maxDim includeTop includeDown includeBoundary)
    (List.range (min maxDim comp.dimension + 1))

/-- `get_labels` (data/complex.py:628-642). -/
def Complex.getLabels (comp : Complex F L) (dim : Option Nat) : Py (Option (List L)) :=
  match dim with
  | none => .ok comp.y
  | some d =>
    match comp.cochains[d]? with
    | some c => .ok c.y
    | none => .error .notImplemented

end Verif
