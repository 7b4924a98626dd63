import Verif.Model.Convert

/-!
# Storing complexes in memory (data/datasets/dataset.py)
-/

namespace Verif

variable {F L A : Type}

/-- The stored values of one attribute: `data[dim][key]` after packing, and `slices[dim][key]`. -/
structure Column (A : Type) where
  data : List A
  slices : List Nat
  deriving DecidableEq

/-- One more complex (data/datasets/dataset.py:266-288): its values are appended; the last slice grows by
their number, by 0 if the complex does not have the attribute. All stored attributes are tensors of fixed
rank, so the checks on types and dimensions are left out. -/
def Column.add (col : Column A) (value : Option (List A)) : Column A :=
  match value with
  | some v => { data := col.data ++ v, slices := col.slices ++ [col.slices.getLastD 0 + v.length] }
  | none => { col with slices := col.slices ++ [col.slices.getLastD 0] }

/-- The column of an attribute for one dimension: absent if no complex has the attribute (`collect_keys`,
data/datasets/dataset.py:240-248), else filled from `[0]` (lines 229-238). Concatenating the tensors at the
end (lines 315-326) is done on the way. -/
def collectColumn (get : Cochain F L → Option (List A)) (level : List (Option (Cochain F L))) :
    Option (Column A) :=
  if level.any (fun c => (c.bind get).isSome) then
    some (level.foldl (fun col c => col.add (c.bind get)) { data := [], slices := [0] })
  else none

/-- The storage of one dimension: `data[dim]` with `slices[dim]`. -/
structure DimStore (F L : Type) where
  x : Option (Column F)
  upperIndex : Option (Column (Nat × Nat))
  lowerIndex : Option (Column (Nat × Nat))
  sharedBoundaries : Option (Column Nat)
  sharedCoboundaries : Option (Column Nat)
  boundaryIndex : Option (Column (Nat × Nat))
  upperOrient : Option (Column Int)
  lowerOrient : Option (Column Int)
  y : Option (Column L)
  mask : Option (Column Bool)
  batch : Option (Column Nat)
  ptr : Option (Column Nat)
  numCells : List (Option Nat)
  numCellsUp : List (Option Nat)
  numCellsDown : List (Option Nat)

/-- The value recorded for one of the counts (data/datasets/dataset.py:290-303): `None` without a cochain or
without the attribute. -/
def countOf (get : Cochain F L → Option (Option Nat)) (c : Option (Cochain F L)) : Option Nat :=
  (c.bind get).getD none

/-- The storage of one dimension, from the cochains of that dimension (`None` for complexes that do not have
the dimension). -/
def collectDim (level : List (Option (Cochain F L))) : DimStore F L where
  x := collectColumn Cochain.x level
  upperIndex := collectColumn Cochain.upperIndex level
  lowerIndex := collectColumn Cochain.lowerIndex level
  sharedBoundaries := collectColumn Cochain.sharedBoundaries level
  sharedCoboundaries := collectColumn Cochain.sharedCoboundaries level
  boundaryIndex := collectColumn Cochain.boundaryIndex level
  upperOrient := collectColumn Cochain.upperOrient level
  lowerOrient := collectColumn Cochain.lowerOrient level
  y := collectColumn Cochain.y level
  mask := collectColumn Cochain.mask level
  batch := collectColumn Cochain.batch level
  ptr := collectColumn Cochain.ptr level
  numCells := level.map (countOf Cochain.numCellsAttr)
  numCellsUp := level.map (countOf Cochain.numCellsUpAttr)
  numCellsDown := level.map (countOf Cochain.numCellsDownAttr)

/-- `data['labels']`: one tensor, or the list of what the complexes had. -/
inductive LabelStore (L : Type)
  | tensor (rows : List L)
  | list (ys : List (Option (List L)))

/-- Lines 304-309: a label that is a tensor must have one row. -/
def checkOneLabel (comp : Complex F L) : Py Unit :=
  match comp.y with
  | none => .ok ()
  | some l => pyAssert (l.length == 1)

/-- The labels are packed according to the first one (data/datasets/dataset.py:332-341): `torch.cat` of a
list containing `None` is a `TypeError`. -/
def packLabels : List (Option (List L)) → Py (LabelStore L)
  | [] => .error .index
  | none :: rest => .ok (.list (none :: rest))
  | some l :: rest =>
    if (some l :: rest).all Option.isSome then .ok (.tensor ((some l :: rest).map (·.getD [])).flatten)
    else .error .type

/-- The storage: `data` and `slices`. The dimensions are those up to `max_dim`. -/
structure Storage (F L : Type) where
  levels : List (DimStore F L)
  labels : LabelStore L
  dims : List Nat

/-- `collate` (data/datasets/dataset.py:224-345). -/
def collate (cs : List (Complex F L)) (maxDim : Nat) : Py (Storage F L) := do
  let _ ← mapE checkOneLabel cs
  let labels ← packLabels (cs.map Complex.y)
  return { levels := (List.range (maxDim + 1)).map fun dim => collectDim (cs.map fun c => c.cochains[dim]?),
           labels := labels,
           dims := cs.map Complex.dimension }

/-- The values of one attribute of one complex (data/datasets/dataset.py:204-219): absent when the slice is
empty. -/
def Column.read (col : Column A) (idx : Nat) : Py (Option (List A)) := do
  let start ← getAt col.slices idx
  let stop ← getAt col.slices (idx + 1)
  return if start ≠ stop then some ((col.data.drop start).take (stop - start)) else none

/-- The same for a key that may not be stored. -/
def readOpt (col : Option (Column A)) (idx : Nat) : Py (Option (List A)) :=
  match col with
  | none => .ok none
  | some c => c.read idx

/-- A recorded count that is `None` is not set (data/datasets/dataset.py:195-200). -/
def countAttr (n : Option Nat) : Option (Option Nat) := n.map some

/-- The number of cells below is also set to `None` for the vertices (data/datasets/dataset.py:199-202). -/
def downAttr (dim : Nat) (n : Option Nat) : Option (Option Nat) :=
  match n with
  | some n => some (some n)
  | none => if dim = 0 then some none else none

/-- `_get_cochain` (data/datasets/dataset.py:187-222), without the final test. -/
def readCochain (store : DimStore F L) (dim idx : Nat) : Py (Cochain F L) := do
  let n ← getAt store.numCells idx
  let up ← getAt store.numCellsUp idx
  let down ← getAt store.numCellsDown idx
  let x ← readOpt store.x idx
  let upperIndex ← readOpt store.upperIndex idx
  let lowerIndex ← readOpt store.lowerIndex idx
  let boundaryIndex ← readOpt store.boundaryIndex idx
  let y ← readOpt store.y idx
  let sharedBoundaries ← readOpt store.sharedBoundaries idx
  let sharedCoboundaries ← readOpt store.sharedCoboundaries idx
  let upperOrient ← readOpt store.upperOrient idx
  let lowerOrient ← readOpt store.lowerOrient idx
  let mask ← readOpt store.mask idx
  let batch ← readOpt store.batch idx
  let ptr ← readOpt store.ptr idx
  return { dim := dim, x := x, upperIndex := upperIndex, lowerIndex := lowerIndex,
           sharedBoundaries := sharedBoundaries, sharedCoboundaries := sharedCoboundaries,
           boundaryIndex := boundaryIndex, upperOrient := upperOrient, lowerOrient := lowerOrient,
           y := y, mask := mask, batch := batch, ptr := ptr,
           numCellsAttr := countAttr n, numCellsUpAttr := countAttr up, numCellsDownAttr := downAttr dim down }

/-- `_get_cochain` with the test whether the cochain is empty (data/datasets/dataset.py:220-222): it is
dropped (line 164) when its number of cells is not known. -/
def getCochain (store : DimStore F L) (dim idx : Nat) : Py (Option (Cochain F L)) := do
  let c ← readCochain store dim idx
  let n ← c.numCells
  return if n.isSome then some c else none

/-- The label of a complex (data/datasets/dataset.py:166-176). -/
def readLabel (labels : LabelStore L) (idx : Nat) : Py (Option (List L)) :=
  match labels with
  | .tensor rows => .ok (some ((rows.drop idx).take 1))
  | .list ys => do
    let y ← getAt ys idx
    pyAssert y.isNone
    return y

/-- `get` without the cache (data/datasets/dataset.py:163-180). -/
def Storage.read (st : Storage F L) (idx : Nat) : Py (Complex F L) := do
  let retrieved ← mapE (fun p => getCochain p.1 p.2 idx) st.levels.zipIdx
  let cochains := retrieved.filterMap id
  let target ← readLabel st.labels idx
  let dim ← getAt st.dims idx
  pyAssert (decide (dim + 1 = cochains.length))
  Complex.new cochains target none

/-- The slices of a dimension, in some order. -/
def DimStore.allSlices (s : DimStore F L) : List (List Nat) :=
  [s.x.map (·.slices), s.upperIndex.map (·.slices), s.lowerIndex.map (·.slices), s.boundaryIndex.map (·.slices),
    s.y.map (·.slices), s.sharedBoundaries.map (·.slices), s.sharedCoboundaries.map (·.slices),
    s.upperOrient.map (·.slices), s.lowerOrient.map (·.slices), s.mask.map (·.slices), s.batch.map (·.slices),
    s.ptr.map (·.slices)].filterMap id

/-- `len` (data/datasets/dataset.py:146-150): from the first slices found. `order` is the order in which the
slices of a dimension are iterated, that of a dictionary filled from a set. -/
def Storage.len (order : List (List Nat) → List (List Nat)) (st : Storage F L) : Nat :=
  match (st.levels.flatMap fun s => order s.allSlices).head? with
  | some slices => slices.length - 1
  | none => 0

/-- A dataset: the storage and `__data_list__`. -/
structure Dataset (F L : Type) where
  storage : Storage F L
  cache : Option (List (Option (Complex F L)))

/-- What `get` finds in the cache (data/datasets/dataset.py:154-161): the cache after the lookup, and the
complex if it is there. -/
def Dataset.lookup (order : List (List Nat) → List (List Nat)) (ds : Dataset F L) (idx : Nat) :
    Py (List (Option (Complex F L)) × Option (Complex F L)) :=
  match ds.cache with
  | none => .ok (List.replicate (ds.storage.len order) none, none)
  | some cache => do
    let entry ← getAt cache idx
    return (cache, entry)

/-- `get` (data/datasets/dataset.py:152-185), with the state left behind also when it raises. `copy.copy` of
a complex is the complex: nothing is modified between reads in this model. -/
def Dataset.get (order : List (List Nat) → List (List Nat)) (ds : Dataset F L) (idx : Nat) :
    Dataset F L × Py (Complex F L) :=
  match ds.lookup order idx with
  | .error e => (ds, .error e)
  | .ok (cache, some comp) => ({ ds with cache := some cache }, .ok comp)
  | .ok (cache, none) =>
    match ds.storage.read idx with
    | .error e => ({ ds with cache := some cache }, .error e)
    | .ok comp =>
      match modifyAt cache idx (fun _ => some comp) with
      | .error e => ({ ds with cache := some cache }, .error e)
      | .ok cache => ({ ds with cache := some cache }, .ok comp)

/-- A sequence of reads. -/
def Dataset.reads (order : List (List Nat) → List (List Nat)) : Dataset F L → List Nat → List (Py (Complex F L))
  | _, [] => []
  | ds, idx :: rest => (ds.get order idx).2 :: Dataset.reads order (ds.get order idx).1 rest

/-- The reads of a list comprehension `[self.get(i) for i in idx]`: the first exception stops it. -/
def Dataset.getAll (order : List (List Nat) → List (List Nat)) : Dataset F L → List Nat → Py (List (Complex F L))
  | _, [] => .ok []
  | ds, idx :: rest => do
    let comp ← (ds.get order idx).2
    let comps ← Dataset.getAll order (ds.get order idx).1 rest
    return comp :: comps

/-- `collate(data_list)` without its second argument is a `TypeError` whatever the data
(data/datasets/dataset.py:225, 360). -/
def collateWithoutDim (_ : List (Complex F L)) : Py (Storage F L) := .error .type

/-- `copy` (data/datasets/dataset.py:352-362). -/
def Dataset.copy (order : List (List Nat) → List (List Nat)) (ds : Dataset F L) (idx : Option (List Nat)) :
    Py (Dataset F L) := do
  let comps ← ds.getAll order (idx.getD (List.range (ds.storage.len order)))
  let storage ← collateWithoutDim comps
  return { storage := storage, cache := some (comps.map some) }

end Verif
