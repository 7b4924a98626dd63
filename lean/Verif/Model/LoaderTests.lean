import Verif.Model.Loader
import Verif.Model.RingProcess

/-!
# The tests of the loaders, of subsets and of the ring-transfer data (data/test_batching.py:1022-1061,
data/datasets/test_ringtransfer.py)
-/

namespace Verif

variable {F L R : Type}

/-- The batches of `DataLoader(dataset, batch_size, shuffle, max_dim=max_dim)` for a whole dataset
(data/data_loading.py:99-110); `shuffle` is the permutation drawn, if any. -/
def plainLoader (order : List (List Nat) → List (List Nat)) (ds : Dataset F L) (shuffle : Option (List Nat))
    (batchSize maxDim : Nat) : Py (List (Complex F L)) := do
  let positions ← samplerOf (ds.storage.len order) shuffle
  if batchSize = 0 then .error .value
  else ds.load order maxDim (chunks batchSize positions)

/-- `torch.cat(ys, dim=0)`: `RuntimeError` for an empty list, `TypeError` for an entry that is `None`. -/
def catLabels (ys : List (Option (List L))) : Py (List L) :=
  if ys.isEmpty then .error .runtime
  else if ys.all Option.isSome then .ok (ys.map (·.getD [])).flatten
  else .error .type

/-- `test_data_loader_shuffling` (data/test_batching.py:1022-1041) for a dataset, a permutation and a batch size (32 there).
The second loader finds the cache as the first one left it. -/
def shuffleTest [DecidableEq L] (order : List (List Nat) → List (List Nat)) (ds : Dataset F L) (permutation : List Nat)
    (batchSize maxDim : Nat) : Py Unit := do
  let plain ← plainLoader order ds none batchSize maxDim
  let after := (ds.getMany order (List.range (ds.storage.len order))).1
  let shuffled ← plainLoader order after (some permutation) batchSize maxDim
  let ys ← catLabels (plain.map (·.y))
  let ys' ← catLabels (shuffled.map (·.y))
  pyAssert (ys.length == ys'.length)
  pyAssert (decide (ys ≠ ys'))

/-- `test_idx_splitting_works` (data/test_batching.py:1043-1061) for a dataset with the validation ids `ids`: the labels of
the subset, and those read one by one. Indexing with the ids keeps them (see `splitLoader`); the copy has its own cache, so
the second reads start from the dataset as it was. -/
def idxSplitTest [DecidableEq L] (order : List (List Nat) → List (List Nat)) (ds : Dataset F L) (ids : List Nat) : Py Unit := do
  let indices ← mapE (getAt (List.range (ds.storage.len order))) ids
  let picked ← mapE (getAt indices) (List.range indices.length)
  let subset ← (ds.getMany order picked).2
  let single ← (ds.getMany order ids).2
  let ys1 ← catLabels (subset.map (·.y))
  let ys2 ← catLabels (single.map (·.y))
  pyAssert (decide (ys1 = ys2))

/-- `index.min()` and `index.max()` of a row of the edge index against the expected values
(data/datasets/test_ringtransfer.py:13-16): `RuntimeError` without entries. -/
def checkEnds (entries : List Nat) (top : Nat) : Py Unit :=
  match entries.min?, entries.max? with
  | some lo, some hi => do
    pyAssert (lo == 0)
    pyAssert (hi == top)
  | _, _ => .error .runtime

/-- The checks of one graph (data/datasets/test_ringtransfer.py:13-18). `x` is one tensor, so all its rows have the length
that is compared. Simplified: the four checks of the edge index are made row by row. -/
def checkRingGraph (nodes classes : Nat) (G : RingGraph) : Py Unit := do
  checkEnds (G.edgeIndex.map Prod.fst) (nodes - 1)
  checkEnds (G.edgeIndex.map Prod.snd) (nodes - 1)
  pyAssert (G.x.length == nodes)
  pyAssert (G.x.all fun row => row.length == classes)

/-- The body of the loop (data/datasets/test_ringtransfer.py:12-23); `labels` are the labels so far, from which the
dictionary of counts is read off at the end. `y.item()` needs one entry. -/
def ringTestStep (nodes classes : Nat) (labels : List Nat) (G : RingGraph) : Py (List Nat) := do
  checkRingGraph nodes classes G
  match G.y with
  | [l] => .ok (labels ++ [l])
  | _ => .error .runtime

/-- `test_ringtree_dataset_generation` (data/datasets/test_ringtransfer.py:9-26) for any number of nodes, samples and
classes; `each` is the expected number of graphs of a class. (10, 100, 5 and 20 there.)
Simplified: the sorted keys are the labels that occur, the values of the dictionary are how often they occur. -/
def ringGenerationTest (nodes samples classes each : Nat) : Py Unit := do
  let ds ← ringTransferDataset nodes classes samples
  let labels ← foldE (ringTestStep nodes classes) [] ds
  pyAssert (labels.all (fun l => decide (l < classes)) && (List.range classes).all fun k => labels.contains k)
  pyAssert (!labels.isEmpty && labels.all fun l => labels.count l == each)

/-- One cochain: its number of cells, and the sizes of its features (data/datasets/test_ringtransfer.py:35-43). `None` has no
`size`. -/
def checkCells (width : R → Nat) (n w : Nat) (c : Cochain R L) : Py Unit := do
  let k ← c.numCells
  pyAssert (decide (k = some n))
  match c.x with
  | none => .error .attribute
  | some rows => do
    pyAssert (rows.length == n)
    pyAssert (rows.all fun r => width r == w)

/-- One complex (data/datasets/test_ringtransfer.py:34-43). Simplified: the order of the checks is by dimension. -/
def checkDisc (width : R → Nat) (nodes classes : Nat) (comp : Complex R L) : Py Unit :=
  match comp.cochains with
  | v :: e :: r :: _ => do
    checkCells width 1 classes r
    checkCells width nodes classes e
    checkCells width nodes classes v
  | _ => .error .assertion

/-- `test_ringtree_dataset_conversion` (data/datasets/test_ringtransfer.py:29-43) for any number of nodes, samples and
classes (10, 10 and 5 there); the rings may have as many nodes as there are. -/
def ringConversionTest [DecidableEq R] (g : Gudhi) (lib : RingLib) (agg : List R → R) (width : R → Nat)
    (tensor : List Int → R) (nodes samples classes : Nat) : Py Unit := do
  let ds ← ringTransferDataset nodes classes samples
  let converted ← convertWithRings g lib agg width (ds.map (RingGraph.data tensor)) nodes false true true
  let _ ← mapE (checkDisc width nodes classes) converted.complexes
  return ()

end Verif
