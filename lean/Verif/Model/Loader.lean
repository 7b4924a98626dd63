import Verif.Model.Dataset
import Verif.Model.Experiment

/-!
# Data loaders (data/data_loading.py:44-110, data/datasets/dataset.py:97-102 and 364-372, exp/run_exp.py:84-99)

The base classes `torch.utils.data.DataLoader` and `torch_geometric.data.Dataset` are external. What is used of them:
indexing a dataset with a list of indices keeps these indices and reads `get(indices[j])` for position `j`, raising
`IndexError` for an index that is not below the length; a loader goes through the positions in order or, with
`shuffle`, in some permutation; it cuts them into parts of `batch_size`, the last of which may be shorter
(`drop_last=False`); a batch size of 0 and shuffling an empty dataset are `ValueError`s.
-/

namespace Verif

variable {F L A : Type}

/-- `train_ids`, `val_ids` and `test_ids`, the values of `get_idx_split` (data/datasets/dataset.py:97-102). -/
structure Splits where
  train : Option (List Nat)
  valid : Option (List Nat)
  test : Option (List Nat)

/-- The ids of a split by name (data/datasets/dataset.py:365-367). -/
def Splits.find (splits : Splits) (split : String) : Py (Option (List Nat)) :=
  if split = "train" then .ok splits.train
  else if split = "valid" then .ok splits.valid
  else if split = "test" then .ok splits.test
  else .error .value

/-- `get_split` (data/datasets/dataset.py:364-372) up to the indexing: the ids of the split. `indices` is
`__indices__`, set for a subset of a dataset. -/
def splitIds (splits : Splits) (indices : Option (List Nat)) (split : String) : Py (List Nat) := do
  let ids ← splits.find split
  match ids with
  | none => .error .assertion
  | some ids => if indices.isSome then .error .assertion else .ok ids

/-- The parts of length `b` of a list (`BatchSampler`, external), with fuel. -/
def chunksFrom (b : Nat) : Nat → List A → List (List A)
  | 0, _ => []
  | _, [] => []
  | fuel + 1, l => l.take b :: chunksFrom b fuel (l.drop b)

/-- The parts of length `b > 0` of a list, the last one possibly shorter. -/
def chunks (b : Nat) (l : List A) : List (List A) := chunksFrom b l.length l

/-- The items of one batch, `[dataset[i] for i in part]`, with the state of the dataset after reading them. -/
def Dataset.getMany (order : List (List Nat) → List (List Nat)) :
    Dataset F L → List Nat → Dataset F L × Py (List (Complex F L))
  | ds, [] => (ds, .ok [])
  | ds, i :: rest =>
    match ds.get order i with
    | (ds, .error e) => (ds, .error e)
    | (ds, .ok c) =>
      match Dataset.getMany order ds rest with
      | (ds, .error e) => (ds, .error e)
      | (ds, .ok cs) => (ds, .ok (c :: cs))

/-- The batches of a loader with `Collater(max_dim).collate` on complexes (data/data_loading.py:51-60). The loader
reads the items of a batch when the batch is asked for; here all the batches are made before the first is used, which
differs only in how far one gets before an exception. -/
def Dataset.load (order : List (List Nat) → List (List Nat)) (maxDim : Nat) :
    Dataset F L → List (List Nat) → Py (List (Complex F L))
  | _, [] => .ok []
  | ds, ids :: rest => do
    let comps ← (ds.getMany order ids).2
    let batch ← fromComplexList comps maxDim
    let batches ← Dataset.load order maxDim (ds.getMany order ids).1 rest
    return batch :: batches

/-- The positions in the order of the sampler: `shuffle` is the permutation drawn, if any. -/
def samplerOf (n : Nat) (shuffle : Option (List Nat)) : Py (List Nat) :=
  match shuffle with
  | none => .ok (List.range n)
  | some p => if n = 0 then .error .value else .ok p

/-- The batches of `DataLoader(dataset.get_split(split), batch_size, shuffle, max_dim=max_dim)`
(data/data_loading.py:99-110). -/
def splitLoader (order : List (List Nat) → List (List Nat)) (ds : Dataset F L) (splits : Splits) (split : String)
    (shuffle : Option (List Nat)) (batchSize maxDim : Nat) : Py (List (Complex F L)) := do
  let ids ← splitIds splits none split
  let indices ← mapE (getAt (List.range (ds.storage.len order))) ids
  let positions ← samplerOf indices.length shuffle
  if batchSize = 0 then .error .value
  else do
    let picked ← mapE (getAt indices) positions
    ds.load order maxDim (chunks batchSize picked)

/-- The loaders of an experiment (exp/run_exp.py:84-99): with `tune` the splits are asked from `get_tune_idx_split`,
but only the presence of a test split is used. Each loader starts from its own copy of the dataset. -/
def runLoaders (order : List (List Nat) → List (List Nat)) (ds : Dataset F L) (splits : Splits)
    (tuneSplits : Py Splits) (tune : Bool) (shuffle : List Nat) (batchSize maxDim : Nat) :
    Py (List (Complex F L) × List (Complex F L) × Option (List (Complex F L))) := do
  let used ← if tune then tuneSplits else .ok splits
  let train ← splitLoader order ds splits "train" (some shuffle) batchSize maxDim
  let valid ← splitLoader order ds splits "valid" none batchSize maxDim
  match used.test with
  | none => return (train, valid, none)
  | some _ => do
    let test ← splitLoader order ds splits "test" none batchSize maxDim
    return (train, valid, some test)

end Verif
