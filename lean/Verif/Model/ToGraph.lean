import Verif.Model.Convert

/-!
# The graph of a complex and the splits of a dataset

data/dummy_complexes.py:8-25, data/datasets/zinc.py:52-93, cluster.py:46-56, dataset.py:101-106, 364-372
-/

namespace Verif

variable {F L A : Type}

/-- `num_cells > 0`; comparing `None` is a `TypeError`. -/
def positive : Option Nat → Py Bool
  | none => .error .type
  | some n => .ok (decide (0 < n))

/-- The edge features of the graph (data/dummy_complexes.py:20-21): those of the shared edges, if there are
edges with features. -/
def sharedEdgeFeatures (comp : Complex F L) (c : Cochain F L) : Py (Option (List F)) :=
  match (comp.cochains[1]?).bind Cochain.x, c.sharedCoboundaries with
  | some rows, some s => some <$> indexSelect rows s
  | _, _ => .ok none

/-- `convert_to_graph` (data/dummy_complexes.py:8-25). The empty tensor that stands for missing edge features
(line 23) is `none`. -/
def convertToGraph (comp : Complex F L) : Py (GraphData F L) :=
  match comp.cochains[0]? with
  | none => .error .assertion
  | some c => do
    let n ← c.numCells
    let pos ← positive n
    pyAssert pos
    match c.upperIndex with
    | none => return { x := c.x, edgeIndex := [], numNodes := n.getD 0, y := comp.y }
    | some up => do
      let attr ← sharedEdgeFeatures comp c
      return { x := c.x, edgeIndex := up, edgeAttr := attr, numNodes := n.getD 0, y := comp.y }

/-- The state of the loop over the splits: the items so far, the lists of indices so far, and `start`. -/
structure SplitState (A : Type) where
  items : List A
  idx : List (List Nat)
  start : Nat

/-- One split (data/datasets/zinc.py:67-69, 78-80, 89-90, cluster.py:51-54). -/
def addSplit (s : SplitState A) (part : List A) : SplitState A :=
  let items := s.items ++ part
  { items := items, idx := s.idx ++ [List.range' s.start (items.length - s.start)], start := items.length }

/-- All splits one after the other (data/datasets/zinc.py:56-90, cluster.py:46-56). -/
def joinSplits (parts : List (List A)) : SplitState A :=
  parts.foldl addSplit { items := [], idx := [], start := 0 }

/-- The sizes `load_zinc_graph_dataset` asks for (data/datasets/zinc.py:121-128). -/
def zincSizes (subset : Bool) : Nat × Nat × Nat :=
  if subset then (10000, 1000, 1000) else (220011, 24445, 5000)

/-- `load_zinc_graph_dataset` (data/datasets/zinc.py:113-138) with the three downloaded datasets. -/
def loadZincGraphs (subset : Bool) (train val test : List A) :
    Py (List A × List Nat × List Nat × List Nat) := do
  pyAssert (decide (train.length = (zincSizes subset).1))
  pyAssert (decide (val.length = (zincSizes subset).2.1))
  pyAssert (decide (test.length = (zincSizes subset).2.2))
  return (train ++ val ++ test, List.range' 0 train.length, List.range' train.length val.length,
    List.range' (train.length + val.length) test.length)

/-- The index lists of a dataset (data/datasets/dataset.py:101-106). -/
structure SplitIds where
  train : Option (List Nat)
  valid : Option (List Nat)
  test : Option (List Nat)

/-- `get_split` (data/datasets/dataset.py:364-372). `subset` says that the dataset is itself a selection
(`__indices__` is set). Selecting with a list gives the items at its positions (torch_geometric's
`Dataset.__getitem__`); here they are read at once. -/
def getSplit (items : List A) (ids : SplitIds) (subset : Bool) (name : String) : Py (List A) := do
  let idx ← (if name = "train" then .ok ids.train
    else if name = "valid" then .ok ids.valid
    else if name = "test" then .ok ids.test
    else .error .value : Py (Option (List Nat)))
  match idx with
  | none => .error .assertion
  | some l => do
    pyAssert (!subset)
    mapE (getAt items) l

end Verif
