import Verif.Model.Loader
import Verif.Model.ToGraph

/-!
# The CLUSTER dataset (data/datasets/cluster.py)

The download is external: the three splits are arguments. Reading a processed file gives back what was written.
-/

namespace Verif

variable {F L : Type}

/-- `ClusterDataset.process` (data/datasets/cluster.py:53-77) on the three downloaded splits: the lists of complexes
that are written. The first two calls pass `self.include_down_adj`, which the constructor of the class leaves at the
default `False` of the base class (data/datasets/dataset.py:138-139); the call for the test graphs does not pass the
argument, whose default is `True` (data/utils.py:275). -/
def clusterProcess (g : Gudhi) (agg : List F → F) (width : F → Nat) (train val test : List (GraphData F L))
    (maxDim : Nat) : Py (List (List (Complex F L))) := do
  let a ← convertWithGudhi g agg width train maxDim false
  let b ← convertWithGudhi g agg width val maxDim false
  let c ← convertWithGudhi g agg width test maxDim
  return [a.complexes, b.complexes, c.complexes]

/-- `ClusterDataset.__init__` (data/datasets/cluster.py:14-25) with `load_dataset` (lines 42-51), when the processed
files are not there yet: the complexes and the ids of the three splits. -/
def clusterDataset (g : Gudhi) (agg : List F → F) (width : F → Nat) (train val test : List (GraphData F L))
    (maxDim : Nat) : Py (List (Complex F L) × Splits) := do
  let parts ← clusterProcess g agg width train val test maxDim
  let s := joinSplits parts
  let train ← getAt s.idx 0
  let val ← getAt s.idx 1
  let test ← getAt s.idx 2
  return (s.items, ⟨some train, some val, some test⟩)

end Verif
