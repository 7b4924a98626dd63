import Verif.Model.RingData
import Verif.Model.Lifting
import Mathlib.Data.List.Sort

/-!
# The ring-lookup graphs (data/datasets/ring_utils.py:10-58)

The random draws are parameters: a permutation of `0, …, nodes - 2` and a position in it.
-/

namespace Verif

/-- `LabelBinarizer().fit_transform` of scikit-learn on a vector of integers: `ValueError` on an empty vector, one
column of zeros for one class, one column for two classes (one for the larger class), otherwise one column for each
class in increasing order. -/
def binarize (l : List Nat) : Py (List (List Int)) :=
  match l.dedup.insertionSort (· ≤ ·) with
  | [] => .error .value
  | [_] => .ok (l.map fun _ => [0])
  | [_, b] => .ok (l.map fun v => [if v = b then 1 else 0])
  | cs => .ok (l.map fun v => cs.map fun c => if v = c then 1 else 0)

/-- `generate_ring_lookup_graph` (data/datasets/ring_utils.py:10-49) for the drawn values `vals`
(`np.random.permutation(nodes - 1)`) and position `keyIdx` (`random.randint(0, nodes - 2)`). Rows of equal length are
put side by side; row 0 has the key that was drawn and zeros for the value. -/
def ringLookupGraph (nodes : Nat) (vals : List Nat) (keyIdx : Nat) : Py RingGraph := do
  let keys := List.range' 1 (nodes - 1)
  let ohKeys ← binarize keys
  let ohVals ← binarize vals
  let rows := List.zipWith (· ++ ·) ohKeys ohVals
  let val ← getAt vals keyIdx
  let key ← getAt ohKeys keyIdx
  let width := (ohVals.headD []).length
  let mask ← modifyAt (List.replicate nodes false) 0 fun _ => true
  return { x := (key ++ List.replicate width 0) :: rows, edgeIndex := ringEdges nodes, mask := mask, y := [val] }

/-- `generate_ringlookup_graph_dataset` (data/datasets/ring_utils.py:52-58): one graph for each draw. -/
def ringLookupDataset (nodes : Nat) (draws : List (List Nat × Nat)) : Py (List RingGraph) :=
  mapE (fun d => ringLookupGraph nodes d.1 d.2) draws

/-- `load_ring_lookup_dataset` (data/datasets/ringlookup.py:86-94): the graphs and the train and validation indices. -/
def loadRingLookup (nodes : Nat) (train val : List (List Nat × Nat)) : Py (List RingGraph × List Nat × List Nat) := do
  let tr ← ringLookupDataset nodes train
  let va ← ringLookupDataset nodes val
  return (tr ++ va, List.range tr.length, List.range' tr.length va.length)

end Verif
