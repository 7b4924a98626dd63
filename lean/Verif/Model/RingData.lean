import Verif.Model.Dataset

/-!
# The ring-transfer dataset (data/datasets/ring_utils.py:61-103)

Feature entries are the integers 0 and 1 (floats in the code).
-/

namespace Verif

/-- The `Data` object that is generated. -/
structure RingGraph where
  x : List (List Int)
  edgeIndex : List (Nat × Nat)
  mask : List Bool
  y : List Nat
  deriving DecidableEq

/-- `np.argmax` of a vector: the first position of the maximum; `ValueError` on an empty one. -/
def argmax (l : List Int) : Py Nat :=
  match l.max? with
  | none => .error .value
  | some m => .ok (l.idxOf m)

/-- The edges of the ring (data/datasets/ring_utils.py:72-79). -/
def ringEdges (nodes : Nat) : List (Nat × Nat) :=
  (List.range (nodes - 1)).flatMap (fun i => [(i, i + 1), (i + 1, i)]) ++ [(0, nodes - 1), (nodes - 1, 0)]

/-- `generate_ring_transfer_graph` (data/datasets/ring_utils.py:61-90). -/
def ringTransferGraph (nodes : Nat) (target : List Int) : Py RingGraph := do
  let ones := List.replicate nodes (List.replicate target.length (1 : Int))
  let x ← modifyAt ones 0 fun _ => List.replicate target.length 0
  let x ← modifyAt x (nodes / 2) fun _ => target
  let mask ← modifyAt (List.replicate nodes false) 0 fun _ => true
  let y ← argmax target
  return { x := x, edgeIndex := ringEdges nodes, mask := mask, y := [y] }

/-- Python's `//` on non-negative numbers. -/
def floorDiv (a b : Nat) : Py Nat := if b = 0 then .error .zeroDivision else .ok (a / b)

/-- The body of the loop (data/datasets/ring_utils.py:97-102). -/
def ringTransferSample (nodes classes perClass i : Nat) : Py RingGraph := do
  let label ← floorDiv i perClass
  let target ← modifyAt (List.replicate classes (0 : Int)) label fun _ => 1
  ringTransferGraph nodes target

/-- `generate_ring_transfer_graph_dataset` (data/datasets/ring_utils.py:93-103). -/
def ringTransferDataset (nodes classes samples : Nat) : Py (List RingGraph) := do
  let perClass ← floorDiv samples classes
  mapE (ringTransferSample nodes classes perClass) (List.range samples)

/-- `load_ring_transfer_dataset` (data/datasets/ringtransfer.py:89-97): the graphs and the train and
validation indices. -/
def loadRingTransfer (nodes train test classes : Nat) : Py (List RingGraph × List Nat × List Nat) := do
  let tr ← ringTransferDataset nodes classes train
  let val ← ringTransferDataset nodes classes test
  return (tr ++ val, List.range tr.length, List.range' tr.length val.length)

end Verif
