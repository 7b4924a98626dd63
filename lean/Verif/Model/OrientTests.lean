import Verif.Model.FlowData
import Verif.Model.Oriented

/-!
# The tests of the oriented networks (mp/test_orientation.py)

The matrices, the features, the diagonal of `T2` and the weights, which are literals and random numbers in the tests, are
arguments. `torch.equal` and `torch.allclose` compare exactly.
-/

namespace Verif

variable {R L : Type}

/-- `EdgeOrient.forward` and `EdgeMPNN.forward` with `include_partial=True` (mp/models.py:522-547, 590-616): the
predictions and the features of the edges after the last layer. Simplified: dropout is left out, its rate is 0 in the
tests. -/
def OrientNet.forwardPartial (𝕜 : Type) [Field 𝕜] [AddCommGroup R] [Module 𝕜 R] (net : OrientNet R)
    (data : Cochain R L) : Py (List R × List R) := do
  let data ← net.prepare data
  let out ← runOriented data net.convs
  match out.2 with
  | none => .error .name
  | some cells =>
    match out.1.batch with
    | none => .error .attribute
    | some b => do
      let n ← Cochain.maxPlusOne b
      let x := if net.fullyInvar then cells else cells.map net.abs
      let pool ← getPoolingFn net.readout
      let pooled ← scatter (pool.agg 𝕜) n b x
      return (pooled.map fun r => net.lin2 (net.relu (net.lin1 r)), cells)

section
variable [AddCommGroup R]

/-- `generate_oriented_flow_pair` (mp/test_orientation.py:12-38), with `diag` the diagonal of `T2`. -/
def orientedPair (lib : SparseLib) (B1 B2 : Mat) (diag : List Int) (x : List R) (label : L) :
    Py (Cochain R L × Cochain R L) := do
  let c1 ← buildCochain lib B1 B2 (Mat.identity x.length) x label none
  let c2 ← buildCochain lib B1 B2 (Mat.diag diag) x label none
  return (c1, c2)

/-- The first two assertions of every test (mp/test_orientation.py:67-68, 85-86, 102-103, 119-120, 136-137). -/
def sameIndices (p : Cochain R L × Cochain R L) : Py Unit := do
  pyAssert (decide (p.1.lowerIndex = p.2.lowerIndex))
  pyAssert (decide (p.1.upperIndex = p.2.upperIndex))

/-- `layer.propagate(…)` with the orientations as attributes (mp/test_orientation.py:73-76). -/
def orientPropagate (l : OrientedLevel R) (c : Cochain R L) : Py (List R × List R × List R) :=
  propagate l.cfg c.upperIndex c.lowerIndex none c.x (some c.upperOrient) (some c.lowerOrient) none

/-- `cochain.x + out_up + out_down` (mp/test_orientation.py:80). -/
def orientTotal (c : Cochain R L) (out : List R × List R × List R) : Py (List R) :=
  match c.x with
  | none => .error .type
  | some x => zipRows (· + ·) x out.1 >>= fun s => zipRows (· + ·) s out.2.1

variable [DecidableEq R]

/-- `test_edge_orient_conv_is_orientation_equivariant` (mp/test_orientation.py:65-80). -/
def orientConvTest (lib : SparseLib) (B1 B2 : Mat) (diag : List Int) (x : List R) (label : L) (l : OrientedLevel R) :
    Py Unit := do
  let p ← orientedPair lib B1 B2 diag x label
  sameIndices p
  let out1 ← orientPropagate l p.1
  let out2 ← orientPropagate l p.2
  let up ← dotRows (Mat.diag diag) out1.1
  pyAssert (decide (up = out2.1))
  let down ← dotRows (Mat.diag diag) out1.2.1
  pyAssert (decide (down = out2.2.1))
  let total1 ← orientTotal p.1 out1
  let total ← dotRows (Mat.diag diag) total1
  let total2 ← orientTotal p.2 out2
  pyAssert (decide (total = total2))

/-- The two runs of a network in the tests, each on a batch of one cochain (mp/test_orientation.py:92-93, 109-110, 126-127,
143-144). -/
def orientRuns (𝕜 : Type) [Field 𝕜] [Module 𝕜 R] (net : OrientNet R) (p : Cochain R L × Cochain R L) :
    Py ((List R × List R) × (List R × List R)) := do
  let r1 ← fromCochainList [p.1] >>= net.forwardPartial 𝕜
  let r2 ← fromCochainList [p.2] >>= net.forwardPartial 𝕜
  return (r1, r2)

/-- `test_edge_orient_model_with_tanh_is_orientation_equivariant_and_invariant_at_readout` and the same with `id`
(mp/test_orientation.py:83-114). -/
def orientNetTest (𝕜 : Type) [Field 𝕜] [Module 𝕜 R] (lib : SparseLib) (B1 B2 : Mat) (diag : List Int) (x : List R)
    (label : L) (net : OrientNet R) : Py Unit := do
  let p ← orientedPair lib B1 B2 diag x label
  sameIndices p
  let r ← orientRuns 𝕜 net p
  let cells ← dotRows (Mat.diag diag) r.1.2
  pyAssert (decide (cells = r.2.2))
  pyAssert (decide (r.1.1 = r.2.1))

/-- `test_edge_orient_model_with_relu_is_not_orientation_equivariant_or_invariant` (mp/test_orientation.py:117-131). -/
def orientReluTest (𝕜 : Type) [Field 𝕜] [Module 𝕜 R] (lib : SparseLib) (B1 B2 : Mat) (diag : List Int) (x : List R)
    (label : L) (net : OrientNet R) : Py Unit := do
  let p ← orientedPair lib B1 B2 diag x label
  sameIndices p
  let r ← orientRuns 𝕜 net p
  let cells ← dotRows (Mat.diag diag) r.1.2
  pyAssert (!decide (cells = r.2.2))
  pyAssert (!decide (r.1.2 = r.2.2))

/-- `test_edge_mpnn_model_is_orientation_invariant` (mp/test_orientation.py:134-147). -/
def orientMPNNTest (𝕜 : Type) [Field 𝕜] [Module 𝕜 R] (lib : SparseLib) (B1 B2 : Mat) (diag : List Int) (x : List R)
    (label : L) (net : OrientNet R) : Py Unit := do
  let p ← orientedPair lib B1 B2 diag x label
  sameIndices p
  let r ← orientRuns 𝕜 net p
  pyAssert (decide (r.1.2 = r.2.2))

/-- Raise unless `b`. -/
def pyAssertOr (e : PyErr) (b : Bool) : Py Unit := if b then .ok () else .error e

/-- `test_edge_orient_model_on_flow_dataset_with_batching` (mp/test_orientation.py:40-62), with `batches` the lists of
cochains that the loader puts into the batches of the first part. `torch.cat` of no tensors raises `RuntimeError`. -/
def orientBatchTest (𝕜 : Type) [Field 𝕜] [Module 𝕜 R] (net : OrientNet R) (batches : List (List (Cochain R L)))
    (dataset : List (Cochain R L)) : Py Unit := do
  let bs ← mapE (fun cs => fromCochainList cs >>= net.forward 𝕜) batches
  pyAssertOr .runtime (!bs.isEmpty)
  let ss ← mapE (fun c => fromCochainList [c] >>= net.forward 𝕜) dataset
  pyAssertOr .runtime (!ss.isEmpty)
  pyAssert (decide (ss.flatten.length = bs.flatten.length))
  pyAssert (decide (ss.flatten = bs.flatten))

end

end Verif
