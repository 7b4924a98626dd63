import Verif.Model.Embed

/-!
# The graph baselines (mp/graph_models.py, mp/ring_exp_models.py:76-127)
-/

namespace Verif

variable {𝕜 R : Type}

/-- A `Data` object of PyTorch Geometric, or a `Batch` of them. -/
structure GData (R : Type) where
  x : List R
  edges : List (Nat × Nat)
  mask : List Bool := []
  batch : List Nat := []

/-- The edges of a batch, from offset `off` on. -/
def gEdgesFrom : Nat → List (GData R) → List (Nat × Nat)
  | _, [] => []
  | off, g :: gs => (g.edges.map fun e => (e.1 + off, e.2 + off)) ++ gEdgesFrom (off + g.x.length) gs

/-- `Batch.from_data_list` of PyTorch Geometric (external contract; the graph loaders of
exp/run_exp.py:52-62): rows are concatenated, node indices are shifted by the number of nodes before, the
batch vector tells the graph of every node. -/
def gBatch (gs : List (GData R)) : GData R where
  x := gs.flatMap GData.x
  edges := gEdgesFrom 0 gs
  mask := gs.flatMap GData.mask
  batch := gs.zipIdx.flatMap fun gi => List.replicate gi.1.x.length gi.2

/-- The parameters of a `GINConv` (mp/graph_models.py:41-61): the network and `eps`, which is zero unless it is
trained. -/
structure GINLevel (𝕜 R : Type) where
  nn : R → R
  eps : 𝕜

/-- `GINConv.forward` of PyTorch Geometric (external contract): `nn((1 + eps) x_i + Σ_j x_j)`, messages from the
first to the second row of the edge index. -/
def GINLevel.forward [Field 𝕜] [AddCommMonoid R] [Module 𝕜 R] (l : GINLevel 𝕜 R) (x : List R)
    (edges : List (Nat × Nat)) : Py (List R) := do
  let out ← messageAndAggregate (A := R) (.plain id) aggAdd .sourceToTarget x.length x edges (some none)
  let out ← addScaled l.eps out x
  return out.map l.nn

/-- The loop over the layers (mp/graph_models.py:75-77, 135-139, 193-195, 253-257); all outputs are kept. -/
def runGIN [Field 𝕜] [AddCommMonoid R] [Module 𝕜 R] (edges : List (Nat × Nat)) :
    List R → List (GINLevel 𝕜 R) → Py (List (List R))
  | _, [] => .ok []
  | x, l :: ls => do
    let x ← l.forward x edges
    let rest ← runGIN edges x ls
    return x :: rest

/-- `GIN0`, `GIN`, `GIN0WithJK` and `GINWithJK` (mp/graph_models.py:33-63, 88-122, 151-181, 206-240): `convs` are
the layers after the first one. -/
structure GINNet (𝕜 R : Type) where
  conv1 : GINLevel 𝕜 R
  convs : List (GINLevel 𝕜 R)
  jump : Option (List R → R) := none
  readout : String := "sum"
  act : R → R
  lin1 : R → R
  lin2 : R → R

/-- What goes to the pooling: the last output, or the jumping knowledge of all of them
(mp/graph_models.py:75-78, 140). -/
def ginFinal (jump : Option (List R → R)) (outs : List (List R)) : Py (List R) :=
  match jump with
  | none => .ok (outs.getLast?.getD [])
  | some f => jumpRows f outs

/-- `global_add_pool(x, batch)` and `global_mean_pool(x, batch)` (external contract): as many rows as the largest
entry of the batch vector says. -/
def globalPool (𝕜 : Type) [Field 𝕜] [AddCommMonoid R] [Module 𝕜 R] (pool : Pooling) (x : List R)
    (batch : List Nat) : Py (List R) := do
  let n ← Cochain.maxPlusOne batch
  scatter (pool.agg 𝕜) n batch x

/-- The `forward` of the four models in evaluation mode (mp/graph_models.py:72-82, 132-145, 190-200, 250-263). -/
def GINNet.forward [Field 𝕜] [AddCommMonoid R] [Module 𝕜 R] (net : GINNet 𝕜 R) (data : GData R) :
    Py (List R) := do
  let outs ← runGIN data.edges data.x (net.conv1 :: net.convs)
  let x ← ginFinal net.jump outs
  let pool ← getPoolingFn net.readout
  let x ← globalPool 𝕜 pool x data.batch
  return x.map fun r => net.lin2 (net.act (net.lin1 r))

/-- The parameters of `RingGIN` (mp/ring_exp_models.py:77-108). -/
structure RingGIN (𝕜 R : Type) where
  initLinear : R → R
  conv1 : GINLevel 𝕜 R
  convs : List (GINLevel 𝕜 R)
  act : R → R
  lin1 : R → R

/-- `RingGIN.forward` (mp/ring_exp_models.py:117-127): the nonlinearity is applied after the first layer only. -/
def RingGIN.forward [Field 𝕜] [AddCommMonoid R] [Module 𝕜 R] (net : RingGIN 𝕜 R) (data : GData R) :
    Py (List R) := do
  let x ← net.conv1.forward (data.x.map net.initLinear) data.edges
  let outs ← runGIN data.edges (x.map net.act) net.convs
  let x ← maskRows (outs.getLast?.getD (x.map net.act)) (some data.mask)
  return x.map net.lin1

end Verif
