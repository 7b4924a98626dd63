import Verif.Model.GraphNets
import Verif.Model.TrainMode

/-!
# The graph baselines in training mode (mp/graph_models.py, mp/ring_exp_models.py:76-127)

As in `Verif.Model.TrainMode`, the dropout rate is 0.
-/

namespace Verif

variable {𝕜 R : Type}

/-- A `GINConv` with the network that the models build: linear map, normalisation and nonlinearity, twice
(mp/graph_models.py:41-61, mp/ring_exp_models.py:86-108). -/
structure GINTrain (𝕜 R : Type) where
  nn : UpdateNet R
  eps : 𝕜

/-- The layer in evaluation mode. -/
def GINTrain.eval (l : GINTrain 𝕜 R) : GINLevel 𝕜 R where
  nn := l.nn.eval
  eps := l.eps

section
variable [Field 𝕜] [AddCommMonoid R] [Module 𝕜 R]

/-- `GINConv.forward` of PyTorch Geometric (external contract) in training mode: the sums are taken node by node,
the network is applied to the rows of all nodes of the batch together. -/
def GINTrain.forward (l : GINTrain 𝕜 R) (x : List R) (edges : List (Nat × Nat)) : Py (List R) := do
  let out ← messageAndAggregate (A := R) (.plain id) aggAdd .sourceToTarget x.length x edges (some none)
  let out ← addScaled l.eps out x
  l.nn.train 𝕜 out

/-- The loop over the layers in training mode (mp/graph_models.py:75-77, 135-139, 193-195, 253-257); all outputs are
kept. -/
def runGINTrain (edges : List (Nat × Nat)) : List R → List (GINTrain 𝕜 R) → Py (List (List R))
  | _, [] => .ok []
  | x, l :: ls => do
    let x ← l.forward x edges
    let rest ← runGINTrain edges x ls
    return x :: rest

end

/-- `GIN0`, `GIN`, `GIN0WithJK` and `GINWithJK` with the networks of their layers (mp/graph_models.py:33-63, 88-122,
151-181, 206-240). -/
structure GINTrainNet (𝕜 R : Type) where
  conv1 : GINTrain 𝕜 R
  convs : List (GINTrain 𝕜 R)
  jump : Option (List R → R) := none
  readout : String := "sum"
  act : R → R
  lin1 : R → R
  lin2 : R → R

/-- The model in evaluation mode. -/
def GINTrainNet.eval (net : GINTrainNet 𝕜 R) : GINNet 𝕜 R where
  conv1 := net.conv1.eval
  convs := net.convs.map GINTrain.eval
  jump := net.jump
  readout := net.readout
  act := net.act
  lin1 := net.lin1
  lin2 := net.lin2

/-- The `forward` of the four models in training mode (mp/graph_models.py:72-82, 132-145, 190-200, 250-263). -/
def GINTrainNet.forward [Field 𝕜] [AddCommMonoid R] [Module 𝕜 R] (net : GINTrainNet 𝕜 R) (data : GData R) :
    Py (List R) := do
  let outs ← runGINTrain data.edges data.x (net.conv1 :: net.convs)
  let x ← ginFinal net.jump outs
  let pool ← getPoolingFn net.readout
  let x ← globalPool 𝕜 pool x data.batch
  return x.map fun r => net.lin2 (net.act (net.lin1 r))

/-- `RingGIN` with the networks of its layers (mp/ring_exp_models.py:77-108). -/
structure RingGINTrain (𝕜 R : Type) where
  initLinear : R → R
  conv1 : GINTrain 𝕜 R
  convs : List (GINTrain 𝕜 R)
  act : R → R
  lin1 : R → R

/-- The model in evaluation mode. -/
def RingGINTrain.eval (net : RingGINTrain 𝕜 R) : RingGIN 𝕜 R where
  initLinear := net.initLinear
  conv1 := net.conv1.eval
  convs := net.convs.map GINTrain.eval
  act := net.act
  lin1 := net.lin1

/-- `RingGIN.forward` in training mode (mp/ring_exp_models.py:117-127). -/
def RingGINTrain.forward [Field 𝕜] [AddCommMonoid R] [Module 𝕜 R] (net : RingGINTrain 𝕜 R) (data : GData R) :
    Py (List R) := do
  let x ← net.conv1.forward (data.x.map net.initLinear) data.edges
  let outs ← runGINTrain data.edges (x.map net.act) net.convs
  let x ← maskRows (outs.getLast?.getD (x.map net.act)) (some data.mask)
  return x.map net.lin1

end Verif
