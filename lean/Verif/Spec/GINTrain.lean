import Verif.Model.GINTrain
import Verif.Spec.GraphNets
import Verif.Spec.RingNets
import Verif.Spec.TrainMode

/-!
# What the graph baselines compute in training mode: evaluation with the statistics of the batch
-/

namespace Verif

variable {𝕜 R : Type}

/-- Some layer depends on the rows of the batch. -/
def GINTrainNet.usesBatch (net : GINTrainNet 𝕜 R) : Prop := ∃ l ∈ net.conv1 :: net.convs, l.nn.isBatch = true

/-- Some layer depends on the rows of the batch. -/
def RingGINTrain.usesBatch (net : RingGINTrain 𝕜 R) : Prop := ∃ l ∈ net.conv1 :: net.convs, l.nn.isBatch = true

/-- The number of nodes of some graphs. -/
def nodeCount (gs : List (GData R)) : Nat := (gs.map fun g => g.x.length).sum

section
variable [Field 𝕜] [AddCommMonoid R] [Module 𝕜 R]

/-- What a layer sums up, for all nodes of some graphs. -/
def ginSums (eps : 𝕜) (gs : List (GData R)) : List R :=
  gs.flatMap fun g => (List.range g.x.length).map fun c =>
    ((g.edges.filter fun p => p.2 == c).map fun p => rowOf g.x p.1).sum + (1 + eps) • rowOf g.x c

/-- The graph with the rows after a layer. -/
def GData.after (l : GINLevel 𝕜 R) (g : GData R) : GData R :=
  { g with
    x := (List.range g.x.length).map fun c =>
      l.nn (((g.edges.filter fun p => p.2 == c).map fun p => rowOf g.x p.1).sum + (1 + l.eps) • rowOf g.x c) }

/-- The layer with the statistics of the nodes of some graphs. -/
def GINTrain.freeze (l : GINTrain 𝕜 R) (gs : List (GData R)) : GINLevel 𝕜 R where
  nn := l.nn.freeze 𝕜 (ginSums l.eps gs)
  eps := l.eps

/-- The layers one after the other, each with the statistics that it meets on the graphs. -/
def freezeGIN : List (GData R) → List (GINTrain 𝕜 R) → List (GINLevel 𝕜 R)
  | _, [] => []
  | gs, l :: ls => l.freeze gs :: freezeGIN (gs.map (GData.after (l.freeze gs))) ls

/-- The network with the statistics that it meets on the graphs. -/
def GINTrainNet.frozen (net : GINTrainNet 𝕜 R) (gs : List (GData R)) : GINNet 𝕜 R where
  conv1 := net.conv1.freeze gs
  convs := freezeGIN (gs.map (GData.after (net.conv1.freeze gs))) net.convs
  jump := net.jump
  readout := net.readout
  act := net.act
  lin1 := net.lin1
  lin2 := net.lin2

/-- The network with the statistics that it meets on the graphs: the first layer on the rows after `init_linear`, the
others on the rows after the first nonlinearity. -/
def RingGINTrain.frozen (net : RingGINTrain 𝕜 R) (gs : List (GData R)) : RingGIN 𝕜 R :=
  let start := gs.map fun g => { g with x := g.x.map net.initLinear }
  let first := net.conv1.freeze start
  { initLinear := net.initLinear
    conv1 := first
    convs := freezeGIN (start.map (GData.after { first with nn := fun x => net.act (first.nn x) })) net.convs
    act := net.act
    lin1 := net.lin1 }

end

end Verif
