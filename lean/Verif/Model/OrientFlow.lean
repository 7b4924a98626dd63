import Verif.Model.FlowData
import Verif.Model.Oriented

/-!
# The test of the oriented layer

mp/test_layers.py:115-132
-/

namespace Verif

variable {P D R : Type}

/-- test_orient_conv_on_flow_dataset (mp/test_layers.py:115-132) for given points, triangulation, random numbers, numbers of
samples (3 and 3 there) and the `forward` of a layer. The width of the output (line 132) is left out. -/
def orientFlowTest [LT D] [DecidableLT D] [AddCommGroup R] (lib : SparseLib) (rg : FlowRegions P) (dist : P → P → D)
    (toRow : Int → R) (points : List P) (simplices : List Tri) (numTrain numTest : Nat)
    (trainOrientation testOrientation : String) (trainDraws testDraws : SampleDraws) (forward : Cochain R Nat → Py (List R)) : Py Unit := do
  let r ← loadFlowDataset lib rg dist toRow points simplices numTrain numTest trainOrientation testOrientation
    trainDraws testDraws
  let c ← getAt r.1 0
  let out ← forward c
  pyAssert (out.length == r.2.2.edges.length)

end Verif
