import Verif.Model.RingLookup
import Verif.Model.Convert
import Verif.Model.GraphNets

/-!
# Processing of the ring datasets (data/datasets/ringtransfer.py:49-86, data/datasets/ringlookup.py:47-83)

The two `process` methods differ in the graphs that are generated and in one assertion. What they store is modelled
in `Verif.Model.Dataset`.
-/

namespace Verif

variable {R L : Type}

/-- The graph as the conversion gets it; `tensor` is the conversion of a row to floats (data/datasets/ring_utils.py:70).
`num_nodes` of PyTorch Geometric is the number of rows of `x`. -/
def RingGraph.data (tensor : List Int → R) (G : RingGraph) : GraphData R Nat where
  x := some (G.x.map tensor)
  edgeIndex := G.edgeIndex
  numNodes := G.x.length
  y := some G.y

/-- The graph as `RingGIN` gets it (data/datasets/ring_utils.py:90); other attributes are not used. -/
def RingGraph.gdata (tensor : List Int → R) (G : RingGraph) : GData R :=
  { x := G.x.map tensor, edges := G.edgeIndex, mask := G.mask }

/-- The mask of the target node for `n` cells (data/datasets/ringtransfer.py:70-71); `torch.zeros(None)` raises
`TypeError`. -/
def targetMask (n : Option Nat) : Py (List Bool) :=
  match n with
  | none => .error .type
  | some n => modifyAt (List.replicate n false) 0 fun _ => true

/-- `complex.edges.x = torch.zeros_like(complex.edges.x)` and the same for `two_cells`
(data/datasets/ringtransfer.py:75-76). The rows become zero; `zeros_like(None)` raises `TypeError`. -/
def zeroX [Zero R] (c : Cochain R L) : Py (Cochain R L) :=
  match c.x with
  | none => .error .type
  | some x => c.setX (some (x.map fun _ => 0))

/-- The cells above the vertices: without edges or 2-cells `None.x` raises `AttributeError`. -/
def zeroAbove [Zero R] (cs : List (Cochain R L)) : Py (List (Cochain R L)) :=
  match cs with
  | edges :: cells :: rest => do
    let edges ← zeroX edges
    let cells ← zeroX cells
    return edges :: cells :: rest
  | _ => .error .attribute

/-- The body of the loop over the complexes (data/datasets/ringtransfer.py:68-76). -/
def markComplex [Zero R] (comp : Complex R L) : Py (Complex R L) :=
  match comp.cochains with
  | [] => .error .key
  | nodes :: above => do
    let n ← nodes.numCells
    let mask ← targetMask n
    let above ← zeroAbove above
    return { comp with cochains := { nodes with mask := some mask } :: above }

/-- `RingTransferDataset.process` (data/datasets/ringtransfer.py:49-76) up to the saving: the complexes, and the
indices for training and validation. The graphs are generated as in `load_ring_transfer_dataset`. -/
def ringTransferProcess [DecidableEq R] [Zero R] (g : Gudhi) (lib : RingLib) (agg : List R → R) (width : R → Nat)
    (tensor : List Int → R) (nodes train test classes : Nat) :
    Py (List (Complex R Nat) × List Nat × List Nat) := do
  let graphs ← loadRingTransfer nodes train test classes
  let converted ← convertWithRings g lib agg width (graphs.1.map (RingGraph.data tensor)) nodes false true true
  let complexes ← mapE markComplex converted.complexes
  return (complexes, graphs.2)

/-- The body of the loop of `RingLookupDataset.process` (data/datasets/ringlookup.py:64-73): the same, and a check
that there is one ring. -/
def markOneRing [Zero R] (comp : Complex R L) : Py (Complex R L) := do
  let comp ← markComplex comp
  match comp.cochains[2]? with
  | none => .error .attribute
  | some c => do
    let n ← c.numCells
    pyAssert (decide (n = some 1))
    return comp

/-- `RingLookupDataset.process` (data/datasets/ringlookup.py:47-73) up to the saving, for the draws of the training and
validation graphs. The graphs are generated as in `load_ring_lookup_dataset`. -/
def ringLookupProcess [DecidableEq R] [Zero R] (g : Gudhi) (lib : RingLib) (agg : List R → R) (width : R → Nat)
    (tensor : List Int → R) (nodes : Nat) (train val : List (List Nat × Nat)) :
    Py (List (Complex R Nat) × List Nat × List Nat) := do
  let graphs ← loadRingLookup nodes train val
  let converted ← convertWithRings g lib agg width (graphs.1.map (RingGraph.data tensor)) nodes false true true
  let complexes ← mapE markOneRing converted.complexes
  return (complexes, graphs.2)

end Verif
