import Verif.Model.Loader
import Verif.Model.ToGraph

/-!
# The datasets of the embedding networks (data/datasets/zinc.py, ogb.py, csl.py, peptides_functional.py,
peptides_structural.py)

The downloads are external: the graphs, the split dictionaries and the split files are arguments. Reading a processed
file gives back what was written. All four classes lift with `convert_graph_dataset_with_rings`, rings without
features. Names of folders are in `Verif.Model.Folders`.
-/

namespace Verif

variable {F L : Type}

/-- `ZincDataset.process` (data/datasets/zinc.py:46-99) on the three downloaded datasets: what is written to the two
files. -/
def zincProcess [DecidableEq F] [DecidableEq L] (g : Gudhi) (lib : RingLib) (agg : List F → F) (width : F → Nat)
    (train val test : List (GraphData F L)) (maxRingSize : Nat) (includeDown useEdgeFeatures : Bool) :
    Py (Storage F L × List (List Nat)) := do
  let a ← convertWithRings g lib agg width train maxRingSize includeDown useEdgeFeatures false
  let b ← convertWithRings g lib agg width val maxRingSize includeDown useEdgeFeatures false
  let c ← convertWithRings g lib agg width test maxRingSize includeDown useEdgeFeatures false
  let s := joinSplits [a.complexes, b.complexes, c.complexes]
  let st ← collate s.items 2
  return (st, s.idx)

/-- `ZincDataset.__init__` (data/datasets/zinc.py:12-28), when the processed files are not there yet. -/
def zincDataset [DecidableEq F] [DecidableEq L] (g : Gudhi) (lib : RingLib) (agg : List F → F) (width : F → Nat)
    (train val test : List (GraphData F L)) (maxRingSize : Nat) (includeDown useEdgeFeatures : Bool) :
    Py (Dataset F L × Splits) := do
  let (st, idx) ← zincProcess g lib agg width train val test maxRingSize includeDown useEdgeFeatures
  let train ← getAt idx 0
  let val ← getAt idx 1
  let test ← getAt idx 2
  return (⟨st, none⟩, ⟨some train, some val, some test⟩)

/-- `dataset.data.x[:,:2]` and `dataset.data.edge_attr[:,:2]` (data/datasets/ogb.py:65-68): `top` keeps the first two
entries of a row. OGB graphs have both kinds of features. -/
def topFeatures (top : F → F) (simple : Bool) (G : GraphData F L) : GraphData F L :=
  if simple then { G with x := G.x.map (List.map top), edgeAttr := G.edgeAttr.map (List.map top) } else G

/-- `OGBDataset.process` (data/datasets/ogb.py:59-90): the complexes, the split dictionary and the number of tasks. -/
def ogbProcess [DecidableEq F] [DecidableEq L] (g : Gudhi) (lib : RingLib) (agg : List F → F) (width : F → Nat)
    (top : F → F) (graphs : List (GraphData F L)) (splitIdx : Dict String (List Nat)) (numTasks : Nat)
    (maxRingSize : Nat) (includeDown useEdgeFeatures simple : Bool) :
    Py (Storage F L × Dict String (List Nat) × Nat) := do
  let r ← convertWithRings g lib agg width (graphs.map (topFeatures top simple)) maxRingSize includeDown
    useEdgeFeatures false
  let st ← collate r.complexes 2
  return (st, splitIdx, numTasks)

/-- `OGBDataset.__init__` (data/datasets/ogb.py:12-26), when the processed files are not there yet. -/
def ogbDataset [DecidableEq F] [DecidableEq L] (g : Gudhi) (lib : RingLib) (agg : List F → F) (width : F → Nat)
    (top : F → F) (graphs : List (GraphData F L)) (splitIdx : Dict String (List Nat)) (numTasks : Nat)
    (maxRingSize : Nat) (includeDown useEdgeFeatures simple : Bool) : Py (Dataset F L × Splits × Nat) := do
  let (st, idx, tasks) ← ogbProcess g lib agg width top graphs splitIdx numTasks maxRingSize includeDown
    useEdgeFeatures simple
  let train ← Dict.get idx "train"
  let valid ← Dict.get idx "valid"
  let test ← Dict.get idx "test"
  return (⟨st, none⟩, ⟨some train, some valid, some test⟩, tasks)

/-- `remove_self_loops` (external), as used in data/datasets/csl.py:81. -/
def removeSelfLoops (edges : List (Nat × Nat)) : List (Nat × Nat) := edges.filter fun e => !(e.1 == e.2)

/-- The body of the loop that adds features (data/datasets/csl.py:77-90): `zero` is the row of one zero. -/
def cslPopulate (zero : F) (G : GraphData F L) : GraphData F L :=
  { G with
    edgeIndex := removeSelfLoops G.edgeIndex
    x := some (List.replicate G.numNodes zero)
    edgeAttr := some (List.replicate (removeSelfLoops G.edgeIndex).length zero) }

/-- `CSLDataset.process` (data/datasets/csl.py:61-107). The assertions after the loop (92-93) hold by construction. -/
def cslProcess [DecidableEq F] [DecidableEq L] (g : Gudhi) (lib : RingLib) (agg : List F → F) (width : F → Nat)
    (zero : F) (graphs : List (GraphData F L)) (maxRingSize : Nat) : Py (Storage F L) := do
  pyAssert (graphs.length == 150)
  let first ← getAt graphs 0
  pyAssert first.x.isNone
  pyAssert first.edgeAttr.isNone
  let r ← convertWithRings g lib agg width (graphs.map (cslPopulate zero)) maxRingSize false true false
  collate r.complexes 2

/-- `max(ids) < 150` (data/datasets/csl.py:48-50): `max` of an empty list is a `ValueError`. -/
def allBelow150 (ids : List Nat) : Py Bool :=
  if ids = [] then .error .value else .ok (decide (∀ i ∈ ids, i < 150))

/-- `CSLDataset.__init__` (data/datasets/csl.py:17-50), when the processed file is not there yet. The files hold one
row of ids per fold (`np.loadtxt`, at least two rows). -/
def cslDataset [DecidableEq F] [DecidableEq L] (g : Gudhi) (lib : RingLib) (agg : List F → F) (width : F → Nat)
    (zero : F) (graphs : List (GraphData F L)) (maxRingSize : Nat) (fold : Int)
    (trainFile valFile testFile : List (List Nat)) : Py (Dataset F L × Splits) := do
  let st ← cslProcess g lib agg width zero graphs maxRingSize
  pyAssert (decide (0 ≤ fold) && decide (fold ≤ 4))
  let train ← getAt trainFile fold.toNat
  let val ← getAt valFile fold.toNat
  let test ← getAt testFile fold.toNat
  pyAssert (train.length == 3 * test.length)
  pyAssert (val.length == test.length)
  let a ← allBelow150 train
  pyAssert a
  let b ← allBelow150 val
  pyAssert b
  let c ← allBelow150 test
  pyAssert c
  return (⟨st, none⟩, ⟨some train, some val, some test⟩)

/-- What `smiles2graph` (external, OGB) returns for a SMILES string. -/
structure SmilesGraph (F : Type) where
  numNodes : Nat
  nodeFeat : List F
  edgeIndex : List (Nat × Nat)
  edgeFeat : List F

/-- The body of the loop over the SMILES strings (data/datasets/peptides_functional.py:152-169,
peptides_structural.py:162-180). The label of row `i`, a `1 × 10` or `1 × 11` tensor, is one `L`. -/
def peptideGraph (smiles2graph : String → Py (SmilesGraph F)) (row : String × L) : Py (GraphData F L) := do
  let graph ← smiles2graph row.1
  pyAssert (graph.edgeFeat.length == graph.edgeIndex.length)
  pyAssert (graph.nodeFeat.length == graph.numNodes)
  return { x := some graph.nodeFeat, edgeIndex := graph.edgeIndex, edgeAttr := some graph.edgeFeat,
           numNodes := graph.numNodes, y := some [row.2] }

/-- `get_idx_split` (data/datasets/peptides_functional.py:197-209, peptides_structural.py:207-219). -/
def peptideSplits (file : Dict String (List Nat)) : Py (Dict String (List Nat)) := do
  let val ← Dict.get file "val"
  return Dict.set file "valid" val

/-- `process` of the peptides datasets (data/datasets/peptides_functional.py:144-195, peptides_structural.py:147-205)
without `pre_transform`, which no caller sets. `use_edge_features` is always true. -/
def peptidesProcess [DecidableEq F] [DecidableEq L] (g : Gudhi) (lib : RingLib) (agg : List F → F) (width : F → Nat)
    (smiles2graph : String → Py (SmilesGraph F)) (table : List (String × L)) (splitFile : Dict String (List Nat))
    (numTasks : Nat) (maxRingSize : Nat) (includeDown : Bool) : Py (Storage F L × Dict String (List Nat) × Nat) := do
  let graphs ← mapE (peptideGraph smiles2graph) table
  let splitIdx ← peptideSplits splitFile
  let r ← convertWithRings g lib agg width graphs maxRingSize includeDown true false
  let st ← collate r.complexes 2
  return (st, splitIdx, numTasks)

/-- `__init__` of the peptides datasets (data/datasets/peptides_functional.py:49-82, peptides_structural.py:55-87),
when the processed files are not there yet. -/
def peptidesDataset [DecidableEq F] [DecidableEq L] (g : Gudhi) (lib : RingLib) (agg : List F → F) (width : F → Nat)
    (smiles2graph : String → Py (SmilesGraph F)) (table : List (String × L)) (splitFile : Dict String (List Nat))
    (numTasks : Nat) (maxRingSize : Nat) (includeDown : Bool) : Py (Dataset F L × Splits × Nat) := do
  let (st, idx, tasks) ← peptidesProcess g lib agg width smiles2graph table splitFile numTasks maxRingSize includeDown
  let train ← Dict.get idx "train"
  let val ← Dict.get idx "val"
  let test ← Dict.get idx "test"
  return (⟨st, none⟩, ⟨some train, some val, some test⟩, tasks)

end Verif
