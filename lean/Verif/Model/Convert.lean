import Verif.Model.Rings

/-!
# Converting graph datasets (data/utils.py:275-295, 501-545)
-/

namespace Verif

variable {F L : Type}

/-- A graph of a dataset: the attributes of a `torch_geometric` `Data` object that are read here. -/
structure GraphData (F L : Type) where
  x : Option (List F)
  edgeIndex : List (Nat × Nat)
  edgeAttr : Option (List F) := none
  numNodes : Nat
  y : Option (List L) := none

/-- `num_features` (data/complex.py:234-239). `width` gives the number of entries of a feature row; a matrix
is a list of rows, so the width of a matrix without rows is not represented and is 0 here (a simplification:
the lifted complexes have cells in every dimension). -/
def Cochain.numFeatures (width : F → Nat) (c : Cochain F L) : Nat :=
  match c.x with
  | none => 0
  | some rows => (rows.head?.map width).getD 0

/-- `num_features[dim] = n` if it is `None`, else a check (data/utils.py:287-291, 529-533). -/
def recordWidth (nf : List (Option Nat)) (entry : Nat × Nat) : Py (List (Option Nat)) := do
  let old ← getAt nf entry.1
  match old with
  | none => return nf.set entry.1 (some entry.2)
  | some n => do
    pyAssert (n == entry.2)
    return nf

/-- The body of the inner loop. -/
def recordDim (width : F → Nat) (comp : Complex F L) (nf : List (Option Nat)) (dim : Nat) :
    Py (List (Option Nat)) :=
  match comp.cochains[dim]? with
  | none => .error .key
  | some c => recordWidth nf (dim, c.numFeatures width)

/-- The largest dimension so far; `-1` is `none` (data/utils.py:285-286, 527-528). -/
def largerDim (dimension : Option Nat) (d : Nat) : Option Nat :=
  match dimension with
  | none => some d
  | some m => if m < d then some d else some m

/-- Dimension and numbers of features with one more complex (data/utils.py:285-291, 527-533). -/
def recordComplex (width : F → Nat) (s : Option Nat × List (Option Nat)) (comp : Complex F L) :
    Py (Option Nat × List (Option Nat)) := do
  let nf ← foldE (recordDim width comp) s.2 (List.range (comp.dimension + 1))
  return (largerDim s.1 comp.dimension, nf)

/-- `num_features[:dimension+1]`. -/
def upToDim (dimension : Option Nat) (nf : List (Option Nat)) : List (Option Nat) :=
  match dimension with
  | none => []
  | some d => nf.take (d + 1)

/-- The state of the loop of `convert_graph_dataset_with_gudhi`. -/
structure Converted (F L : Type) where
  complexes : List (Complex F L)
  dimension : Option Nat
  numFeatures : List (Option Nat)

/-- The body of the loop of `convert_graph_dataset_with_gudhi` (data/utils.py:281-293). -/
def convertStep (g : Gudhi) (agg : List F → F) (width : F → Nat) (expansionDim : Nat) (includeDown : Bool)
    (s : Converted F L) (data : GraphData F L) : Py (Converted F L) := do
  let comp ← cliqueComplex g agg data.x data.edgeIndex data.numNodes expansionDim data.y includeDown
  let r ← recordComplex width (s.dimension, s.numFeatures) comp
  return { complexes := s.complexes ++ [comp], dimension := r.1, numFeatures := r.2 }

/-- `convert_graph_dataset_with_gudhi` (data/utils.py:275-295). -/
def convertWithGudhi (g : Gudhi) (agg : List F → F) (width : F → Nat) (dataset : List (GraphData F L))
    (expansionDim : Nat) (includeDown : Bool := true) : Py (Converted F L) := do
  let s ← foldE (convertStep g agg width expansionDim includeDown)
    { complexes := [], dimension := none, numFeatures := List.replicate (expansionDim + 1) none } dataset
  return { s with numFeatures := upToDim s.dimension s.numFeatures }

/-- The label check of the loop (data/utils.py:537-540): `torch.equal` of `None` would be a `TypeError`. -/
def checkLabel [DecidableEq L] (comp : Complex F L) (graph : GraphData F L) : Py Unit :=
  match comp.y with
  | none => pyAssert graph.y.isNone
  | some l =>
    match graph.y with
    | none => .error .type
    | some l' => pyAssert (decide (l = l'))

/-- The feature check of the loop (data/utils.py:541). -/
def checkFeatures [DecidableEq F] (comp : Complex F L) (graph : GraphData F L) : Py Unit :=
  match comp.cochains[0]? with
  | none => .error .key
  | some c =>
    match c.x, graph.x with
    | some x, some x' => pyAssert (decide (x = x'))
    | _, _ => .error .type

/-- The check on the number of edges (data/utils.py:542-543): `None.size` is an `AttributeError`. -/
def checkEdges (comp : Complex F L) (graph : GraphData F L) : Py Unit :=
  if 1 ≤ comp.dimension then
    match comp.cochains[1]? with
    | none => .error .key
    | some c =>
      match c.x with
      | none => .error .attribute
      | some rows => pyAssert (rows.length == graph.edgeIndex.length / 2)
  else .ok ()

/-- The body of the loop of `convert_graph_dataset_with_rings` (data/utils.py:524-543) with the graph
`dataset[c]`. -/
def ringConvertStep [DecidableEq F] [DecidableEq L] (width : F → Nat)
    (s : Option Nat × List (Option Nat)) (item : Complex F L × GraphData F L) :
    Py (Option Nat × List (Option Nat)) := do
  let r ← recordComplex width s item.1
  checkLabel item.1 item.2
  checkFeatures item.1 item.2
  checkEdges item.1 item.2
  return r

/-- `convert_graph_dataset_with_rings` (data/utils.py:501-545). joblib returns the results in the order of
the inputs, so the parallel conversion is a map. -/
def convertWithRings [DecidableEq F] [DecidableEq L] (g : Gudhi) (lib : RingLib) (agg : List F → F)
    (width : F → Nat) (dataset : List (GraphData F L)) (maxRingSize : Nat := 7) (includeDown : Bool := false)
    (initEdges : Bool := true) (initRings : Bool := false) : Py (Converted F L) := do
  let complexes ← mapE (fun data => ringComplex g lib agg data.x data.edgeIndex data.edgeAttr data.numNodes
    data.y maxRingSize includeDown initEdges initRings) dataset
  let s ← foldE (ringConvertStep width) (none, [none, none, none]) (complexes.zip dataset)
  return { complexes := complexes, dimension := s.1, numFeatures := upToDim s.1 s.2 }

end Verif
