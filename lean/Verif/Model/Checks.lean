import Verif.Model.Convert
import Verif.Model.Experiment

/-!
# The project's own checks (data/helper_test.py, data/datasets/test_zinc.py, data/test_dataset.py)

The functions with which the tests of the project look at lifted datasets. A failing `assert` is the error
`assertion`. Simplified: `squeeze` in the comparison of edge features is left out, a row of features is compared
as a whole; a set of Python is a list without repetitions, compared by its members.
-/

namespace Verif

variable {F L : Type}

/-- The members of a list, each once: a set filled with `add`. -/
def setOf {A : Type} [DecidableEq A] (l : List A) : List A := l.dedup

/-- `==` of two sets. -/
def sameSet {A : Type} [DecidableEq A] (l m : List A) : Bool :=
  l.all (fun a => decide (a ∈ m)) && m.all fun a => decide (a ∈ l)

/-- `assert torch.equal(a, b)`; with `None` it is a `TypeError`. -/
def assertEqual {A : Type} [DecidableEq A] (a b : Option A) : Py Unit :=
  match a, b with
  | some a, some b => pyAssert (decide (a = b))
  | _, _ => .error .type

/-- `check_edge_index_are_the_same` (data/helper_test.py:9-26). The number of rows is two by construction; `None`
has no `size`. -/
def checkEdgeIndex (upper : Option (List (Nat × Nat))) (edges : List (Nat × Nat)) : Py Unit :=
  match upper with
  | none => .error .attribute
  | some upper => do
    pyAssert (upper.length == edges.length)
    pyAssert (sameSet (edges.map fun e => sortedNat [e.1, e.2]) (upper.map fun e => sortedNat [e.1, e.2]))

/-- `get_table` (data/helper_test.py:29-39): the boundaries of every cell, in the order of the columns. -/
def getTable (bi : List (Nat × Nat)) : Dict Nat (List Nat) :=
  bi.foldl (fun d col => d.push col.2 col.1) []

/-- `t.max()`; torch raises `RuntimeError` on an empty tensor. -/
def tensorMax (l : List Nat) : Py Nat :=
  match l.max? with
  | some m => .ok m
  | none => .error .runtime

/-- `edge_to_id` (data/helper_test.py:52-54). -/
def edgeToId (bi : List (Nat × Nat)) : Dict (List Nat) Nat :=
  (getTable bi).foldl (fun d item => d.set (sortedNat item.2) item.1) []

/-- The body of the loop over the columns (data/helper_test.py:58-66). -/
def checkColumn [DecidableEq F] (ids : Dict (List Nat) Nat) (ex attr : List F) (col : (Nat × Nat) × Nat) :
    Py Unit := do
  let id ← ids.get (sortedNat [col.1.1, col.1.2])
  let row ← getAt ex id
  let row' ← getAt attr col.2
  pyAssert (decide (row = row'))

/-- `check_edge_attr_are_the_same` (data/helper_test.py:42-66). Indexing `None` is a `TypeError`. -/
def checkEdgeAttr [DecidableEq F] (bi : Option (List (Nat × Nat))) (ex : Option (List F))
    (edges : List (Nat × Nat)) (attr : Option (List F)) : Py Unit :=
  match bi with
  | none => .error .type
  | some bi => do
    let m ← tensorMax (bi.map Prod.fst)
    let m' ← tensorMax (edges.flatMap fun e => [e.1, e.2])
    pyAssert (m == m')
    pyAssert (bi.length == edges.length)
    match ex, attr with
    | some ex, some attr => do
      let _ ← mapE (checkColumn (edgeToId bi) ex attr) edges.zipIdx
      return ()
    | _, _ => .error .type

/-- The external function `networkx.simple_cycles`, on the directed graph with these edges
(data/helper_test.py:73, 89); its contract is `CycleLib.Ok`. -/
structure CycleLib where
  cycles : List (Nat × Nat) → List (List Nat)

/-- `is_cycle_edge` (data/helper_test.py:75-80). -/
def isCycleEdge (i1 i2 n : Nat) : Bool := i2 == i1 + 1 || (i1 == 0 && i2 + 1 == n)

/-- `is_chordless` (data/helper_test.py:82-86). -/
def isChordless (edges : List (Nat × Nat)) (cycle : List Nat) : Bool :=
  (pairsOf cycle.zipIdx).all fun p =>
    isCycleEdge p.1.2 p.2.2 cycle.length || !decide ((p.1.1, p.2.1) ∈ edges)

/-- `get_rings` (data/helper_test.py:69-100). The number of nodes only adds isolated nodes to the graph, which are on
no cycle, and is left out. `Data(edge_index=None)` has no edge index to convert: an `AttributeError`. -/
def nxRings (nx : CycleLib) (edges : Option (List (Nat × Nat))) (maxRing : Nat) : Py (List (List Nat)) :=
  match edges with
  | none => .error .attribute
  | some edges => .ok (setOf (((nx.cycles edges).filter fun c =>
      decide (2 < c.length) && decide (c.length ≤ maxRing) && isChordless edges c).map sortedNat))

/-- The vertices of one ring (data/helper_test.py:110-115). -/
def ringVerticesOf (idToEdge : Dict Nat (List Nat)) (edges : List Nat) : Py (List Nat) := do
  let vs ← mapE idToEdge.get edges
  return sortedNat (setOf vs.flatten)

/-- `get_complex_rings` (data/helper_test.py:103-116); `None` has no `size`. -/
def complexRings (rBi eBi : Option (List (Nat × Nat))) : Py (List (List Nat)) :=
  match rBi, eBi with
  | some rBi, some eBi => do
    let rings ← mapE (fun item : Nat × List Nat => ringVerticesOf (getTable eBi) item.2) (getTable rBi)
    return setOf rings
  | _, _ => .error .attribute

/-- The body of `test_we_find_only_the_induced_cycles_on_zinc` for one complex
(data/datasets/test_zinc.py:47-57). `complex.edges` is `None` without edges: an `AttributeError`. -/
def ringTest (nx : CycleLib) (comp : Complex F L) (maxRing : Nat) : Py Unit := do
  let nodes ← comp.cochainAt 0
  let expected ← nxRings nx nodes.upperIndex maxRing
  match comp.cochains[2]? with
  | none => pyAssert (expected.length == 0)
  | some two =>
    match comp.cochains[1]? with
    | none => .error .attribute
    | some one => do
      let rings ← complexRings two.boundaryIndex one.boundaryIndex
      pyAssert (decide (0 < rings.length))
      let n ← two.numCells
      pyAssert (some expected.length == n)
      pyAssert (sameSet expected rings)

/-- The body of `test_zinc_splits_are_retained` for one complex and one graph
(data/datasets/test_zinc.py:33-38). -/
def splitTest [DecidableEq F] [DecidableEq L] (comp : Complex F L) (G : GraphData F L) : Py Unit := do
  assertEqual comp.y G.y
  let nodes ← comp.cochainAt 0
  assertEqual nodes.x G.x
  let one ← comp.cochainAt 1
  match one.x with
  | none => .error .attribute
  | some rows => do
    pyAssert (rows.length == G.edgeIndex.length / 2)
    checkEdgeIndex nodes.upperIndex G.edgeIndex
    checkEdgeAttr one.boundaryIndex one.x G.edgeIndex G.edgeAttr

/-- `assert a is None and b is None`. -/
def assertNone {A : Type} (a b : Option A) : Py Unit := pyAssert (a.isNone && b.isNone)

/-- An adjacency that may be missing: lines 133-139 and 145-151 of data/helper_test.py. -/
def compareIndex (yi ei : Option (List (Nat × Nat))) (ys es : Option (List Nat)) : Py Unit :=
  match yi with
  | none => do
    pyAssert ei.isNone
    pyAssert ys.isNone
    pyAssert es.isNone
  | some yi => do
    assertEqual (some yi) ei
    assertEqual ys es

/-- `assert a == b` for two properties that may raise. -/
def compareCounts (a b : Py (Option Nat)) : Py Unit := do
  let a ← a
  let b ← b
  pyAssert (a == b)

/-- The numbers of cells of one dimension (data/helper_test.py:126-129, 166-169). -/
def compareSizes (y e : Cochain F L) : Py Unit := do
  compareCounts y.numCells e.numCells
  compareCounts y.numCellsUp e.numCellsUp
  compareCounts y.numCellsUp e.numCellsUp
  compareCounts y.numCellsDown e.numCellsDown

/-- What lies below (data/helper_test.py:131-143, 170-182). -/
def compareBelow (down : Bool) (dim : Nat) (y e : Cochain F L) : Py Unit :=
  if 0 < dim then do
    assertEqual y.boundaryIndex e.boundaryIndex
    if down then compareIndex y.lowerIndex e.lowerIndex y.sharedBoundaries e.sharedBoundaries
    else return ()
  else do
    assertNone y.boundaryIndex e.boundaryIndex
    assertNone y.lowerIndex e.lowerIndex
    assertNone y.sharedBoundaries e.sharedBoundaries

/-- What lies above (data/helper_test.py:144-154, 183-193). -/
def compareAbove (dim dimension : Nat) (y e : Cochain F L) : Py Unit :=
  if dim < dimension then compareIndex y.upperIndex e.upperIndex y.sharedCoboundaries e.sharedCoboundaries
  else do
    assertNone y.upperIndex e.upperIndex
    assertNone y.sharedCoboundaries e.sharedCoboundaries

/-- One turn of the loop of `compare_complexes` (data/helper_test.py:124-154). -/
def compareDim [DecidableEq F] (down : Bool) (yielded expected : Complex F L) (dim : Nat) : Py Unit := do
  let y ← yielded.cochainAt dim
  let e ← expected.cochainAt dim
  compareSizes y e
  assertEqual y.x e.x
  compareBelow down dim y e
  compareAbove dim expected.dimension y e

/-- `compare_complexes` (data/helper_test.py:119-154). -/
def compareComplexes [DecidableEq F] [DecidableEq L] (yielded expected : Complex F L) (down : Bool) :
    Py Unit := do
  pyAssert (yielded.dimension == expected.dimension)
  assertEqual yielded.y expected.y
  let _ ← mapE (compareDim down yielded expected) (List.range (expected.dimension + 1))
  return ()

/-- One turn of the loop of `compare_complexes_without_2feats` (data/helper_test.py:163-197). -/
def compareDimWithout2 [DecidableEq F] (down : Bool) (yielded expected : Complex F L) (dim : Nat) : Py Unit := do
  let y ← yielded.cochainAt dim
  let e ← expected.cochainAt dim
  compareSizes y e
  compareBelow down dim y e
  compareAbove dim expected.dimension y e
  if dim ≠ 2 then assertEqual y.x e.x else assertNone y.x e.x

/-- `compare_complexes_without_2feats` (data/helper_test.py:157-197). -/
def compareComplexesWithout2 [DecidableEq F] [DecidableEq L] (yielded expected : Complex F L) (down : Bool) :
    Py Unit := do
  pyAssert (yielded.dimension == expected.dimension)
  assertEqual yielded.y expected.y
  let _ ← mapE (compareDimWithout2 down yielded expected) (List.range (expected.dimension + 1))
  return ()

end Verif
