import Verif.Model.Lifting
import Mathlib.Data.List.Sort

/-!
# Lifting graphs to ring complexes (data/utils.py:298-498)
-/

namespace Verif

variable {F L : Type}

/-! ### Rings -/

/-- The graph-tool library and the iteration order of Python sets. `isos edges k` lists the vertex lists
`(m(0), .., m(k-1))` of the induced subgraph isomorphisms `m` from the cycle with the edges
`(0,1), .., (k-2,k-1), (k-1,0)` into the graph without loops and parallel edges
(data/utils.py:302-321); `order` is the order in which a set of tuples is iterated. The contract is
`RingLib.Ok` in `Verif.Spec.Rings`. -/
structure RingLib where
  isos : List (Nat × Nat) → Nat → List (List Nat)
  order : List (List Nat) → List (List Nat)

/-- `tuple(sorted(l))` for a list of numbers. -/
def sortedNat (l : List Nat) : List Nat := l.insertionSort (· ≤ ·)

/-- The order of tuples of numbers. -/
def lexLE : List Nat → List Nat → Bool
  | [], _ => true
  | _ :: _, [] => false
  | a :: l, b :: m => decide (a < b) || (decide (a = b) && lexLE l m)

/-- `sorted(l)` for a list of tuples. -/
def sortedTuples (l : List (List Nat)) : List (List Nat) := l.insertionSort fun a b => lexLE a b = true

/-- The body of the inner loop of `get_rings` (data/utils.py:322-325): the sets `rings` and
`sorted_rings`, as lists without repetitions. -/
def ringStep (s : List (List Nat) × List (List Nat)) (iso : List Nat) : List (List Nat) × List (List Nat) :=
  if sortedNat iso ∈ s.2 then s
  else (if iso ∈ s.1 then s.1 else s.1 ++ [iso], s.2 ++ [sortedNat iso])

/-- `get_rings` (data/utils.py:300-330). -/
def getRings (lib : RingLib) (edgeIndex : List (Nat × Nat)) (maxK : Nat) : List (List Nat) :=
  let s := (List.range' 3 (maxK - 2)).foldl (fun s k => (lib.isos edgeIndex k).foldl ringStep s) ([], [])
  lib.order s.1

/-- The body of the loop of `build_tables_with_rings` (data/utils.py:347-350). -/
def ringTableStep (t : Tables) (cell : List Nat) : Py Tables := do
  let table ← getAt t.cells 2
  let ids ← modifyAt t.ids 2 (fun m => m.set cell table.length)
  let cells ← modifyAt t.cells 2 (fun l => l ++ [cell])
  return { cells := cells, ids := ids }

/-- The extension of the tables by the rings (data/utils.py:342-350). -/
def addRings (t : Tables) (rings : List (List Nat)) : Py Tables :=
  if 0 < rings.length then do
    let cells := t.cells ++ [[]]
    pyAssert (cells.length == 3)
    foldE ringTableStep { cells := cells, ids := t.ids ++ [[]] } rings
  else .ok t

/-- `build_tables_with_rings` (data/utils.py:333-352). -/
def buildTablesWithRings (lib : RingLib) (edgeIndex : List (Nat × Nat)) (st : SimplexTree)
    (size maxK : Nat) : Py Tables := do
  let t ← buildTables st size
  addRings t (getRings lib edgeIndex maxK)

/-- `get_ring_boundaries` (data/utils.py:355-367): the pairs of neighbours, the last one with the
first, each sorted; then sorted. -/
def getRingBoundaries (ring : List Nat) : List (List Nat) :=
  sortedTuples ((List.range ring.length).map fun n =>
    sortedNat [ring.getD n 0, ring.getD (if n + 1 = ring.length then 0 else n + 1) 0])

/-! ### Incidence -/

/-- The body of the inner loop (data/utils.py:388-394) for the ring `cell`; the ids of its boundaries
are collected in the last component. The lookup of the id after `assert boundary in id_maps[1]` cannot
fail. -/
def ringBoundaryStep (edgeIds : Dict (List Nat) Nat) (cell : List Nat)
    (s : (Dict (List Nat) (List (List Nat)) × Dict (List Nat) (List (List Nat))) × List Nat)
    (boundary : List Nat) :
    Py ((Dict (List Nat) (List (List Nat)) × Dict (List Nat) (List (List Nat))) × List Nat) := do
  pyAssert (edgeIds.get? boundary).isSome
  let id ← edgeIds.get boundary
  return ((s.1.1.push cell boundary, s.1.2.push boundary cell), s.2 ++ [id])

/-- The body of the outer loop (data/utils.py:384-394). -/
def ringIncidenceStep (edgeIds : Dict (List Nat) Nat) (s : Incidence) (cell : List Nat) : Py Incidence := do
  let level2 ← getAt s.boundaries 2
  let level1 ← getAt s.coboundaries 1
  let r ← foldE (ringBoundaryStep edgeIds cell) ((level2.set cell [], level1), []) (getRingBoundaries cell)
  let table ← modifyAt s.table 2 (fun l => l ++ [r.2])
  return { table := table, boundaries := s.boundaries.set 2 r.1.1,
           coboundaries := s.coboundaries.set 1 r.1.2 }

/-- The extension of the incidences by the rings (data/utils.py:378-395). -/
def addRingIncidence (ids : List (Dict (List Nat) Nat)) (s : Incidence) : Py Incidence := do
  pyAssert (decide (ids.length ≤ 3))
  match ids[2]? with
  | none => .ok s
  | some ringIds =>
    let edgeIds ← getAt ids 1
    foldE (ringIncidenceStep edgeIds)
      { table := s.table ++ [[]], boundaries := s.boundaries ++ [[]],
        coboundaries := s.coboundaries ++ [[]] } (ringIds.map Prod.fst)

/-- `extract_boundaries_and_coboundaries_with_rings` (data/utils.py:370-397). -/
def extractIncidenceWithRings (st : SimplexTree) (ids : List (Dict (List Nat) Nat)) : Py Incidence := do
  pyAssert (decide (st.dims ≤ 2))
  let inc ← extractIncidence st ids st.dims
  addRingIncidence ids inc

/-! ### Features -/

/-- The body of the loop over the columns of the edge index (data/utils.py:464-471). -/
def edgeFeatureStep [DecidableEq F] (edgeIds : Dict (List Nat) Nat) (edgeAttr : List F)
    (ex : Dict Nat F) (col : (Nat × Nat) × Nat) : Py (Dict Nat F) := do
  let id ← edgeIds.get (sortedNat [col.1.1, col.1.2])
  let feats ← getAt edgeAttr col.2
  match ex.get? id with
  | some old => do
    pyAssert (decide (old = feats))
    return ex
  | none => return ex.set id feats

/-- The feature matrix of the edges (data/utils.py:462-482). A matrix is a list of rows, so the view of
a vector as a matrix and the checks on the width of the result are left out. -/
def edgeFeatures [DecidableEq F] (edgeIndex : List (Nat × Nat)) (edgeAttr : List F)
    (edgeTable : List (List Nat)) (edgeIds : Dict (List Nat) Nat) : Py (List F) := do
  let ex ← foldE (edgeFeatureStep edgeIds edgeAttr) [] edgeIndex.zipIdx
  match (ex.map Prod.fst).max? with
  | none => .error .value
  | some maxId => do
    pyAssert (edgeTable.length == maxId + 1)
    let rows ← mapE (fun id => Dict.get ex id) (List.range (maxId + 1))
    pyAssert (rows.length == edgeIds.length)
    return rows

/-- `xs[1]` (data/utils.py:454-482). -/
def edgeRows [DecidableEq F] (edgeIndex : List (Nat × Nat)) (edgeAttr : Option (List F))
    (initEdges : Bool) (dims : Nat) (t : Tables) (constructed : List (List F)) : Py (Option (List F)) :=
  if initEdges && decide (2 ≤ dims) then
    match edgeAttr with
    | none => do
      let rows ← getAt constructed 1
      return some rows
    | some edgeAttr => do
      let edgeIds ← getAt t.ids 1
      let edgeTable ← getAt t.cells 1
      let rows ← edgeFeatures edgeIndex edgeAttr edgeTable edgeIds
      return some rows
  else .ok none

/-- `xs[2]` (data/utils.py:451-452). -/
def ringRows (initRings : Bool) (constructed : List (List F)) : Option (List F) :=
  if initRings then constructed[2]? else none

/-- A check made only for a tree without edges (data/utils.py:432-433, 449-450). -/
def checkNoEdges (dims : Nat) (b : Bool) : Py Unit := if dims = 1 then pyAssert b else .ok ()

/-- `compute_ring_2complex` (data/utils.py:400-498). `dims` is `dimension() + 1` of the tree.
Simplified: the type check of `edge_index` and the conversions between numpy and torch are left out. -/
def ringComplex [DecidableEq F] (g : Gudhi) (lib : RingLib) (agg : List F → F) (x : Option (List F))
    (edgeIndex : List (Nat × Nat)) (edgeAttr : Option (List F)) (size : Nat)
    (y : Option (List L) := none) (maxK : Nat := 7) (includeDown : Bool := true)
    (initEdges : Bool := true) (initRings : Bool := false) : Py (Complex F L) :=
  match x with
  | none => .error .assertion
  | some x => do
    let st := g.inserted (insertions edgeIndex size)
    pyAssert (decide (st.dims ≤ 2))
    checkNoEdges st.dims (edgeIndex.length == 0)
    let t ← buildTablesWithRings lib edgeIndex st size maxK
    pyAssert (decide (t.ids.length ≤ 3))
    let inc ← extractIncidenceWithRings st t.ids
    let adj ← buildAdj inc.boundaries inc.coboundaries t.ids t.ids.length includeDown
    let constructed ← constructFeatures agg x t.cells
    checkNoEdges st.dims (constructed.length == 1)
    let x1 ← edgeRows edgeIndex edgeAttr initEdges st.dims t constructed
    let ys ← extractLabels y size
    let cochains ← generateCochains [some x, x1, ringRows initRings constructed] adj t.cells inc.table
      t.ids.length ys.1
    Complex.new cochains ys.2 (some (t.ids.length - 1))

end Verif
