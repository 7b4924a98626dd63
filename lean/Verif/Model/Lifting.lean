import Verif.Model.MessagePassing

/-!
# Lifting graphs to simplicial complexes (data/utils.py:19-272)

Type parameters: `F` is the type of a feature row, `L` the type of a label. A cell is the list of its
vertices (the code converts between lists and tuples where a hashable value is needed).
-/

namespace Verif

variable {F L : Type}

/-! ### Dictionaries and lists -/

/-- A Python dictionary: the items in insertion order. -/
abbrev Dict (K V : Type) := List (K × V)

/-- `d[k] = v`: an existing key keeps its place. -/
def Dict.set {K V : Type} [DecidableEq K] (d : Dict K V) (k : K) (v : V) : Dict K V :=
  match d with
  | [] => [(k, v)]
  | (k', v') :: rest => if k' = k then (k', v) :: rest else (k', v') :: Dict.set rest k v

/-- `d.get(k)`. -/
def Dict.get? {K V : Type} [DecidableEq K] (d : Dict K V) (k : K) : Option V :=
  match d with
  | [] => none
  | (k', v') :: rest => if k' = k then some v' else Dict.get? rest k

/-- `d[k]`. -/
def Dict.get {K V : Type} [DecidableEq K] (d : Dict K V) (k : K) : Py V :=
  match Dict.get? d k with
  | some v => .ok v
  | none => .error .key

/-- `if k not in d: d[k] = list()` followed by `d[k].append(v)` (data/utils.py:92-98, 390-392). -/
def Dict.push {K V : Type} [DecidableEq K] (d : Dict K (List V)) (k : K) (v : V) : Dict K (List V) :=
  d.set k ((d.get? k).getD [] ++ [v])

/-- `l[i] = f(l[i])`; `IndexError` out of range. -/
def modifyAt {A : Type} (l : List A) (i : Nat) (f : A → A) : Py (List A) :=
  match l[i]? with
  | some a => .ok (l.set i (f a))
  | none => .error .index

/-- `l[i]`; `IndexError` out of range. -/
def getAt {A : Type} (l : List A) (i : Nat) : Py A :=
  match l[i]? with
  | some a => .ok a
  | none => .error .index

/-- A loop over a list whose body updates a state and may raise. -/
def foldE {A S : Type} (f : S → A → Py S) : S → List A → Py S
  | s, [] => .ok s
  | s, a :: l => do
    let s ← f s a
    foldE f s l

/-- `itertools.combinations(l, k)`, in its order. -/
def combinations {A : Type} : List A → Nat → List (List A)
  | _, 0 => [[]]
  | [], _ + 1 => []
  | a :: l, k + 1 => (combinations l k).map (a :: ·) ++ combinations l (k + 1)

/-- `itertools.combinations(l, 2)` as pairs, in its order. -/
def pairsOf {A : Type} : List A → List (A × A)
  | [] => []
  | a :: l => l.map (fun b => (a, b)) ++ pairsOf l

/-! ### The simplex tree -/

/-- What the code asks of a gudhi `SimplexTree`: `get_simplices()` (in the order of the library) and
`get_cofaces(simplex, codimension=1)`. Filtration values are ignored by the code. -/
structure SimplexTree where
  simplices : List (List Nat)
  cofaces : List Nat → List (List Nat)

/-- `dimension() + 1` (external contract): the largest number of vertices of a simplex, 0 for an empty
tree (whose dimension is -1). -/
def SimplexTree.dims (st : SimplexTree) : Nat := ((st.simplices.map List.length).max?).getD 0

/-- The gudhi library: the tree after a sequence of `insert` calls, and after a following
`expansion(k)`. Its contract is `Gudhi.Ok` in `Verif.Spec.Lifting`. -/
structure Gudhi where
  inserted : List (List Nat) → SimplexTree
  expanded : List (List Nat) → Nat → SimplexTree

/-- The insertions made by `pyg_to_simplex_tree` (data/utils.py:19-37): the vertices, then the edges. -/
def insertions (edgeIndex : List (Nat × Nat)) (size : Nat) : List (List Nat) :=
  (List.range size).map (fun v => [v]) ++ edgeIndex.map fun e => [e.1, e.2]

/-! ### Tables -/

/-- `get_simplex_boundaries` (data/utils.py:40-42). -/
def getSimplexBoundaries (simplex : List Nat) : List (List Nat) :=
  combinations simplex (simplex.length - 1)

/-- `simplex_tables` and `id_maps` (data/utils.py:48-49), one entry per dimension. -/
structure Tables where
  cells : List (List (List Nat))
  ids : List (Dict (List Nat) Nat)
  deriving DecidableEq

/-- The body of the loop of `build_tables` (data/utils.py:55-63). -/
def buildTablesStep (t : Tables) (simplex : List Nat) : Py Tables :=
  let dim := simplex.length - 1
  if dim = 0 then .ok t
  else do
    let table ← getAt t.cells dim
    let ids ← modifyAt t.ids dim (fun m => m.set simplex table.length)
    let cells ← modifyAt t.cells dim (fun l => l ++ [simplex])
    return { cells := cells, ids := ids }

/-- `build_tables` (data/utils.py:45-65). The assignments to entry 0 raise `IndexError` for an empty
tree. -/
def buildTables (st : SimplexTree) (size : Nat) : Py Tables := do
  let cells ← modifyAt (List.replicate st.dims []) 0 fun _ => (List.range size).map fun v => [v]
  let ids ← modifyAt (List.replicate st.dims []) 0 fun _ => (List.range size).map fun v => ([v], v)
  foldE buildTablesStep { cells := cells, ids := ids } st.simplices

/-- `boundaries_tables`, `boundaries`, `coboundaries` (data/utils.py:71-73). -/
structure Incidence where
  table : List (List (List Nat))
  boundaries : List (Dict (List Nat) (List (List Nat)))
  coboundaries : List (Dict (List Nat) (List (List Nat)))
  deriving DecidableEq

/-- The body of the inner loop (data/utils.py:89-98). `level_coboundaries` and `level_boundaries` are
the dictionaries of the dimension of the simplex and the next one. -/
def cofaceStep (simplex : List Nat)
    (s : Dict (List Nat) (List (List Nat)) × Dict (List Nat) (List (List Nat))) (coboundary : List Nat) :
    Py (Dict (List Nat) (List (List Nat)) × Dict (List Nat) (List (List Nat))) := do
  pyAssert (coboundary.length == simplex.length + 1)
  return (s.1.push simplex coboundary, s.2.push coboundary simplex)

/-- The row of the incidence table of a simplex (data/utils.py:81-86). -/
def tableStep (ids : List (Dict (List Nat) Nat)) (table : List (List (List Nat))) (simplex : List Nat) :
    Py (List (List (List Nat))) :=
  let dim := simplex.length - 1
  if 0 < dim then do
    let idMap ← getAt ids (dim - 1)
    let bs ← mapE (Dict.get idMap) (getSimplexBoundaries simplex)
    modifyAt table dim (fun l => l ++ [bs])
  else .ok table

/-- The body of the outer loop of `extract_boundaries_and_coboundaries_from_simplex_tree`
(data/utils.py:75-98). -/
def extractStep (st : SimplexTree) (ids : List (Dict (List Nat) Nat)) (s : Incidence)
    (simplex : List Nat) : Py Incidence := do
  let dim := simplex.length - 1
  let levelCob ← getAt s.coboundaries dim
  let levelBd ← getAt s.boundaries (dim + 1)
  let table ← tableStep ids s.table simplex
  let levels ← foldE (cofaceStep simplex) (levelCob, levelBd) (st.cofaces simplex)
  return { table := table, coboundaries := s.coboundaries.set dim levels.1,
           boundaries := s.boundaries.set (dim + 1) levels.2 }

/-- `extract_boundaries_and_coboundaries_from_simplex_tree` (data/utils.py:68-100); `dims` is
`complex_dim + 1`. -/
def extractIncidence (st : SimplexTree) (ids : List (Dict (List Nat) Nat)) (dims : Nat) : Py Incidence :=
  foldE (extractStep st ids)
    { table := List.replicate dims [], boundaries := List.replicate (dims + 1) [],
      coboundaries := List.replicate (dims + 1) [] } st.simplices

/-! ### Adjacencies -/

/-- The four lists of lists built by `build_adj` (data/utils.py:117-118). -/
structure Adjacency where
  sharedBoundaries : List (List Nat)
  sharedCoboundaries : List (List Nat)
  lower : List (List (Nat × Nat))
  upper : List (List (Nat × Nat))
  deriving DecidableEq

/-- The columns and shared ids appended for a cell with the given neighbours (data/utils.py:126-129,
133-136): both directions for every pair of them. -/
def adjPairs (ids : Dict (List Nat) Nat) (id : Nat) (cells : List (List Nat)) :
    Py (List ((Nat × Nat) × Nat)) := do
  let cols ← mapE (fun (p : List Nat × List Nat) => do
    let id1 ← ids.get p.1
    let id2 ← ids.get p.2
    return [((id1, id2), id), ((id2, id1), id)]) (pairsOf cells)
  return cols.flatten

/-- The upper part of the body (data/utils.py:124-129). -/
def buildUpper (boundaries : List (Dict (List Nat) (List (List Nat))))
    (ids : List (Dict (List Nat) Nat)) (dim : Nat) (a : Adjacency) (cell : List Nat × Nat) :
    Py Adjacency :=
  if dim = 0 then .ok a
  else do
    let level ← getAt boundaries dim
    let bs ← level.get cell.1
    let below ← getAt ids (dim - 1)
    let cols ← adjPairs below cell.2 bs
    let upper ← modifyAt a.upper (dim - 1) (· ++ cols.map Prod.fst)
    let sc ← modifyAt a.sharedCoboundaries (dim - 1) (· ++ cols.map Prod.snd)
    return { a with upper := upper, sharedCoboundaries := sc }

/-- The lower part of the body (data/utils.py:131-136); `dims` is `complex_dim + 1`. -/
def buildLower (coboundaries : List (Dict (List Nat) (List (List Nat))))
    (ids : List (Dict (List Nat) Nat)) (dims : Nat) (includeDown : Bool) (dim : Nat) (a : Adjacency)
    (cell : List Nat × Nat) : Py Adjacency :=
  if includeDown && decide (dim + 1 < dims) then do
    let level ← getAt coboundaries dim
    match level.get? cell.1 with
    | none => .ok a
    | some cs => do
      let above ← getAt ids (dim + 1)
      let cols ← adjPairs above cell.2 cs
      let lower ← modifyAt a.lower (dim + 1) (· ++ cols.map Prod.fst)
      let sb ← modifyAt a.sharedBoundaries (dim + 1) (· ++ cols.map Prod.snd)
      return { a with lower := lower, sharedBoundaries := sb }
  else .ok a

/-- `build_adj` (data/utils.py:103-138). -/
def buildAdj (boundaries coboundaries : List (Dict (List Nat) (List (List Nat))))
    (ids : List (Dict (List Nat) Nat)) (dims : Nat) (includeDown : Bool) : Py Adjacency :=
  foldE (fun a dim => do
    let level ← getAt ids dim
    foldE (fun a cell => do
      let a ← buildUpper boundaries ids dim a cell
      buildLower coboundaries ids dims includeDown dim a cell) a level)
    { sharedBoundaries := List.replicate dims [], sharedCoboundaries := List.replicate dims [],
      lower := List.replicate dims [], upper := List.replicate dims [] } (List.range dims)

/-! ### Features, labels, cochains -/

/-- The features of one dimension (data/utils.py:145-153). -/
def cellFeatures (agg : List F → F) (vx : List F) (cells : List (List Nat)) : Py (List F) := do
  let inFeatures ← indexSelect vx cells.flatten
  scatter agg cells.length (cells.zipIdx.flatMap fun ci => ci.1.map fun _ => ci.2) inFeatures

/-- `construct_features` (data/utils.py:141-155); `agg` is the reduction named by `init_method`. -/
def constructFeatures (agg : List F → F) (vx : List F) (cells : List (List (List Nat))) :
    Py (List (List F)) := do
  let rest ← mapE (cellFeatures agg vx) (cells.drop 1)
  return vx :: rest

/-- `extract_labels` (data/utils.py:158-174): the labels of the vertices and of the complex. -/
def extractLabels (y : Option (List L)) (size : Nat) : Py (Option (List L) × Option (List L)) :=
  match y with
  | none => .ok (none, none)
  | some y =>
    if y.length = 1 then .ok (none, some y)
    else do
      pyAssert (y.length == size)
      return (some y, none)

/-- `torch.tensor(l) if len(l) > 0 else None` (data/utils.py:188-195). -/
def nonempty {A : Type} (l : List A) : Option (List A) := if 0 < l.length then some l else none

/-- `boundary_index` (data/utils.py:197-204). -/
def boundaryIndexOf (table : List (List Nat)) : Option (List (Nat × Nat)) :=
  if 0 < table.length then
    some (table.zipIdx.flatMap fun ci => ci.1.map fun b => (b, ci.2))
  else none

/-- `assert cond(shared.max() + 1)` when an index is there (data/utils.py:211-216): the lengths must
agree. -/
def checkShared (index : Option (List (Nat × Nat))) (shared : Option (List Nat)) (cond : Nat → Bool) :
    Py Unit :=
  match index with
  | none => .ok ()
  | some index =>
    match shared with
    | none => .error .attribute
    | some shared => do
      pyAssert (index.length == shared.length)
      let m ← Cochain.maxPlusOne shared
      pyAssert (cond m)

/-- Nothing is below the vertices (data/utils.py:181-183). -/
def checkVertices (dim : Nat) (lower : List (Nat × Nat)) (shared : List Nat) : Py Unit :=
  if dim = 0 then do
    pyAssert (lower.length == 0)
    pyAssert (shared.length == 0)
  else .ok ()

/-- `num_cells_down` (data/utils.py:185). -/
def numDownOf (cells : List (List (List Nat))) (dim : Nat) : Py (Option Nat) :=
  if 0 < dim then do
    let t ← getAt cells (dim - 1)
    return some t.length
  else .ok none

/-- `num_cells_up` (data/utils.py:186); `dims` is `complex_dim + 1`. -/
def numUpOf (cells : List (List (List Nat))) (dims dim : Nat) : Py Nat :=
  if dim + 1 < dims then do
    let t ← getAt cells (dim + 1)
    return t.length
  else .ok 0

/-- `if cond: assert shared is None` (data/utils.py:206-209). -/
def checkNone (cond : Bool) (shared : Option (List Nat)) : Py Unit :=
  if cond then pyAssert shared.isNone else .ok ()

/-- `generate_cochain` (data/utils.py:177-221); `dims` is `complex_dim + 1`. -/
def generateCochain (dim : Nat) (x : Option (List F)) (adj : Adjacency)
    (cells : List (List (List Nat))) (table : List (List (List Nat))) (dims : Nat)
    (y : Option (List L)) : Py (Cochain F L) := do
  let lower ← getAt adj.lower dim
  let sb ← getAt adj.sharedBoundaries dim
  let upper ← getAt adj.upper dim
  let sc ← getAt adj.sharedCoboundaries dim
  checkVertices dim lower sb
  let numDown ← numDownOf cells dim
  let numUp ← numUpOf cells dims dim
  let bt ← getAt table dim
  checkNone numDown.isNone (nonempty sb)
  checkNone (numUp == 0) (nonempty sc)
  checkShared (nonempty upper) (nonempty sc) (fun m => numUp == m)
  checkShared (nonempty lower) (nonempty sb) (fun m => decide (m ≤ numDown.getD 0))
  Cochain.mk? { dim := dim, x := x, upperIndex := nonempty upper, lowerIndex := nonempty lower,
                sharedCoboundaries := nonempty sc, sharedBoundaries := nonempty sb, y := y,
                numCellsDownAttr := some numDown, numCellsUpAttr := some (some numUp),
                boundaryIndex := boundaryIndexOf bt }

/-- The loop over the dimensions (data/utils.py:264-270, 490-496). -/
def generateCochains (xs : List (Option (List F))) (adj : Adjacency) (cells table : List (List (List Nat)))
    (dims : Nat) (vy : Option (List L)) : Py (List (Cochain F L)) :=
  mapE (fun i => do
    let x ← getAt xs i
    generateCochain i x adj cells table dims (if i = 0 then vy else none)) (List.range dims)

/-- Everything after the simplex tree is built (data/utils.py:244-272). -/
def liftTree (agg : List F → F) (x : List F) (st : SimplexTree) (size : Nat) (y : Option (List L))
    (includeDown : Bool) : Py (Complex F L) := do
  let t ← buildTables st size
  let inc ← extractIncidence st t.ids st.dims
  let adj ← buildAdj inc.boundaries inc.coboundaries t.ids st.dims includeDown
  let xs ← constructFeatures agg x t.cells
  let ys ← extractLabels y size
  let cochains ← generateCochains (xs.map some) adj t.cells inc.table st.dims ys.1
  Complex.new cochains ys.2 (some (st.dims - 1))

/-- `compute_clique_complex_with_gudhi` (data/utils.py:224-272).
Simplified: the type check of `edge_index` is left out. -/
def cliqueComplex (g : Gudhi) (agg : List F → F) (x : Option (List F)) (edgeIndex : List (Nat × Nat))
    (size : Nat) (expansionDim : Nat := 2) (y : Option (List L) := none) (includeDown : Bool := true) :
    Py (Complex F L) :=
  match x with
  | none => .error .assertion
  | some x => liftTree agg x (g.expanded (insertions edgeIndex size) expansionDim) size y includeDown

end Verif
