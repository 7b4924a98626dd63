import Verif.Model.Convert

/-!
# Reading the TU datasets (data/tu_utils.py:57-194)
-/

namespace Verif

/-! ### networkx graphs -/

/-- `nx.Graph()` without attributes: the dictionary of the neighbours of every node, in the order of insertion. -/
abbrev NxGraph := Dict Int (List Int)

/-- `g.add_node(v)`. (External contract of networkx.) -/
def NxGraph.addNode (g : NxGraph) (v : Int) : NxGraph :=
  if (Dict.get? g v).isSome then g else Dict.set g v []

/-- `g._adj[u][v] = ...`. -/
def NxGraph.link (g : NxGraph) (u v : Int) : NxGraph :=
  Dict.set g u (if v ∈ (Dict.get? g u).getD [] then (Dict.get? g u).getD [] else (Dict.get? g u).getD [] ++ [v])

/-- `g.add_edge(u, v)`. (External contract of networkx.) -/
def NxGraph.addEdge (g : NxGraph) (u v : Int) : NxGraph :=
  (((g.addNode u).addNode v).link u v).link v u

/-- The loop of `g.edges()`: nodes already seen are passed over. (External contract of networkx.) -/
def NxGraph.edgesFrom (seen : List Int) : NxGraph → List (Int × Int)
  | [] => []
  | (u, nbrs) :: rest => (nbrs.filter fun v => decide (v ∉ seen)).map (fun v => (u, v)) ++ edgesFrom (u :: seen) rest

/-- `g.edges()`. -/
def NxGraph.edges (g : NxGraph) : List (Int × Int) := NxGraph.edgesFrom [] g

/-- `dict(g.degree).values()`: in the order of insertion; a loop counts twice. (External contract of networkx.) -/
def NxGraph.degrees (g : NxGraph) : List Nat := g.map fun p => p.2.length + (if p.1 ∈ p.2 then 1 else 0)

/-! ### The first pass -/

/-- A word of the file. Simplified: every word is an integer or another number. -/
inductive Word
  | int (n : Int)
  | real
  deriving DecidableEq

/-- `int(w)`. -/
def Word.toInt : Word → Py Int
  | .int n => .ok n
  | .real => .error .value

/-- `f.readline().strip().split()`: no words at the end of the file; and the lines left. -/
def readLine : List (List Word) → List Word × List (List Word)
  | [] => ([], [])
  | line :: rest => (line, rest)

/-- `row[:k]`; a negative `k` counts from the end. -/
def sliceTo {A : Type} (row : List A) (k : Int) : List A :=
  if 0 ≤ k then row.take k.toNat else row.take (row.length - (-k).toNat)

/-- `if not k in d: d[k] = len(d)` (data/tu_utils.py:74-76, 91-93). -/
def Dict.number (d : Dict Int Nat) (k : Int) : Dict Int Nat :=
  if (Dict.get? d k).isSome then d else Dict.set d k d.length

/-- The words of a node up to its neighbours (data/tu_utils.py:84-90). The attributes, which the loop throws away, are
left out: in line 96 `tmp > len(row)` only holds for rows that are too short, and then `attr` is an empty array. -/
def readRow (row : List Word) : Py (List Int) := do
  let w ← getAt row 1
  let d ← w.toInt
  mapE Word.toInt (sliceTo row (d + 2))

/-- The state of the loop over the nodes. -/
structure NodeState where
  lines : List (List Word)
  feats : Dict Int Nat
  graph : NxGraph
  tags : List Nat

/-- The body of the loop over the nodes (data/tu_utils.py:82-101). `n_edges`, which is not used, is left out, but not
the exception of `row[1]`. -/
def readNode (s : NodeState) (j : Nat) : Py NodeState := do
  let row ← readRow (readLine s.lines).1
  let tag ← getAt row 0
  let num ← Dict.get (Dict.number s.feats tag) tag
  let _ ← getAt row 1
  return {
    lines := (readLine s.lines).2
    feats := Dict.number s.feats tag
    graph := (row.drop 2).foldl (fun g v => g.addEdge j v) (s.graph.addNode j)
    tags := s.tags ++ [num] }

/-- `n, l = [int(w) for w in row]`. -/
def unpackTwo : List Int → Py (Int × Int)
  | [n, l] => .ok (n, l)
  | _ => .error .value

/-- `S2VGraph(g, l, node_tags)` (data/tu_utils.py:37-54). -/
structure S2VGraph where
  graph : NxGraph
  label : Int
  tags : List Nat

/-- The state of the loop over the graphs. -/
structure ReadState where
  lines : List (List Word)
  labels : Dict Int Nat := []
  feats : Dict Int Nat := []
  graphs : List S2VGraph := []

/-- The body of the loop over the graphs (data/tu_utils.py:72-112). `range(n)` is empty for a negative `n`. -/
def readGraph (s : ReadState) (_i : Nat) : Py ReadState := do
  let ints ← mapE Word.toInt (readLine s.lines).1
  let nl ← unpackTwo ints
  let r ← foldE readNode { lines := (readLine s.lines).2, feats := s.feats, graph := [], tags := [] }
    (List.range nl.1.toNat)
  pyAssert (decide ((r.graph.length : Int) = nl.1))
  return {
    lines := r.lines
    labels := Dict.number s.labels nl.2
    feats := r.feats
    graphs := s.graphs ++ [{ graph := r.graph, label := nl.2, tags := r.tags }] }

/-- `int(f.readline().strip())` (data/tu_utils.py:70). -/
def readCount : List Word → Py Int
  | [w] => w.toInt
  | _ => .error .value

/-- The first pass (data/tu_utils.py:65-112). -/
def readFile (lines : List (List Word)) : Py ReadState := do
  let n ← readCount (readLine lines).1
  foldE readGraph { lines := (readLine lines).2 } (List.range n.toNat)

/-! ### Labels, edges and features -/

/-- A graph with label and edges. -/
structure TUGraph where
  graph : NxGraph
  label : Nat
  tags : List Nat
  edgeMat : List (Int × Int)
  features : List (List Nat) := []

/-- The second pass for a graph (data/tu_utils.py:115-132): `max` of no degrees is a `ValueError`, the transpose of
the empty tensor an `IndexError`. The lists of neighbours, of which only the (unused) maximal length is kept, are left
out. -/
def finishGraph (labels : Dict Int Nat) (g : S2VGraph) : Py TUGraph :=
  if g.graph = [] then .error .value
  else do
    let label ← Dict.get labels g.label
    if g.graph.edges = [] then .error .index
    else return { graph := g.graph, label := label, tags := g.tags,
                  edgeMat := g.graph.edges ++ g.graph.edges.map fun e => (e.2, e.1) }

/-- The row of length `n` with a one at place `i`. -/
def hotRow (n i : Nat) : List Nat := (List.range n).map fun j => if j = i then 1 else 0

/-- Lines 134-138 of data/tu_utils.py. -/
def degreeTags (degreeAsTag : Bool) (g : TUGraph) : TUGraph :=
  if degreeAsTag then { g with tags := g.graph.degrees } else g

/-- Lines 149-150 of data/tu_utils.py. -/
def tagFeatures (tagset : List Nat) (g : TUGraph) : Py TUGraph := do
  let places ← mapE (Dict.get tagset.zipIdx) g.tags
  return { g with features := places.map (hotRow tagset.length) }

/-- `torch_geometric.utils.degree(edge_index[0])`: as many entries as the greatest index plus one. (External contract
of PyTorch Geometric.) -/
def torchDegree (idx : List Int) : List Nat :=
  (List.range ((idx.foldl max (-1)) + 1).toNat).map fun (v : Nat) => idx.count (v : Int)

/-- `get_node_degrees` (data/tu_utils.py:157-163). -/
def nodeDegrees (g : TUGraph) : List Nat :=
  if g.edgeMat = [] then List.replicate g.features.length 0 else torchDegree (g.edgeMat.map Prod.fst)

/-- The values of `np.unique(degs)`. (External contract of numpy.) -/
def uniqueDegrees (degs : List Nat) : List Nat := degs.dedup.insertionSort (· ≤ ·)

/-- The loop of data/tu_utils.py:170-175; `corrs` are the places that are left. -/
def encodeDegrees (width : Nat) : List Nat → List TUGraph → List TUGraph
  | _, [] => []
  | corrs, g :: gs =>
    { g with features := (corrs.take g.features.length).map (hotRow width) } ::
      encodeDegrees width (corrs.drop g.features.length) gs

/-- Lines 164-175 of data/tu_utils.py. The second result of `np.unique` has the place of every value. -/
def degreeFeatures (degreeAsTag : Bool) (gs : List TUGraph) : List TUGraph :=
  if degreeAsTag then
    encodeDegrees (uniqueDegrees (gs.flatMap nodeDegrees)).length
      ((gs.flatMap nodeDegrees).map fun d => (uniqueDegrees (gs.flatMap nodeDegrees)).idxOf d) gs
  else gs

/-- `load_data` (data/tu_utils.py:57-183) on the words of the file: the graphs and the number of classes. `order` is the
order of Python's iteration over a set of tags, which is not specified. -/
def loadData (order : List Nat → List Nat) (lines : List (List Word)) (degreeAsTag : Bool) :
    Py (List TUGraph × Nat) := do
  let r ← readFile lines
  let gs ← mapE (finishGraph r.labels) r.graphs
  let fs ← mapE (tagFeatures (order ((gs.map (degreeTags degreeAsTag)).flatMap TUGraph.tags)))
    (gs.map (degreeTags degreeAsTag))
  return (degreeFeatures degreeAsTag fs, r.labels.length)

/-- `S2V_to_PyG` (data/tu_utils.py:186-194). -/
def s2vToPyG (g : TUGraph) : GraphData (List Nat) Nat where
  x := some g.features
  edgeIndex := g.edgeMat.map fun e => (e.1.toNat, e.2.toNat)
  numNodes := g.features.length
  y := some [g.label]

end Verif
