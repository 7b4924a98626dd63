import Verif.Model.Matrix
import Verif.Model.RingData

/-!
# The synthetic flow dataset (data/datasets/flow_utils.py)

Points are of any type; a rectangle is given by the test whether a point lies in it, and the squared
distance of two points by a function into an ordered type. Triangles are triples of vertices (the rows of
scipy's `Delaunay.simplices`, which have three entries, so that the assertion in line 34 holds).
-/

namespace Verif

variable {P D R L : Type}

/-- `is_inside_rectangle` (data/datasets/flow_utils.py:13-14) for coordinates of an ordered type. -/
def insideRectangle {K : Type} [LE K] [DecidableLE K] (x : K × K) (lo hi : K × K) : Bool :=
  decide (lo.1 ≤ x.1) && decide (x.1 ≤ hi.1) && (decide (lo.2 ≤ x.2) && decide (x.2 ≤ hi.2))

/-- A row of the array of triangles. -/
abbrev Tri := Nat × Nat × Nat

/-- The corners of a triangle. -/
def Tri.corners (t : Tri) : List Nat := [t.1, t.2.1, t.2.2]

/-- An entry-wise map of a triangle. -/
def Tri.map (f : Nat → Nat) (t : Tri) : Tri := (f t.1, f t.2.1, f t.2.2)

/-! ### Holes -/

/-- The loop over the triangles (data/datasets/flow_utils.py:32-46): the kept triangles and the vertices in the
hole. -/
def scanTriangle (points : List P) (inside : P → Bool) (st : List Tri × List Nat) (t : Tri) :
    Py (List Tri × List Nat) := do
  let xs ← indexSelect points t.corners
  let hit := ((t.corners.zip xs).filter fun p => inside p.2).map Prod.fst
  return (if hit = [] then st.1 ++ [t] else st.1, st.2 ++ hit)

/-- The vertices of no kept triangle (data/datasets/flow_utils.py:51-55). -/
def isolated (n : Nat) (kept : List Tri) : List Nat :=
  (List.range n).filter fun i => !(kept.any fun t => t.corners.contains i)

/-- `sorted(removed_vertices, reverse=True)` for vertices below `n`. -/
def descending (n : Nat) (removed : List Nat) : List Nat :=
  ((List.range n).filter fun i => removed.contains i).reverse

/-- `triangles[triangles >= vertex] -= 1` for all removed vertices from the largest to the smallest
(data/datasets/flow_utils.py:60-61). -/
def shiftVertex (n : Nat) (removed : List Nat) (v : Nat) : Nat :=
  (descending n removed).foldl (fun w r => if r ≤ w then w - 1 else w) v

/-- `create_hole` (data/datasets/flow_utils.py:27-63). When no triangle is kept, `np.array([])` is an array of
floats and indexing with it raises `IndexError` (line 49). -/
def createHole (points : List P) (triangles : List Tri) (inside : P → Bool) : Py (List P × List Tri) := do
  let (kept, hit) ← foldE (scanTriangle points inside) ([], []) triangles
  if kept = [] then .error .index
  else
    let removed := hit ++ isolated points.length kept
    return ((points.zipIdx.filter fun p => !removed.contains p.2).map Prod.fst,
      kept.map (Tri.map (shiftVertex points.length removed)))

/-! ### The graph -/

/-- The networkx graph with its attributes (data/datasets/flow_utils.py:65-90). `edges` are the edges in the
order in which they were added, as they were added; `edgeIdx` is the counter `edge_idx`. The attribute `point`
of the nodes is not modelled, it is not read anywhere. -/
structure FlowGraph where
  nodes : List Nat := []
  edges : List (Nat × Nat) := []
  edgeToTuple : Dict Nat (Nat × Nat) := []
  tupleToEdge : Dict (Nat × Nat) Nat := []
  edgeIdx : Nat := 0

/-- `(min(v1, v2), max(v1, v2))`. -/
def ordered (u v : Nat) : Nat × Nat := (min u v, max u v)

namespace FlowGraph

/-- `G.has_edge(u, v)`. -/
def hasEdge (G : FlowGraph) (u v : Nat) : Bool := G.edges.contains (u, v) || G.edges.contains (v, u)

/-- `G.add_node(v)`. -/
def addNode (G : FlowGraph) (v : Nat) : FlowGraph :=
  if G.nodes.contains v then G else { G with nodes := G.nodes ++ [v] }

/-- `G.add_edge(u, v)`; missing nodes are added. -/
def addEdge (G : FlowGraph) (u v : Nat) : FlowGraph :=
  let G := (G.addNode u).addNode v
  { G with edges := G.edges ++ [(u, v)] }

/-- `G.neighbors(v)`: the neighbours in the order in which the edges were added; networkx's own error for a
node that does not exist is `runtime` here. -/
def neighbors (G : FlowGraph) (v : Nat) : Py (List Nat) :=
  if G.nodes.contains v then
    .ok (G.edges.filterMap fun e => if e.1 = v then some e.2 else if e.2 = v then some e.1 else none)
  else .error .runtime

/-- The body of the loop over pairs of corners (data/datasets/flow_utils.py:78-84). -/
def addPair (G : FlowGraph) (p : Nat × Nat) : Py FlowGraph := do
  let G' := if G.hasEdge p.1 p.2 then G
    else
      let H := G.addEdge p.1 p.2
      { H with
        edgeToTuple := H.edgeToTuple.set H.edgeIdx (ordered p.1 p.2)
        tupleToEdge := H.tupleToEdge.set (ordered p.1 p.2) H.edgeIdx
        edgeIdx := H.edgeIdx + 1 }
  pyAssert (G'.hasEdge p.2 p.1)
  return G'

/-- A node that is not there yet is added; its point must exist (data/datasets/flow_utils.py:75-76). -/
def ensureNode (points : List P) (G : FlowGraph) (v : Nat) : Py FlowGraph :=
  if G.nodes.contains v then .ok G
  else do
    let _ ← getAt points v
    return G.addNode v

/-- The body of the loop over the corners of `t` (data/datasets/flow_utils.py:74-84). -/
def addCorner (points : List P) (t : Tri) (G : FlowGraph) (v : Nat) : Py FlowGraph := do
  let G ← ensureNode points G v
  foldE addPair G [(t.1, t.2.1), (t.1, t.2.2), (t.2.1, t.2.2)]

/-- The body of the loop over the triangles (data/datasets/flow_utils.py:72-84). -/
def addTriangle (points : List P) (G : FlowGraph) (t : Tri) : Py FlowGraph :=
  foldE (addCorner points t) G t.corners

end FlowGraph

/-- `create_graph_from_triangulation` (data/datasets/flow_utils.py:65-90). -/
def graphFromTriangulation (points : List P) (triangles : List Tri) : Py FlowGraph :=
  foldE (FlowGraph.addTriangle points) {} triangles

/-! ### Boundary matrices -/

/-- The column of one edge of `B1` (data/datasets/flow_utils.py:100-104). -/
def setEdgeColumn (G : FlowGraph) (B1 : Mat) (e : Nat) : Py Mat := do
  let nodes ← Dict.get G.edgeToTuple e
  let B1 ← B1.set (min nodes.1 nodes.2) e (-1)
  B1.set (max nodes.1 nodes.2) e 1

/-- `extract_edge_and_orientation` (data/datasets/flow_utils.py:110-123) with the two ends. -/
def edgeAndOrientation (G : FlowGraph) (n1 n2 : Nat) : Py (Nat × Int) := do
  let orientation : Int := if n1 < n2 then 1 else -1
  let e ← Dict.get G.tupleToEdge (ordered n1 n2)
  return (e, orientation)

/-- The column of one triangle of `B2` (data/datasets/flow_utils.py:127-135). -/
def setTriangleColumn (G : FlowGraph) (B2 : Mat) (ti : Tri × Nat) : Py Mat := do
  let (t, i) := ti
  let e1 ← edgeAndOrientation G t.1 t.2.1
  let e2 ← edgeAndOrientation G t.2.1 t.2.2
  let e3 ← edgeAndOrientation G t.2.2 t.1
  pyAssert (decide (e1.1 ≠ e2.1 ∧ e1.1 ≠ e3.1 ∧ e2.1 ≠ e3.1))
  let B2 ← B2.set e1.1 i e1.2
  let B2 ← B2.set e2.1 i e2.2
  B2.set e3.1 i e3.2

/-- `extract_boundary_matrices` (data/datasets/flow_utils.py:93-139). -/
def extractBoundaryMatrices (G : FlowGraph) (triangles : List Tri) : Py (Mat × Mat) := do
  let n := G.nodes.length
  let m := G.edges.length
  let B1 ← foldE (setEdgeColumn G) (Mat.zeros n m) (List.range m)
  pyAssert ((List.range n).all fun i => decide (0 < B1.rowAbs i))
  pyAssert ((List.range m).all fun j => decide (B1.colAbs j = 2))
  pyAssert ((List.range m).all fun j => decide (B1.colSum j = 0))
  let B2 ← foldE (setTriangleColumn G) (Mat.zeros m triangles.length) triangles.zipIdx
  pyAssert ((List.range triangles.length).all fun j => decide (B2.colAbs j = 3))
  pyAssert ((List.range m).all fun i => decide (0 < B2.rowAbs i))
  return (B1, B2)

/-! ### Trajectories -/

/-- `random.choice`; `r` is the drawn number. `IndexError` when there is nothing to choose from. -/
def choose {A : Type} (l : List A) (r : Nat) : Py A := getAt l (r % l.length)

/-- `sample_point_from_rect` (data/datasets/flow_utils.py:17-24). -/
def samplePoint (points : List P) (inside : P → Bool) (r : Nat) : Py Nat :=
  choose ((points.zipIdx.filter fun p => inside p.1).map Prod.snd) r

/-- `np.argmin`: the first position of the smallest entry; `ValueError` on an empty vector. -/
def argmin [LT D] [DecidableLT D] : List D → Py Nat
  | [] => .error .value
  | d :: ds => .ok ((ds.zipIdx 1).foldl (fun (best : D × Nat) p => if p.1 < best.1 then p else best) (d, 0)).2

/-- The random numbers of one attempt: the drawn points, and for every step whether the coin toss was below 0.1
and the drawn neighbour. -/
structure Draw where
  start : Nat
  stop : Nat
  ckpt : Nat
  coins : Nat → Bool × Nat

/-- The variables of the loop. -/
structure Trip where
  vertex : Nat
  path : List Nat
  explored : List Nat
  ckptReached : Bool
  x : List Int

/-- How an attempt ends. -/
inductive Outcome
  | done (x : List Int) (path : List Nat)
  | stuck
  | running
  deriving DecidableEq

/-- The flow value of the step (data/datasets/flow_utils.py:190-193). -/
def setFlow (G : FlowGraph) (x : List Int) (u v : Nat) : Py (List Int) :=
  if u < v then do
    let k ← Dict.get G.tupleToEdge (u, v)
    modifyAt x k fun _ => 1
  else do
    let k ← Dict.get G.tupleToEdge (v, u)
    modifyAt x k fun _ => -1

/-- The next vertex (data/datasets/flow_utils.py:175-186): a random one, or the first of the nearest ones. -/
def nextVertex [LT D] [DecidableLT D] (coin : Bool × Nat) (nv : List Nat) (ds : List D) : Py Nat :=
  if coin.1 then choose nv coin.2
  else do
    let i ← argmin ds
    getAt nv i

/-- The body of the loop (data/datasets/flow_utils.py:162-193); `none` when stuck. -/
def tripStep [LT D] [DecidableLT D] (G : FlowGraph) (points : List P) (dist : P → P → D) (endPoint ckptPoint : P)
    (ckptVertex : Nat) (coin : Bool × Nat) (s : Trip) : Py (Option Trip) := do
  let explored := s.vertex :: s.explored
  let ckptReached := s.ckptReached || decide (s.vertex = ckptVertex)
  let around ← G.neighbors s.vertex
  let nv := around.filter fun w => !explored.contains w
  if nv = [] then return none
  else
    let npoints ← indexSelect points nv
    let ds := npoints.map fun p => dist p (if ckptReached then endPoint else ckptPoint)
    let v ← nextVertex coin nv ds
    let x ← setFlow G s.x s.vertex v
    return some { vertex := v, path := s.path ++ [v], explored := explored, ckptReached := ckptReached, x := x }

/-- The loop (data/datasets/flow_utils.py:161-195), at most `fuel` rounds; `running` when it has not ended by
then. -/
def tripLoop [LT D] [DecidableLT D] (G : FlowGraph) (points : List P) (dist : P → P → D) (endPoint ckptPoint : P)
    (endVertex ckptVertex : Nat) (coins : Nat → Bool × Nat) : Nat → Nat → Trip → Py Outcome
  | fuel, k, s =>
    if s.vertex = endVertex then .ok (.done s.x s.path)
    else match fuel with
      | 0 => .ok .running
      | fuel + 1 => do
        let next ← tripStep G points dist endPoint ckptPoint ckptVertex (coins k) s
        match next with
        | none => return .stuck
        | some s' => tripLoop G points dist endPoint ckptPoint endVertex ckptVertex coins fuel (k + 1) s'

/-- One attempt of `generate_trajectory` (data/datasets/flow_utils.py:142-195). The loop ends after at most as
many rounds as there are nodes, which is proved (C44). -/
def attempt [LT D] [DecidableLT D] (G : FlowGraph) (points : List P) (dist : P → P → D)
    (startRect endRect ckptRect : P → Bool) (draw : Draw) : Py Outcome := do
  let startVertex ← samplePoint points startRect draw.start
  let endVertex ← samplePoint points endRect draw.stop
  let ckptVertex ← samplePoint points ckptRect draw.ckpt
  let endPoint ← getAt points endVertex
  let ckptPoint ← getAt points ckptVertex
  tripLoop G points dist endPoint ckptPoint endVertex ckptVertex draw.coins G.nodes.length 0
    { vertex := startVertex, path := [startVertex], explored := [], ckptReached := false,
      x := List.replicate G.tupleToEdge.length 0 }

/-- `generate_trajectory` (data/datasets/flow_utils.py:142-195): attempts are repeated until one is not stuck;
`none` when all the given attempts were stuck (the code would go on). -/
def generateTrajectory [LT D] [DecidableLT D] (G : FlowGraph) (points : List P) (dist : P → P → D)
    (startRect endRect ckptRect : P → Bool) : List Draw → Py (Option (List Int × List Nat))
  | [] => .ok none
  | d :: ds => do
    let o ← attempt G points dist startRect endRect ckptRect d
    match o with
    | .done x path => return some (x, path)
    | .stuck => generateTrajectory G points dist startRect endRect ckptRect ds
    | .running => return none

/-! ### Cochains -/

/-- The library's sparse product of `B.T` with `B` in coordinate form: the positions of its stored entries in
the order in which they are stored. -/
structure SparseLib where
  stored : Mat → List (Nat × Nat)

/-- `np.sign`. -/
def sign (v : Int) : Int := if 0 < v then 1 else if v < 0 then -1 else 0

/-- The body of the loop over the stored entries (data/datasets/flow_utils.py:214-227). -/
def recordAdjacency (A : Mat) (st : List (Nat × Nat) × List Int) (p : Nat × Nat) :
    Py (List (Nat × Nat) × List Int) := do
  let (i, j) := p
  if i ≤ j then return st
  else
    let v := A.entry i j
    pyAssert (decide (v = 1 ∨ v = -1))
    return (st.1 ++ [(i, j), (j, i)], st.2 ++ [sign v, sign v])

/-- The number of entries that are not zero, without the diagonal (data/datasets/flow_utils.py:207). -/
def offDiagonal (A : Mat) : Nat :=
  ((List.range A.rows).flatMap fun i => (List.range A.cols).filter fun j =>
    decide (i ≠ j ∧ A.entry i j ≠ 0)).length

/-- The check against the number of edges of the graph, if one is given (data/datasets/flow_utils.py:202-204). -/
def checkSize (n : Nat) : Option Nat → Py Unit
  | some m => pyAssert (decide (n = m))
  | none => .ok ()

/-- `extract_adj_from_boundary` (data/datasets/flow_utils.py:199-230). The tensors are filled from the front;
writing behind their end would be an `IndexError`, and the assertion in line 229 says that they are full. -/
def extractAdj (lib : SparseLib) (B : Mat) (numEdges : Option Nat) : Py (List (Nat × Nat) × List Int) := do
  let A ← B.transpose.dot B
  checkSize A.rows numEdges
  let connections := offDiagonal A
  let out ← foldE (fun st p => do
    let st' ← recordAdjacency A st p
    if connections < st'.1.length then .error .index else return st') ([], []) (lib.stored B)
  pyAssert (decide (out.1.length = connections))
  return out

/-- `T.dot(x)` for the rows of features. -/
def dotRows [AddCommGroup R] (T : Mat) (x : List R) : Py (List R) :=
  if T.cols = x.length then
    .ok ((List.range T.rows).map fun i => ((x.zipIdx).map fun p => T.entry i p.2 • p.1).sum)
  else .error .value

/-- `build_cochain` (data/datasets/flow_utils.py:233-252). -/
def buildCochain [AddCommGroup R] (lib : SparseLib) (B1 B2 T2 : Mat) (x : List R) (label : L)
    (numEdges : Option Nat) : Py (Cochain R L) := do
  let B1' ← B1.dot T2
  let B2' ← T2.dot B2
  let lower ← extractAdj lib B1' numEdges
  let upper ← extractAdj lib B2'.transpose numEdges
  let x' ← dotRows T2 x
  Cochain.mk? { dim := 1, x := some x', lowerIndex := some lower.1, lowerOrient := some lower.2,
                upperIndex := some upper.1, upperOrient := some upper.2, y := some [label] }

/-- `get_orient_matrix` (data/datasets/flow_utils.py:271-279); `bits` are the drawn bits. `np.long`, with which
the diagonal matrix is converted, is an integer type in the supported numpy versions. -/
def orientMatrix (size : Nat) (orientation : String) (bits : Nat → Bool) : Py Mat :=
  if orientation = "default" then .ok (Mat.identity size)
  else if orientation = "random" then .ok (Mat.diag ((List.range size).map fun i => if bits i then 1 else -1))
  else .error .value

/-- The class of sample `i` out of `n` (data/datasets/flow_utils.py:318-323, 325-329, with the assertion in
line 256). -/
def flowClass (n i : Nat) : Py Nat := do
  let q ← floorDiv i (n / 2)
  pyAssert (decide (min q 1 ≤ 1))
  return min q 1

end Verif
