import Verif.Spec.Oriented
import Verif.Spec.Walks

/-!
# Specification vocabulary for the edge-flow datasets
-/

namespace Verif

variable {R L : Type}

/-- A cochain without the attributes that refer to cells of other dimensions. -/
def EdgeOnly (c : Cochain R L) : Prop :=
  c.boundaryIndex = none ∧ c.sharedBoundaries = none ∧ c.sharedCoboundaries = none

/-- `c'` is `c` with the orientation of some cells reversed. -/
def Reoriented [AddCommGroup R] (c c' : Cochain R L) : Prop := ∃ s, Signs s ∧ c' = c.flip s

/-- Networks whose predictions are meant not to depend on orientations: either all layers are odd and absolute values
are taken at the end, or absolute values are taken first and orientations are not used. -/
structure OrientNet.Blind [AddCommGroup R] (net : OrientNet R) : Prop where
  abs : ∀ r, net.abs (-r) = net.abs r
  layers : (net.fullyInvar = false ∧ ∀ l ∈ net.convs, l.Equivariant) ∨
    (net.fullyInvar = true ∧ ∀ l ∈ net.convs, l.orient = false)

/-- The sign of vertex `v` in the boundary of the edge from `q.1` to `q.2`. -/
def endSign (q : Nat × Nat) (v : Nat) : Int := if v = q.2 then 1 else if v = q.1 then -1 else 0

/-- The sign of the edge from `q.1` to `q.2` in the boundary of the triangle that is passed along its corners in the
order in which they are given. -/
def sideSign (t : Nat × Nat × Nat) (q : Nat × Nat) : Int :=
  if q ∈ [(t.1, t.2.1), (t.2.1, t.2.2), (t.2.2, t.1)] then 1
  else if q.swap ∈ [(t.1, t.2.1), (t.2.1, t.2.2), (t.2.2, t.1)] then -1 else 0

/-- The adjacencies of `cols` cells by way of `rows` cells with which they are incident with signs `sgn`. -/
structure AdjacencyOf (rows cols : Nat) (sgn : Nat → Nat → Int) (index : List (Nat × Nat)) (orient : List Int) :
    Prop where
  nodup : index.Nodup
  length : orient.length = index.length
  mem : ∀ e f, (e, f) ∈ index ↔ e < cols ∧ f < cols ∧ e ≠ f ∧ ∃ k, k < rows ∧ sgn k e ≠ 0 ∧ sgn k f ≠ 0
  orient : ∀ (p e f : Nat) o, index[p]? = some (e, f) → orient[p]? = some o →
    ∀ k, k < rows → sgn k e ≠ 0 → sgn k f ≠ 0 → o = sgn k e * sgn k f

/-- The cochain on the edges of a complex with the given vertices, edges and triangles, with the orientation of edge
`e` multiplied by `s e`. `row q` is the value on the edge `q`. -/
structure FlowItem [AddCommGroup R] (vertices : List Nat) (edges : List (Nat × Nat)) (triangles : List (Nat × Nat × Nat))
    (s : Nat → Int) (row : Nat × Nat → R) (label : L) (c : Cochain R L) : Prop where
  dim : c.dim = 1
  y : c.y = some [label]
  x : c.x = some (edges.zipIdx.map fun qe => s qe.2 • row qe.1)
  lower : ∃ index orient, c.lowerIndex = some index ∧ c.lowerOrient = some orient ∧
    AdjacencyOf vertices.length edges.length
      (fun v e => s e * ((edges[e]?.map fun q => (vertices[v]?.map fun w => endSign q w).getD 0).getD 0)) index orient
  upper : ∃ index orient, c.upperIndex = some index ∧ c.upperOrient = some orient ∧
    AdjacencyOf triangles.length edges.length
      (fun i e => s e * ((edges[e]?.map fun q => (triangles[i]?.map fun t => sideSign t q).getD 0).getD 0)) index orient
  edgeOnly : EdgeOnly c
  noBatch : c.batch = none ∧ c.ptr = none

/-- A path along sides of triangles, from a point in one region to a point in another, that meets no vertex twice. -/
structure SimplePath {P : Type} (points : List P) (triangles : List (Nat × Nat × Nat)) (start stop : P → Bool)
    (path : List Nat) : Prop where
  starts : ∃ i p, path.head? = some i ∧ points[i]? = some p ∧ start p = true
  stops : ∃ i p, path.getLast? = some i ∧ points[i]? = some p ∧ stop p = true
  nodup : path.Nodup
  along : ∀ u v, (u, v) ∈ moves path → ∃ t ∈ triangles, u ∈ [t.1, t.2.1, t.2.2] ∧ v ∈ [t.1, t.2.1, t.2.2]

/-- The value of a path on the edge from `q.1` to `q.2`. -/
def pathSign (path : List Nat) (q : Nat × Nat) : Int :=
  if q ∈ moves path then 1 else if q.swap ∈ moves path then -1 else 0

end Verif
