import Verif.Spec.Rings

/-!
# Graphs with features on nodes and edges, and their isomorphisms
-/

namespace Verif

/-- A graph with features of nodes, features of the columns of the edge index (or none), and labels. -/
structure RGraph (R L : Type) where
  size : Nat
  x : List R
  edges : List (Nat × Nat)
  attr : Option (List R)
  y : Option (List L)

variable {R L : Type}

/-- A graph as the datasets give them: at least one node, one row per node, edges between different
nodes, one row per column if there are features of edges and the same for all columns of an edge, a
label of the graph or one per node. -/
structure RGraph.Ok (G : RGraph R L) : Prop where
  pos : 0 < G.size
  rows : G.x.length = G.size
  edges : EdgesIn G.edges G.size
  loops : NoLoops G.edges
  attr : ∀ a, G.attr = some a → a.length = G.edges.length ∧ Agree G.edges a
  labels : ∀ l, G.y = some l → l.length = 1 ∨ l.length = G.size

/-- The graphs are isomorphic, with the features of nodes and edges carried along. Columns of the edge
index may come in any order, direction and number. -/
def RGraph.Iso (G H : RGraph R L) : Prop :=
  H.size = G.size ∧ H.attr.isSome = G.attr.isSome ∧
    ∃ π, GraphIso G.edges H.edges G.size G.x H.x π ∧
      ∀ a a', G.attr = some a → H.attr = some a' → ∀ (i j : Nat) (e e' : Nat × Nat),
        G.edges[i]? = some e → H.edges[j]? = some e' → (e' = (π e.1, π e.2) ∨ e' = (π e.2, π e.1)) →
        a'[j]? = a[i]?

/-- The ring complex of a graph. -/
def RGraph.lift [DecidableEq R] (g : Gudhi) (lib : RingLib) (agg : List R → R) (maxK : Nat)
    (down initEdges initRings : Bool) (G : RGraph R L) : Py (Complex R L) :=
  ringComplex g lib agg (some G.x) G.edges G.attr G.size G.y maxK down initEdges initRings

end Verif
