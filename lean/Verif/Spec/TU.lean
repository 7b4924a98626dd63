import Verif.Model.TU

/-!
# Specification of the TU files
-/

namespace Verif

/-- A node of a TU file: tag, listed neighbours, number of attributes. -/
structure TUNode where
  tag : Int
  neighbours : List Int
  attributes : Nat := 0

/-- A graph of a TU file. -/
structure TUSource where
  label : Int
  nodes : List TUNode

/-- The line of a node: tag, number of neighbours, neighbours, attributes. -/
def TUNode.line (v : TUNode) : List Word :=
  .int v.tag :: .int v.neighbours.length :: (v.neighbours.map .int ++ List.replicate v.attributes .real)

/-- The lines of a graph: the number of nodes and the label, and the nodes. -/
def TUSource.lines (g : TUSource) : List (List Word) :=
  [.int g.nodes.length, .int g.label] :: g.nodes.map TUNode.line

/-- The lines of a file. -/
def tuFile (gs : List TUSource) : List (List Word) := [.int gs.length] :: gs.flatMap TUSource.lines

/-- `v` is listed as a neighbour of node `u`. -/
def TUSource.Lists (g : TUSource) (u v : Int) : Prop := ∃ i : Nat, u = i ∧ ∃ n, g.nodes[i]? = some n ∧ v ∈ n.neighbours

/-- Two nodes are adjacent if one is listed as a neighbour of the other. -/
def TUSource.Adj (g : TUSource) (u v : Int) : Prop := g.Lists u v ∨ g.Lists v u

/-- Listed neighbours are nodes. -/
def TUSource.InRange (g : TUSource) : Prop := ∀ n ∈ g.nodes, ∀ v ∈ n.neighbours, 0 ≤ v ∧ v < g.nodes.length

/-- There is an edge. -/
def TUSource.HasEdge (g : TUSource) : Prop := ∃ n ∈ g.nodes, n.neighbours ≠ []

/-- `nums` numbers the values by first occurrence: the number of a value is the number of different values before its
first occurrence. -/
def NumberedByFirst {K : Type} [DecidableEq K] (raw : List K) (nums : List Nat) : Prop :=
  nums.length = raw.length ∧ ∀ (i : Nat) (a : K), raw[i]? = some a →
    ∃ j : Nat, j ≤ i ∧ raw[j]? = some a ∧ a ∉ raw.take j ∧ nums[i]? = some (raw.take j).dedup.length

/-- A row with a single one and zeros otherwise. -/
def IsOneHot (width : Nat) (row : List Nat) : Prop :=
  row.length = width ∧ ∃ i, i < width ∧ ∀ (j : Nat), j < width → row[j]? = some (if j = i then 1 else 0)

/-- The order in which Python iterates over a set: every tag once. (Contract for the parameter `order`.) -/
def SetOrder (order : List Nat → List Nat) : Prop := ∀ l, (order l).Nodup ∧ ∀ a, a ∈ order l ↔ a ∈ l

/-- The number of columns of an edge index that begin at a node. -/
def degreeIn (edges : List (Int × Int)) (v : Int) : Nat := (edges.filter fun e => decide (e.1 = v)).length

end Verif
