import Verif.Model.Convert
import Verif.Spec.Lifting
import Verif.Spec.Rings

/-!
# Specification of the conversion of datasets

Nothing here is used by the model of the code.
-/

namespace Verif

variable {F L : Type}

/-- `m` is the largest of the numbers; `none` if there are none. -/
def IsLargest (ds : List Nat) : Option Nat → Prop
  | none => ds = []
  | some m => m ∈ ds ∧ ∀ d ∈ ds, d ≤ m

/-- `w` is the number of columns of the features: 0 without features. -/
def HasWidth (width : F → Nat) (x : Option (List F)) (w : Nat) : Prop :=
  (x = none ∧ w = 0) ∨ (x = some [] ∧ w = 0) ∨ ∃ r rows, x = some (r :: rows) ∧ w = width r

/-- The reported dimension is the largest one, there is one number of features for each dimension up to it,
and these are the numbers of features of all complexes. -/
structure Reports (width : F → Nat) (comps : List (Complex F L)) (dimension : Option Nat)
    (nf : List (Option Nat)) : Prop where
  largest : IsLargest (comps.map Complex.dimension) dimension
  len : nf.length = (dimension.map (· + 1)).getD 0
  widths : ∀ comp ∈ comps, ∀ d, d ≤ comp.dimension → ∃ (c : Cochain F L) (w : Nat),
    comp.cochains[d]? = some c ∧ nf[d]? = some (some w) ∧ HasWidth width c.x w

/-- A graph as the datasets give them: at least one node, one row per node, edges between nodes, a label
of the graph or one per node. -/
structure GraphData.Ok (G : GraphData F L) (x : List F) : Prop where
  features : G.x = some x
  pos : 0 < G.numNodes
  rows : x.length = G.numNodes
  edges : EdgesIn G.edgeIndex G.numNodes
  labels : ∀ l, G.y = some l → l.length = 1 ∨ l.length = G.numNodes

/-- A graph of a graph-level task, as the ring conversion takes them: each edge is stored once in each
direction, there are no loops, and edge features are the same in both directions. -/
structure GraphData.Simple (G : GraphData F L) : Prop where
  nodup : G.edgeIndex.Nodup
  both : ∀ e ∈ G.edgeIndex, e.swap ∈ G.edgeIndex
  noLoops : NoLoops G.edgeIndex
  label : ∀ l, G.y = some l → l.length = 1
  attr : ∀ a, G.edgeAttr = some a → a.length = G.edgeIndex.length ∧ Agree G.edgeIndex a

end Verif
