import Verif.Spec.Colour
import Verif.Spec.Models
import Verif.Model.GraphNets

/-!
# Specification of the graph baselines
-/

namespace Verif

variable {𝕜 R : Type}

/-- A graph: the edge index points to nodes, and there is a node. -/
structure GData.Ok (g : GData R) : Prop where
  edges : ∀ e ∈ g.edges, e.1 < g.x.length ∧ e.2 < g.x.length
  nodes : g.x ≠ []

/-- Nodes `c` of `g` and `e` of `h` have the same colour after `n` rounds of colour refinement (the
Weisfeiler-Lehman test for graphs): the same features at first, and then neighbours with the same colours, with
multiplicities. -/
def SameNode (g h : GData R) : Nat → Nat → Nat → Prop
  | 0, c, e => ∃ x, g.x[c]? = some x ∧ h.x[e]? = some x
  | n + 1, c, e => SameNode g h n c e ∧ Matched (fun p q => SameNode g h n p.1 q.1)
      (g.edges.filter fun p => p.2 == c) (h.edges.filter fun q => q.2 == e)

/-- The test does not tell the graphs apart in `n` rounds. -/
def SameNodes (g h : GData R) (n : Nat) : Prop :=
  Matched (SameNode g h n) (List.range g.x.length) (List.range h.x.length)

/-- An isomorphism of graphs with features: the columns of the edge index may come in another order. -/
structure GData.Iso (g h : GData R) (φ : Nat → Nat) : Prop where
  size : h.x.length = g.x.length
  inj : ∀ c e, c < g.x.length → e < g.x.length → φ c = φ e → c = e
  feat : ∀ c, c < g.x.length → h.x[φ c]? = g.x[c]?
  edges : h.edges.Perm (g.edges.map fun e => (φ e.1, φ e.2))

section
variable [Field 𝕜] [AddCommMonoid R] [Module 𝕜 R]

/-- The row of a node after each of the layers, node by node. -/
def ginRows (edges : List (Nat × Nat)) : (Nat → R) → List (GINLevel 𝕜 R) → List (Nat → R)
  | _, [] => []
  | row, l :: ls =>
    let new := fun c => l.nn (((edges.filter fun p => p.2 == c).map fun p => row p.1).sum + (1 + l.eps) • row c)
    new :: ginRows edges new ls

/-- The prediction for one graph. -/
def GINNet.predict (net : GINNet 𝕜 R) (g : GData R) : R :=
  let rows := ginRows g.edges (rowOf g.x) (net.conv1 :: net.convs)
  let final := fun c => match net.jump with
    | none => ((rows.getLast?).map fun r => r c).getD 0
    | some f => f (rows.map fun r => r c)
  net.lin2 (net.act (net.lin1 (poolOf 𝕜 net.readout ((List.range g.x.length).map final))))

end

end Verif
