import Verif.Spec.Regular

/-!
# The parameters of the families of strongly regular graphs, and what counting says about their cliques
-/

namespace Verif

/-- The parameters of a family: nodes, neighbours of a node, common neighbours of two nodes that are joined and of two
that are not. -/
structure SRParams where
  nodes : Nat
  degree : Nat
  joined : Nat
  apart : Nat

/-- As it is written in the plot (exp/plot_sr_cwn_results.py:16-25). -/
def SRParams.name (p : SRParams) : String :=
  "SR(" ++ toString p.nodes ++ "," ++ toString p.degree ++ "," ++ toString p.joined ++ "," ++ toString p.apart ++ ")"

/-- The parameters of the nine families. -/
def srParams : List SRParams :=
  [⟨16, 6, 2, 2⟩, ⟨25, 12, 5, 6⟩, ⟨26, 10, 3, 4⟩, ⟨28, 12, 6, 4⟩, ⟨29, 14, 6, 7⟩, ⟨35, 16, 6, 8⟩, ⟨35, 18, 9, 9⟩,
   ⟨36, 14, 4, 6⟩, ⟨40, 12, 2, 4⟩]

/-- What counting the edges and the pairs of edges between a clique of `c` nodes and the other nodes allows: the mean of
the squares is at least the square of the mean. -/
def CliqueFits (p : SRParams) (c : Nat) : Prop :=
  (c : ℤ) * ((p.degree : ℤ) - c + 1) ^ 2 ≤ ((p.nodes : ℤ) - c) * (p.degree + (c - 1) * (p.joined - c + 1))

instance (p : SRParams) (c : Nat) : Decidable (CliqueFits p c) := by unfold CliqueFits; infer_instance

/-- Nodes that are joined to each other. -/
def CliqueIn (edges : List (Nat × Nat)) (size : Nat) (s : Finset Nat) : Prop :=
  s ⊆ Finset.range size ∧ ∀ u ∈ s, ∀ v ∈ s, u ≠ v → Joined edges u v

end Verif
