import Verif.Spec.CellNet

/-!
# Specification of graphs that look the same everywhere
-/

namespace Verif

/-- The nodes joined to all nodes of `s`. -/
def commonNeighbours (edges : List (Nat × Nat)) (size : Nat) (s : Finset Nat) : Finset Nat :=
  (Finset.range size).filter fun v => ∀ u ∈ s, Joined edges u v

/-- Any `d + 1` nodes joined to each other have `c d` common neighbours, for `d < m`. -/
def CliqueRegular (edges : List (Nat × Nat)) (size m : Nat) (c : Nat → Nat) : Prop :=
  ∀ d < m, ∀ s ⊆ Finset.range size, s.card = d + 1 → (∀ u ∈ s, ∀ v ∈ s, u ≠ v → Joined edges u v) →
    (commonNeighbours edges size s).card = c d

/-- A strongly regular graph: every node has `k` neighbours, any two nodes have `l` common neighbours if they are
joined and `m` if they are not. -/
structure StronglyRegular (edges : List (Nat × Nat)) (size k l m : Nat) : Prop where
  degree : ∀ v < size, (commonNeighbours edges size {v}).card = k
  joined : ∀ u < size, ∀ v < size, Joined edges u v → (commonNeighbours edges size {u, v}).card = l
  apart : ∀ u < size, ∀ v < size, u ≠ v → ¬ Joined edges u v → (commonNeighbours edges size {u, v}).card = m

end Verif
